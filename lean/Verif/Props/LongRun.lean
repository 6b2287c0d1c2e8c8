import Verif.Props.Refine
import Verif.Lemmas.Schedule
/-! How long a device can run: the `int` counters of the stationarity detector (every arithmetic). -/
namespace Verif.Props
open Verif Verif.Spec
variable {α : Type} [Add α] [Sub α] [Mul α] [Neg α] [Div α] [Zero α] [One α] [Fl α]

/-- The largest `int` of the supported platforms. -/
def intMax : Int := 2 ^ 31 - 1
/-- Every `int` counter of the detector is representable (StaticDetect.h:19-20). -/
def countersFit (s : Smooth α) : Prop := s.upCnt ≤ intMax ∧ s.staticCnt ≤ intMax

theorem feed_counters (thr : α) (sw win : Int) (xs : List (Imu α)) :
    (feed thr sw win xs).upCnt = xs.length ∧ (feed thr sw win xs).staticCnt ≤ xs.length := by
  induction xs using List.reverseRecOn with
  | nil => exact ⟨rfl, le_refl _⟩
  | append_singleton xs x ih =>
    have e : feed thr sw win (xs ++ [x]) = (feed thr sw win xs).update x := by
      unfold feed; rw [List.foldl_append]; rfl
    rw [e]
    constructor
    · show (feed thr sw win xs).upCnt + 1 = _
      rw [ih.1]; simp
    · have h2 := ih.2
      have : ((feed thr sw win xs).update x).staticCnt = 0 ∨
          ((feed thr sw win xs).update x).staticCnt = (feed thr sw win xs).staticCnt + 1 := by
        have aux : ∀ (b : Bool) (k : Int), (if b then (0 : Int) else k) = 0 ∨ (if b then (0 : Int) else k) = k := by
          intro b k; cases b <;> simp
        exact aux _ _
      rw [List.length_append]
      push_cast
      rcases this with h | h <;> rw [h] <;> simp only [List.length_cons, List.length_nil] <;> omega

/-- C138, exactly when: through any history of calls of the filter the counters fit exactly as long as fewer than
2³¹ samples have been given; the next sample makes `up_cnt++` overflow, which C++ leaves undefined. -/
theorem C138_filter_counters (g : α) (junk : Fusion α) (nav : NavEpoch α) (o : Opt α) (cs : List (FCall α)) :
    countersFit (frun cs (fstart g junk nav o)).2.smooth ↔ (fimus cs).length < 2 ^ 31 := by
  have h := (hist g junk nav o cs).smooth
  rw [h]
  obtain ⟨h1, h2⟩ := feed_counters (zuptThr : α) 2 10 (fimus cs)
  unfold countersFit intMax
  rw [h1]
  omega

theorem fimus_filterCalls (cs : List (Call α)) : fimus (filterCalls cs) = imusOf cs := by
  induction cs with
  | nil => rfl
  | cons c cs ih =>
    rcases c with ⟨o, n, j⟩ | (_ | m) | (_ | m) | _ | _ | _ | _ | p | _
    all_goals simp [filterCalls, imusOf, fimus, ih]

theorem imusOf_fromFirst (cs : List (Call α)) : imusOf (fromFirstSample cs) = imusOf cs := by
  induction cs with
  | nil => rfl
  | cons c cs ih =>
    rcases c with ⟨o, n, j⟩ | (_ | m) | (_ | m) | _ | _ | _ | _ | p | _
    all_goals simp [fromFirstSample, imusOf, ih]

/-- C138 for a device started from given values: after any calls but initialisations its counters fit exactly as long
as fewer than 2³¹ samples have been given to it. -/
theorem C138_device_partial (junk : Junk α) (d0 d : Dev α) (o : Opt α) (n : NavOutput α) (hm : o.alignMode = 2)
    (h : rgioeInit junk d0 (some o) (some n) = some (0, d)) (cs : List (Call α)) (hc : ∀ c ∈ cs, c.isInit = false)
    (hs : imusOf cs ≠ []) (g : α) :
    countersFit (runCalls cs (g, d)).2.df.smooth ↔ (imusOf cs).length < 2 ^ 31 := by
  have k := (C126_given_start junk d0 d o n hm h cs hc hs g _ rfl).1
  have k2 : (runCalls cs (g, d)).2.df = (frun (filterCalls (fromFirstSample cs)) (fstart g junk.df (makeNavEpoch n o) o)).2 := by
    rw [← k]
  rw [k2, C138_filter_counters, fimus_filterCalls, imusOf_fromFirst]

/-- C138, the violation: some history overflows a counter. -/
theorem C138_overflow (junk : Junk α) (d0 d : Dev α) (o : Opt α) (n : NavOutput α) (hm : o.alignMode = 2)
    (h : rgioeInit junk d0 (some o) (some n) = some (0, d)) (m : Imu α) (g : α) :
    ¬ countersFit (runCalls (List.replicate (2 ^ 31) (.time (some m))) (g, d)).2.df.smooth := by
  have hl : ∀ k, imusOf (List.replicate k (Call.time (some m))) = List.replicate k m := by
    intro k
    induction k with
    | zero => rfl
    | succ k ih => simp [List.replicate_succ, imusOf, ih]
  generalize hN : 2 ^ 31 = N
  rw [C138_device_partial junk d0 d o n hm h _ (by
      intro c hc
      rw [(List.mem_replicate.1 hc).2]; rfl) (by
      rw [hl]
      intro he
      have := congrArg List.length he
      rw [List.length_replicate, List.length_nil] at this
      omega) g, hl, List.length_replicate]
  omega

/-- The hypotheses are met. -/
example : ∃ d : Dev α, rgioeInit Ex.zJunk Ex.zDev (some (Ex.opt 2)) (some zeroPva) = some (0, d) ∧ (Ex.opt 2 : Opt α).alignMode = 2 :=
  ⟨_, rfl, rfl⟩

/-- C138 while aligning: the detector of the alignment counts every sample it is given, and never starts again. -/
theorem C138_alignment_counter (a : Align α) (xs : List (Imu α)) :
    (xs.foldl Align.updateImu a).smooth.upCnt = a.smooth.upCnt + xs.length := by
  induction xs generalizing a with
  | nil => simp
  | cons x xs ih =>
    rw [List.foldl_cons, ih]
    have : (a.updateImu x).smooth.upCnt = a.smooth.upCnt + 1 := by
      unfold Align.updateImu
      dsimp only
      split_ifs <;> rfl
    rw [this]
    simp only [List.length_cons]
    push_cast
    omega
end Verif.Props
