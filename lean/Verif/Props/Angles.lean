import Verif.Model.Api
import Verif.Spec.Fusion
import Verif.Spec.Examples
import Verif.Props.Lock
import Mathlib.Tactic.SplitIfs
/-! The angles reported by the filter are never read back by it. For every arithmetic. -/
namespace Verif.Props
open Verif Verif.Spec
variable {α : Type} [Add α] [Sub α] [Mul α] [Neg α] [Div α] [Zero α] [One α] [Fl α]

/-- The same device, in navigation or not, whose filter reports other angles. -/
def withAngles (d : Dev α) (a : V3 α) : Dev α :=
  { d with df := { d.df with ins := { d.df.ins with nav := { d.df.ins.nav with atti := a } } } }

/-- The same filter with other reported angles. -/
def angF (f : Fusion α) (a : V3 α) : Fusion α := { f with ins := { f.ins with nav := { f.ins.nav with atti := a } } }
/-- The same mechanisation with other reported angles. -/
def angI (s : Ins α) (a : V3 α) : Ins α := { s with nav := { s.nav with atti := a } }

theorem ang_forward (g : α) (s : Ins α) (a : V3 α) (m : Imu α) : (angI s a).forwardImu g m = s.forwardImu g m := by
  have h1 : (angI s a).extrapolate = (s.extrapolate.1, angI s.extrapolate.2 a) := rfl
  have h2 : ∀ (g : α) (s : Ins α) x y, (angI s a).velocityUpdate g x y = angI (s.velocityUpdate g x y) a := fun _ _ _ _ => rfl
  have h3 : ∀ (s : Ins α), (angI s a).positionUpdate = angI s.positionUpdate a := fun _ => rfl
  have h4 : ∀ (s : Ins α) y, (angI s a).attiUpdate y = s.attiUpdate y := fun _ _ => rfl
  have h5 : ∀ x y, (angI s a).forward g x y = s.forward g x y := by
    intro x y
    unfold Ins.forward
    rw [h1]
    dsimp only
    rw [h2, h3, h4]
  unfold Ins.forwardImu
  dsimp only
  rw [h5]
  rfl

theorem ang_take (f : Fusion α) (a : V3 α) : (angF f a).takeCorrection = angF f.takeCorrection a := by
  unfold Fusion.takeCorrection
  show (if 0 < f.updateFlag.toNat then _ else _) = _
  split_ifs <;> rfl

theorem ang_apply (f : Fusion α) (a : V3 α) : ∃ b, (angF f a).applyCorrection = angF f.applyCorrection b := by
  unfold Fusion.applyCorrection
  show ∃ b, (if 0 < f.updateIter then _ else _) = angF (if 0 < f.updateIter then _ else _) b
  split_ifs
  · exact ⟨_, rfl⟩
  · exact ⟨a, rfl⟩

theorem ang_propagate (g : α) (f : Fusion α) (a : V3 α) (m : Imu α) : (angF f a).propagate g m = f.propagate g m := by
  unfold Fusion.propagate
  dsimp only
  rw [show (angF f a).ins = angI f.ins a from rfl, ang_forward]
  rfl

theorem ang_time (g : α) (f : Fusion α) (a : V3 α) (m : Imu α) : (angF f a).timeUpdate g m = f.timeUpdate g m := by
  unfold Fusion.timeUpdate
  dsimp only
  rw [ang_take]
  obtain ⟨b, hb⟩ := ang_apply f.takeCorrection a
  rw [hb, ang_propagate]

theorem ang_gnss (f : Fusion α) (a : V3 α) (m : Gnss α) : (angF f a).measureGnss m = angF (f.measureGnss m) a := by
  unfold Fusion.measureGnss
  split_ifs <;> rfl

theorem ang_vel (f : Fusion α) (a : V3 α) (v : V3 α) : (angF f a).measureVel v = angF (f.measureVel v) a := by
  have hk : ∀ f : Fusion α, (angF f a).opt = f.opt := fun _ => rfl
  have hs : (angF f a).setSensor SENSOR_ODO = angF (f.setSensor SENSOR_ODO) a := rfl
  unfold Fusion.measureVel
  dsimp only
  rw [hs, hk]
  by_cases h : (f.setSensor SENSOR_ODO).opt.nhcEnable ≠ 0
  · rw [if_pos h, if_pos h]; rfl
  · rw [if_neg h, if_neg h]; rfl

theorem ang_height (f : Fusion α) (a : V3 α) (h : α) :
    (angF f a).measureRelativeHeight h = angF (f.measureRelativeHeight h) a := by
  have e1 : (if (angF f a).baseHeightIsSet = 1 then
        ({ angF f a with pHeight := h } : Fusion α).clearSensor SENSOR_HEIGHT else angF f a) =
      angF (if f.baseHeightIsSet = 1 then ({ f with pHeight := h } : Fusion α).clearSensor SENSOR_HEIGHT else f) a := by
    show (if f.baseHeightIsSet = 1 then _ else _) = _
    split_ifs <;> rfl
  unfold Fusion.measureRelativeHeight
  dsimp only
  rw [e1]
  generalize (if f.baseHeightIsSet = 1 then ({ f with pHeight := h } : Fusion α).clearSensor SENSOR_HEIGHT else f) = f1
  show ({ (if 4 < f1.baseHeightIsSet then _ else _ : Fusion α) with baseHeightIsSet := _ } : Fusion α) = _
  by_cases k : 4 < f1.baseHeightIsSet
  · rw [if_pos k, if_pos k, if_pos (show 4 < (angF f1 a).baseHeightIsSet from k)]; rfl
  · rw [if_neg k, if_neg k, if_neg (show ¬ 4 < (angF f1 a).baseHeightIsSet from k)]; rfl

/-- C150, for the filter: after any history two filters that differed in their reported angles differ at most in
these, and not at all once a sample was processed. -/
theorem C150_filter (cs : List (FCall α)) : ∀ (g : α) (f : Fusion α) (a : V3 α),
    (∃ b, frun cs (g, angF f a) = ((frun cs (g, f)).1, angF (frun cs (g, f)).2 b)) ∧
    (fimus cs ≠ [] → frun cs (g, angF f a) = frun cs (g, f)) := by
  induction cs with
  | nil => exact fun g f a => ⟨⟨a, rfl⟩, fun h => absurd rfl h⟩
  | cons c cs ih =>
    intro g f a
    have hc : ∀ s, frun (c :: cs) s = frun cs (c.exec s) := fun _ => rfl
    cases c with
    | time m =>
      have e : (FCall.time m).exec (g, angF f a) = (FCall.time m).exec (g, f) := ang_time g f a m
      rw [hc, hc, e]
      exact ⟨⟨_, rfl⟩, fun _ => rfl⟩
    | gnss m =>
      have e : (FCall.gnss m).exec (g, angF f a) = (g, angF (f.measureGnss m) a) := congrArg (Prod.mk g) (ang_gnss f a m)
      simp only [hc, e]
      exact ih g (f.measureGnss m) a
    | pos p R => exact ih g (f.measurePos p R) a
    | vel v =>
      have e : (FCall.vel v).exec (g, angF f a) = (g, angF (f.measureVel v) a) := congrArg (Prod.mk g) (ang_vel f a v)
      simp only [hc, e]
      exact ih g (f.measureVel v) a
    | speed v =>
      have e : (FCall.speed v).exec (g, angF f a) = (g, angF (f.measureForwardVel v) a) :=
        congrArg (Prod.mk g) (ang_vel f a _)
      simp only [hc, e]
      exact ih g (f.measureForwardVel v) a
    | height v =>
      have e : (FCall.height v).exec (g, angF f a) = (g, angF (f.measureRelativeHeight v) a) :=
        congrArg (Prod.mk g) (ang_height f a v)
      simp only [hc, e]
      exact ih g (f.measureRelativeHeight v) a

/-- An answer without the angles it may contain. -/
def noAngles : Answer α → Answer α
  | .pva e p => .pva e { p with atti := zero3 }
  | a => a

/-- The same call answers the same, angles apart, and leaves devices that differ at most in their angles. -/
theorem angles_call (c : Call α) (hc : c.isInit = false) (g : α) (d : Dev α) (a : V3 α) (hd : d.status = ST_NAVIGATION) :
    ((c.exec (g, d)).1.2.status = ST_NAVIGATION) ∧
    (∃ b, (c.exec (g, withAngles d a)).1 = ((c.exec (g, d)).1.1, withAngles (c.exec (g, d)).1.2 b)) ∧
    ((∀ m, c ≠ .getAtti ∧ c ≠ .time (some m)) →
      noAngles (c.exec (g, withAngles d a)).2 = noAngles (c.exec (g, d)).2) ∧
    (∀ m, c = .time (some m) → c.exec (g, withAngles d a) = c.exec (g, d)) := by
  have s1 : d.status ≠ ST_INIT := by rw [hd]; decide
  have s2 : d.status ≠ ST_ALIGN := by rw [hd]; decide
  have s3 : d.status ≠ ST_ATTITUDE := by rw [hd]; decide
  have sa : (withAngles d a).status = d.status := rfl
  have da : (withAngles d a).df = angF d.df a := rfl
  cases c with
  | init o n j => simp [Call.isInit] at hc
  | time m =>
    cases m with
    | none => exact ⟨hd, ⟨a, rfl⟩, fun _ => rfl, fun m h => by simp at h⟩
    | some m =>
      have e : rgioeTimeupdate g (withAngles d a) (some m) = rgioeTimeupdate g d (some m) := by
        unfold rgioeTimeupdate
        simp only [sa, if_neg s1, if_neg s2, if_neg s3, if_pos hd, da, ang_time]
        rfl
      have e2 : (Call.time (some m)).exec (g, withAngles d a) = (Call.time (some m)).exec (g, d) := by
        unfold Call.exec
        dsimp only
        rw [e]
      refine ⟨?_, ⟨_, by rw [e2]; rfl⟩, fun h => absurd rfl (h m).2, fun x _ => e2⟩
      show (rgioeTimeupdate g d (some m)).2.2.status = _
      unfold rgioeTimeupdate
      simp only [if_neg s1, if_neg s2, if_neg s3, if_pos hd]
      exact hd
  | gnss m =>
    cases m with
    | none => exact ⟨hd, ⟨a, rfl⟩, fun _ => rfl, fun m h => by simp at h⟩
    | some m =>
      have e : ∀ d : Dev α, d.status = ST_NAVIGATION →
          rgioeGnssupdate g d (some m) = (E_OK, g, { d with df := d.df.measureGnss m }) := by
        intro d hd
        have s1 : d.status ≠ ST_INIT := by rw [hd]; decide
        have s2 : d.status ≠ ST_ALIGN := by rw [hd]; decide
        have s3 : d.status ≠ ST_ATTITUDE := by rw [hd]; decide
        unfold rgioeGnssupdate
        simp only [if_neg s1, if_neg (not_or.2 ⟨s2, s3⟩), if_pos hd]
      have e1 := e d hd
      have e2 := e (withAngles d a) (sa.trans hd)
      rw [da, ang_gnss] at e2
      unfold Call.exec
      dsimp only
      rw [e1, e2]
      exact ⟨hd, ⟨a, rfl⟩, fun _ => rfl, fun m h => by simp at h⟩
  | getAtti => exact ⟨hd, ⟨a, rfl⟩, fun h => absurd rfl (h ⟨0, zero3, zero3⟩).1, fun m h => by simp at h⟩
  | getPos =>
    refine ⟨hd, ⟨a, rfl⟩, fun _ => ?_, fun m h => by simp at h⟩
    rfl
  | getVel => exact ⟨hd, ⟨a, rfl⟩, fun _ => rfl, fun m h => by simp at h⟩
  | getStatus => exact ⟨hd, ⟨a, rfl⟩, fun _ => rfl, fun m h => by simp at h⟩
  | getResult p =>
    refine ⟨hd, ⟨a, rfl⟩, fun _ => ?_, fun m h => by simp at h⟩
    show noAngles (.pva _ _) = noAngles (.pva _ _)
    unfold rgioeGetResult
    simp only [sa, if_neg s2, if_neg s3, if_pos hd]
    rfl
  | deinit => exact ⟨hd, ⟨a, rfl⟩, fun _ => rfl, fun m h => by simp at h⟩

/-- C150: if the filter of a navigating device reports other angles (for instance a roll that is not a number, at
gimbal lock), the state after any history of calls without a new initialisation differs at most in the reported
angles; every answer of these calls (`rgioe_get_atti` aside) is the same but for the angles in it; and once a sample
was processed nothing differs at all. -/
theorem C150_angles_output_only (cs : List (Call α)) : ∀ (g : α) (d : Dev α) (a : V3 α),
    d.status = ST_NAVIGATION → (∀ c ∈ cs, c.isInit = false) →
    (∃ b, runCalls cs (g, withAngles d a) = ((runCalls cs (g, d)).1, withAngles (runCalls cs (g, d)).2 b)) ∧
    ((∀ c ∈ cs, c ≠ .getAtti) →
      (traceCalls cs (g, withAngles d a)).map noAngles = (traceCalls cs (g, d)).map noAngles) ∧
    ((∃ m, Call.time (some m) ∈ cs) → runCalls cs (g, withAngles d a) = runCalls cs (g, d)) := by
  induction cs with
  | nil => exact fun g d a _ _ => ⟨⟨a, rfl⟩, fun _ => rfl, fun ⟨m, h⟩ => by simp at h⟩
  | cons c cs ih =>
    intro g d a hd hi
    obtain ⟨k1, ⟨b, k2⟩, k3, k4⟩ := angles_call c (hi c List.mem_cons_self) g d a hd
    have hi' := fun x hx => hi x (List.mem_cons_of_mem _ hx)
    have r : ∀ s, runCalls (c :: cs) s = runCalls cs (c.exec s).1 := fun _ => rfl
    have t : ∀ s, traceCalls (c :: cs) s = (c.exec s).2 :: traceCalls cs (c.exec s).1 := fun _ => rfl
    obtain ⟨i1, i2, i3⟩ := ih (c.exec (g, d)).1.1 (c.exec (g, d)).1.2 b k1 hi'
    have p : ((c.exec (g, d)).1.1, (c.exec (g, d)).1.2) = (c.exec (g, d)).1 := rfl
    by_cases hm : ∃ m, c = .time (some m)
    · obtain ⟨m, hm⟩ := hm
      have e := k4 m hm
      rw [r, r, t, t, e]
      exact ⟨⟨_, rfl⟩, fun _ => rfl, fun _ => rfl⟩
    · rw [r, r, t, t, k2]
      refine ⟨i1, fun hg => ?_, fun ⟨m, h⟩ => ?_⟩
      · have hc : c ≠ .getAtti := hg c List.mem_cons_self
        rw [List.map_cons, List.map_cons, i2 fun x hx => hg x (List.mem_cons_of_mem _ hx),
          k3 fun m => ⟨hc, fun k => hm ⟨m, k⟩⟩, p]
      · rcases List.mem_cons.1 h with h | h
        · exact absurd ⟨m, h.symm⟩ hm
        · rw [i3 ⟨m, h⟩]

/-- The hypotheses are met by a navigating device whose roll becomes 5. -/
example : ∃ d : Dev ℝ, d.status = ST_NAVIGATION ∧ withAngles d (v3 5 0 0) ≠ d ∧
    ∀ c ∈ [Call.gnss (some (Ex.fix 4)), Call.time (some Ex.zImu), Call.getResult (zeroPva : NavOutput ℝ)], c.isInit = false := by
  refine ⟨{ (Ex.zDev : Dev ℝ) with status := ST_NAVIGATION }, rfl, fun h => ?_, by simp [Call.isInit]⟩
  have := congrFun (congrArg (fun d : Dev ℝ => d.df.ins.nav.atti) h) 0
  simp [withAngles, Ex.zDev, v3, Ex.zFusion, Ex.zIns, Ex.zNav, zero3] at this
end Verif.Props
