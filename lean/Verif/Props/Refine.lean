import Verif.Spec.Fusion
import Verif.Lemmas.Api
import Verif.Spec.Examples
import Mathlib.Tactic.SplitIfs
/-! C126: while navigating, the C interface is the filter and nothing else. -/
namespace Verif.Props
open Verif Verif.Spec
variable {α : Type} [Add α] [Sub α] [Mul α] [Neg α] [Div α] [Zero α] [One α] [Fl α]

/-- The filter calls a history of the C interface stands for while navigating: samples and fixes that are
there; queries, absent arguments and de-initialisation stand for nothing. -/
def filterCalls : List (Call α) → List (FCall α)
  | [] => []
  | .time (some m) :: cs => .time m :: filterCalls cs
  | .gnss (some m) :: cs => .gnss m :: filterCalls cs
  | _ :: cs => filterCalls cs

/-- A history from its first sample on. -/
def fromFirstSample : List (Call α) → List (Call α)
  | [] => []
  | .time (some m) :: cs => .time (some m) :: cs
  | _ :: cs => fromFirstSample cs

/-- What the queries must report of a filter. -/
structure Reports (d : Dev α) (f : Fusion α) : Prop where
  status : rgioeGetStatus d = 3
  result : ∀ p, rgioeGetResult d p = (0, f.output)
  atti : rgioeGetAtti d = (fun i => Fl.f32 (f.output.atti i), fun i => Fl.f32 (f.output.attiStd i))
  pos : (rgioeGetPos d).1 = v3 f.output.lat f.output.lon f.output.height
  vel : rgioeGetVel d = (fun i => Fl.f32 (f.output.vn i), fun i => Fl.f32 (f.output.vnStd i))

theorem reports_nav (d : Dev α) (h : d.status = ST_NAVIGATION) : Reports d d.df := by
  refine ⟨h, fun p => ?_, rfl, rfl, rfl⟩
  unfold rgioeGetResult
  dsimp only
  rw [if_pos h]
  rfl

theorem time_nav (g : α) (d : Dev α) (m : Imu α) (h : d.status = ST_NAVIGATION) :
    rgioeTimeupdate g d (some m) = (E_OK, (d.df.timeUpdate g m).1, { d with df := (d.df.timeUpdate g m).2 }) := by
  unfold rgioeTimeupdate
  dsimp only
  rw [if_neg (by rw [h]; decide), if_neg (by rw [h]; decide), if_neg (by rw [h]; decide), if_pos h]
theorem gnss_nav (g : α) (d : Dev α) (m : Gnss α) (h : d.status = ST_NAVIGATION) :
    rgioeGnssupdate g d (some m) = (E_OK, g, { d with df := d.df.measureGnss m }) := by
  unfold rgioeGnssupdate
  dsimp only
  rw [if_neg (by rw [h]; decide), if_neg (by rw [h]; decide), if_pos h]

/-- C126: from any state in which the instance navigates, every history without a new initialisation does to
gravity and filter exactly what the filter's own calls do, and every query reports exactly that filter. -/
theorem C126_navigating_is_the_filter (cs : List (Call α)) (hc : ∀ c ∈ cs, c.isInit = false) (g : α) (d : Dev α)
    (h : rgioeGetStatus d = 3) :
    ((runCalls cs (g, d)).1, (runCalls cs (g, d)).2.df) = frun (filterCalls cs) (g, d.df) ∧
    Reports (runCalls cs (g, d)).2 (frun (filterCalls cs) (g, d.df)).2 := by
  have key : ((runCalls cs (g, d)).1, (runCalls cs (g, d)).2.df) = frun (filterCalls cs) (g, d.df) ∧
      (runCalls cs (g, d)).2.status = ST_NAVIGATION := by
    have h : d.status = ST_NAVIGATION := h
    induction cs generalizing g d with
    | nil => exact ⟨rfl, h⟩
    | cons c cs ih =>
      have hcs : ∀ c ∈ cs, c.isInit = false := fun c h' => hc c (List.mem_cons_of_mem _ h')
      rcases c with ⟨o, n, j⟩ | (_ | m) | (_ | m) | _ | _ | _ | _ | p | _
      · have := hc _ List.mem_cons_self
        simp [Call.isInit] at this
      · exact ih hcs g d h h
      · have e : (Call.exec (.time (some m)) (g, d)).1 = ((d.df.timeUpdate g m).1, { d with df := (d.df.timeUpdate g m).2 }) := by
          show (rgioeTimeupdate g d (some m)).2 = _
          rw [time_nav g d m h]
        simp only [runCalls, e]
        exact ih hcs _ _ h h
      · exact ih hcs g d h h
      · have e : (Call.exec (.gnss (some m)) (g, d)).1 = (g, { d with df := d.df.measureGnss m }) := by
          show (rgioeGnssupdate g d (some m)).2 = _
          rw [gnss_nav g d m h]
        simp only [runCalls, e]
        exact ih hcs _ _ h h
      all_goals exact ih hcs g d h h
  refine ⟨key.1, ?_⟩
  have := reports_nav _ key.2
  rw [← key.1]
  exact this

/-- C126: started from given values, the instance is the filter initialised with these values, from the first
sample on; until then nothing reaches the filter. -/
theorem C126_given_start (junk : Junk α) (d0 d : Dev α) (o : Opt α) (n : NavOutput α) (hm : o.alignMode = 2)
    (h : rgioeInit junk d0 (some o) (some n) = some (0, d)) (cs : List (Call α)) (hc : ∀ c ∈ cs, c.isInit = false)
    (hs : imusOf cs ≠ []) (g : α) (s : α × Fusion α)
    (hS : s = frun (filterCalls (fromFirstSample cs)) (fstart g junk.df (makeNavEpoch n o) o)) :
    ((runCalls cs (g, d)).1, (runCalls cs (g, d)).2.df) = s ∧ Reports (runCalls cs (g, d)).2 s.2 := by
  have hd : d.status = ST_INIT ∧ d.opt = o ∧ d.curPva = n ∧ d.df = Fusion.new junk.df := by
    unfold rgioeInit at h
    dsimp only at h
    rw [if_neg (by simp)] at h
    simp only [Option.some.injEq, Prod.mk.injEq] at h
    rw [← h.2]
    exact ⟨rfl, rfl, rfl, rfl⟩
  clear h
  rw [hS]
  clear hS
  induction cs with
  | nil => exact absurd rfl hs
  | cons c cs ih =>
    have hcs : ∀ c ∈ cs, c.isInit = false := fun c h' => hc c (List.mem_cons_of_mem _ h')
    obtain ⟨d1, d2, d3, d4⟩ := hd
    rcases c with ⟨o, n, j⟩ | (_ | m) | (_ | m) | _ | _ | _ | _ | p | _
    · have := hc _ List.mem_cons_self
      simp [Call.isInit] at this
    · exact ih hcs hs
    · clear ih
      obtain ⟨s1, h1⟩ : ∃ s1, s1 = fstart g junk.df (makeNavEpoch n o) o := ⟨_, rfl⟩
      have e : (Call.exec (.time (some m)) (g, d)).1 = ((s1.2.timeUpdate s1.1 m).1,
          { d with df := (s1.2.timeUpdate s1.1 m).2, status := ST_NAVIGATION }) := by
        show (rgioeTimeupdate g d (some m)).2 = _
        unfold rgioeTimeupdate
        dsimp only
        rw [if_pos d1, if_pos (show d.opt.alignMode = ALIGN_USE_GIVEN by rw [d2]; exact hm), d4, d3, d2, h1]
        rfl
      have k := C126_navigating_is_the_filter cs hcs (s1.2.timeUpdate s1.1 m).1
        { d with df := (s1.2.timeUpdate s1.1 m).2, status := ST_NAVIGATION } rfl
      rw [← h1]
      simp only [runCalls, e]
      exact k
    · exact ih hcs hs
    · have e : (Call.exec (.gnss (some m)) (g, d)).1 = (g, d) := by
        show (rgioeGnssupdate g d (some m)).2 = _
        unfold rgioeGnssupdate
        dsimp only
        rw [if_pos d1]
      simp only [runCalls, e]
      exact ih hcs hs
    all_goals exact ih hcs hs

/-- C126: when an alignment ends in a time update, the filter starts from the aligned state at that moment;
the sample itself is not integrated. -/
theorem C126_aligned_start (g : α) (d : Dev α) (m : Imu α) (h2 : rgioeGetStatus d = 2)
    (h3 : rgioeGetStatus (rgioeTimeupdate g d (some m)).2.2 = 3) (cs : List (Call α)) (hc : ∀ c ∈ cs, c.isInit = false) :
    ∃ a : Align α, a = d.am.updateImu m ∧
    ((runCalls (.time (some m) :: cs) (g, d)).1, (runCalls (.time (some m) :: cs) (g, d)).2.df) =
      frun (filterCalls cs) (d.df.initFusion g a.nav d.opt) ∧
    Reports (runCalls (.time (some m) :: cs) (g, d)).2 (frun (filterCalls cs) (d.df.initFusion g a.nav d.opt)).2 := by
  refine ⟨_, rfl, ?_⟩
  have h2 : d.status = ST_ATTITUDE := h2
  have e : (rgioeTimeupdate g d (some m)).2 = ((d.df.initFusion g (d.am.updateImu m).nav d.opt).1,
      { d with am := d.am.updateImu m, df := (d.df.initFusion g (d.am.updateImu m).nav d.opt).2, status := ST_NAVIGATION }) := by
    unfold rgioeTimeupdate at h3 ⊢
    dsimp only at h3 ⊢
    rw [if_neg (by rw [h2]; decide), if_neg (by rw [h2]; decide), if_pos h2] at h3 ⊢
    split_ifs at h3 ⊢ with hf
    · rfl
    · exact absurd (show d.status = 3 from h3) (by rw [h2]; decide)
  have e' : (Call.exec (.time (some m)) (g, d)).1 = ((d.df.initFusion g (d.am.updateImu m).nav d.opt).1,
      { d with am := d.am.updateImu m, df := (d.df.initFusion g (d.am.updateImu m).nav d.opt).2, status := ST_NAVIGATION }) := e
  simp only [runCalls, e']
  exact C126_navigating_is_the_filter cs hc _ _ rfl

/-- The hypotheses are met: a start from given values, a fix that is too early, a sample, a fix. -/
example (m : Imu α) (x : Gnss α) : ∃ d : Dev α, rgioeInit Ex.zJunk Ex.zDev (some (Ex.opt 2)) (some zeroPva) = some (0, d) ∧
    imusOf [Call.gnss (some x), .time (some m), .getStatus, .gnss (some x)] ≠ [] ∧
    filterCalls (fromFirstSample [Call.gnss (some x), .time (some m), .getStatus, .gnss (some x)]) = [.time m, .gnss x] :=
  ⟨_, rfl, by simp [imusOf], rfl⟩
end Verif.Props
