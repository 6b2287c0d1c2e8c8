import Verif.Model.Api
import Mathlib.Tactic.SplitIfs
/-! Auxiliary facts about the API model; valid for every scalar type. -/
namespace Verif
variable {α : Type} [Add α] [Sub α] [Mul α] [Neg α] [Div α] [Zero α] [One α] [Fl α]

theorem runCalls_append (a b : List (Call α)) (s : α × Dev α) :
    runCalls (a ++ b) s = runCalls b (runCalls a s) := by
  induction a generalizing s with
  | nil => rfl
  | cons c cs ih => exact ih _

/-- What a time update does, by status. -/
theorem time_status (g : α) (d : Dev α) (m : Imu α) :
    (rgioeTimeupdate g d (some m)).2.2.status =
      if d.status = ST_INIT then (if d.opt.alignMode = ALIGN_USE_GIVEN then ST_NAVIGATION else ST_ALIGN)
      else if d.status = ST_ALIGN then (if (d.am.updateImu m).level then ST_ATTITUDE else ST_ALIGN)
      else if d.status = ST_ATTITUDE then
        (if (d.am.updateImu m).alignFinished then ST_NAVIGATION else ST_ATTITUDE)
      else d.status := by
  unfold rgioeTimeupdate
  simp only [Align.levelFinished]
  split_ifs <;> simp_all

theorem gnss_status (g : α) (d : Dev α) (m : Option (Gnss α)) :
    (rgioeGnssupdate g d m).2.2.status = d.status := by
  unfold rgioeGnssupdate
  split
  · rfl
  · split_ifs <;> rfl

theorem gnss_opt (g : α) (d : Dev α) (m : Option (Gnss α)) :
    (rgioeGnssupdate g d m).2.2.opt = d.opt := by
  unfold rgioeGnssupdate
  split
  · rfl
  · split_ifs <;> rfl

theorem time_opt (g : α) (d : Dev α) (m : Option (Imu α)) :
    (rgioeTimeupdate g d m).2.2.opt = d.opt := by
  unfold rgioeTimeupdate
  split
  · rfl
  · dsimp only
    split_ifs <;> rfl

theorem exec_opt (c : Call α) (hc : c.isInit = false) (s : α × Dev α) : (c.exec s).1.2.opt = s.2.opt := by
  cases c <;> try first | rfl | simp [Call.isInit] at hc
  · exact time_opt _ _ _
  · exact gnss_opt _ _ _

/-- The four life-cycle statuses. -/
def okStatus (z : Int) : Prop := z = ST_INIT ∨ z = ST_ALIGN ∨ z = ST_ATTITUDE ∨ z = ST_NAVIGATION

theorem exec_status (c : Call α) (hc : c.isInit = false) (s : α × Dev α) (h : okStatus s.2.status) :
    okStatus (c.exec s).1.2.status ∧ s.2.status ≤ (c.exec s).1.2.status := by
  cases c <;> try first | exact ⟨h, le_refl _⟩ | simp [Call.isInit] at hc
  · rename_i i
    cases i with
    | none => exact ⟨h, le_refl _⟩
    | some m =>
      simp only [Call.exec, time_status]
      unfold okStatus ST_INIT ST_ALIGN ST_ATTITUDE ST_NAVIGATION at *
      split_ifs <;> omega
  · simp only [Call.exec, gnss_status]
    exact ⟨h, le_refl _⟩

theorem runCalls_status (cs : List (Call α)) (hc : ∀ c ∈ cs, c.isInit = false) (s : α × Dev α)
    (h : okStatus s.2.status) :
    okStatus (runCalls cs s).2.status ∧ s.2.status ≤ (runCalls cs s).2.status := by
  induction cs generalizing s with
  | nil => exact ⟨h, le_refl _⟩
  | cons c cs ih =>
    have h1 := exec_status c (hc c (by simp)) s h
    have h2 := ih (fun c' hc' => hc c' (by simp [hc'])) _ h1.1
    exact ⟨h2.1, le_trans h1.2 h2.2⟩

theorem init_ok {junk : Junk α} {d0 d : Dev α} {o : Opt α} {nav : Option (NavOutput α)}
    (h : rgioeInit junk d0 (some o) nav = some (E_OK, d)) :
    d = { df := Fusion.new junk.df, am := Align.new junk.am o, status := ST_INIT, opt := o
          curPva := nav.getD d0.curPva } ∧ ¬(o.alignMode = ALIGN_USE_GIVEN ∧ nav = none) := by
  unfold rgioeInit at h
  simp only at h
  split_ifs at h with h1
  · simp [E_OK, E_FAULT_CONFIG] at h
  · cases nav with
    | none =>
      simp at h
      refine ⟨?_, by simpa using h1⟩
      rw [← h]; rfl
    | some n =>
      simp at h
      refine ⟨?_, by simp⟩
      rw [← h]; rfl

theorem fusion_timeUpdate_g (g g' : α) (f : Fusion α) (m : Imu α) :
    f.timeUpdate g m = f.timeUpdate g' m := rfl

theorem fusion_init_g (g g' : α) (f : Fusion α) (n : NavEpoch α) (o : Opt α) :
    f.initFusion g n o = f.initFusion g' n o := rfl

theorem align_gnss_g (g g' : α) (a : Align α) (m : Gnss α) :
    (a.updateGnss g m).2 = (a.updateGnss g' m).2 := by
  unfold Align.updateGnss; split_ifs <;> rfl

/-- Neither the answer nor the device after a call depends on the shared gravity. -/
theorem exec_g (c : Call α) (g g' : α) (d : Dev α) :
    (c.exec (g, d)).2 = (c.exec (g', d)).2 ∧ (c.exec (g, d)).1.2 = (c.exec (g', d)).1.2 := by
  cases c <;> try exact ⟨rfl, rfl⟩
  · simp only [Call.exec]
    split <;> exact ⟨rfl, rfl⟩
  · rename_i i
    cases i with
    | none => exact ⟨rfl, rfl⟩
    | some m =>
      simp only [Call.exec, rgioeTimeupdate]
      split_ifs <;> exact ⟨rfl, rfl⟩
  · rename_i i
    cases i with
    | none => exact ⟨rfl, rfl⟩
    | some m =>
      simp only [Call.exec, rgioeGnssupdate]
      split_ifs
      · exact ⟨rfl, rfl⟩
      · exact ⟨rfl, by simp only [align_gnss_g g g']⟩
      · exact ⟨rfl, rfl⟩
      · exact ⟨rfl, rfl⟩

theorem traceCalls_g (cs : List (Call α)) (g g' : α) (d : Dev α) :
    traceCalls cs (g, d) = traceCalls cs (g', d) := by
  induction cs generalizing g g' d with
  | nil => rfl
  | cons c cs ih =>
    have h := exec_g c g g' d
    simp only [traceCalls]
    rw [h.1]
    congr 1
    have e1 : (c.exec (g, d)).1 = ((c.exec (g, d)).1.1, (c.exec (g, d)).1.2) := rfl
    have e2 : (c.exec (g', d)).1 = ((c.exec (g', d)).1.1, (c.exec (g', d)).1.2) := rfl
    rw [e1, e2, h.2]
    exact ih _ _ _

/-- Outside USE_GIVEN the stored initial state is never read by a time update. -/
theorem time_curPva (g : α) (d : Dev α) (q : NavOutput α) (m : Imu α) (hm : d.opt.alignMode ≠ ALIGN_USE_GIVEN) :
    rgioeTimeupdate g { d with curPva := q } (some m) =
      ((rgioeTimeupdate g d (some m)).1, (rgioeTimeupdate g d (some m)).2.1,
        { (rgioeTimeupdate g d (some m)).2.2 with curPva := q }) := by
  unfold rgioeTimeupdate
  dsimp only
  split_ifs <;> rfl

theorem gnss_curPva (g : α) (d : Dev α) (q : NavOutput α) (m : Gnss α) :
    rgioeGnssupdate g { d with curPva := q } (some m) =
      ((rgioeGnssupdate g d (some m)).1, (rgioeGnssupdate g d (some m)).2.1,
        { (rgioeGnssupdate g d (some m)).2.2 with curPva := q }) := by
  unfold rgioeGnssupdate
  dsimp only
  split_ifs <;> rfl

theorem exec_query (c : Call α) (h : c.isQuery = true) (s : α × Dev α) : (c.exec s).1 = s := by
  cases c <;> first | rfl | simp [Call.isQuery] at h

end Verif
