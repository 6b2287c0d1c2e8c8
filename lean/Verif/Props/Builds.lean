import Verif.Model.FusionExt
import Verif.Props.Monitor
import Verif.Lemmas.Real
import Mathlib.Data.Fintype.Prod
import Mathlib.Tactic.FinCases
import Mathlib.Tactic.DeriveFintype
/-! C97, C98: the builds with optional states. Model: `Verif.Model.FusionExt`. -/
namespace Verif.Props
open Verif.Spec
section
variable {α : Type} [Add α] [Sub α] [Mul α] [Neg α] [Div α] [Zero α] [One α] [Fl α]

/-- The optional blocks of a build: first state and number of states of each enabled one. -/
def optionalBlocks (c : Cfg) : List (Nat × Nat) :=
  (if c.gs then [(c.gsStart, 3)] else []) ++ (if c.as then [(c.asStart, 3)] else []) ++
  (if c.lever then [(c.leverStart, 3)] else []) ++ (if c.odo then [(c.odoStart, 1)] else [])
/-- How many blocks claim a state. -/
def claimants (c : Cfg) (k : Nat) : Nat := ((optionalBlocks c).filter fun b => decide (b.1 ≤ k ∧ k < b.1 + b.2)).length

/-- C97: which builds give every optional state its own place. (In the other ones two optional quantities share
states and as many others are never used.) -/
theorem C97_layout (c : Cfg) :
    (∀ k < c.dim, 15 ≤ k → claimants c k = 1) ↔
      (c.lever = true → c.as = true ∨ c.gs = false) ∧ (c.odo = true → c.lever = true ∨ (c.as = false ∧ c.gs = false)) := by
  revert c; decide
/-- C97: every block lies within the state vector, behind the fifteen fixed states, in every build. -/
theorem C97_within (c : Cfg) : ∀ b ∈ optionalBlocks c, 15 ≤ b.1 ∧ b.1 + b.2 ≤ c.dim := by
  revert c; decide
/-- C97 fails: with gyroscope scale and lever arm both estimated, both use states 15 to 17. -/
theorem C97_overlap : ∃ c : Cfg, (15, 3) ∈ optionalBlocks c ∧ claimants c 15 = 2 ∧ claimants c 18 = 0 ∧ 18 < c.dim :=
  ⟨⟨true, false, true, false⟩, by decide⟩
/-- C97: the CMake options select what they name exactly when the odometer option is off. -/
theorem C97_options (g a l o : Bool) : Cfg.ofCMake g a l o = ⟨g, a, l, o⟩ ↔ o = false := by
  revert g a l o; decide
/-- C97: the CMake option for the odometer scale selects the accelerometer scale. -/
theorem C97_cmake (g a l o : Bool) : (Cfg.ofCMake g a l o).odo = false ∧ (o = true → (Cfg.ofCMake g a l o).as = true) := by
  revert g a l o; decide

/-- A public call in a build; `none` is undefined behaviour. -/
def xexec {c : Cfg} (k : FCall α) (s : α × XFusion c α) : Option (α × XFusion c α) :=
  match k with
  | .time m => s.2.timeUpdate s.1 m
  | .gnss m => some (s.1, s.2.measureGnss m)
  | .pos p R => some (s.1, s.2.measurePos p R)
  | .vel v => some (s.1, s.2.measureVel v)
  | .speed v => some (s.1, s.2.measureVel (v3 v 0 0))
  | .height h => some (s.1, s.2.measureRelativeHeight h)
/-- A history in a build. -/
def xrun {c : Cfg} (cs : List (FCall α)) (s : α × XFusion c α) : Option (α × XFusion c α) :=
  cs.foldl (fun s k => s.bind (xexec k)) (some s)
/-- A build's filter, constructed and initialised. -/
def xstart (c : Cfg) (g : α) (junk : Fusion α) (nav : NavEpoch α) (o : Opt α) : α × XFusion c α :=
  (XFusion.new c junk).initFusion g nav o

theorem xrun_none {c : Cfg} (cs : List (FCall α)) : cs.foldl (fun s k => s.bind (xexec k)) (none : Option (α × XFusion c α)) = none := by
  induction cs with
  | nil => rfl
  | cons k cs ih => exact ih
theorem xrun_cons {c : Cfg} (k : FCall α) (cs : List (FCall α)) (s : α × XFusion c α) :
    xrun (k :: cs) s = (xexec k s).bind (xrun cs) := by
  show cs.foldl (fun s k => s.bind (xexec k)) (xexec k s) = _
  cases h : xexec k s with
  | none => exact xrun_none cs
  | some t => rfl
theorem xrun_append {c : Cfg} (a b : List (FCall α)) (s : α × XFusion c α) : xrun (a ++ b) s = (xrun a s).bind (xrun b) := by
  induction a generalizing s with
  | nil => rfl
  | cons k a ih =>
    rw [List.cons_append, xrun_cons, xrun_cons]
    cases xexec k s with
    | none => rfl
    | some t => exact ih t

/-! ## The default build -/
/-- What the default build's object looks like as the fixed-size one. -/
def view (x : XFusion Cfg.default α) : Fusion α := { x.core with kf := x.kf, Q0 := x.Q0, kfXd := x.kfXd }

theorem view_take (x : XFusion Cfg.default α) : view x.takeCorrection = (view x).takeCorrection := by
  unfold XFusion.takeCorrection Fusion.takeCorrection
  by_cases h : 0 < x.core.updateFlag.toNat
  · rw [if_pos h, if_pos (show 0 < (view x).updateFlag.toNat from h)]; rfl
  · rw [if_neg h, if_neg (show ¬ 0 < (view x).updateFlag.toNat from h)]
theorem view_apply (x : XFusion Cfg.default α) : x.applyCorrection.map view = some (view x).applyCorrection := by
  unfold XFusion.applyCorrection Fusion.applyCorrection
  by_cases h : 0 < x.core.updateIter
  · rw [if_pos h, if_pos (show 0 < (view x).updateIter from h)]; rfl
  · rw [if_neg h, if_neg (show ¬ 0 < (view x).updateIter from h)]; rfl
theorem view_zupt (x : XFusion Cfg.default α) : view x.zuptStage = (view x).zuptStage := by
  unfold XFusion.zuptStage Fusion.zuptStage
  by_cases h : x.core.timeUpdateIdx.toNat % 8 ≠ 0 ∧ x.core.opt.zuptEnable ≠ 0
  · rw [if_pos h, if_pos (show (view x).timeUpdateIdx.toNat % 8 ≠ 0 ∧ (view x).opt.zuptEnable ≠ 0 from h)]
    by_cases h2 : x.core.smooth.isStatic = true
    · rw [if_pos h2, if_pos (show (view x).smooth.isStatic = true from h2)]
      unfold XFusion.measureZeroVelocity Fusion.measureZeroVelocity
      by_cases h3 : x.core.opt.zuptaEnable = 0
      · simp only [if_pos h3, if_pos (show (view x).opt.zuptaEnable = 0 from h3)]; rfl
      · simp only [if_neg h3, if_neg (show ¬ (view x).opt.zuptaEnable = 0 from h3)]; rfl
    · rw [if_neg h2, if_neg (show ¬ (view x).smooth.isStatic = true from h2)]; rfl
  · rw [if_neg h, if_neg (show ¬ ((view x).timeUpdateIdx.toNat % 8 ≠ 0 ∧ (view x).opt.zuptEnable ≠ 0) from h)]
theorem view_nhc (x : XFusion Cfg.default α) : view x.nhcStage = (view x).nhcStage := by
  unfold XFusion.nhcStage Fusion.nhcStage
  by_cases h : x.core.timeUpdateIdx.toNat % 32 = 1 ∧ x.core.opt.nhcEnable ≠ 0 ∧ x.core.opt.odoEnable = 0
  · rw [if_pos h, if_pos (show (view x).timeUpdateIdx.toNat % 32 = 1 ∧ (view x).opt.nhcEnable ≠ 0 ∧ (view x).opt.odoEnable = 0 from h)]
    rfl
  · rw [if_neg h, if_neg (show ¬ ((view x).timeUpdateIdx.toNat % 32 = 1 ∧ (view x).opt.nhcEnable ≠ 0 ∧ (view x).opt.odoEnable = 0) from h)]
    rfl
theorem view_phi (g : α) (x : XFusion Cfg.default α) : x.transferMatrix g = (view x).transferMatrix g := rfl
theorem view_propagate (g : α) (x : XFusion Cfg.default α) (m : Imu α) :
    (x.propagate g m).1 = ((view x).propagate g m).1 ∧ view (x.propagate g m).2 = ((view x).propagate g m).2 := by
  rw [Fusion.propagate_eq]
  exact ⟨rfl, rfl⟩
theorem view_time (g : α) (x : XFusion Cfg.default α) (m : Imu α) :
    (x.timeUpdate g m).map (fun r => (r.1, view r.2)) = some ((view x).timeUpdate g m) := by
  have ha := view_apply x.takeCorrection
  rw [view_take] at ha
  obtain ⟨y, hy, hv⟩ := Option.map_eq_some_iff.1 ha
  unfold XFusion.timeUpdate
  rw [hy]
  show some _ = some _
  congr 1
  obtain ⟨p1, p2⟩ := view_propagate g y m
  rw [hv] at p1 p2
  have hs : view (y.propagate g m).2.zuptStage.nhcStage =
      (Fusion.propagate g (view x).takeCorrection.applyCorrection m).2.zuptStage.nhcStage := by
    rw [view_nhc, view_zupt, p2]
  refine Prod.ext p1 ?_
  show view { (y.propagate g m).2.zuptStage.nhcStage with core := { (y.propagate g m).2.zuptStage.nhcStage.core with
    monitor := (y.propagate g m).2.zuptStage.nhcStage.core.monitor.onTimeUpdate } } =
    { (Fusion.propagate g (view x).takeCorrection.applyCorrection m).2.zuptStage.nhcStage with
      monitor := (Fusion.propagate g (view x).takeCorrection.applyCorrection m).2.zuptStage.nhcStage.monitor.onTimeUpdate }
  rw [← hs]
  rfl
theorem view_gnss (x : XFusion Cfg.default α) (m : Gnss α) : view (x.measureGnss m) = (view x).measureGnss m := by
  unfold XFusion.measureGnss Fusion.measureGnss
  by_cases h : Fusion.gnssCheck m = true
  · rw [if_pos h, if_pos h]; rfl
  · rw [if_neg h, if_neg h]; rfl
theorem view_vel (x : XFusion Cfg.default α) (v : V3 α) : view (x.measureVel v) = (view x).measureVel v := by
  unfold XFusion.measureVel Fusion.measureVel
  by_cases h : x.core.opt.nhcEnable ≠ 0
  · dsimp only
    rw [if_pos (show (x.setSensor SENSOR_ODO).core.opt.nhcEnable ≠ 0 from h),
      if_pos (show ((view x).setSensor SENSOR_ODO).opt.nhcEnable ≠ 0 from h)]
    rfl
  · dsimp only
    rw [if_neg (show ¬ (x.setSensor SENSOR_ODO).core.opt.nhcEnable ≠ 0 from h),
      if_neg (show ¬ ((view x).setSensor SENSOR_ODO).opt.nhcEnable ≠ 0 from h)]
    rfl
/-- The two halves of the height update, in both models. -/
def xprep {c : Cfg} (x : XFusion c α) (height : α) : XFusion c α :=
  if x.core.baseHeightIsSet = 1 then { x with core := { x.core with pHeight := height }.clearSensor SENSOR_HEIGHT } else x
@[inherit_doc xprep] def xmain {c : Cfg} (x1 : XFusion c α) (height : α) : XFusion c α :=
  if 4 < x1.core.baseHeightIsSet then
      let f := x1.core
      let z := f.posZ (v3 (f.ins.nav.pos 0) (f.ins.nav.pos 1) (f.gnssHeight + height - f.pHeight))
      let H : Matrix (Fin 1) (Fin c.dim) α := fun _ j => x1.posH 2 j
      let R : Matrix (Fin 1) (Fin 1) α := fun _ _ => Fl.f32 (f.opt.zuptaStd * f.opt.zuptaStd)
      ({ x1 with kf := x1.kf.update H (fun _ => z 2) R
                 core := { f with updateFlag := f.updateFlag ||| Fusion.FLAG_HEIGHT } } : XFusion c α).setSensor SENSOR_HEIGHT
    else x1.clearSensor SENSOR_HEIGHT
@[inherit_doc xprep] def fprep (f : Fusion α) (height : α) : Fusion α :=
  if f.baseHeightIsSet = 1 then { f with pHeight := height }.clearSensor SENSOR_HEIGHT else f
@[inherit_doc xprep] def fmain (f1 : Fusion α) (height : α) : Fusion α :=
    if 4 < f1.baseHeightIsSet then
      let nav := f1.ins.nav
      let z := f1.posZ (v3 (nav.pos 0) (nav.pos 1) (f1.gnssHeight + height - f1.pHeight))
      let H : Matrix (Fin 1) (Fin 15) α := fun _ j => f1.posH 2 j
      let R : Matrix (Fin 1) (Fin 1) α := fun _ _ => Fl.f32 (f1.opt.zuptaStd * f1.opt.zuptaStd)
      ({ f1 with kf := f1.kf.update H (fun _ => z 2) R
                 updateFlag := f1.updateFlag ||| Fusion.FLAG_HEIGHT } : Fusion α).setSensor SENSOR_HEIGHT
    else f1.clearSensor SENSOR_HEIGHT
theorem view_prep (x : XFusion Cfg.default α) (v : α) : view (xprep x v) = fprep (view x) v := by
  unfold xprep fprep
  by_cases h : x.core.baseHeightIsSet = 1
  · rw [if_pos h, if_pos (show (view x).baseHeightIsSet = 1 from h)]; rfl
  · rw [if_neg h, if_neg (show ¬ (view x).baseHeightIsSet = 1 from h)]
theorem view_main (x : XFusion Cfg.default α) (v : α) : view (xmain x v) = fmain (view x) v := by
  unfold xmain fmain
  by_cases h : 4 < x.core.baseHeightIsSet
  · rw [if_pos h, if_pos (show 4 < (view x).baseHeightIsSet from h)]; rfl
  · rw [if_neg h, if_neg (show ¬ 4 < (view x).baseHeightIsSet from h)]; rfl
theorem view_height (x : XFusion Cfg.default α) (v : α) : view (x.measureRelativeHeight v) = (view x).measureRelativeHeight v := by
  have e1 : x.measureRelativeHeight v = { xmain (xprep x v) v with core := { (xmain (xprep x v) v).core with
      baseHeightIsSet := (xmain (xprep x v) v).core.baseHeightIsSet + 1 } } := rfl
  have e2 : (view x).measureRelativeHeight v = { fmain (fprep (view x) v) v with
      baseHeightIsSet := (fmain (fprep (view x) v) v).baseHeightIsSet + 1 } := rfl
  rw [e1, e2, ← view_prep, ← view_main]
  rfl

/-- C98 (soundness of the two models): with no optional state the general filter is the fixed fifteen-state one,
after every history. -/
theorem C98_default_build (cs : List (FCall α)) (g : α) (junk : Fusion α) (nav : NavEpoch α) (o : Opt α) :
    (xrun cs (xstart Cfg.default g junk nav o)).map (fun r => (r.1, view r.2)) = some (frun cs (fstart g junk nav o)) := by
  have key : ∀ (cs : List (FCall α)) (s : α × XFusion Cfg.default α),
      (xrun cs s).map (fun r => (r.1, view r.2)) = some (frun cs (s.1, view s.2)) := by
    intro cs
    induction cs with
    | nil => intro s; rfl
    | cons k cs ih =>
      intro s
      rw [xrun_cons]
      have h : (xexec k s).map (fun r => (r.1, view r.2)) = some (k.exec (s.1, view s.2)) := by
        cases k with
        | time m => exact view_time _ _ _
        | gnss m => exact congrArg some (Prod.ext rfl (view_gnss _ _))
        | pos p R => rfl
        | vel v => exact congrArg some (Prod.ext rfl (view_vel _ _))
        | speed v => exact congrArg some (Prod.ext rfl (view_vel _ _))
        | height v => exact congrArg some (Prod.ext rfl (view_height _ _))
      obtain ⟨t, ht, hv⟩ := Option.map_eq_some_iff.1 h
      rw [ht]
      show (xrun cs t).map _ = some (frun cs (k.exec (s.1, view s.2)))
      rw [ih t, ← hv]
  have hq : XFusion.initQ0 Cfg.default o = Fusion.initQ0 o := by
    funext i j
    show (if i = j then _ else _) = (if i = j then _ else _)
    have hi : i.val < 15 := i.isLt
    by_cases hij : i = j
    · rw [if_pos hij, if_pos hij]
      by_cases h3 : i.val < 3
      · simp only [if_pos h3]
      by_cases h6 : i.val < 6
      · simp only [if_neg h3, if_pos h6]
      by_cases h9 : i.val < 9
      · simp only [if_neg h3, if_neg h6, if_pos h9]
      by_cases h12 : i.val < 12
      · simp only [if_neg h3, if_neg h6, if_neg h9, dif_pos h12]
      · simp only [if_neg h3, if_neg h6, if_neg h9, dif_neg h12, dif_pos hi]
    · rw [if_neg hij, if_neg hij]
  have hs : view (xstart Cfg.default g junk nav o).2 = { (fstart g junk nav o).2 with Q0 := XFusion.initQ0 Cfg.default o } := rfl
  rw [key, hs, hq]
  rfl

/-! ## Builds with optional states -/
theorem xtime_pending {c : Cfg} (hc : c.extended = true) (g : α) (x : XFusion c α) (m : Imu α) (h : x.core.updateFlag ≠ 0) :
    x.timeUpdate g m = none := by
  have hp : 0 < x.core.updateFlag.toNat := by
    rcases Nat.eq_zero_or_pos x.core.updateFlag.toNat with h0 | h0
    · exact absurd (BitVec.eq_of_toNat_eq (by simpa using h0)) h
    · exact h0
  unfold XFusion.timeUpdate XFusion.takeCorrection
  rw [if_pos hp]
  unfold XFusion.applyCorrection
  rw [if_pos (by show (0 : Int) < (x.core.monitor.maxIter : Int); rw [maxIter_le]; split_ifs <;> decide)]
  unfold XFusion.feedBack
  rw [if_pos hc]
  rfl

/-- What holds as long as nothing was measured. -/
structure Idle {c : Cfg} (o : Opt α) (x : XFusion c α) : Prop where
  flag : x.core.updateFlag = 0
  iter : x.core.updateIter = 0
  opt : x.core.opt = o

theorem xtime_idle {c : Cfg} {o : Opt α} (hz : o.zuptEnable = 0) (hn : o.nhcEnable = 0) (g : α) (x : XFusion c α) (m : Imu α) (h : Idle o x) :
    ∃ r, x.timeUpdate g m = some r ∧ Idle o r.2 := by
  have h1 : x.takeCorrection = x := by
    unfold XFusion.takeCorrection; rw [h.flag]; rfl
  have h2 : x.applyCorrection = some x := by
    unfold XFusion.applyCorrection; rw [h.iter]; rfl
  unfold XFusion.timeUpdate
  rw [h1, h2]
  refine ⟨_, rfl, ?_⟩
  have hp : Idle o (x.propagate g m).2 := ⟨h.flag, h.iter, h.opt⟩
  have hzs : (x.propagate g m).2.zuptStage = (x.propagate g m).2 := by
    unfold XFusion.zuptStage
    rw [if_neg]
    rintro ⟨-, h⟩
    exact h (by rw [hp.opt]; exact hz)
  have hns : (x.propagate g m).2.nhcStage = (x.propagate g m).2.clearSensor SENSOR_NHC := by
    unfold XFusion.nhcStage
    rw [if_neg]
    rintro ⟨-, h, -⟩
    exact h (by rw [hp.opt]; exact hn)
  dsimp only
  rw [hzs, hns]
  exact ⟨hp.flag, hp.iter, hp.opt⟩

theorem or_flag (a b : BitVec 32) (h : b ≠ 0) : a ||| b ≠ 0 := by
  intro hc
  apply h
  ext i hi
  have := congrArg (fun v : BitVec 32 => v[i]) hc
  simp at this
  simp [this.2]

theorem xmeas_flag {c : Cfg} (k : FCall α) (s t : α × XFusion c α) (hk : isMeasurement k) (h : xexec k s = some t) :
    t.2.core.updateFlag ≠ 0 := by
  have fp : Fusion.FLAG_POSITION ≠ 0 := by decide
  have fv : Fusion.FLAG_VELOCITY ≠ 0 := by decide
  cases k with
  | time m => exact hk.elim
  | height m => exact hk.elim
  | gnss m =>
    injection h with h; subst h
    show (s.2.measureGnss m).core.updateFlag ≠ 0
    unfold XFusion.measureGnss
    rw [if_pos ((gnssCheck_iff m).2 hk)]
    exact or_flag _ _ fp
  | pos p R => injection h with h; subst h; exact or_flag _ _ fp
  | vel v =>
    injection h with h; subst h
    show (s.2.measureVel v).core.updateFlag ≠ 0
    unfold XFusion.measureVel
    dsimp only
    exact or_flag _ _ fv
  | speed v =>
    injection h with h; subst h
    show (s.2.measureVel (v3 v 0 0)).core.updateFlag ≠ 0
    unfold XFusion.measureVel
    dsimp only
    exact or_flag _ _ fv
theorem xkeep_flag {c : Cfg} (k : FCall α) (s t : α × XFusion c α) (hk : ∀ m, k ≠ .time m) (h : xexec k s = some t)
    (hf : s.2.core.updateFlag ≠ 0) : t.2.core.updateFlag ≠ 0 := by
  by_cases hm : isMeasurement k
  · exact xmeas_flag k s t hm h
  · cases k with
    | time m => exact absurd rfl (hk m)
    | gnss m =>
      injection h with h; subst h
      show (s.2.measureGnss m).core.updateFlag ≠ 0
      unfold XFusion.measureGnss
      rw [if_neg (fun h' => hm ((gnssCheck_iff m).1 h'))]
      exact hf
    | height v =>
      injection h with h; subst h
      show (s.2.measureRelativeHeight v).core.updateFlag ≠ 0
      unfold XFusion.measureRelativeHeight
      dsimp only
      split_ifs
      all_goals first | exact hf | exact or_flag _ _ (by decide)
    | pos p R => exact absurd trivial hm
    | vel v => exact absurd trivial hm
    | speed v => exact absurd trivial hm
theorem xdefined {c : Cfg} (k : FCall α) (s : α × XFusion c α) (hk : ∀ m, k ≠ .time m) : ∃ t, xexec k s = some t := by
  cases k with
  | time m => exact absurd rfl (hk m)
  | _ => exact ⟨_, rfl⟩

/-- C98: in a build with any optional state, with zero-velocity and non-holonomic constraints off and no barometer, a
history is free of undefined behaviour exactly when no IMU sample comes after a measurement. -/
theorem C98_extended_builds (c : Cfg) (hc : c.extended = true) (g : α) (junk : Fusion α) (nav : NavEpoch α) (o : Opt α)
    (hz : o.zuptEnable = 0) (hn : o.nhcEnable = 0) (cs : List (FCall α)) (hh : ∀ h, FCall.height h ∉ cs) :
    xrun cs (xstart c g junk nav o) = none ↔
      ∃ a b d k m, cs = a ++ k :: b ++ FCall.time m :: d ∧ isMeasurement k := by
  -- from a pending state, the next sample is the end
  have pend : ∀ (cs : List (FCall α)) (s : α × XFusion c α), s.2.core.updateFlag ≠ 0 →
      (xrun cs s = none ↔ ∃ a m d, cs = a ++ FCall.time m :: d) := by
    intro cs
    induction cs with
    | nil => intro s _; simp [xrun]
    | cons k cs ih =>
      intro s hf
      rw [xrun_cons]
      by_cases ht : ∃ m, k = .time m
      · obtain ⟨m, rfl⟩ := ht
        have e : xexec (FCall.time m) s = none := xtime_pending hc s.1 s.2 m hf
        rw [e]
        exact ⟨fun _ => ⟨[], m, cs, rfl⟩, fun _ => rfl⟩
      · have ht' : ∀ m, k ≠ .time m := fun m h => ht ⟨m, h⟩
        obtain ⟨t, e⟩ := xdefined k s ht'
        rw [e]
        show xrun cs t = none ↔ _
        rw [ih t (xkeep_flag k s t ht' e hf)]
        constructor
        · rintro ⟨a, m, d, rfl⟩; exact ⟨k :: a, m, d, rfl⟩
        · rintro ⟨a, m, d, h⟩
          cases a with
          | nil => simp at h; exact absurd h.1 (ht' m)
          | cons x a => simp at h; exact ⟨a, m, d, h.2⟩
  have idle : ∀ (cs : List (FCall α)) (s : α × XFusion c α), Idle o s.2 → (∀ h, FCall.height h ∉ cs) →
      (xrun cs s = none ↔ ∃ a b d k m, cs = a ++ k :: b ++ FCall.time m :: d ∧ isMeasurement k) := by
    intro cs
    induction cs with
    | nil => intro s _ _; simp [xrun]
    | cons k cs ih =>
      intro s hi hh
      rw [xrun_cons]
      have hh' : ∀ h, FCall.height h ∉ cs := fun h hm => hh h (List.mem_cons_of_mem _ hm)
      by_cases hm : isMeasurement k
      · have ht' : ∀ m, k ≠ .time m := by rintro m rfl; exact hm
        obtain ⟨t, e⟩ := xdefined k s ht'
        rw [e]
        show xrun cs t = none ↔ _
        rw [pend cs t (xmeas_flag k s t hm e)]
        constructor
        · rintro ⟨a, m, d, rfl⟩; exact ⟨[], a, d, k, m, rfl, hm⟩
        · rintro ⟨a, b, d, k', m, h, -⟩
          cases a with
          | nil => simp at h; exact ⟨b, m, d, h.2⟩
          | cons x a => simp at h; exact ⟨a ++ k' :: b, m, d, by rw [h.2]; simp⟩
      · have step : ∃ t, xexec k s = some t ∧ Idle o t.2 := by
          cases k with
          | time m => exact xtime_idle hz hn s.1 s.2 m hi
          | gnss m =>
            refine ⟨_, rfl, ?_⟩
            show Idle o (s.2.measureGnss m)
            unfold XFusion.measureGnss
            rw [if_neg (fun h' => hm ((gnssCheck_iff m).1 h'))]
            exact ⟨hi.flag, hi.iter, hi.opt⟩
          | height v => exact absurd (List.mem_cons_self) (hh v)
          | pos p R => exact absurd trivial hm
          | vel v => exact absurd trivial hm
          | speed v => exact absurd trivial hm
        obtain ⟨t, e, hi'⟩ := step
        rw [e]
        show xrun cs t = none ↔ _
        rw [ih t hi' hh']
        constructor
        · rintro ⟨a, b, d, k', m, rfl, hk'⟩; exact ⟨k :: a, b, d, k', m, rfl, hk'⟩
        · rintro ⟨a, b, d, k', m, h, hk'⟩
          cases a with
          | nil => simp at h; rw [← h.1] at hk'; exact absurd hk' hm
          | cons x a => simp at h; exact ⟨a, b, d, k', m, by rw [h.2]; simp, hk'⟩
  exact idle cs _ ⟨rfl, rfl, rfl⟩ hh

/-- C98 fails: in every build with an optional state, whatever happened before, a usable fix followed by an IMU sample is
undefined behaviour. -/
theorem C98_fix_is_fatal (c : Cfg) (hc : c.extended = true) (s : α × XFusion c α) (m : Gnss α) (hm : usable m.mode) (i : Imu α) :
    xrun [.gnss m, .time i] s = none :=
  xtime_pending hc _ _ _ (xmeas_flag (.gnss m) s (s.1, s.2.measureGnss m) hm rfl)
example : (⟨true, false, false, false⟩ : Cfg).extended = true ∧ usable (Ex.fix 4 : Gnss α).mode := ⟨rfl, Or.inr (Or.inr (Or.inl rfl))⟩
example (m : Imu α) : ¬ ∃ a b d k m', [FCall.time m, FCall.time m] = a ++ k :: b ++ FCall.time m' :: d ∧ isMeasurement k := by
  rintro ⟨a, b, d, k, m', h, hk⟩
  have : k ∈ [FCall.time m, FCall.time m] := by rw [h]; simp
  simp at this
  subst this
  exact hk
end
end Verif.Props
