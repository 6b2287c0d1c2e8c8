import Verif.Props.Monitor
import Verif.Lemmas.Real
import Mathlib.Tactic.Linarith
/-! C119: initialising a filter that has been used already. -/
namespace Verif.Props
open Verif Verif.Spec
variable {α : Type} [Add α] [Sub α] [Mul α] [Neg α] [Div α] [Zero α] [One α] [Fl α]

theorem restart_idx (g : α) (f : Fusion α) (nav : NavEpoch α) (o : Opt α) (cs : List (FCall α)) :
    (frun cs (f.initFusion g nav o)).2.timeUpdateIdx = BitVec.ofNat 32 (fimus cs).length ∧
    (frun cs (f.initFusion g nav o)).2.opt = o := by
  have key : ∀ (cs : List (FCall α)) (s : α × Fusion α) (k : Nat), s.2.timeUpdateIdx = BitVec.ofNat 32 k → s.2.opt = o →
      (frun cs s).2.timeUpdateIdx = BitVec.ofNat 32 (k + (fimus cs).length) ∧ (frun cs s).2.opt = o := by
    intro cs
    induction cs with
    | nil => intro s k h1 h2; exact ⟨by simpa [fimus, frun] using h1, h2⟩
    | cons c cs ih =>
      intro s k h1 h2
      by_cases h : fimus [c] = []
      · have e := exec_meas c h s
        have := ih (c.exec s) k (e.idx.trans h1) (e.opt.trans h2)
        have hf : fimus (c :: cs) = fimus cs := by
          have := fimus_append [c] cs
          rwa [h, List.nil_append] at this
        rw [hf]; exact this
      · cases c <;> first | (simp [fimus] at h; done) | skip
        rename_i m
        have := ih (FCall.exec (.time m) s) (k + 1)
          (by simp only [FCall.exec, Fusion.timeUpdate_idx, h1]; simp [BitVec.ofNat_add])
          ((Fusion.timeUpdate_opt s.1 s.2 m).trans h2)
        simp only [fimus, List.length_cons]
        rw [show k + ((fimus cs).length + 1) = k + 1 + (fimus cs).length by omega]
        exact this
  have := key cs (f.initFusion g nav o) 0 rfl rfl
  simpa using this

/-- C119, what restarts. Whatever a filter has been through, `Initialize` makes its navigation state, covariance and
error state, options, lever arms and mounting those of a new filter initialised with the same arguments. -/
theorem C119_state_restarts_partial (g : α) (f junk : Fusion α) (nav : NavEpoch α) (o : Opt α) :
    let used := (f.initFusion g nav o).2
    let new := (fstart g junk nav o).2
    (f.initFusion g nav o).1 = (fstart g junk nav o).1 ∧
    used.ins.nav = new.ins.nav ∧ used.ins.dt = new.ins.dt ∧ used.ins.gyroPre = new.ins.gyroPre ∧
    used.ins.accePre = new.ins.accePre ∧ used.kf = new.kf ∧ used.Q0 = new.Q0 ∧ used.opt = new.opt ∧
    used.lbGnss = new.lbGnss ∧ used.lbWheel = new.lbWheel ∧ used.Cbv = new.Cbv :=
  ⟨rfl, rfl, rfl, rfl, rfl, rfl, rfl, rfl, rfl, rfl, rfl⟩

/-- C119, the schedule restarts too: after re-initialising a filter in any state the non-holonomic constraint is applied
(and flagged) at the 1st, 33rd, 65th... sample that follows, as for a new filter (C31). -/
theorem C119_schedule_restarts_partial (g : α) (f : Fusion α) (nav : NavEpoch α) (o : Opt α) (cs : List (FCall α))
    (m : Imu α) :
    let before := frun cs (f.initFusion g nav o)
    let after := (FCall.exec (.time m) before).2
    has after.ins.nav.info.sensors 0x10#16 ↔ nhcDue o (((fimus cs).length + 1) % 2 ^ 32) := by
  intro before after
  obtain ⟨h1, h2⟩ := restart_idx g f nav o cs
  set p := propagated before m with hpdef
  have hidx : p.timeUpdateIdx.toNat = ((fimus cs).length + 1) % 2 ^ 32 := by
    rw [hpdef, propagated_idx, h1, ← BitVec.toNat_ofNat]
    simp [BitVec.ofNat_add]
  have hopt : p.opt = o := (propagated_opt before m).trans h2
  have hinfo : after.ins.nav.info = p.zuptStage.nhcStage.ins.nav.info := rfl
  rw [hinfo]
  have hi : p.zuptStage.timeUpdateIdx.toNat = ((fimus cs).length + 1) % 2 ^ 32 := by rw [Fusion.zupt_idx]; exact hidx
  have ho : p.zuptStage.opt = o := by rw [Fusion.zupt_opt]; exact hopt
  by_cases h : nhcDue o (((fimus cs).length + 1) % 2 ^ 32)
  · have e : p.zuptStage.nhcStage = p.zuptStage.measureNHC.setSensor SENSOR_NHC := by
      rw [Fusion.nhcStage]; exact if_pos (by rw [hi, ho]; unfold nhcDue at h; exact ⟨h.2.2, h.1, h.2.1⟩)
    rw [e]
    exact ⟨fun _ => h, fun _ => has_or_self _ _ (by decide)⟩
  · have e : p.zuptStage.nhcStage = p.zuptStage.clearSensor SENSOR_NHC := by
      rw [Fusion.nhcStage]; exact if_neg (by rw [hi, ho]; unfold nhcDue at h; exact fun hh => h ⟨hh.2.1, hh.2.2, hh.1⟩)
    rw [e]
    exact ⟨fun hh => absurd hh (has_clear_self _ _), fun hh => absurd hh h⟩

/-- C119 fails (1): shares of an old correction that are still outstanding are applied to the new state. If a filter with
outstanding shares is initialised with a new state, the next IMU sample is not processed from that state but from that
state corrected by the old filter's correction. -/
theorem C119_old_correction_applied (g : α) (f : Fusion α) (hp : 0 < f.updateIter) (hu : f.updateFlag = 0)
    (nav : NavEpoch α) (o : Opt α) (imu : Imu α) (s : α × Fusion α) (hs : s = f.initFusion g nav o) :
    ∃ i, (s.2.timeUpdate s.1 imu).2.ins =
      let c := (s.2.feedBack (vd f.kfXd (ofI f.monitor.maxIter))).ins
      { (c.forwardImu s.1 imu).2 with nav := { (c.forwardImu s.1 imu).2.nav with info := i } } := by
  obtain ⟨i, hi⟩ := Fusion.timeUpdate_ins s.1 s.2 imu
  have hu' : s.2.updateFlag = 0 := by rw [hs]; exact hu
  have hit : s.2.updateIter = f.updateIter := by rw [hs]; rfl
  have hk : s.2.kfXd = f.kfXd := by rw [hs]; rfl
  have hm : s.2.monitor = f.monitor := by rw [hs]; rfl
  have htk : s.2.takeCorrection = s.2 := by unfold Fusion.takeCorrection; rw [hu']; rfl
  have e : s.2.takeCorrection.applyCorrection.ins = (s.2.feedBack (vd f.kfXd (ofI f.monitor.maxIter))).ins := by
    rw [htk, Fusion.applyCorrection, if_pos (by rw [hit]; exact hp), hk, hm]
  exact ⟨i, by rw [hi, e]⟩

/-- The situation arises in ordinary use: a filter that applies the non-holonomic constraint and has not seen a fix has
999 shares outstanding after its second sample, and a quiet flag. -/
theorem C119_reachable (g : α) (junk : Fusion α) (nav : NavEpoch α) (o : Opt α) (hn : o.nhcEnable ≠ 0)
    (ho : o.odoEnable = 0) (hz : o.zuptEnable = 0) (m1 m2 : Imu α) :
    let s := frun [.time m1, .time m2] (fstart g junk nav o)
    s.2.updateIter = 999 ∧ s.2.updateFlag = 0 := by
  intro s
  obtain ⟨a, ha⟩ : ∃ a, a = frun [.time m1] (fstart g junk nav o) := ⟨_, rfl⟩
  have hs : s = FCall.exec (.time m2) a := by
    show frun ([.time m1] ++ [.time m2]) (fstart g junk nav o) = _
    rw [frun_append, ← ha]
    simp only [frun, List.foldl_cons, List.foldl_nil]
  clear_value s
  have hfl : a.2.updateFlag ≠ 0 := by
    have ha' : a = FCall.exec (.time m1) (fstart g junk nav o) := by
      rw [ha]; simp only [frun, List.foldl_cons, List.foldl_nil]
    obtain ⟨z, hz0⟩ : ∃ z, z = fstart g junk nav o := ⟨_, rfl⟩
    have zi : z.2.timeUpdateIdx = 0 := by rw [hz0]; rfl
    have zo : z.2.opt = o := by rw [hz0]; rfl
    rw [← hz0] at ha'
    obtain ⟨p, hp⟩ : ∃ p, p = propagated z m1 := ⟨_, rfl⟩
    have hst : a.2 = { p.zuptStage.nhcStage with monitor := p.zuptStage.nhcStage.monitor.onTimeUpdate } := by
      rw [ha', hp, FCall.exec]; exact timeUpdate_stages z m1
    have pidx : p.zuptStage.timeUpdateIdx = 1 := by rw [Fusion.zupt_idx, hp, propagated_idx, zi]; rfl
    have popt : p.zuptStage.opt = o := by rw [Fusion.zupt_opt, hp, propagated_opt, zo]
    have ns : p.zuptStage.nhcStage = p.zuptStage.measureNHC.setSensor SENSOR_NHC := by
      rw [Fusion.nhcStage]; exact if_pos (by rw [pidx, popt]; exact ⟨by decide, hn, ho⟩)
    have h1 : a.2.updateFlag = p.zuptStage.updateFlag ||| Fusion.FLAG_VELOCITY := by rw [hst, ns]; rfl
    rw [h1]
    intro h0
    have := congrArg (fun v : BitVec 32 => v.getLsbD 3) h0
    simp [Fusion.FLAG_VELOCITY] at this
  have hpos : 0 < a.2.updateFlag.toNat := by
    rcases Nat.eq_zero_or_pos a.2.updateFlag.toNat with h0 | h0
    · exact absurd (BitVec.eq_of_toNat_eq (by simpa using h0)) hfl
    · exact h0
  have hmx : a.2.monitor.maxIter = 1000 := by
    have := (C96_share g junk nav o [.time m1] m2 (by simp [fimus]) a ha 1000 (by simp [spacing])).2.1
    exact this
  obtain ⟨hi2, ho2⟩ := restart_idx g (Fusion.new junk) nav o [.time m1]
  have hi2' : a.2.timeUpdateIdx = 1 := by rw [ha, fstart, hi2]; rfl
  have ho2' : a.2.opt = o := by rw [ha, fstart, ho2]
  obtain ⟨p, hp⟩ : ∃ p, p = propagated a m2 := ⟨_, rfl⟩
  have pidx : p.timeUpdateIdx = 2 := by rw [hp, propagated_idx, hi2']; rfl
  have popt : p.opt = o := by rw [hp, propagated_opt, ho2']
  have zs : p.zuptStage = p := by
    rw [Fusion.zuptStage]; exact if_neg (by rw [popt]; exact fun h => h.2 hz)
  have ns : p.nhcStage = p.clearSensor SENSOR_NHC := by
    rw [Fusion.nhcStage]; exact if_neg (by rw [pidx]; intro h; exact absurd h.1 (by decide))
  have hst : s.2 = { p.zuptStage.nhcStage with monitor := p.zuptStage.nhcStage.monitor.onTimeUpdate } := by
    rw [hs, hp, FCall.exec]; exact timeUpdate_stages a m2
  have h1 : s.2.updateIter = p.updateIter := by rw [hst, zs, ns]; rfl
  have h2 : s.2.updateFlag = p.updateFlag := by rw [hst, zs, ns]; rfl
  refine ⟨?_, by rw [h2, hp]; exact propagated_flag a m2⟩
  rw [h1]
  have h3 : p.updateIter = a.2.takeCorrection.applyCorrection.updateIter := by rw [hp]; rfl
  rw [h3]
  have h4 : a.2.takeCorrection.updateIter = 1000 := by
    unfold Fusion.takeCorrection
    rw [if_pos hpos, hmx]; rfl
  unfold Fusion.applyCorrection
  rw [if_pos (by rw [h4]; decide)]
  show a.2.takeCorrection.updateIter - 1 = 999
  rw [h4]; rfl

/-- C119 fails (1) in numbers: with real arithmetic the height the next sample starts from is off the given one by the
outstanding share of the old height correction. -/
theorem C119_height_off (f : Fusion ℝ) (nav : NavEpoch ℝ) (o : Opt ℝ) (g : ℝ) (n : Nat) :
    ((f.initFusion g nav o).2.feedBack (vd f.kfXd (ofI n))).ins.nav.pos 2 = nav.pos 2 + f.kfXd 2 / n := by
  have h : ((f.initFusion g nav o).2.feedBack (vd f.kfXd (ofI n))).ins.nav.pos 2
      = nav.pos 2 + (vd f.kfXd (ofI n)) 2 := rfl
  rw [h]
  congr 1

/-- C119 fails (2): the standstill detector keeps its memory. If the samples before the restart were calm enough that one
more sample is judged static, the restarted filter performs a zero-velocity update at its first sample, which a new
filter never does. -/
theorem C119_detector_not_restarted (g : α) (f : Fusion α) (nav : NavEpoch α) (o : Opt α) (hz : o.zuptEnable ≠ 0)
    (m : Imu α) (hst : (f.smooth.update m).isStatic = true) (junk : Fusion α) :
    has (FCall.exec (.time m) (f.initFusion g nav o)).2.ins.nav.info.sensors 0x08#16 ∧
    ¬ has (FCall.exec (.time m) (fstart g junk nav o)).2.ins.nav.info.sensors 0x08#16 := by
  constructor
  · set s := f.initFusion g nav o with hs
    set p := propagated s m with hp
    have pidx : p.timeUpdateIdx = 1 := by rw [hp, propagated_idx]; rfl
    have popt : p.opt = o := by rw [hp, propagated_opt]; rfl
    have psm : p.smooth.isStatic = true := by
      have : p.smooth = s.2.smooth.update m := Fusion.timeUpdate_smooth s.1 s.2 m
      rw [this]; exact hst
    have zs : p.zuptStage = p.measureZeroVelocity.setSensor SENSOR_ZUPT := by
      have h1 : p.zuptStage = if p.smooth.isStatic then p.measureZeroVelocity.setSensor SENSOR_ZUPT
          else p.clearSensor SENSOR_ZUPT := by
        rw [Fusion.zuptStage]; exact if_pos (by rw [pidx, popt]; exact ⟨by decide, hz⟩)
      rw [h1, if_pos psm]
    have hall : (FCall.exec (.time m) s).2.ins.nav.info = p.zuptStage.nhcStage.ins.nav.info := rfl
    rw [hall, zs]
    have hn : ∀ q : Fusion α, has q.ins.nav.info.sensors 0x08#16 → has q.nhcStage.ins.nav.info.sensors 0x08#16 := by
      intro q hq
      unfold Fusion.nhcStage
      split_ifs
      · show has (q.ins.nav.info.sensors ||| 0x10#16) 0x08#16
        unfold has at hq ⊢
        intro h0; apply hq
        have : (q.ins.nav.info.sensors ||| 0x10#16) &&& 0x08#16 = q.ins.nav.info.sensors &&& 0x08#16 := by
          rw [BitVec.and_comm, BitVec.and_or_distrib_left, BitVec.and_comm]; simp
        rw [← this]; exact h0
      · show has (q.ins.nav.info.sensors &&& ~~~0x10#16) 0x08#16
        unfold has at hq ⊢
        intro h0; apply hq
        have : (q.ins.nav.info.sensors &&& ~~~0x10#16) &&& 0x08#16 = q.ins.nav.info.sensors &&& 0x08#16 := by
          rw [BitVec.and_assoc]; congr 1
        rw [← this]; exact h0
    exact hn _ (has_or_self _ _ (by decide))
  · have h := (C31_flags_after_imu g junk nav o [] m).2.1 (by simp [fimus]) hz
    intro hh
    have := h.1 hh
    unfold zuptDue calmLast at this
    have h3 := this
    simp [fimus] at h3

/-- Every filter that stood still for its last two samples, and still does, is such a filter. -/
theorem C119_detector_reachable (g : α) (junk : Fusion α) (nav : NavEpoch α) (o : Opt α) (cs : List (FCall α)) (m : Imu α)
    (h : calmLast (zuptThr : α) 2 10 (fimus cs ++ [m]) 3) :
    (((frun cs (fstart g junk nav o)).2.smooth).update m).isStatic = true := by
  rw [(hist g junk nav o cs).smooth, ← feed_snoc]
  exact (static_iff _ (by simp)).2 h

/-- C119's hypotheses are met in ordinary use: two samples under the non-holonomic constraint, a new start, and the third sample is
processed from the new state with a share of the old correction added. -/
example (g : α) (junk : Fusion α) (nav nav' : NavEpoch α) (o o' : Opt α) (hn : o.nhcEnable ≠ 0)
    (ho : o.odoEnable = 0) (hz : o.zuptEnable = 0) (m1 m2 m3 : Imu α) :
    let f := (frun [.time m1, .time m2] (fstart g junk nav o)).2
    let s := f.initFusion g nav' o'
    ∃ i, (s.2.timeUpdate s.1 m3).2.ins =
      let c := (s.2.feedBack (vd f.kfXd (ofI f.monitor.maxIter))).ins
      { (c.forwardImu s.1 m3).2 with nav := { (c.forwardImu s.1 m3).2.nav with info := i } } := by
  intro f s
  obtain ⟨h1, h2⟩ := C119_reachable g junk nav o hn ho hz m1 m2
  exact C119_old_correction_applied g f (by show 0 < f.updateIter; rw [show f.updateIter = 999 from h1]; decide) h2 nav' o' m3 s rfl
end Verif.Props
