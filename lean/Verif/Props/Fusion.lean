import Verif.Lemmas.Fusion
import Verif.Spec.Fusion
/-! Properties of the fusion filter that hold for every scalar type. -/
namespace Verif.Props
open Verif Verif.Spec
variable {α : Type} [Add α] [Sub α] [Mul α] [Neg α] [Div α] [Zero α] [One α] [Fl α]

/-- C20, the two correct getters: attitude and velocity deviations are the square roots of the attitude
(states 6..8) and velocity (states 3..5) variances. -/
theorem C20_atti_vel_std_partial (d : Dev α) (i : Fin 3) :
    (rgioeGetAtti d).2 i = Fl.f32 (Fl.sqrt (d.df.kf.P ⟨6 + i.val, by omega⟩ ⟨6 + i.val, by omega⟩)) ∧
    (rgioeGetVel d).2 i = Fl.f32 (Fl.sqrt (d.df.kf.P ⟨3 + i.val, by omega⟩ ⟨3 + i.val, by omega⟩)) :=
  ⟨rfl, rfl⟩

/-- C20, the violation: `rgioe_get_pos` always hands back the attitude deviations. -/
theorem C20_get_pos_returns_attitude_std (d : Dev α) : (rgioeGetPos d).2 = (rgioeGetAtti d).2 := rfl

theorem gnssCheck_iff (m : Gnss α) : Fusion.gnssCheck m = true ↔ usable m.mode := by
  unfold Fusion.gnssCheck usable MODE_SPP MODE_RTK_FIX MODE_RTK_FLOAT MODE_RTK_DGPS
  simp only [decide_eq_true_eq]; tauto

/-- C21: in NAVIGATION a fix of unusable quality changes only the GNSS flag and the GNSS mode. -/
theorem C21_unusable_fix_changes_info_only (g : α) (d : Dev α) (m : Gnss α) (hs : d.status = 3)
    (hm : ¬ usable m.mode) :
    rgioeGnssupdate g d (some m) = (0, g, { d with df := { d.df with ins := { d.df.ins with
      nav := { d.df.ins.nav with info := ⟨d.df.ins.nav.info.sensors &&& ~~~2#16, 6#16⟩ } } } }) := by
  have hc : ¬ Fusion.gnssCheck m = true := fun h => hm ((gnssCheck_iff m).1 h)
  unfold rgioeGnssupdate
  simp only [hs]
  simp [ST_INIT, ST_ALIGN, ST_ATTITUDE, ST_NAVIGATION, Fusion.measureGnss, hc]
  exact ⟨rfl, rfl⟩

/-- Two devices equal up to the info field. -/
def sameDev (d d' : Dev α) : Prop := ∃ f, d' = { d with df := f } ∧ Fusion.sameButInfo d.df f

theorem exec_same (c : Call α) (hc : c.isInit = false) (g : α) (d d' : Dev α) (h3 : d.status = 3)
    (h : sameDev d d') :
    (c.exec (g, d)).1.1 = (c.exec (g, d')).1.1 ∧ sameDev (c.exec (g, d)).1.2 (c.exec (g, d')).1.2 ∧
    noInfo (c.exec (g, d)).2 = noInfo (c.exec (g, d')).2 ∧ (c.exec (g, d)).1.2.status = 3 := by
  obtain ⟨f, rfl, hf⟩ := h
  obtain ⟨i, hi⟩ := hf
  rcases c with _ | (_ | m) | (_ | m) | _ | _ | _ | _ | p | _
  · simp [Call.isInit] at hc
  · exact ⟨rfl, ⟨f, rfl, ⟨i, hi⟩⟩, rfl, h3⟩
  · have e : ∀ d : Dev α, d.status = 3 → rgioeTimeupdate g d (some m) =
        (0, (d.df.timeUpdate g m).1, { d with df := (d.df.timeUpdate g m).2 }) := by
      intro d h; unfold rgioeTimeupdate; simp only [h]
      simp [ST_INIT, ST_ALIGN, ST_ATTITUDE, ST_NAVIGATION]; rfl
    simp only [Call.exec]
    rw [e d h3, e { d with df := f } h3]
    have h := Fusion.timeUpdate_same g m (⟨i, hi⟩ : Fusion.sameButInfo d.df f)
    exact ⟨h.2, ⟨_, rfl, h.1⟩, rfl, h3⟩
  · exact ⟨rfl, ⟨f, rfl, ⟨i, hi⟩⟩, rfl, h3⟩
  · have e : ∀ d : Dev α, d.status = 3 → rgioeGnssupdate g d (some m) =
        (0, g, { d with df := d.df.measureGnss m }) := by
      intro d h; unfold rgioeGnssupdate; simp only [h]
      simp [ST_INIT, ST_ALIGN, ST_ATTITUDE, ST_NAVIGATION]; rfl
    simp only [Call.exec]
    rw [e d h3, e { d with df := f } h3]
    exact ⟨rfl, ⟨_, rfl, Fusion.measureGnss_same m ⟨i, hi⟩⟩, rfl, h3⟩
  · subst hi; exact ⟨rfl, ⟨_, rfl, ⟨i, rfl⟩⟩, rfl, h3⟩
  · subst hi; exact ⟨rfl, ⟨_, rfl, ⟨i, rfl⟩⟩, rfl, h3⟩
  · subst hi; exact ⟨rfl, ⟨_, rfl, ⟨i, rfl⟩⟩, rfl, h3⟩
  · subst hi; exact ⟨rfl, ⟨_, rfl, ⟨i, rfl⟩⟩, rfl, h3⟩
  · subst hi
    refine ⟨rfl, ⟨_, rfl, ⟨i, rfl⟩⟩, ?_, h3⟩
    simp only [Call.exec, rgioeGetResult, h3]
    simp only [ST_ALIGN, ST_ATTITUDE, ST_NAVIGATION]
    rfl
  · exact ⟨rfl, ⟨f, rfl, ⟨i, hi⟩⟩, rfl, h3⟩

theorem trace_same (cs : List (Call α)) (hc : ∀ c ∈ cs, c.isInit = false) (g : α) (d d' : Dev α)
    (h3 : d.status = 3) (h : sameDev d d') :
    (traceCalls cs (g, d)).map noInfo = (traceCalls cs (g, d')).map noInfo := by
  induction cs generalizing g d d' with
  | nil => rfl
  | cons c cs ih =>
    have h1 := exec_same c (hc c (by simp)) g d d' h3 h
    simp only [traceCalls, List.map_cons]
    refine congrArg₂ _ h1.2.2.1 ?_
    have := ih (fun c' h' => hc c' (by simp [h'])) (c.exec (g, d)).1.1 _ _ h1.2.2.2 h1.2.1
    rw [show (c.exec (g, d)).1 = ((c.exec (g, d)).1.1, (c.exec (g, d)).1.2) from rfl, this,
      h1.1]

/-- C21, the observable consequence: dropping an unusable fix from a history changes no later answer of
any call, the info field of results aside. -/
theorem C21_unusable_fix_invisible (g : α) (d : Dev α) (m : Gnss α) (hs : d.status = 3) (hm : ¬ usable m.mode)
    (more : List (Call α)) (hmore : ∀ c ∈ more, c.isInit = false) :
    (traceCalls (.gnss (some m) :: more) (g, d)).map noInfo =
      .code 0 :: (traceCalls more (g, d)).map noInfo := by
  simp only [traceCalls, List.map_cons, Call.exec, C21_unusable_fix_changes_info_only g d m hs hm]
  refine congrArg₂ _ rfl ?_
  exact (trace_same more hmore g d _ hs ⟨_, rfl, ⟨_, rfl⟩⟩).symm

example : ¬ usable (Ex.fix 6 : Gnss α).mode ∧ ¬ usable (Ex.fix 3 : Gnss α).mode ∧ usable (Ex.fix 4 : Gnss α).mode := by
  unfold usable Ex.fix; simp

theorem posH_info (f : Fusion α) (i : NavInfo) : (f.withInfo i).posH = f.posH := rfl
theorem posZ_info (f : Fusion α) (i : NavInfo) (p : V3 α) : (f.withInfo i).posZ p = f.posZ p := rfl

/-- A usable fix, spelled out. -/
theorem measureGnss_usable (f : Fusion α) (m : Gnss α) (hm : usable m.mode) :
    ∃ i : NavInfo, i = ⟨f.ins.nav.info.sensors ||| SENSOR_GNSS, BitVec.ofInt 16 m.mode⟩ ∧
    f.measureGnss m = { f.withInfo i with
      kf := f.kf.update f.posH (f.posZ (v3 (m.lat * deg) (m.lon * deg) m.height))
        (diagM fun i => m.posStd i * m.posStd i * f.opt.gnssStdScale)
      updateFlag := f.updateFlag ||| Fusion.FLAG_POSITION
      monitor := f.monitor.onMeasUpdate
      gnssHeight := m.height
      baseHeightIsSet := 1 } := by
  refine ⟨_, rfl, ?_⟩
  have e : f.measureGnss m = _ := if_pos ((gnssCheck_iff m).2 hm)
  rw [e]
  have hs : (f.setSensor SENSOR_GNSS).setGnssMode m.mode =
    f.withInfo ⟨f.ins.nav.info.sensors ||| SENSOR_GNSS, BitVec.ofInt 16 m.mode⟩ := rfl
  rw [hs]
  unfold Fusion.measurePos
  dsimp only
  rw [posH_info, posZ_info]
  rfl

theorem update_congr {n p : Nat} (k k' : Kf n α) (hP : k.P = k'.P) (H : Matrix (Fin p) (Fin n) α)
    (R : Matrix (Fin p) (Fin p) α) (z : Fin p → α) : k.update H z R = k'.update H z R := by
  obtain ⟨X, P, a, r⟩ := k
  obtain ⟨X', P', a', r'⟩ := k'
  dsimp only at hP
  subst hP
  rfl

/-- C25: the covariance after an update does not depend on the measured values, and neither does any
acceptance decision: the correction is always the gain times the innovation. -/
theorem C25_covariance_ignores_values {n p : Nat} (k : Kf n α) (H : Matrix (Fin p) (Fin n) α)
    (R : Matrix (Fin p) (Fin p) α) (z z' : Fin p → α) :
    (k.update H z R).P = (k.update H z' R).P ∧ (k.update H z R).Xd = mvec (k.gain H R) z ∧
    (k.update H z R).rejectCnt = 0 := ⟨rfl, rfl, rfl⟩

/-- C25 at the level of GNSS fixes: two usable fixes with the same deviations, whatever their coordinates,
leave the same covariance. -/
theorem C25_fix_values_do_not_matter (f : Fusion α) (m m' : Gnss α) (hm : usable m.mode) (hm' : usable m'.mode)
    (hstd : m.posStd = m'.posStd) : (f.measureGnss m).kf.P = (f.measureGnss m').kf.P := by
  obtain ⟨i, _, e⟩ := measureGnss_usable f m hm
  obtain ⟨i', _, e'⟩ := measureGnss_usable f m' hm'
  rw [e, e']
  dsimp only
  rw [hstd]
  exact (C25_covariance_ignores_values f.kf _ _ _ _).1

/-- C27, violation: of two usable fixes between two IMU samples only the second one's values count; the
whole filter state is the same whatever the first one said (given its deviations). -/
theorem C27_first_of_two_fixes_is_lost (f : Fusion α) (m1 m1' m2 : Gnss α) (h1 : usable m1.mode)
    (h1' : usable m1'.mode) (h2 : usable m2.mode) (hstd : m1.posStd = m1'.posStd) :
    (f.measureGnss m1).measureGnss m2 = (f.measureGnss m1').measureGnss m2 := by
  obtain ⟨i1, _, e1⟩ := measureGnss_usable f m1 h1
  obtain ⟨i1', _, e1'⟩ := measureGnss_usable f m1' h1'
  obtain ⟨i2, hi2, e2⟩ := measureGnss_usable (f.measureGnss m1) m2 h2
  obtain ⟨i2', hi2', e2'⟩ := measureGnss_usable (f.measureGnss m1') m2 h2
  have hP := C25_fix_values_do_not_matter f m1 m1' h1 h1' hstd
  have hi : i2 = i2' := by
    obtain ⟨i, hi, e⟩ := measureGnss_usable f m1 h1
    obtain ⟨i', hi', e'⟩ := measureGnss_usable f m1' h1'
    rw [hi2, hi2', e, e']
    show (⟨i.sensors ||| SENSOR_GNSS, _⟩ : NavInfo) = ⟨i'.sensors ||| SENSOR_GNSS, _⟩
    rw [hi, hi']
  subst hi
  have hH : (f.measureGnss m1').posH = (f.measureGnss m1).posH := by rw [e1, e1']; rfl
  have hZ : ∀ p, (f.measureGnss m1').posZ p = (f.measureGnss m1).posZ p := by intro p; rw [e1, e1']; rfl
  have ho : (f.measureGnss m1').opt = (f.measureGnss m1).opt := by rw [e1, e1']; rfl
  have hmon : (f.measureGnss m1').monitor = (f.measureGnss m1).monitor := by rw [e1, e1']
  have hfl : (f.measureGnss m1').updateFlag = (f.measureGnss m1).updateFlag := by rw [e1, e1']
  rw [e2, e2', hH, hZ, ho, hmon, hfl, update_congr _ _ hP.symm]
  rw [e1, e1']
  rfl

/-- C27, violation: with the zero-angular-rate update enabled the zero-velocity correction is lost: the
pending correction does not depend on the velocity being corrected. -/
theorem C27_zupta_loses_zupt (f : Fusion α) (v : V3 α) (h : f.opt.zuptaEnable ≠ 0) :
    let f' : Fusion α := { f with ins := { f.ins with nav := { f.ins.nav with vn := v } } }
    f'.measureZeroVelocity.kf = f.measureZeroVelocity.kf := by
  intro f'
  unfold Fusion.measureZeroVelocity
  dsimp only
  rw [if_neg h, if_neg (show ¬ f'.opt.zuptaEnable = 0 from h)]
  rfl
example : ({ (Fusion.zeroOpt : Opt α) with zuptaEnable := 1 }).zuptaEnable ≠ 0 := by simp

/-- C27, violation: whatever share of an earlier correction is still outstanding is dropped when the next
measurement's correction is taken over. -/
theorem C27_outstanding_share_is_dropped (f : Fusion α) (x : Fin 15 → α) (k : Int) (h : f.updateFlag ≠ 0) :
    ({ f with kfXd := x, updateIter := k } : Fusion α).takeCorrection = f.takeCorrection := by
  have hp : 0 < f.updateFlag.toNat := by
    rcases Nat.eq_zero_or_pos f.updateFlag.toNat with h0 | h0
    · exact absurd (BitVec.eq_of_toNat_eq (by simpa using h0)) h
    · exact h0
  unfold Fusion.takeCorrection
  rw [if_pos hp, if_pos (show 0 < ({ f with kfXd := x, updateIter := k } : Fusion α).updateFlag.toNat from hp)]

theorem maxIter_le (m : Monitor) : m.maxIter = if 1000 < m.noUpdateCntMin.toNat then 1000 else 1 := by
  unfold Monitor.maxIter; split_ifs <;> rfl

/-- C27: before any GNSS fix only a thousandth of a ZUPT/NHC correction is applied per sample (and, by
`C27_outstanding_share_is_dropped`, the rest is dropped at the next one). -/
theorem C27_share_before_first_fix (f : Fusion α) (h : f.updateFlag ≠ 0) (hmon : f.monitor.noUpdateCntMin = 0xFFFFFFFF#32) :
    f.takeCorrection.applyCorrection.ins = (f.feedBack (vd f.kf.Xd (ofI 1000))).ins ∧
    f.takeCorrection.applyCorrection.updateIter = 999 := by
  have hp : 0 < f.updateFlag.toNat := by
    rcases Nat.eq_zero_or_pos f.updateFlag.toNat with h0 | h0
    · exact absurd (BitVec.eq_of_toNat_eq (by simpa using h0)) h
    · exact h0
  have hm : f.monitor.maxIter = 1000 := by rw [maxIter_le, hmon]; rfl
  unfold Fusion.takeCorrection Fusion.applyCorrection
  rw [if_pos hp]
  dsimp only
  rw [hm, if_pos (by decide)]
  exact ⟨rfl, rfl⟩
example (junk : Fusion α) (nav : NavEpoch α) (o : Opt α) (g : α) :
    (fstart g junk nav o).2.measureNHC.updateFlag ≠ 0 ∧
    (fstart g junk nav o).2.measureNHC.monitor.noUpdateCntMin = 0xFFFFFFFF#32 := by
  constructor
  · show (0 : BitVec 32) ||| Fusion.FLAG_VELOCITY ≠ 0
    decide
  · rfl

theorem onMeas_min (m : Monitor) (h : m.noUpdateCnt.toNat ≤ 1000 ∨ m.noUpdateCntMin.toNat ≤ 1000) :
    m.onMeasUpdate.noUpdateCntMin.toNat ≤ 1000 := by
  unfold Monitor.onMeasUpdate
  dsimp only
  split_ifs <;> omega

theorem feedBack_info (f f' : Fusion α) (i : NavInfo) (x : Fin 15 → α)
    (h : f'.ins = { f.ins with nav := { f.ins.nav with info := i } }) :
    (f'.feedBack x).ins = { (f.feedBack x).ins with nav := { (f.feedBack x).ins.nav with info := i } } := by
  unfold Fusion.feedBack
  rw [h]

theorem take_apply_one (f : Fusion α) (hf : 0 < f.updateFlag.toNat) (hm : f.monitor.maxIter = 1) :
    f.takeCorrection.applyCorrection.ins = (f.feedBack (vd f.kf.Xd (ofI 1))).ins := by
  unfold Fusion.takeCorrection Fusion.applyCorrection
  rw [if_pos hf]
  dsimp only
  rw [hm, if_pos (by decide)]
  rfl

/-- C27, the part that holds: the last usable fix before an IMU sample is applied entirely (its correction
divided by one) at that sample, provided some two fixes (or the start and a fix) were at most 1000 samples
apart. -/
theorem C27_last_fix_applied_partial (g : α) (f : Fusion α) (m : Gnss α) (imu : Imu α) (hm : usable m.mode)
    (hmon : f.monitor.noUpdateCnt.toNat ≤ 1000 ∨ f.monitor.noUpdateCntMin.toNat ≤ 1000) :
    let z := f.posZ (v3 (m.lat * deg) (m.lon * deg) m.height)
    let R : M3 α := diagM fun i => m.posStd i * m.posStd i * f.opt.gnssStdScale
    let corrected := f.feedBack (vd (mvec (f.kf.gain f.posH R) z) (ofI 1))
    ∃ info, ((f.measureGnss m).timeUpdate g imu).2.ins =
      { (corrected.ins.forwardImu g imu).2 with nav := { (corrected.ins.forwardImu g imu).2.nav with info := info } } := by
  intro z R corrected
  obtain ⟨i, hi⟩ := Fusion.timeUpdate_ins g (f.measureGnss m) imu
  refine ⟨i, ?_⟩
  rw [hi]
  obtain ⟨i0, _, e⟩ := measureGnss_usable f m hm
  have hflag : ∀ b : BitVec 32, 0 < (b ||| Fusion.FLAG_POSITION).toNat := by
    intro b
    rcases Nat.eq_zero_or_pos (b ||| Fusion.FLAG_POSITION).toNat with h0 | h0
    · exfalso
      have h0 : b ||| Fusion.FLAG_POSITION = 0 := BitVec.eq_of_toNat_eq (by simpa using h0)
      have := congrArg (fun v : BitVec 32 => v.getLsbD 0) h0
      simp [Fusion.FLAG_POSITION] at this
    · exact h0
  have hX : (f.measureGnss m).kf.Xd = mvec (f.kf.gain f.posH R) z := by
    rw [e]; exact (C25_covariance_ignores_values f.kf f.posH R z z).2.1
  have hins : (f.measureGnss m).ins =
      { f.ins with nav := { f.ins.nav with info := (f.measureGnss m).ins.nav.info } } := by rw [e]; rfl
  have hfl : 0 < (f.measureGnss m).updateFlag.toNat := by rw [e]; exact hflag _
  have hmax : (f.measureGnss m).monitor.maxIter = 1 := by
    have e2 : (f.measureGnss m).monitor = f.monitor.onMeasUpdate := by rw [e]
    rw [e2, maxIter_le, if_neg]
    have := onMeas_min f.monitor hmon
    omega
  have hk := take_apply_one _ hfl hmax
  rw [hX, feedBack_info f _ _ _ hins] at hk
  generalize (f.measureGnss m).ins.nav.info = j at hk
  have hgen : ∀ s s' : Ins α, s' = { s with nav := { s.nav with info := j } } →
      ({ (s'.forwardImu g imu).2 with nav := { (s'.forwardImu g imu).2.nav with info := i } } : Ins α) =
      { (s.forwardImu g imu).2 with nav := { (s.forwardImu g imu).2.nav with info := i } } := by
    intro s s' h
    rw [h, Fusion.forwardImu_info]
  exact hgen _ _ hk
example (junk : Fusion α) (nav : NavEpoch α) (o : Opt α) (g : α) :
    usable (Ex.fix 4 : Gnss α).mode ∧ (fstart g junk nav o).2.monitor.noUpdateCnt.toNat ≤ 1000 := by
  refine ⟨Or.inr (Or.inr (Or.inl rfl)), ?_⟩
  show (0 : BitVec 32).toNat ≤ 1000
  decide
end Verif.Props
