import Verif.Props.Rigid
/-! A perfect measurement changes nothing, and compensation of sensor errors, in exact arithmetic. -/
namespace Verif.Props
open Verif Verif.Spec Verif.Convert Matrix

/-- The antenna position in the earth frame that belongs to a navigation state: the solution displaced by the
lever arm, turned from body to navigation to earth frame. -/
noncomputable def antenna (f : Fusion ℝ) : V3 ℝ :=
  llaToXyz f.ins.nav.pos + f.ins.nav.Cne *ᵥ (f.ins.nav.Cbn *ᵥ f.lbGnss)

/-- C36: measuring exactly the antenna position gives a zero innovation. -/
theorem C36_zero_innovation (f : Fusion ℝ) (pos : V3 ℝ) (hC : isRot f.ins.nav.Cne)
    (hp : llaToXyz pos = antenna f) : f.posZ pos = v3 0 0 0 := by
  have h : f.posZ pos = 0 := by
    unfold Fusion.posZ
    rw [hp]
    unfold antenna
    simp only [mvec_real, sub_add_cancel_left, mulVec_neg, mulVec_mulVec]
    rw [← Matrix.mul_assoc, hC.2.1, Matrix.one_mul]
    exact neg_add_cancel _
  rw [h]; ext i; fin_cases i <;> rfl

theorem rv_zero (v : V3 ℝ) (h : v = 0) : rvToQuat v = ⟨1, 0, 0, 0⟩ := by
  have : v = v3 0 0 0 := by rw [h]; ext i; fin_cases i <;> rfl
  rw [this]; exact (C43_rotation_vector 0).1
theorem mul_one_quat (q : Quat ℝ) : q.mul ⟨1, 0, 0, 0⟩ = q := by
  simp [Quat.mul]
theorem one_mul_quat (q : Quat ℝ) : Quat.mul ⟨1, 0, 0, 0⟩ q = q := by
  simp [Quat.mul]

/-- A zero correction leaves a consistent state alone. -/
theorem feedBack_zero (f : Fusion ℝ) (ha : attitudeOk f.ins.nav) (hp : positionOk f.ins.nav) :
    f.feedBack (fun _ => 0) = f := by
  obtain ⟨a1, a2, a3, a4⟩ := ha
  obtain ⟨p1, p2, p3, p4⟩ := hp
  unfold Fusion.feedBack
  dsimp only
  have hd : (v3 (0 / (Earth.RN (f.ins.nav.pos 0) + f.ins.nav.pos 2)) (-0 / (Earth.RM (f.ins.nav.pos 0) + f.ins.nav.pos 2))
      (-0 * Fl.tan (f.ins.nav.pos 0) / (Earth.RN (f.ins.nav.pos 0) + f.ins.nav.pos 2)) : V3 ℝ) = 0 := by
    ext i; fin_cases i <;> simp [v3]
  have hz : (v3 0 0 0 : V3 ℝ) = 0 := by ext i; fin_cases i <;> simp [v3]
  rw [hd, hz, rv_zero (-0) neg_zero, rv_zero (0 + 0) (add_zero 0), mul_one_quat, one_mul_quat, normalized_unit _ p1,
    normalized_unit _ a1, ← p2, ← a2, ← a4]
  have hsk : (skew (0 : V3 ℝ)) = 0 := by ext i j; fin_cases i <;> fin_cases j <;> simp [skew]
  have hv : mvec (eyeM 3 + skew (0 : V3 ℝ)) (f.ins.nav.vn - 0) = f.ins.nav.vn := by
    rw [hsk, add_zero, sub_zero, mvec_real, eyeM_real, one_mulVec]
  have hpos : (v3 (f.ins.nav.pos 0) (f.ins.nav.pos 1) (f.ins.nav.pos 2 + 0) : V3 ℝ) = f.ins.nav.pos := by
    ext i; fin_cases i <;> simp [v3]
  rw [hv, hpos, add_zero, add_zero]

/-- C36: with no correction outstanding, after a perfect position measurement the correction is zero and the
next time update produces the same navigation state as without the measurement (the flags aside). -/
theorem C36_perfect_measurement (g : ℝ) (f : Fusion ℝ) (pos : V3 ℝ) (R : M3 ℝ) (m : Imu ℝ)
    (ha : attitudeOk f.ins.nav) (hp : positionOk f.ins.nav) (hm : llaToXyz pos = antenna f)
    (hflag : f.updateFlag = 0) (hiter : f.updateIter ≤ 0) :
    (f.measurePos pos R).kf.Xd = (fun _ => 0) ∧
    ∃ i, ((f.measurePos pos R).timeUpdate g m).2.ins =
      { (f.timeUpdate g m).2.ins with nav := { (f.timeUpdate g m).2.ins.nav with info := i } } := by
  have hz := C36_zero_innovation f pos hp.2.2.2 hm
  have hx : (f.measurePos pos R).kf.Xd = fun _ => 0 := by
    show (f.kf.update f.posH (f.posZ pos) R).Xd = _
    rw [(update_P _ _ _ _).2, hz]
    have : (v3 0 0 0 : V3 ℝ) = 0 := by ext i; fin_cases i <;> simp [v3]
    rw [this, mulVec_zero]; rfl
  refine ⟨hx, ?_⟩
  have h0 : f.takeCorrection.applyCorrection = f := by
    have : f.takeCorrection = f := by unfold Fusion.takeCorrection; rw [if_neg (by rw [hflag]; decide)]
    rw [this]; unfold Fusion.applyCorrection; rw [if_neg (not_lt.2 hiter)]
  have h1 : (f.measurePos pos R).takeCorrection.applyCorrection.ins = f.ins := by
    set f1 := f.measurePos pos R with hf1
    have hfl : 0 < f1.updateFlag.toNat := by
      show 0 < (f.updateFlag ||| Fusion.FLAG_POSITION).toNat
      rw [hflag]; decide
    have e1 : f1.takeCorrection = { f1 with kfXd := fun _ => 0, updateIter := f1.monitor.maxIter, kf := f1.kf.reset, updateFlag := 0 } := by
      unfold Fusion.takeCorrection
      rw [if_pos hfl, hx]
    set f2 := f1.takeCorrection with hf2
    have hins : f2.ins = f.ins := by rw [e1]; rfl
    have hxd : f2.kfXd = fun _ => 0 := by rw [e1]
    unfold Fusion.applyCorrection
    split_ifs
    · have : vd f2.kfXd (ofI f2.monitor.maxIter : ℝ) = fun _ => 0 := by
        rw [hxd]; ext i; simp [vd]
      dsimp only
      rw [this, feedBack_zero f2 (by rw [hins]; exact ha) (by rw [hins]; exact hp)]
      exact hins
    · exact hins
  obtain ⟨i, hi⟩ := Fusion.timeUpdate_ins g (f.measurePos pos R) m
  obtain ⟨j, hj⟩ := Fusion.timeUpdate_ins g f m
  rw [h0] at hj
  rw [h1] at hi
  exact ⟨i, by rw [hi, hj]⟩

/-- C36 for a GNSS record. -/
theorem C36_perfect_fix (g : ℝ) (f : Fusion ℝ) (fix : Gnss ℝ) (m : Imu ℝ) (hu : usable fix.mode)
    (ha : attitudeOk f.ins.nav) (hp : positionOk f.ins.nav)
    (hm : llaToXyz (v3 (fix.lat * (Real.pi / 180)) (fix.lon * (Real.pi / 180)) fix.height) = antenna f)
    (hflag : f.updateFlag = 0) (hiter : f.updateIter ≤ 0) :
    ∃ i, ((f.measureGnss fix).timeUpdate g m).2.ins =
      { (f.timeUpdate g m).2.ins with nav := { (f.timeUpdate g m).2.ins.nav with info := i } } := by
  have hc : Fusion.gnssCheck fix = true := by
    unfold Fusion.gnssCheck
    rcases hu with h | h | h | h <;> rw [h] <;> decide
  set f1 := (f.setSensor SENSOR_GNSS).setGnssMode fix.mode with hf1
  have hd : (deg : ℝ) = Real.pi / 180 := by simp [deg]
  have e : f.measureGnss fix = { (f1.measurePos (v3 (fix.lat * deg) (fix.lon * deg) fix.height)
      (diagM fun i => fix.posStd i * fix.posStd i * f.opt.gnssStdScale)) with gnssHeight := fix.height, baseHeightIsSet := 1 } := by
    unfold Fusion.measureGnss; rw [if_pos hc]
  obtain ⟨_, i, hi⟩ := C36_perfect_measurement g f1 (v3 (fix.lat * deg) (fix.lon * deg) fix.height)
    (diagM fun i => fix.posStd i * fix.posStd i * f.opt.gnssStdScale) m ha hp (by rw [hd]; exact hm) hflag hiter
  obtain ⟨j, hj⟩ := Fusion.timeUpdate_ins g (f.measureGnss fix) m
  obtain ⟨k, hk⟩ := Fusion.timeUpdate_ins g (f1.measurePos (v3 (fix.lat * deg) (fix.lon * deg) fix.height)
    (diagM fun i => fix.posStd i * fix.posStd i * f.opt.gnssStdScale)) m
  obtain ⟨l, hl⟩ := Fusion.timeUpdate_ins g f1 m
  obtain ⟨n, hn⟩ := Fusion.timeUpdate_ins g f m
  have t0 : ∀ f' : Fusion ℝ, f'.updateFlag = 0 → f'.updateIter ≤ 0 → f'.takeCorrection.applyCorrection = f' := by
    intro f' h1 h2
    have : f'.takeCorrection = f' := by unfold Fusion.takeCorrection; rw [if_neg (by rw [h1]; decide)]
    rw [this]; unfold Fusion.applyCorrection; rw [if_neg (not_lt.2 h2)]
  have same : (f.measureGnss fix).takeCorrection.applyCorrection.ins =
      (f1.measurePos (v3 (fix.lat * deg) (fix.lon * deg) fix.height)
        (diagM fun i => fix.posStd i * fix.posStd i * f.opt.gnssStdScale)).takeCorrection.applyCorrection.ins := by
    rw [e]
    generalize f1.measurePos (v3 (fix.lat * deg) (fix.lon * deg) fix.height)
        (diagM fun i => fix.posStd i * fix.posStd i * f.opt.gnssStdScale) = f2
    unfold Fusion.takeCorrection
    dsimp only
    split_ifs <;> unfold Fusion.applyCorrection <;> dsimp only <;> split_ifs <;> rfl
  rw [same] at hj
  rw [t0 f1 hflag hiter] at hl
  rw [t0 f hflag hiter] at hn
  have hinfo := Fusion.forwardImu_info g f.ins m f1.ins.nav.info
  have hf1i : f1.ins = { f.ins with nav := { f.ins.nav with info := f1.ins.nav.info } } := rfl
  rw [hf1i, hinfo] at hl
  rw [hk, hl] at hi
  refine ⟨j, ?_⟩
  rw [hj, hn]
  have hi2 := congrArg (fun s : Ins ℝ => ({ s with nav := { s.nav with info := j } } : Ins ℝ)) hi
  exact hi2

/-- C69: compensation acts per axis as `(1 - s)(x - b dt)`. -/
theorem C69_compensation (dt : ℝ) (x b s : V3 ℝ) (i : Fin 3) :
    Ins.compensate dt x b s i = (1 - s i) * (x i - b i * dt) := by
  unfold Ins.compensate
  rw [mvec_real, eyeM_real, diagM_real]
  fin_cases i <;> simp [mulVec, dotProduct, Fin.sum_univ_three, Matrix.one_apply, diagonal_apply, vs]

/-- C69: no error parameters, no change; compensation is affine in the sample and linear in the bias. -/
theorem C69_consequences (dt : ℝ) (x y b s : V3 ℝ) (t : ℝ) :
    Ins.compensate dt x (v3 0 0 0) (v3 0 0 0) = x ∧
    (∀ i, Ins.compensate dt (fun k => t * x k + (1 - t) * y k) b s i =
      t * Ins.compensate dt x b s i + (1 - t) * Ins.compensate dt y b s i) ∧
    (∀ i, Ins.compensate dt x b s i = Ins.compensate dt x (v3 0 0 0) s i - (1 - s i) * b i * dt) := by
  have hz : ∀ i, (v3 (0 : ℝ) 0 0) i = 0 := by intro i; fin_cases i <;> rfl
  refine ⟨?_, fun i => ?_, fun i => ?_⟩
  · ext i; rw [C69_compensation, hz]; ring
  · simp only [C69_compensation]; ring
  · simp only [C69_compensation, hz]; ring

/-- The hypotheses of `C36_perfect_fix` are met: a filter just started at the origin with no lever arm, and a fix
at the origin. -/
example : ∃ (f : Fusion ℝ) (fix : Gnss ℝ), usable fix.mode ∧ attitudeOk f.ins.nav ∧ positionOk f.ins.nav ∧
    llaToXyz (v3 (fix.lat * (Real.pi / 180)) (fix.lon * (Real.pi / 180)) fix.height) = antenna f ∧
    f.updateFlag = 0 ∧ f.updateIter ≤ 0 := by
  have hp := Real.pi_pos
  set f := (fstart 0 Ex.zFusion (makeNavEpoch (zeroPva : NavOutput ℝ) (Ex.opt 2)) (Ex.opt 2)).2 with hf
  have h0 : f.ins.nav.pos = v3 0 0 0 := by
    show (v3 (0 * deg) (0 * deg) 0 : V3 ℝ) = _
    simp
  have hatt : f.ins.nav.atti = v3 0 0 0 := by
    show (v3 (v3 0 0 0 0 * deg) (v3 0 0 0 1 * deg) (v3 0 0 0 2 * deg) : V3 ℝ) = _
    simp [v3]
  have hq : f.ins.nav.Qne = llaToQne ⟨f.ins.nav.pos 0, f.ins.nav.pos 1⟩ := rfl
  have hb : f.ins.nav.Qbn = eulerToQuat f.ins.nav.atti := rfl
  have hc : f.ins.nav.Cbn = eulerToDcm f.ins.nav.atti := rfl
  refine ⟨f, Ex.fix 1, Or.inl rfl, ?_, ?_, ?_, rfl, le_refl _⟩
  · refine ⟨by rw [hb]; exact qsq_euler _, by rw [hb, hc, (C39_euler_quaternion_agrees _).2], by
      rw [hc]; exact (C38_euler_matrix_is_rotation _).2, ?_⟩
    rw [hc, hatt]
    refine (C40_euler_round_trip _ ?_ ?_ ?_ ?_).symm <;> simp [v3] <;> first | constructor <;> linarith | linarith | norm_num
  · refine ⟨by rw [hq]; exact (C41_position_quaternion _).1, ?_, rfl, (C41_position_quaternion _).2.2⟩
    rw [hq, C41_lat_lon_round_trip]
    · rw [h0]; simp [v3]; linarith
    · rw [h0]; simp [v3]; linarith
  · have hl : f.lbGnss = 0 := by
      show (v3 0 0 0 : V3 ℝ) = 0
      ext i; fin_cases i <;> rfl
    unfold antenna
    rw [hl, h0, mulVec_zero, mulVec_zero, add_zero]
    simp [Ex.fix, Align.zeroGnss]
end Verif.Props
