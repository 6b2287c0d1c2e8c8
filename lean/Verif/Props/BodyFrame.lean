import Verif.Spec.BodyFrame
import Verif.Lemmas.BodyFrame
import Verif.Props.Stamps
import Mathlib.Tactic.SplitIfs
/-! # C164: the result does not depend on how the IMU is mounted -/
namespace Verif.Props
open Verif Verif.Spec Verif.Body Matrix Verif.Convert

theorem attMatrix_eq (e : V3 ℝ) : attMatrix e = eulerToDcm e := (eulerToDcm_eq e).symm

/-- The navigator state with the body frame turned, with attitude quaternion `Q` and angles `a`. -/
noncomputable def bdI (R : M3 ℝ) (Q : Quat ℝ) (a : V3 ℝ) (s : Ins ℝ) : Ins ℝ :=
  { s with
    nav := { s.nav with Qbn := Q, Cbn := s.nav.Cbn * Rᵀ, atti := a, gb := R *ᵥ s.nav.gb, ab := R *ᵥ s.nav.ab }
    accePre := R *ᵥ s.accePre
    gyroPre := R *ᵥ s.gyroPre }

/-- The two attitude quaternions belong together. -/
def turnedQ (R : M3 ℝ) (q q' : Quat ℝ) : Prop := 0 < qsq q ∧ 0 < qsq q' ∧ rn q' = rn q * Rᵀ

theorem compensate_rot (R : M3 ℝ) (dt : ℝ) (x b s : V3 ℝ) (hs : ∀ i, s i = s 0) :
    Ins.compensate dt (R *ᵥ x) (R *ᵥ b) s = R *ᵥ Ins.compensate dt x b s := by
  have e : eyeM 3 - diagM s = (1 - s 0) • (1 : M3 ℝ) := by
    rw [eyeM_real, diagM_real, show s = fun _ => s 0 from funext hs, ← smul_one_eq_diagonal, sub_smul, one_smul]
  unfold Ins.compensate
  rw [e, mvec_real, mvec_real, vs_real, vs_real, smul_mulVec, smul_mulVec, one_mulVec, one_mulVec, mulVec_smul, mulVec_sub, mulVec_smul]

theorem velocity_rot {R : M3 ℝ} (h : isRot R) (g : ℝ) (Q : Quat ℝ) (a : V3 ℝ) (s : Ins ℝ) (x y : V3 ℝ) :
    (bdI R Q a s).velocityUpdate g (R *ᵥ x) (R *ᵥ y) = bdI R Q a (s.velocityUpdate g x y) := by
  have e1 : R *ᵥ x + sv (Fl.lit (1 / 2)) (cross (R *ᵥ y) (R *ᵥ x)) + vd (cross (R *ᵥ s.gyroPre) (R *ᵥ x) + cross (R *ᵥ s.accePre) (R *ᵥ y)) (Fl.lit 12) =
      R *ᵥ (x + sv (Fl.lit (1 / 2)) (cross y x) + vd (cross s.gyroPre x + cross s.accePre y) (Fl.lit 12)) := by
    have hv : ∀ (v : V3 ℝ) (c : ℝ), vd v c = c⁻¹ • v := fun v c => by ext i; simp [vd, div_eq_inv_mul]
    rw [cross_rot h, cross_rot h, cross_rot h, hv, hv, sv_real, sv_real, ← mulVec_add, ← mulVec_smul, ← mulVec_smul, ← mulVec_add, ← mulVec_add]
  have e2 : ∀ (M : M3 ℝ) (u : V3 ℝ), mvec (mmul M (s.nav.Cbn * Rᵀ)) (R *ᵥ u) = mvec (mmul M s.nav.Cbn) u := by
    intro M u
    rw [mmul_real, mmul_real, mvec_real, mvec_real, mulVec_mulVec, Matrix.mul_assoc, Matrix.mul_assoc, h.2.1, Matrix.mul_one]
  unfold Ins.velocityUpdate
  simp only [bdI]
  rw [e1, e2]

theorem atti_rot {R : M3 ℝ} (h : isRot R) (Q : Quat ℝ) (a : V3 ℝ) (s : Ins ℝ) (y : V3 ℝ) (hq : turnedQ R s.nav.Qbn Q) :
    ∃ Q' a', (bdI R Q a s).attiUpdate (R *ᵥ y) = bdI R Q' a' (s.attiUpdate y) ∧ turnedQ R (s.attiUpdate y).nav.Qbn Q' := by
  have e1 : gyroToRv (R *ᵥ y) (R *ᵥ s.gyroPre) = R *ᵥ gyroToRv y s.gyroPre := by
    have hv : ∀ (v : V3 ℝ) (c : ℝ), vd v c = c⁻¹ • v := fun v c => by ext i; simp [vd, div_eq_inv_mul]
    unfold gyroToRv
    rw [cross_rot h, hv, hv, ← mulVec_smul, ← mulVec_add]
  obtain ⟨p1, p2, p3⟩ := hq
  set nn := (rvToQuat (vs (s.omegaIeN + s.omegaEnN) s.dt)).conj with hnn
  set q1 := ((nn.mul s.nav.Qbn).mul (rvToQuat (gyroToRv y s.gyroPre))) with hq1
  set q2 := ((nn.mul Q).mul (rvToQuat (R *ᵥ gyroToRv y s.gyroPre))) with hq2
  have n0 : 0 < qsq nn := conj_pos _
  have u1 : 0 < qsq q1 := by rw [hq1, qsq_mul, qsq_mul]; exact mul_pos (mul_pos n0 p1) (rv_pos _)
  have u2 : 0 < qsq q2 := by rw [hq2, qsq_mul, qsq_mul]; exact mul_pos (mul_pos n0 p2) (rv_pos _)
  have hr : rn q2 = rn q1 * Rᵀ := by
    rw [hq2, hq1, rn_mul, rn_mul, rn_mul, rn_mul, rv_turn h, p3]
    simp only [Matrix.mul_assoc]
    rw [← Matrix.mul_assoc Rᵀ R, h.2.1, Matrix.one_mul]
  have v1 := qsq_normalized q1 u1
  have v2 := qsq_normalized q2 u2
  have hc : quatToDcm q2.normalized = quatToDcm q1.normalized * Rᵀ := by
    rw [quatToDcm, quatToDcm, rn_unit _ v1, rn_unit _ v2, rn_normalized _ u1, rn_normalized _ u2, hr]
  refine ⟨q2.normalized, dcmToEuler (quatToDcm q2.normalized), ?_, ?_⟩
  · have a1 : s.attiUpdate y = { s with nav := { s.nav with Qbn := q1.normalized, Cbn := quatToDcm q1.normalized, atti := dcmToEuler (quatToDcm q1.normalized) } } := rfl
    have a2 : (bdI R Q a s).attiUpdate (R *ᵥ y) = { bdI R Q a s with nav := { (bdI R Q a s).nav with
        Qbn := ((nn.mul Q).mul (rvToQuat (gyroToRv (R *ᵥ y) (R *ᵥ s.gyroPre)))).normalized
        Cbn := quatToDcm ((nn.mul Q).mul (rvToQuat (gyroToRv (R *ᵥ y) (R *ᵥ s.gyroPre)))).normalized
        atti := dcmToEuler (quatToDcm ((nn.mul Q).mul (rvToQuat (gyroToRv (R *ᵥ y) (R *ᵥ s.gyroPre)))).normalized) } } := rfl
    rw [a2, a1, e1, ← hq2]
    simp only [bdI]
    rw [hc]
  · refine ⟨?_, by rw [v2]; norm_num, ?_⟩
    · show 0 < qsq q1.normalized
      rw [v1]; norm_num
    · show rn q2.normalized = rn q1.normalized * Rᵀ
      rw [rn_normalized _ u1, rn_normalized _ u2, hr]

theorem forward_rot {R : M3 ℝ} (h : isRot R) (g : ℝ) (Q : Quat ℝ) (a : V3 ℝ) (s : Ins ℝ) (m : Imu ℝ) (hq : turnedQ R s.nav.Qbn Q)
    (hg : ∀ i, s.nav.gs i = s.nav.gs 0) (ha : ∀ i, s.nav.as i = s.nav.as 0) :
    ∃ Q' a', (bdI R Q a s).forwardImu g (turnImu R m) = ((s.forwardImu g m).1, bdI R Q' a' (s.forwardImu g m).2) ∧
      turnedQ R (s.forwardImu g m).2.nav.Qbn Q' ∧ (s.forwardImu g m).2.nav.gs = s.nav.gs ∧ (s.forwardImu g m).2.nav.as = s.nav.as := by
  have c1 : Ins.compensate (bdI R Q a s).dt (turnImu R m).acce (bdI R Q a s).nav.ab (bdI R Q a s).nav.as = R *ᵥ Ins.compensate s.dt m.acce s.nav.ab s.nav.as :=
    compensate_rot R _ _ _ _ ha
  have c2 : Ins.compensate (bdI R Q a s).dt (turnImu R m).gyro (bdI R Q a s).nav.gb (bdI R Q a s).nav.gs = R *ᵥ Ins.compensate s.dt m.gyro s.nav.gb s.nav.gs :=
    compensate_rot R _ _ _ _ hg
  set x := Ins.compensate s.dt m.acce s.nav.ab s.nav.as
  set y := Ins.compensate s.dt m.gyro s.nav.gb s.nav.gs
  have k1 : (bdI R Q a s).extrapolate = (s.extrapolate.1, bdI R Q a s.extrapolate.2) := rfl
  have q1 : s.extrapolate.2.nav = s.nav := rfl
  set e := s.extrapolate
  have k2 := velocity_rot h e.1 Q a e.2 x y
  have q2 : (e.2.velocityUpdate e.1 x y).nav.Qbn = e.2.nav.Qbn := rfl
  set v := e.2.velocityUpdate e.1 x y
  have k3 : (bdI R Q a v).positionUpdate = bdI R Q a v.positionUpdate := rfl
  have q3 : v.positionUpdate.nav.Qbn = v.nav.Qbn := rfl
  obtain ⟨Q', a', k4, q4⟩ := atti_rot h Q a v.positionUpdate y (by rw [q3, q2, q1]; exact hq)
  refine ⟨Q', a', ?_, q4, rfl, rfl⟩
  unfold Ins.forwardImu Ins.forward
  dsimp only
  rw [c1, c2, k1]
  dsimp only
  rw [k2, k3, k4]
  rfl

/-! ## The detector of standstill -/
/-- The detectors of the two runs: the means are turned, the sum of the variances of the three axes is the same. -/
structure SameStill (R : M3 ℝ) (s s' : Smooth ℝ) : Prop where
  ave : s'.ave.acce = R *ᵥ s.ave.acce
  var : s'.var.acce 0 + s'.var.acce 1 + s'.var.acce 2 = s.var.acce 0 + s.var.acce 1 + s.var.acce 2
  up : s'.upCnt = s.upCnt
  cnt : s'.staticCnt = s.staticCnt
  width : s'.width = s.width
  thr : s'.threshold = s.threshold
  sw : s'.staticWidth = s.staticWidth
  static : s'.isStatic = s.isStatic

theorem still_rot {R : M3 ℝ} (h : isRot R) (s s' : Smooth ℝ) (m : Imu ℝ) (k : SameStill R s s') : SameStill R (s.update m) (s'.update (turnImu R m)) := by
  set n := if s.upCnt + 1 < s.width then s.upCnt + 1 else s.width with hn
  have ea : (fun i => Smooth.stepAve n (s'.ave.acce i) ((turnImu R m).acce i) : V3 ℝ) = R *ᵥ fun i => Smooth.stepAve n (s.ave.acce i) (m.acce i) := by
    have e : ∀ u v : V3 ℝ, (fun i => Smooth.stepAve n (u i) (v i) : V3 ℝ) = (ofI n : ℝ)⁻¹ • ((ofI (n - 1) : ℝ) • u + v) := by
      intro u v
      funext i
      simp only [Smooth.stepAve, Pi.smul_apply, Pi.add_apply, smul_eq_mul]
      ring
    rw [e, e, k.ave, mulVec_smul, mulVec_add, mulVec_smul]
    rfl
  have ev : (∀ i, Smooth.stepVar n (s'.var.acce i) ((fun i => Smooth.stepAve n (s'.ave.acce i) ((turnImu R m).acce i) : V3 ℝ) i) ((turnImu R m).acce i) =
      (s'.var.acce i * ofI (n - 1) + ((R *ᵥ (m.acce - fun i => Smooth.stepAve n (s.ave.acce i) (m.acce i))) i * (R *ᵥ (m.acce - fun i => Smooth.stepAve n (s.ave.acce i) (m.acce i))) i)) / ofI n) := by
    intro i
    rw [ea, mulVec_sub]
    rfl
  have es := sq_rot h (m.acce - fun i => Smooth.stepAve n (s.ave.acce i) (m.acce i))
  set d := m.acce - fun i => Smooth.stepAve n (s.ave.acce i) (m.acce i) with hd
  have e0 := ev 0
  have e1 := ev 1
  have e2 := ev 2
  have hv : (s'.update (turnImu R m)).var.acce 0 + (s'.update (turnImu R m)).var.acce 1 + (s'.update (turnImu R m)).var.acce 2 =
      (s.update m).var.acce 0 + (s.update m).var.acce 1 + (s.update m).var.acce 2 := by
    have w : ∀ i, (s'.update (turnImu R m)).var.acce i = Smooth.stepVar n (s'.var.acce i) ((fun i => Smooth.stepAve n (s'.ave.acce i) ((turnImu R m).acce i) : V3 ℝ) i) ((turnImu R m).acce i) := by
      intro i
      simp only [Smooth.update, k.up, k.width, hn]
    have w' : ∀ i, (s.update m).var.acce i = (s.var.acce i * ofI (n - 1) + d i * d i) / ofI n := by
      intro i
      simp only [Smooth.update, Smooth.stepVar, hd, hn, Pi.sub_apply]
    rw [w, w, w, w', w', w', e0, e1, e2, ← add_div, ← add_div, ← add_div, ← add_div]
    congr 1
    have kv := k.var
    linear_combination es + ofI (n - 1) * kv
  have hstd : ∀ x y : Smooth ℝ, x.var.acce 0 + x.var.acce 1 + x.var.acce 2 = y.var.acce 0 + y.var.acce 1 + y.var.acce 2 → x.getStd = y.getStd := by
    intro x y e
    unfold Smooth.getStd
    rw [e]
  have g1 : ∀ s : Smooth ℝ, ∀ m, ({ s with
      upCnt := s.upCnt + 1
      ave := { s.ave with acce := (s.update m).ave.acce, gyro := (s.update m).ave.gyro }
      var := { s.var with acce := (s.update m).var.acce, gyro := (s.update m).var.gyro } } : Smooth ℝ).getStd = (s.update m).getStd := fun _ _ => rfl
  have hc : (s'.update (turnImu R m)).staticCnt = (s.update m).staticCnt := by
    have c : ∀ (s : Smooth ℝ) m, (s.update m).staticCnt = if Fl.lt s.threshold (s.update m).getStd then 0 else s.staticCnt + 1 := fun _ _ => rfl
    rw [c, c, hstd _ _ hv, k.thr, k.cnt]
  refine ⟨?_, hv, congrArg (· + 1) k.up, hc, k.width, k.thr, k.sw, ?_⟩
  · have w : (s'.update (turnImu R m)).ave.acce = fun i => Smooth.stepAve n (s'.ave.acce i) ((turnImu R m).acce i) := by
      simp only [Smooth.update, k.up, k.width, hn]
    rw [w, ea]
    rfl
  · have c : ∀ (s : Smooth ℝ) m, (s.update m).isStatic = decide (s.staticWidth < (s.update m).staticCnt) := fun _ _ => rfl
    rw [c, c, hc, k.sw]

/-! ## The filter -/
/-- The navigator with filter after the body frame is turned. -/
noncomputable def bdF (R : M3 ℝ) (Q : Quat ℝ) (a : V3 ℝ) (o : Opt ℝ) (sm : Smooth ℝ) (f : Fusion ℝ) : Fusion ℝ :=
  { f with
    ins := bdI R Q a f.ins
    kf := bdK R f.kf
    lbGnss := R *ᵥ f.lbGnss
    lbWheel := R *ᵥ f.lbWheel
    Cbv := f.Cbv * Rᵀ
    opt := o
    kfXd := BB R *ᵥ f.kfXd
    smooth := sm }

/-- What the navigators of the two runs have in common. -/
structure BodyOk (R : M3 ℝ) (Q : Quat ℝ) (o : Opt ℝ) (sm : Smooth ℝ) (f : Fusion ℝ) : Prop where
  q : turnedQ R f.ins.nav.Qbn Q
  still : SameStill R f.smooth sm
  opt : Remounted R f.opt o
  gs : ∀ i, f.ins.nav.gs i = f.ins.nav.gs 0
  as : ∀ i, f.ins.nav.as i = f.ins.nav.as 0
  noise : BB R * f.Q0 * (BB R)ᵀ = f.Q0
  zupta : f.opt.zuptaEnable = 0
@[inherit_doc BodyOk] def SameBody (R : M3 ℝ) (f f' : Fusion ℝ) : Prop := ∃ Q a o sm, f' = bdF R Q a o sm f ∧ BodyOk R Q o sm f

theorem body_take (R : M3 ℝ) (f f' : Fusion ℝ) (h : SameBody R f f') : SameBody R f.takeCorrection f'.takeCorrection := by
  obtain ⟨Q, a, o, sm, rfl, k⟩ := h
  refine ⟨Q, a, o, sm, ?_, ?_⟩
  · unfold Fusion.takeCorrection
    show (if 0 < f.updateFlag.toNat then _ else _) = _
    split_ifs
    · have : (bdK R f.kf).reset = bdK R f.kf.reset := by
        simp only [Kf.reset, bdK]
        congr 1
        exact (mulVec_zero (BB R)).symm
      show ({ bdF R Q a o sm f with kfXd := BB R *ᵥ f.kf.Xd, updateIter := f.monitor.maxIter, kf := (bdK R f.kf).reset, updateFlag := 0 } : Fusion ℝ) = _
      rw [this]
      rfl
    · rfl
  · unfold Fusion.takeCorrection
    split_ifs
    · exact ⟨k.q, k.still, k.opt, k.gs, k.as, k.noise, k.zupta⟩
    · exact k

theorem xb_low (R : M3 ℝ) (x : Fin 15 → ℝ) (k : Fin 15) (h : k.val < 9) : (BB R *ᵥ x) k = x k := by
  obtain ⟨i, a, rfl⟩ := ix_surj k
  have := congrFun (xb_BB R x i) a
  have hi : i.val < 3 := by simp only [ix] at h; omega
  rw [rb, if_pos hi, one_mulVec] at this
  exact this
theorem xb_g (R : M3 ℝ) (x : Fin 15 → ℝ) : v3 ((BB R *ᵥ x) 9) ((BB R *ᵥ x) 10) ((BB R *ᵥ x) 11) = R *ᵥ v3 (x 9) (x 10) (x 11) := by
  have e : ∀ y : Fin 15 → ℝ, v3 (y 9) (y 10) (y 11) = xb y 3 := fun y => by ext i; fin_cases i <;> rfl
  rw [e, e, xb_BB]
  rfl
theorem xb_a (R : M3 ℝ) (x : Fin 15 → ℝ) : v3 ((BB R *ᵥ x) 12) ((BB R *ᵥ x) 13) ((BB R *ᵥ x) 14) = R *ᵥ v3 (x 12) (x 13) (x 14) := by
  have e : ∀ y : Fin 15 → ℝ, v3 (y 12) (y 13) (y 14) = xb y 4 := fun y => by ext i; fin_cases i <;> rfl
  rw [e, e, xb_BB]
  rfl

theorem body_feed {R : M3 ℝ} (f f' : Fusion ℝ) (x : Fin 15 → ℝ) (h : SameBody R f f') : SameBody R (f.feedBack x) (f'.feedBack (BB R *ᵥ x)) := by
  obtain ⟨Q, a, o, sm, rfl, k⟩ := h
  obtain ⟨p1, p2, p3⟩ := k.q
  have l : ∀ i : Fin 15, i.val < 9 → (BB R *ᵥ x) i = x i := fun i hi => xb_low R x i hi
  set nav := f.ins.nav with hnav
  set d : V3 ℝ := v3 (x 1 / (Earth.RN (nav.pos 0) + nav.pos 2)) (-(x 0) / (Earth.RM (nav.pos 0) + nav.pos 2)) (-(x 1) * Fl.tan (nav.pos 0) / (Earth.RN (nav.pos 0) + nav.pos 2)) with hd
  set t := rvToQuat (v3 (x 6) (x 7) (x 8) + d) with ht
  have u1 : 0 < qsq (t.mul nav.Qbn) := by rw [qsq_mul]; exact mul_pos (rv_pos _) p1
  have u2 : 0 < qsq (t.mul Q) := by rw [qsq_mul]; exact mul_pos (rv_pos _) p2
  have hr : rn (t.mul Q) = rn (t.mul nav.Qbn) * Rᵀ := by rw [rn_mul, rn_mul, p3, Matrix.mul_assoc]
  have v1 := qsq_normalized _ u1
  have v2 := qsq_normalized _ u2
  have hc : quatToDcm (t.mul Q).normalized = quatToDcm (t.mul nav.Qbn).normalized * Rᵀ := by
    rw [quatToDcm, quatToDcm, rn_unit _ v1, rn_unit _ v2, rn_normalized _ u1, rn_normalized _ u2, hr]
  refine ⟨(t.mul Q).normalized, dcmToEuler (quatToDcm (t.mul Q).normalized), o, sm, ?_, ?_⟩
  · unfold Fusion.feedBack
    dsimp only
    have e0 : (bdF R Q a o sm f).ins.nav.pos = nav.pos := rfl
    have e1 : (bdF R Q a o sm f).ins.nav.Qbn = Q := rfl
    have e2 : (bdF R Q a o sm f).ins.nav.gb = R *ᵥ nav.gb := rfl
    have e3 : (bdF R Q a o sm f).ins.nav.ab = R *ᵥ nav.ab := rfl
    rw [e0, e1, e2, e3, l 0 (by decide), l 1 (by decide), l 2 (by decide), l 3 (by decide), l 4 (by decide), l 5 (by decide), l 6 (by decide), l 7 (by decide), l 8 (by decide),
      xb_g, xb_a, ← mulVec_add, ← mulVec_add]
    rw [← hd, ← ht, hc]
    rfl
  · refine ⟨⟨?_, by rw [v2]; norm_num, ?_⟩, k.still, k.opt, k.gs, k.as, k.noise, k.zupta⟩
    · show 0 < qsq (t.mul nav.Qbn).normalized
      rw [v1]; norm_num
    · show _ = rn (t.mul nav.Qbn).normalized * Rᵀ
      rw [rn_normalized _ u1, rn_normalized _ u2, hr]

theorem body_apply {R : M3 ℝ} (f f' : Fusion ℝ) (h : SameBody R f f') : SameBody R f.applyCorrection f'.applyCorrection := by
  have hi : f'.updateIter = f.updateIter ∧ f'.monitor = f.monitor ∧ f'.kfXd = BB R *ᵥ f.kfXd := by
    obtain ⟨Q, a, o, sm, rfl, k⟩ := h
    exact ⟨rfl, rfl, rfl⟩
  unfold Fusion.applyCorrection
  rw [hi.1]
  split_ifs
  · have e : vd f'.kfXd (ofI f'.monitor.maxIter) = BB R *ᵥ vd f.kfXd (ofI f.monitor.maxIter) := by
      have hv : ∀ (v : Fin 15 → ℝ) (c : ℝ), vd v c = c⁻¹ • v := fun v c => by ext i; simp [vd, div_eq_inv_mul]
      rw [hv, hv, hi.2.1, hi.2.2, mulVec_smul]
    dsimp only
    rw [e]
    obtain ⟨Q, a, o, sm, e, k⟩ := body_feed f f' (vd f.kfXd (ofI f.monitor.maxIter)) h
    rw [e]
    exact ⟨Q, a, o, sm, rfl, k.q, k.still, k.opt, k.gs, k.as, k.noise, k.zupta⟩
  · exact h

theorem phi_rot {R : M3 ℝ} (h : isRot R) (g : ℝ) (Q : Quat ℝ) (a : V3 ℝ) (o : Opt ℝ) (sm : Smooth ℝ) (f : Fusion ℝ) (ho : Remounted R f.opt o) :
    Fusion.transferMatrix g (bdF R Q a o sm f) = BB R * Fusion.transferMatrix g f * (BB R)ᵀ := by
  have og : o.imuPara.gtCorr = f.opt.imuPara.gtCorr := congrArg (fun o => o.imuPara.gtCorr) ho.rest
  have oa : o.imuPara.atCorr = f.opt.imuPara.atCorr := congrArg (fun o => o.imuPara.atCorr) ho.rest
  apply bk_ext
  intro i j
  rw [bk_conj]
  unfold Fusion.transferMatrix
  simp only [bdF, bdI, og, oa]
  rw [bk_set _ 12 12 _ 4 4 i j rfl rfl, bk_set _ 9 9 _ 3 3 i j rfl rfl, bk_set _ 6 9 _ 2 3 i j rfl rfl, bk_set _ 3 12 _ 1 4 i j rfl rfl,
    bk_set _ 6 6 _ 2 2 i j rfl rfl, bk_set _ 3 6 _ 1 2 i j rfl rfl, bk_set _ 3 3 _ 1 1 i j rfl rfl, bk_set _ 3 0 _ 1 0 i j rfl rfl,
    bk_set _ 0 3 _ 0 1 i j rfl rfl, bk_set0 0 0 _ 0 0 i j rfl rfl]
  rw [bk_set _ 12 12 _ 4 4 i j rfl rfl, bk_set _ 9 9 _ 3 3 i j rfl rfl, bk_set _ 6 9 _ 2 3 i j rfl rfl, bk_set _ 3 12 _ 1 4 i j rfl rfl,
    bk_set _ 6 6 _ 2 2 i j rfl rfl, bk_set _ 3 6 _ 1 2 i j rfl rfl, bk_set _ 3 3 _ 1 1 i j rfl rfl, bk_set _ 3 0 _ 1 0 i j rfl rfl,
    bk_set _ 0 3 _ 0 1 i j rfl rfl, bk_set0 0 0 _ 0 0 i j rfl rfl]
  have sc : ∀ t c : ℝ, (1 : M3 ℝ) - md (ms (1 : M3 ℝ) t) c = (1 - t / c) • (1 : M3 ℝ) := by
    intro t c
    have : md (ms (1 : M3 ℝ) t) c = (t / c) • (1 : M3 ℝ) := by
      ext i j
      simp only [md, ms, Matrix.smul_apply, smul_eq_mul]
      ring
    rw [this, sub_smul, one_smul]
  have rc : ∀ (C : M3 ℝ) (t : ℝ), ms (C * Rᵀ) t = ms C t * Rᵀ := fun C t => by rw [ms_real, ms_real, Matrix.smul_mul]
  have rneg : ∀ (C : M3 ℝ) (t : ℝ), ms (-(C * Rᵀ)) t = ms (-C) t * Rᵀ := fun C t => by rw [← Matrix.neg_mul, rc]
  rw [eyeM_real, sc, sc, rc, rneg]
  fin_cases i <;> fin_cases j <;> simp [rb, h.1]

theorem stepQ_rot {R : M3 ℝ} (h : isRot R) (f f' : Fusion ℝ) (phi : Matrix (Fin 15) (Fin 15) ℝ) (h0 : f'.Q0 = f.Q0) (hdt : f'.ins.dt = f.ins.dt)
    (hn : BB R * f.Q0 * (BB R)ᵀ = f.Q0) : f'.stepQ (BB R * phi * (BB R)ᵀ) = BB R * f.stepQ phi * (BB R)ᵀ := by
  have o := BB_orth' h
  unfold Fusion.stepQ
  simp only [ms_real, sm_real, mmul_real]
  rw [h0, hdt]
  have e1 : BB R * phi * (BB R)ᵀ * f.Q0 = BB R * (phi * f.Q0) * (BB R)ᵀ := by
    conv_lhs => rw [← hn]
    simp only [Matrix.mul_assoc]
    rw [← Matrix.mul_assoc (BB R)ᵀ (BB R), o, Matrix.one_mul]
  have e2 : f.Q0 * (BB R * phi * (BB R)ᵀ)ᵀ = BB R * (f.Q0 * phiᵀ) * (BB R)ᵀ := by
    conv_lhs => rw [← hn]
    simp only [transpose_mul, transpose_transpose, Matrix.mul_assoc]
    rw [← Matrix.mul_assoc (BB R)ᵀ (BB R), o, Matrix.one_mul]
  rw [e1, e2]
  simp only [Matrix.mul_smul, Matrix.smul_mul, Matrix.mul_add, Matrix.add_mul]

theorem body_propagate {R : M3 ℝ} (h : isRot R) (g : ℝ) (f f' : Fusion ℝ) (m : Imu ℝ) (k : SameBody R f f') :
    (f'.propagate g (turnImu R m)).1 = (f.propagate g m).1 ∧ SameBody R (f.propagate g m).2 (f'.propagate g (turnImu R m)).2 := by
  obtain ⟨Q, a, o, sm, rfl, k⟩ := k
  obtain ⟨Q', a', e1, e2, e3, e4⟩ := forward_rot h g Q a f.ins m k.q k.gs k.as
  have e0 : (bdF R Q a o sm f).ins = bdI R Q a f.ins := rfl
  have es : ∀ u : Smooth ℝ, ({ bdF R Q a o sm f with smooth := u } : Fusion ℝ).ins = bdI R Q a f.ins := fun _ => rfl
  unfold Fusion.propagate
  dsimp only
  rw [e0, e1]
  generalize f.ins.forwardImu g m = r at *
  obtain ⟨g1, i⟩ := r
  dsimp only at *
  have b : ({ bdF R Q a o sm f with smooth := (bdF R Q a o sm f).smooth.update (turnImu R m), ins := bdI R Q' a' i } : Fusion ℝ) =
      bdF R Q' a' o (sm.update (turnImu R m)) { f with smooth := f.smooth.update m, ins := i } := rfl
  rw [b]
  set f1 : Fusion ℝ := { f with smooth := f.smooth.update m, ins := i } with hf1
  have ph := phi_rot h g1 Q' a' o (sm.update (turnImu R m)) f1 k.opt
  have hk : (bdF R Q a o sm f).kf = bdK R f1.kf := rfl
  rw [ph, stepQ_rot h f1 (bdF R Q' a' o (sm.update (turnImu R m)) f1) _ rfl rfl k.noise, hk, bdK_predict h]
  refine ⟨rfl, Q', a', o, sm.update (turnImu R m), rfl, e2, still_rot h _ _ m k.still, k.opt, ?_, ?_, k.noise, k.zupta⟩
  · intro j; show i.nav.gs j = i.nav.gs 0; rw [e3]; exact k.gs j
  · intro j; show i.nav.as j = i.nav.as 0; rw [e4]; exact k.as j

theorem zuptH_rot (R : M3 ℝ) : (setBlock (fun _ _ => 0) 0 3 (eyeM 3 : M3 ℝ) : Matrix (Fin 3) (Fin 15) ℝ) =
    (setBlock (fun _ _ => 0) 0 3 (eyeM 3 : M3 ℝ) : Matrix (Fin 3) (Fin 15) ℝ) * (BB R)ᵀ := by
  apply hb_ext
  intro j
  rw [hb_conj, hb_set0 3 _ 1 j rfl]
  fin_cases j <;> simp [rb]

theorem body_zupt {R : M3 ℝ} (h : isRot R) (f f' : Fusion ℝ) (k : SameBody R f f') : SameBody R f.zuptStage f'.zuptStage := by
  obtain ⟨Q, a, o, sm, rfl, k⟩ := k
  have o1 : o.zuptEnable = f.opt.zuptEnable := (congrArg Opt.zuptEnable k.opt.rest :)
  have o2 : o.zuptaEnable = f.opt.zuptaEnable := (congrArg Opt.zuptaEnable k.opt.rest :)
  have o3 : o.zuptStd = f.opt.zuptStd := (congrArg Opt.zuptStd k.opt.rest :)
  have hz : (bdF R Q a o sm f).measureZeroVelocity = bdF R Q a o sm f.measureZeroVelocity := by
    unfold Fusion.measureZeroVelocity
    have c1 : (bdF R Q a o sm f).opt.zuptaEnable = 0 := o2.trans k.zupta
    rw [if_pos c1, if_pos k.zupta]
    unfold Fusion.measureZupt
    dsimp only
    have c3 : (bdF R Q a o sm f).opt.zuptStd = f.opt.zuptStd := o3
    rw [c3]
    have := bdK_update h f.kf (setBlock (fun _ _ => 0) 0 3 (eyeM 3 : M3 ℝ)) f.ins.nav.vn (diagM fun _ => Fl.f32 (f.opt.zuptStd * f.opt.zuptStd))
    rw [← zuptH_rot] at this
    exact congrArg (fun k => ({ bdF R Q a o sm f with kf := k, updateFlag := f.updateFlag ||| Fusion.FLAG_VELOCITY } : Fusion ℝ)) this
  have hk : BodyOk R Q o sm f.measureZeroVelocity := by
    unfold Fusion.measureZeroVelocity
    rw [if_pos k.zupta]
    exact ⟨k.q, k.still, k.opt, k.gs, k.as, k.noise, k.zupta⟩
  have c0 : (bdF R Q a o sm f).timeUpdateIdx = f.timeUpdateIdx := rfl
  have c1 : (bdF R Q a o sm f).opt.zuptEnable = f.opt.zuptEnable := o1
  have c2 : (bdF R Q a o sm f).smooth.isStatic = f.smooth.isStatic := k.still.static
  unfold Fusion.zuptStage
  rw [c0, c1, c2, hz]
  split_ifs
  · exact ⟨Q, a, o, sm, rfl, hk.q, hk.still, hk.opt, hk.gs, hk.as, hk.noise, hk.zupta⟩
  · exact ⟨Q, a, o, sm, rfl, k.q, k.still, k.opt, k.gs, k.as, k.noise, k.zupta⟩
  · exact ⟨Q, a, o, sm, rfl, k⟩

theorem vel_rot {R : M3 ℝ} (h : isRot R) (Q : Quat ℝ) (a : V3 ℝ) (o : Opt ℝ) (sm : Smooth ℝ) (f : Fusion ℝ) (ho : Remounted R f.opt o) :
    (bdF R Q a o sm f).velModel = (f.velModel.1, f.velModel.2 * (BB R)ᵀ) := by
  have od : o.dRate = f.opt.dRate := (congrArg Opt.dRate ho.rest :)
  have c : ∀ A C : M3 ℝ, A * Rᵀ * (C * Rᵀ)ᵀ = A * Cᵀ := by
    intro A C
    rw [transpose_mul, transpose_transpose, Matrix.mul_assoc, ← Matrix.mul_assoc Rᵀ R, h.2.1, Matrix.one_mul]
  have w : vs (R *ᵥ f.ins.gyroPre) (ofI f.opt.dRate) - (f.ins.nav.Cbn * Rᵀ)ᵀ *ᵥ (f.ins.omegaIeN + f.ins.omegaEnN) =
      R *ᵥ (vs f.ins.gyroPre (ofI f.opt.dRate) - f.ins.nav.Cbnᵀ *ᵥ (f.ins.omegaIeN + f.ins.omegaEnN)) := by
    rw [vs_real, vs_real, mulVec_sub, mulVec_smul, transpose_mul, transpose_transpose, mulVec_mulVec]
  have l : ∀ u : V3 ℝ, (f.Cbv * Rᵀ) *ᵥ (R *ᵥ u) = f.Cbv *ᵥ u := by
    intro u
    rw [mulVec_mulVec, Matrix.mul_assoc, h.2.1, Matrix.mul_one]
  unfold Fusion.velModel
  simp only [bdF, bdI, od, mmul_real, mvec_real]
  rw [c, w, cross_rot h, l]
  congr 1
  apply hb_ext
  intro j
  rw [hb_conj]
  rw [hb_set _ 9 _ 3 j rfl, hb_set _ 6 _ 2 j rfl, hb_set0 3 _ 1 j rfl, hb_set _ 9 _ 3 j rfl, hb_set _ 6 _ 2 j rfl, hb_set0 3 _ 1 j rfl]
  have s : -(f.Cbv * Rᵀ) * skew (R *ᵥ f.lbWheel) = -f.Cbv * skew f.lbWheel * Rᵀ := by
    rw [skew_rot h, ← Matrix.neg_mul]
    simp only [Matrix.mul_assoc]
    rw [← Matrix.mul_assoc Rᵀ R, h.2.1, Matrix.one_mul]
  rw [s]
  fin_cases j <;> simp [rb]

theorem body_nhc {R : M3 ℝ} (h : isRot R) (f f' : Fusion ℝ) (k : SameBody R f f') : SameBody R f.nhcStage f'.nhcStage := by
  obtain ⟨Q, a, o, sm, rfl, k⟩ := k
  have o1 : (bdF R Q a o sm f).opt.nhcEnable = f.opt.nhcEnable := (congrArg Opt.nhcEnable k.opt.rest :)
  have o2 : (bdF R Q a o sm f).opt.odoEnable = f.opt.odoEnable := (congrArg Opt.odoEnable k.opt.rest :)
  have o3 : (bdF R Q a o sm f).opt.nhcStd = f.opt.nhcStd := (congrArg Opt.nhcStd k.opt.rest :)
  have hz : (bdF R Q a o sm f).measureNHC = bdF R Q a o sm f.measureNHC := by
    unfold Fusion.measureNHC
    rw [vel_rot h Q a o sm f k.opt]
    dsimp only
    rw [o3]
    exact congrArg (fun k => ({ bdF R Q a o sm f with kf := k, updateFlag := f.updateFlag ||| Fusion.FLAG_VELOCITY } : Fusion ℝ))
      (bdK_update h f.kf (fun (i : Fin 2) j => f.velModel.2 ⟨i.val + 1, by omega⟩ j) _ _)
  have c0 : (bdF R Q a o sm f).timeUpdateIdx = f.timeUpdateIdx := rfl
  unfold Fusion.nhcStage
  rw [c0, o1, o2, hz]
  split_ifs
  · exact ⟨Q, a, o, sm, rfl, k.q, k.still, k.opt, k.gs, k.as, k.noise, k.zupta⟩
  · exact ⟨Q, a, o, sm, rfl, k.q, k.still, k.opt, k.gs, k.as, k.noise, k.zupta⟩

theorem body_time {R : M3 ℝ} (h : isRot R) (g : ℝ) (f f' : Fusion ℝ) (m : Imu ℝ) (k : SameBody R f f') :
    (f'.timeUpdate g (turnImu R m)).1 = (f.timeUpdate g m).1 ∧ SameBody R (f.timeUpdate g m).2 (f'.timeUpdate g (turnImu R m)).2 := by
  have k1 := body_apply _ _ (body_take R f f' k)
  obtain ⟨e1, k2⟩ := body_propagate h g _ _ m k1
  obtain ⟨Q, a, o, sm, e, k3⟩ := body_nhc h _ _ (body_zupt h _ _ k2)
  unfold Fusion.timeUpdate
  dsimp only
  refine ⟨e1, Q, a, o, sm, ?_, k3.q, k3.still, k3.opt, k3.gs, k3.as, k3.noise, k3.zupta⟩
  rw [e]
  rfl

theorem body_gnss {R : M3 ℝ} (h : isRot R) (f f' : Fusion ℝ) (m : Gnss ℝ) (k : SameBody R f f') : SameBody R (f.measureGnss m) (f'.measureGnss m) := by
  obtain ⟨Q, a, o, sm, rfl, k⟩ := k
  have o1 : (bdF R Q a o sm f).opt.gnssStdScale = f.opt.gnssStdScale := (congrArg Opt.gnssStdScale k.opt.rest :)
  have l : (f.ins.nav.Cbn * Rᵀ) *ᵥ (R *ᵥ f.lbGnss) = f.ins.nav.Cbn *ᵥ f.lbGnss := by
    rw [mulVec_mulVec, Matrix.mul_assoc, h.2.1, Matrix.mul_one]
  have hH : (bdF R Q a o sm f).posH = f.posH * (BB R)ᵀ := by
    apply hb_ext
    intro j
    rw [hb_conj]
    unfold Fusion.posH
    simp only [bdF, bdI, mvec_real]
    rw [l, hb_set _ 6 _ 2 j rfl, hb_set0 0 _ 0 j rfl, eyeM_real]
    fin_cases j <;> simp [rb]
  have hZ : ∀ p, (bdF R Q a o sm f).posZ p = f.posZ p := by
    intro p
    unfold Fusion.posZ
    simp only [bdF, bdI, mvec_real]
    rw [l]
  have hp : ∀ p V, (((bdF R Q a o sm f).setSensor SENSOR_GNSS).setGnssMode m.mode).measurePos p V =
      bdF R Q a o sm (((f.setSensor SENSOR_GNSS).setGnssMode m.mode).measurePos p V) := by
    intro p V
    unfold Fusion.measurePos
    have t1 : (((bdF R Q a o sm f).setSensor SENSOR_GNSS).setGnssMode m.mode).posH = (bdF R Q a o sm f).posH := rfl
    have t2 : (((bdF R Q a o sm f).setSensor SENSOR_GNSS).setGnssMode m.mode).posZ p = (bdF R Q a o sm f).posZ p := rfl
    rw [t1, t2, hH, hZ]
    exact congrArg (fun k => ({ ((bdF R Q a o sm f).setSensor SENSOR_GNSS).setGnssMode m.mode with kf := k, updateFlag := f.updateFlag ||| Fusion.FLAG_POSITION, monitor := f.monitor.onMeasUpdate } : Fusion ℝ))
      (bdK_update h f.kf f.posH (f.posZ p) V)
  unfold Fusion.measureGnss
  dsimp only
  rw [hp, o1]
  split_ifs
  · exact ⟨Q, a, o, sm, rfl, k.q, k.still, k.opt, k.gs, k.as, k.noise, k.zupta⟩
  · exact ⟨Q, a, o, sm, rfl, k.q, k.still, k.opt, k.gs, k.as, k.noise, k.zupta⟩

/-! ## Starting -/
theorem diag_alike (v : V3 ℝ) (h : ∀ i, v i = v 0) : diagM v = v 0 • (1 : M3 ℝ) := by
  rw [diagM_real, show v = fun _ => v 0 from funext h, ← smul_one_eq_diagonal]

theorem initStd_rot {R : M3 ℝ} (h : isRot R) (n : NavEpoch ℝ) (o : Opt ℝ) (ha : AxesAlike o) :
    BB R * Fusion.initStd n o * (BB R)ᵀ = Fusion.initStd n o := by
  apply bk_ext
  intro i j
  rw [bk_conj]
  unfold Fusion.initStd
  dsimp only
  rw [bk_set _ 12 12 _ 4 4 i j rfl rfl, bk_set _ 9 9 _ 3 3 i j rfl rfl, bk_set _ 6 6 _ 2 2 i j rfl rfl, bk_set _ 3 3 _ 1 1 i j rfl rfl,
    bk_set0 0 0 _ 0 0 i j rfl rfl, diag_alike _ ha.gbStd, diag_alike _ ha.abStd]
  fin_cases i <;> fin_cases j <;> simp [rb, h.1]

theorem bk_diag (v : Fin 15 → ℝ) (i j : Fin 5) : bk (diagM v) i j = if i = j then diagM (xb v i) else 0 := by
  ext a b
  show (if ix i a = ix j b then v (ix i a) else 0) = _
  by_cases e : i = j
  · subst e
    rw [if_pos rfl]
    show _ = if a = b then v (ix i a) else 0
    congr 1
    simp [ix, Fin.ext_iff]
  · rw [if_neg e, if_neg]
    · rfl
    · intro c
      simp only [ix, Fin.ext_iff] at c
      exact e (Fin.ext (by omega))

theorem initQ0_rot {R : M3 ℝ} (h : isRot R) (o : Opt ℝ) (ha : AxesAlike o) : BB R * Fusion.initQ0 o * (BB R)ᵀ = Fusion.initQ0 o := by
  apply bk_ext
  intro i j
  rw [bk_conj]
  unfold Fusion.initQ0
  dsimp only
  rw [bk_diag]
  by_cases e : i = j
  · subst e
    rw [if_pos rfl]
    unfold rb
    split_ifs with hi
    · rw [transpose_one, Matrix.mul_one, Matrix.one_mul]
    · rw [diag_alike]
      · rw [Matrix.mul_smul, Matrix.smul_mul, Matrix.mul_one, h.1]
      · intro a
        have h34 : i = 3 ∨ i = 4 := by
          rcases i with ⟨i, hi'⟩
          simp only [Fin.ext_iff] at *
          simp at hi
          show i = 3 ∨ i = 4
          omega
        rcases h34 with rfl | rfl
        · have e1 : ∀ a : Fin 3, ¬ (ix 3 a).val < 3 ∧ ¬ (ix 3 a).val < 6 ∧ ¬ (ix 3 a).val < 9 ∧ (ix 3 a).val < 12 ∧ (ix 3 a).val - 9 = a.val := by decide
          obtain ⟨a1, a2, a3, a4, a5⟩ := e1 a
          obtain ⟨b1, b2, b3, b4, b5⟩ := e1 0
          have ga := ha.gbStd a
          simp only [xb, if_neg a1, if_neg a2, if_neg a3, dif_pos a4, if_neg b1, if_neg b2, if_neg b3, dif_pos b4, a5, b5, Fin.eta, ga]
        · have e1 : ∀ a : Fin 3, ¬ (ix 4 a).val < 3 ∧ ¬ (ix 4 a).val < 6 ∧ ¬ (ix 4 a).val < 9 ∧ ¬ (ix 4 a).val < 12 ∧ (ix 4 a).val - 12 = a.val := by decide
          obtain ⟨a1, a2, a3, a4, a5⟩ := e1 a
          obtain ⟨b1, b2, b3, b4, b5⟩ := e1 0
          have ga := ha.abStd a
          simp only [xb, if_neg a1, if_neg a2, if_neg a3, dif_neg a4, if_neg b1, if_neg b2, if_neg b3, dif_neg b4, a5, b5, Fin.eta, ga]
  · rw [if_neg e, Matrix.mul_zero, Matrix.zero_mul]

theorem body_init {R : M3 ℝ} (h : isRot R) (g : ℝ) (j : Fusion ℝ) (o o' : Opt ℝ) (n n' : NavOutput ℝ) (ha : AxesAlike o) (ho : Remounted R o o')
    (hn : sameState R n n') :
    (Fusion.initFusion g (Fusion.new j) (makeNavEpoch n' o') o').1 = (Fusion.initFusion g (Fusion.new j) (makeNavEpoch n o) o).1 ∧
    SameBody R (Fusion.initFusion g (Fusion.new j) (makeNavEpoch n o) o).2 (Fusion.initFusion g (Fusion.new j) (makeNavEpoch n' o') o').2 := by
  obtain ⟨hn1, hn2⟩ := hn
  have deg' : (deg : ℝ) = Real.pi / 180 := by simp [deg]
  have va : ∀ n : NavOutput ℝ, (v3 (n.atti 0 * deg) (n.atti 1 * deg) (n.atti 2 * deg) : V3 ℝ) = fun i => n.atti i * (Real.pi / 180) := by
    intro n
    rw [deg']
    ext i; fin_cases i <;> rfl
  set e : V3 ℝ := fun i => n.atti i * (Real.pi / 180) with he
  set e' : V3 ℝ := fun i => n'.atti i * (Real.pi / 180) with he'
  rw [attMatrix_eq, attMatrix_eq] at hn2
  have o1 : o'.odoScale = o.odoScale := (congrArg Opt.odoScale ho.rest :)
  have o2 : o'.dRate = o.dRate := (congrArg Opt.dRate ho.rest :)
  have o3 : o'.posStd = o.posStd := (congrArg Opt.posStd ho.rest :)
  have o4 : o'.velStd = o.velStd := (congrArg Opt.velStd ho.rest :)
  have o5 : o'.attiStd = o.attiStd := (congrArg Opt.attiStd ho.rest :)
  have o6 : o'.imuPara = { o.imuPara with gbIni := R *ᵥ o.imuPara.gbIni, abIni := R *ᵥ o.imuPara.abIni } := (congrArg Opt.imuPara ho.rest :)
  have o7 : o'.lbGnss = R *ᵥ o.lbGnss := (congrArg Opt.lbGnss ho.rest :)
  have o8 : o'.lbWheel = R *ᵥ o.lbWheel := (congrArg Opt.lbWheel ho.rest :)
  have n1 : n'.gpst = n.gpst := (congrArg NavOutput.gpst hn1 :)
  have n2 : n'.lat = n.lat := (congrArg NavOutput.lat hn1 :)
  have n3 : n'.lon = n.lon := (congrArg NavOutput.lon hn1 :)
  have n4 : n'.height = n.height := (congrArg NavOutput.height hn1 :)
  have n5 : n'.vn = n.vn := (congrArg NavOutput.vn hn1 :)
  have n6 : n'.info = n.info := (congrArg NavOutput.info hn1 :)
  have n7 : n'.week = n.week := (congrArg NavOutput.week hn1 :)
  have hN : makeNavEpoch n' o' = { makeNavEpoch n o with Qbn := eulerToQuat e', Cbn := (makeNavEpoch n o).Cbn * Rᵀ, atti := e', gb := R *ᵥ o.imuPara.gbIni, ab := R *ᵥ o.imuPara.abIni } := by
    unfold makeNavEpoch
    simp only [va, o1, o3, o4, o5, o6, n1, n2, n3, n4, n5, n6, n7]
    rw [← he', hn2]
  have hP : Fusion.initStd (makeNavEpoch n' o') o' = Fusion.initStd (makeNavEpoch n o) o := by
    unfold Fusion.initStd
    rw [hN, o6]
  have hQ : Fusion.initQ0 o' = Fusion.initQ0 o := by
    unfold Fusion.initQ0
    rw [o6]
  have hC : eulerToDcm o'.angleBv = eulerToDcm o.angleBv * Rᵀ := by
    rw [← attMatrix_eq, ← attMatrix_eq]; exact ho.vehicle
  have hPP : mmul (Fusion.initStd (makeNavEpoch n o) o) (Fusion.initStd (makeNavEpoch n o) o) =
      BB R * mmul (Fusion.initStd (makeNavEpoch n o) o) (Fusion.initStd (makeNavEpoch n o) o) * (BB R)ᵀ := by
    have hs := initStd_rot h (makeNavEpoch n o) o ha
    rw [mmul_real]
    conv_lhs => rw [← hs]
    simp only [Matrix.mul_assoc]
    rw [← Matrix.mul_assoc (BB R)ᵀ (BB R), BB_orth' h, Matrix.one_mul]
  have z3 : (zero3 : V3 ℝ) = R *ᵥ zero3 := by
    have : (zero3 : V3 ℝ) = 0 := by ext i; fin_cases i <;> rfl
    rw [this, mulVec_zero]
  have z15 : (fun _ => 0 : Fin 15 → ℝ) = BB R *ᵥ fun _ => 0 := (mulVec_zero (BB R)).symm
  refine ⟨?_, eulerToQuat e', e', o', (Fusion.new j).smooth, ?_, ?_⟩
  · show Earth.gravity ((makeNavEpoch n' o').pos 0) ((makeNavEpoch n' o').pos 2) = Earth.gravity ((makeNavEpoch n o).pos 0) ((makeNavEpoch n o).pos 2)
    rw [hN]
  · unfold Fusion.initFusion Ins.initializePva
    dsimp only
    rw [hP, hQ, hC, hN, o7, o8, o1, o2]
    simp only [bdF, bdI, bdK, Kf.ofState]
    rw [← hPP, ← z3, ← z15]
    have zk : (Fusion.new j).kfXd = BB R *ᵥ (Fusion.new j).kfXd := z15
    rw [← zk]
    rfl
  · have hu := qsq_euler e
    have hu' := qsq_euler e'
    have hq : (Fusion.initFusion g (Fusion.new j) (makeNavEpoch n o) o).2.ins.nav.Qbn = eulerToQuat e := by
      show eulerToQuat _ = _
      rw [va]
    refine ⟨⟨?_, by rw [hu']; norm_num, ?_⟩, ?_, ho, ha.gs, ha.as, initQ0_rot h o ha, ha.zupta⟩
    · rw [hq, hu]; norm_num
    · rw [hq, ← rn_unit _ hu', ← rn_unit _ hu]
      have c1 := (C39_euler_quaternion_agrees e).2
      have c2 := (C39_euler_quaternion_agrees e').2
      rw [quatToDcm] at c1 c2
      rw [c1, c2, hn2]
    · exact ⟨z3, rfl, rfl, rfl, rfl, rfl, rfl, rfl⟩

/-! ## The API -/
/-- The devices of the two runs. -/
structure SameM (R : M3 ℝ) (p p' : ℝ × Dev ℝ) : Prop where
  g : p'.1 = p.1
  status : p'.2.status = p.2.status
  mode : p.2.opt.alignMode = ALIGN_USE_GIVEN
  alike : AxesAlike p.2.opt
  opt : Remounted R p.2.opt p'.2.opt
  pva : sameState R p.2.curPva p'.2.curPva
  phase : p.2.status = ST_INIT ∧ (∃ j, p.2.df = Fusion.new j ∧ p'.2.df = Fusion.new j) ∨
    p.2.status = ST_NAVIGATION ∧ SameBody R p.2.df p'.2.df ∧ (Live p.2.df ∧ attitudeOk p.2.df.ins.nav) ∧ (Live p'.2.df ∧ attitudeOk p'.2.df.ins.nav) ∧ p.2.df.opt = p.2.opt

theorem attOk_meas {f f' : Fusion ℝ} (k : MeasKeeps f f') (h : attitudeOk f.ins.nav) : attitudeOk f'.ins.nav := by
  obtain ⟨i, hi⟩ := k.ins
  rw [hi]
  exact h

theorem timeUpdate_opt (g : ℝ) (f : Fusion ℝ) (m : Imu ℝ) : (f.timeUpdate g m).2.opt = f.opt := by
  have h1 : f.takeCorrection.opt = f.opt := by unfold Fusion.takeCorrection; split_ifs <;> rfl
  have h2 : ∀ f : Fusion ℝ, f.applyCorrection.opt = f.opt := by intro f; unfold Fusion.applyCorrection; split_ifs <;> rfl
  have h3 : ∀ f : Fusion ℝ, (f.propagate g m).2.opt = f.opt := fun f => rfl
  have h4 : ∀ f : Fusion ℝ, f.zuptStage.opt = f.opt := by
    intro f; unfold Fusion.zuptStage Fusion.measureZeroVelocity; dsimp only; split_ifs <;> rfl
  have h5 : ∀ f : Fusion ℝ, f.nhcStage.opt = f.opt := by intro f; unfold Fusion.nhcStage; split_ifs <;> rfl
  show (f.takeCorrection.applyCorrection.propagate g m).2.zuptStage.nhcStage.opt = _
  rw [h5, h4, h3, h2, h1]

theorem mount_step {R : M3 ℝ} (hR : isRot R) (c c' : Call ℝ) (hc : RemountCall R c c') (p p' : ℝ × Dev ℝ)
    (h : SameM R p p' ∨ ∃ o n j, c = .init o (some n) j ∧ p'.1 = p.1) :
    (c.isQuery = false → (c'.exec p').2 = (c.exec p).2) ∧ SameM R (c.exec p).1 (c'.exec p').1 := by
  cases hc with
  | init o o' n n' j given alike opt nav =>
    have hg : p'.1 = p.1 := by
      rcases h with h | ⟨o, n, j, _, h⟩
      · exact h.g
      · exact h
    have om : o'.alignMode = o.alignMode := (congrArg Opt.alignMode opt.rest :)
    have hn : ¬ (o.alignMode = ALIGN_USE_GIVEN ∧ (some n).isNone = true) := by simp
    have hn' : ¬ (o'.alignMode = ALIGN_USE_GIVEN ∧ (some n').isNone = true) := by simp
    simp only [Call.exec, rgioeInit, if_neg hn, if_neg hn']
    exact ⟨fun _ => trivial, hg, rfl, given, alike, opt, nav, Or.inl ⟨rfl, j.df, rfl, rfl⟩⟩
  | time m =>
    have h : SameM R p p' := by
      rcases h with h | ⟨_, _, _, h, _⟩
      · exact h
      · cases h
    have om : p'.2.opt.alignMode = p.2.opt.alignMode := (congrArg Opt.alignMode h.opt.rest :)
    have hm' : p'.2.opt.alignMode = ALIGN_USE_GIVEN := om.trans h.mode
    show (_ → Answer.code (rgioeTimeupdate p'.1 p'.2 (some (turnImu R m))).1 = Answer.code (rgioeTimeupdate p.1 p.2 (some m)).1) ∧
        SameM R (rgioeTimeupdate p.1 p.2 (some m)).2 (rgioeTimeupdate p'.1 p'.2 (some (turnImu R m))).2
    rcases h.phase with ⟨s0, j, hf, hf'⟩ | ⟨s3, hb, hl, hl', hopt⟩
    · have t0 : p'.2.status = ST_INIT := h.status.trans s0
      have hi := body_init hR p.1 j p.2.opt p'.2.opt p.2.curPva p'.2.curPva h.alike h.opt h.pva
      have l1 := live_given p.1 (Fusion.new j) p.2.curPva p.2.opt
      have l2 := live_given p.1 (Fusion.new j) p'.2.curPva p'.2.opt
      have oo : (Fusion.initFusion p.1 (Fusion.new j) (makeNavEpoch p.2.curPva p.2.opt) p.2.opt).2.opt = p.2.opt := rfl
      unfold rgioeTimeupdate
      dsimp only
      simp only [if_pos s0, if_pos t0, if_pos h.mode, if_pos hm']
      rw [h.g, hf, hf']
      generalize Fusion.initFusion p.1 (Fusion.new j) (makeNavEpoch p.2.curPva p.2.opt) p.2.opt = a at *
      generalize Fusion.initFusion p.1 (Fusion.new j) (makeNavEpoch p'.2.curPva p'.2.opt) p'.2.opt = b at *
      obtain ⟨e1, e2⟩ := hi
      have ht := body_time hR a.1 a.2 b.2 m e2
      have k1 := timeUpdate_ok a.1 a.2 m l1
      have k2 := timeUpdate_ok a.1 b.2 (turnImu R m) l2
      have k3 := live_time a.1 a.2 m l1
      have k4 := live_time a.1 b.2 (turnImu R m) l2
      have k5 := timeUpdate_opt a.1 a.2 m
      rw [e1]
      exact ⟨fun _ => trivial, ht.1, rfl, h.mode, h.alike, h.opt, h.pva, Or.inr ⟨rfl, ht.2, ⟨k3, k1.1⟩, ⟨k4, k2.1⟩, k5.trans oo⟩⟩
    · have t3 : p'.2.status = ST_NAVIGATION := h.status.trans s3
      have n0 : ∀ x : Int, x = ST_NAVIGATION → ¬ x = ST_INIT := by rintro x rfl; decide
      have n1 : ∀ x : Int, x = ST_NAVIGATION → ¬ x = ST_ALIGN := by rintro x rfl; decide
      have n2 : ∀ x : Int, x = ST_NAVIGATION → ¬ x = ST_ATTITUDE := by rintro x rfl; decide
      have ht := body_time hR p.1 p.2.df p'.2.df m hb
      have k1 := timeUpdate_ok p.1 p.2.df m hl.1
      have k2 := timeUpdate_ok p.1 p'.2.df (turnImu R m) hl'.1
      have k3 := live_time p.1 p.2.df m hl.1
      have k4 := live_time p.1 p'.2.df (turnImu R m) hl'.1
      have k5 := timeUpdate_opt p.1 p.2.df m
      unfold rgioeTimeupdate
      dsimp only
      simp only [if_neg (n0 _ s3), if_neg (n0 _ t3), if_neg (n1 _ s3), if_neg (n1 _ t3), if_neg (n2 _ s3), if_neg (n2 _ t3), if_pos s3, if_pos t3]
      rw [h.g]
      exact ⟨fun _ => trivial, ht.1, h.status, h.mode, h.alike, h.opt, h.pva, Or.inr ⟨s3, ht.2, ⟨k3, k1.1⟩, ⟨k4, k2.1⟩, k5.trans hopt⟩⟩
  | time0 =>
    rcases h with h | ⟨_, _, _, h, _⟩
    · exact ⟨fun _ => rfl, h⟩
    · cases h
  | gnss m =>
    replace h : SameM R p p' := by
      rcases h with h | ⟨_, _, _, h, _⟩
      · exact h
      · cases h
    cases m with
    | none => exact ⟨fun _ => rfl, h⟩
    | some m =>
      show (_ → Answer.code (rgioeGnssupdate p'.1 p'.2 (some m)).1 = Answer.code (rgioeGnssupdate p.1 p.2 (some m)).1) ∧
        SameM R (rgioeGnssupdate p.1 p.2 (some m)).2 (rgioeGnssupdate p'.1 p'.2 (some m)).2
      rcases h.phase with ⟨s0, j, hf, hf'⟩ | ⟨s3, hb, hl, hl', hopt⟩
      · have t0 : p'.2.status = ST_INIT := h.status.trans s0
        unfold rgioeGnssupdate
        dsimp only
        simp only [if_pos s0, if_pos t0]
        exact ⟨fun _ => trivial, h.g, h.status, h.mode, h.alike, h.opt, h.pva, Or.inl ⟨s0, j, hf, hf'⟩⟩
      · have t3 : p'.2.status = ST_NAVIGATION := h.status.trans s3
        have n0 : ∀ x : Int, x = ST_NAVIGATION → ¬ x = ST_INIT := by rintro x rfl; decide
        have n1 : ∀ x : Int, x = ST_NAVIGATION → ¬ (x = ST_ALIGN ∨ x = ST_ATTITUDE) := by rintro x rfl; decide
        have k1 := meas_gnss p.2.df m
        have k2 := meas_gnss p'.2.df m
        unfold rgioeGnssupdate
        dsimp only
        simp only [if_neg (n0 _ s3), if_neg (n0 _ t3), if_neg (n1 _ s3), if_neg (n1 _ t3), if_pos s3, if_pos t3]
        exact ⟨fun _ => trivial, h.g, h.status, h.mode, h.alike, h.opt, h.pva, Or.inr ⟨s3, body_gnss hR _ _ m hb, ⟨live_meas k1 hl.1, attOk_meas k1 hl.2⟩,
          ⟨live_meas k2 hl'.1, attOk_meas k2 hl'.2⟩, k1.opt.trans hopt⟩⟩
  | query c hq =>
    refine ⟨fun e => absurd hq (by simp [e]), ?_⟩
    rcases h with h | ⟨_, _, _, rfl, _⟩
    · cases c <;> first | exact h | simp [Call.isQuery] at hq
    · simp [Call.isQuery] at hq
  | deinit =>
    rcases h with h | ⟨_, _, _, h, _⟩
    · exact ⟨fun _ => rfl, h⟩
    · cases h

theorem mount_run {R : M3 ℝ} (hR : isRot R) (cs cs' : List (Call ℝ)) (hc : List.Forall₂ (RemountCall R) cs cs') (p p' : ℝ × Dev ℝ)
    (h : SameM R p p') : SameM R (runCalls cs p) (runCalls cs' p') := by
  induction hc generalizing p p' with
  | nil => exact h
  | cons hc _ ih => exact ih _ _ (mount_step hR _ _ hc p p' (Or.inl h)).2

theorem P_low (R : M3 ℝ) (P : Matrix (Fin 15) (Fin 15) ℝ) (k l : Fin 15) (hk : k.val < 9) (hl : l.val < 9) : (BB R * P * (BB R)ᵀ) k l = P k l := by
  obtain ⟨i, a, rfl⟩ := ix_surj k
  obtain ⟨j, b, rfl⟩ := ix_surj l
  have := congrFun (congrFun (bk_conj R P i j) a) b
  rw [rb, rb, if_pos (by simp only [ix] at hk; omega), if_pos (by simp only [ix] at hl; omega), transpose_one, Matrix.mul_one, Matrix.one_mul] at this
  exact this

theorem body_output {R : M3 ℝ} (h : isRot R) (f f' : Fusion ℝ) (k : SameBody R f f') (ha : attitudeOk f.ins.nav) (ha' : attitudeOk f'.ins.nav) :
    f'.output = { f.output with atti := f'.output.atti, gb := R *ᵥ f.output.gb, ab := R *ᵥ f.output.ab } ∧
    (f.opt.outputProjectEnable ≠ 0 → f'.output.atti = f.output.atti) ∧
    (f.opt.outputProjectEnable = 0 → ∃ C, isRot C ∧
      (|C 2 0| < 999 / 1000 → attMatrix (fun i => f.output.atti i * (Real.pi / 180)) = C) ∧
      (|(C * Rᵀ) 2 0| < 999 / 1000 → attMatrix (fun i => f'.output.atti i * (Real.pi / 180)) = C * Rᵀ)) := by
  obtain ⟨Q, a, o, sm, rfl, k⟩ := k
  have o1 : o.outputProjectEnable = f.opt.outputProjectEnable := (congrArg Opt.outputProjectEnable k.opt.rest :)
  have o2 : o.posProject = R *ᵥ f.opt.posProject := (congrArg Opt.posProject k.opt.rest :)
  have hp : (bdF R Q a o sm f).projPos = f.projPos := by
    unfold Fusion.projPos
    simp only [bdF, bdI, mvec_real, o2]
    rw [mulVec_mulVec (f.opt.posProject), Matrix.mul_assoc, h.2.1, Matrix.mul_one]
  have hA : (bdF R Q a o sm f).projAtti = f.projAtti := by
    have e := k.opt.output
    rw [attMatrix_eq, attMatrix_eq] at e
    unfold Fusion.projAtti
    simp only [bdF, bdI, mmul_real]
    rw [e, Matrix.mul_assoc, ← Matrix.mul_assoc Rᵀ R, h.2.1, Matrix.one_mul]
  have deg' : (deg : ℝ) = Real.pi / 180 := by simp [deg]
  have dpos : (deg : ℝ) ≠ 0 := by rw [deg']; positivity
  have back : ∀ v : V3 ℝ, (fun i => vd v deg i * (Real.pi / 180)) = v := by
    intro v
    funext i
    show v i / deg * (Real.pi / 180) = v i
    rw [← deg', div_mul_cancel₀ _ dpos]
  refine ⟨?_, ?_, ?_⟩
  · have p1 : (fun i : Fin 3 => Fl.sqrt ((bdF R Q a o sm f).kf.P ⟨i.val, by omega⟩ ⟨i.val, by omega⟩)) = fun i : Fin 3 => Fl.sqrt (f.kf.P ⟨i.val, by omega⟩ ⟨i.val, by omega⟩) := by
      funext i; exact congrArg Real.sqrt (P_low R f.kf.P _ _ (by simp; omega) (by simp; omega))
    have p2 : (fun i : Fin 3 => Fl.sqrt ((bdF R Q a o sm f).kf.P ⟨3 + i.val, by omega⟩ ⟨3 + i.val, by omega⟩)) = fun i : Fin 3 => Fl.sqrt (f.kf.P ⟨3 + i.val, by omega⟩ ⟨3 + i.val, by omega⟩) := by
      funext i; exact congrArg Real.sqrt (P_low R f.kf.P _ _ (by simp; omega) (by simp; omega))
    have p3 : (fun i : Fin 3 => Fl.sqrt ((bdF R Q a o sm f).kf.P ⟨6 + i.val, by omega⟩ ⟨6 + i.val, by omega⟩)) = fun i : Fin 3 => Fl.sqrt (f.kf.P ⟨6 + i.val, by omega⟩ ⟨6 + i.val, by omega⟩) := by
      funext i; exact congrArg Real.sqrt (P_low R f.kf.P _ _ (by simp; omega) (by simp; omega))
    have o1' : (bdF R Q a o sm f).opt.outputProjectEnable = f.opt.outputProjectEnable := o1
    have hv : ∀ (v : V3 ℝ) (c : ℝ), vd v c = c⁻¹ • v := fun v c => by ext i; simp [vd, div_eq_inv_mul]
    have g1 : vs (vd (bdF R Q a o sm f).ins.nav.gb deg) hour = R *ᵥ vs (vd f.ins.nav.gb deg) hour := by
      rw [vs_real, vs_real, hv, hv, mulVec_smul, mulVec_smul]; rfl
    have g2 : vd (bdF R Q a o sm f).ins.nav.ab mGal = R *ᵥ vd f.ins.nav.ab mGal := by
      rw [hv, hv, mulVec_smul]; rfl
    unfold Fusion.output
    dsimp only
    rw [p1, p2, p3, o1', hp, g1, g2]
    rfl
  · intro he
    unfold Fusion.output
    dsimp only
    rw [if_pos he, if_pos (show (bdF R Q a o sm f).opt.outputProjectEnable ≠ 0 from o1 ▸ he), hA]
  · intro he
    have he1 : ¬ f.opt.outputProjectEnable ≠ 0 := not_not.2 he
    have he2 : ¬ (bdF R Q a o sm f).opt.outputProjectEnable ≠ 0 := not_not.2 (o1.trans he)
    have a1 : f.output.atti = vd f.ins.nav.atti deg := by
      unfold Fusion.output; dsimp only; rw [if_neg he1]
    have a2 : (bdF R Q a o sm f).output.atti = vd (bdF R Q a o sm f).ins.nav.atti deg := by
      unfold Fusion.output; dsimp only; rw [if_neg he2]
    obtain ⟨-, -, r1, t1⟩ := ha
    obtain ⟨-, -, r2, t2⟩ := ha'
    refine ⟨f.ins.nav.Cbn, r1, fun hl => ?_, fun hl => ?_⟩
    · rw [a1, back, attMatrix_eq, t1, C40_matrix_round_trip _ r1 hl]
    · rw [a2, back, attMatrix_eq, t2, C40_matrix_round_trip _ r2 hl]
      rfl

/-- **C164.** The same drive is recorded twice with the IMU mounted differently (`R`, any rotation), the options and the
given start state being those of the same vehicle expressed in the other axes (`Remounted`, `sameState`), the stated
sensor properties being the same for the three axes. Whatever was in the devices before and at every point of the
history: return values and status agree; position, velocity and all reported deviations agree; the reported biases are
the turned ones; with output projection the attitude agrees too, and without it the reported angles are those of
matrices `C` and `C Rᵀ`, whenever neither pitch is beyond the threshold where roll and heading are not reported. -/
theorem C164_mounting_does_not_matter (R : M3 ℝ) (hR : isRot R) (o o' : Opt ℝ) (n n' : NavOutput ℝ) (j : Junk ℝ) (cs cs' : List (Call ℝ))
    (h0 : RemountCall R (.init o (some n) j) (.init o' (some n') j)) (hc : List.Forall₂ (RemountCall R) cs cs') (g : ℝ) (d d' : Dev ℝ) :
    let p := runCalls (.init o (some n) j :: cs) (g, d)
    let p' := runCalls (.init o' (some n') j :: cs') (g, d')
    (∀ c c', RemountCall R c c' → c.isQuery = false → (c'.exec p').2 = (c.exec p).2) ∧
    rgioeGetStatus p'.2 = rgioeGetStatus p.2 ∧
    rgioeGetPos p'.2 = rgioeGetPos p.2 ∧
    rgioeGetVel p'.2 = rgioeGetVel p.2 ∧
    (rgioeGetAtti p'.2).2 = (rgioeGetAtti p.2).2 ∧
    ∀ r, (rgioeGetResult p'.2 r).1 = (rgioeGetResult p.2 r).1 ∧
      (p.2.status ≠ 3 → (rgioeGetResult p'.2 r).2 = r ∧ (rgioeGetResult p.2 r).2 = r) ∧
      (p.2.status = 3 →
        let a := (rgioeGetResult p.2 r).2
        let b := (rgioeGetResult p'.2 r).2
        b = { a with atti := b.atti, gb := R *ᵥ a.gb, ab := R *ᵥ a.ab } ∧
        (p.2.opt.outputProjectEnable ≠ 0 → b.atti = a.atti) ∧
        (p.2.opt.outputProjectEnable = 0 → ∃ C, isRot C ∧
          (|C 2 0| < 999 / 1000 → attMatrix (fun i => a.atti i * (Real.pi / 180)) = C) ∧
          (|(C * Rᵀ) 2 0| < 999 / 1000 → attMatrix (fun i => b.atti i * (Real.pi / 180)) = C * Rᵀ))) := by
  intro p p'
  have k : SameM R p p' := mount_run hR cs cs' hc _ _ (mount_step hR _ _ h0 (g, d) (g, d') (Or.inr ⟨o, n, j, rfl, rfl⟩)).2
  have t := k.status
  refine ⟨fun c c' h1 h2 => (mount_step hR c c' h1 p p' (Or.inl k)).1 h2, t, ?_⟩
  rcases k.phase with ⟨s0, j, hf, hf'⟩ | ⟨s3, hb, hl, hl', hopt⟩
  · refine ⟨?_, ?_, ?_, fun r => ⟨rfl, fun _ => ?_, fun e => ?_⟩⟩
    · unfold rgioeGetPos; dsimp only; rw [hf, hf']
    · unfold rgioeGetVel; dsimp only; rw [hf, hf']
    · unfold rgioeGetAtti; dsimp only; rw [hf, hf']
    · have n3 : ∀ x : Int, x = ST_INIT → ¬ x = ST_NAVIGATION := by rintro x rfl; decide
      have n1 : ∀ x : Int, x = ST_INIT → ¬ x = ST_ALIGN := by rintro x rfl; decide
      have n2 : ∀ x : Int, x = ST_INIT → ¬ x = ST_ATTITUDE := by rintro x rfl; decide
      unfold rgioeGetResult
      dsimp only
      simp only [if_neg (n3 _ (t.trans s0)), if_neg (n1 _ (t.trans s0)), if_neg (n2 _ (t.trans s0)), if_neg (n3 _ s0), if_neg (n1 _ s0), if_neg (n2 _ s0)]
      exact ⟨trivial, trivial⟩
    · rw [s0] at e; exact absurd e (by decide)
  · obtain ⟨e1, e2, e3⟩ := body_output hR _ _ hb hl.2 hl'.2
    rw [hopt] at e2 e3
    have r1 : ∀ r, (rgioeGetResult p.2 r).2 = p.2.df.output := by
      intro r; unfold rgioeGetResult; dsimp only; simp only [if_pos s3]
    have r2 : ∀ r, (rgioeGetResult p'.2 r).2 = p'.2.df.output := by
      intro r; unfold rgioeGetResult; dsimp only; simp only [if_pos (t.trans s3)]
    refine ⟨?_, ?_, ?_, fun r => ⟨rfl, fun e => absurd s3 e, fun _ => ?_⟩⟩
    · unfold rgioeGetPos; dsimp only; rw [e1]
    · unfold rgioeGetVel; dsimp only; rw [e1]
    · unfold rgioeGetAtti; dsimp only; rw [e1]
    · rw [r1, r2]; exact ⟨e1, e2, e3⟩

/-- The mounting turned by any angle about the vertical axis, with the angles that go with it. -/
example (t : ℝ) (n : NavOutput ℝ) (hn : n.atti = fun _ => 0) (j : Junk ℝ) :
    let o : Opt ℝ := { Ex.opt 2 with angleBv := fun _ => 0, attiProject := fun _ => 0 }
    isRot (Rz t) ∧ RemountCall (Rz t) (.init o (some n) j)
      (.init { o with imuPara := { o.imuPara with gbIni := Rz t *ᵥ o.imuPara.gbIni, abIni := Rz t *ᵥ o.imuPara.abIni }
                      lbGnss := Rz t *ᵥ o.lbGnss, lbWheel := Rz t *ᵥ o.lbWheel, posProject := Rz t *ᵥ o.posProject
                      angleBv := v3 0 0 (-t), attiProject := v3 0 0 t }
        (some { n with atti := v3 0 0 (-t / (Real.pi / 180)) }) j) := by
  intro o
  have hpi : Real.pi / 180 ≠ 0 := by positivity
  have z : attMatrix (fun _ => 0) = 1 := by
    ext i k; fin_cases i <;> fin_cases k <;> simp [attMatrix, Rx, Ry, Rz, Matrix.mul_apply, Fin.sum_univ_three]
  have zt : ∀ x : ℝ, attMatrix (v3 0 0 x) = Rz x := by
    intro x
    ext i k; fin_cases i <;> fin_cases k <;> simp [attMatrix, Rx, Ry, Rz, Matrix.mul_apply, Fin.sum_univ_three, v3]
  have tt : (Rz t)ᵀ = Rz (-t) := by
    ext i k; fin_cases i <;> fin_cases k <;> simp [Rz]
  refine ⟨isRot_Rz t, RemountCall.init _ _ _ _ _ rfl ⟨fun i => by fin_cases i <;> rfl, fun i => by fin_cases i <;> rfl, fun i => by fin_cases i <;> rfl,
    fun i => by fin_cases i <;> rfl, rfl⟩ ⟨rfl, ?_, ?_⟩ ⟨rfl, ?_⟩⟩
  · show attMatrix (v3 0 0 (-t)) = attMatrix (fun _ => 0) * (Rz t)ᵀ
    rw [zt, z, tt, Matrix.one_mul]
  · show attMatrix (v3 0 0 t) = Rz t * attMatrix (fun _ => 0)
    rw [zt, z, Matrix.mul_one]
  · have e1 : (fun i => n.atti i * (Real.pi / 180)) = fun _ => (0 : ℝ) := by funext i; rw [hn]; simp
    have e2 : (fun i => (v3 0 0 (-t / (Real.pi / 180)) : V3 ℝ) i * (Real.pi / 180)) = v3 0 0 (-t) := by
      funext i
      fin_cases i
      · simp [v3]
      · simp [v3]
      · show -t / (Real.pi / 180) * (Real.pi / 180) = -t
        rw [div_mul_cancel₀ _ hpi]
    rw [e1, z, Matrix.one_mul, tt, ← zt, ← e2]
end Verif.Props
