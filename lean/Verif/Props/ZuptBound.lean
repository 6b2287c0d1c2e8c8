import Verif.Props.Variance
import Verif.Props.Innovation
import Mathlib.Data.List.Induction
/-! C132: a zero-velocity update bounds the velocity uncertainty that is reported. -/
namespace Verif.Props
open Verif Verif.Spec Verif.Convert Matrix

/-- What a filter keeps from its initialisation: process noise, sampling interval, options. -/
structure Fixed (o : Opt ℝ) (f : Fusion ℝ) : Prop where
  q : f.Q0 = Fusion.initQ0 o
  dt : f.ins.dt = 1 / (ofI o.dRate : ℝ)
  opt : f.opt = o

theorem fixed_correct {o : Opt ℝ} (f : Fusion ℝ) (h : Fixed o f) :
    Fixed o f.takeCorrection.applyCorrection ∧ f.takeCorrection.applyCorrection.kf.P = f.kf.P := by
  have h1 : Fixed o f.takeCorrection ∧ f.takeCorrection.kf.P = f.kf.P := by
    unfold Fusion.takeCorrection; split_ifs
    · exact ⟨⟨h.q, h.dt, h.opt⟩, rfl⟩
    · exact ⟨h, rfl⟩
  generalize f.takeCorrection = f1 at h1
  unfold Fusion.applyCorrection
  split_ifs
  · exact ⟨⟨h1.1.q, h1.1.dt, h1.1.opt⟩, h1.2⟩
  · exact h1

theorem fixed_prop {o : Opt ℝ} (s : ℝ × Fusion ℝ) (m : Imu ℝ) (h : Fixed o s.2) : Fixed o (propagated s m) ∧
    ∃ g, (propagated s m).kf.P = (propagated s m).transferMatrix g * s.2.kf.P * ((propagated s m).transferMatrix g)ᵀ +
      (propagated s m).stepQ ((propagated s m).transferMatrix g) := by
  have h1 := fixed_correct s.2 h
  have e : propagated s m = (s.2.takeCorrection.applyCorrection.afterIns m (s.2.takeCorrection.applyCorrection.ins.forwardImu s.1 m)).2 := by
    unfold propagated; rw [Fusion.propagate_eq]
  rw [e]
  generalize s.2.takeCorrection.applyCorrection = f at h1
  have hdt : (f.ins.forwardImu s.1 m).2.dt = f.ins.dt := rfl
  generalize f.ins.forwardImu s.1 m = r at hdt
  refine ⟨⟨h1.1.q, hdt.trans h1.1.dt, h1.1.opt⟩, r.1, ?_⟩
  rw [← h1.2]
  exact (predict_P f.kf _ _).1

theorem fixed_exec {o : Opt ℝ} (c : FCall ℝ) (s : ℝ × Fusion ℝ) (h : Fixed o s.2) : Fixed o (c.exec s).2 := by
  have hv : ∀ (f : Fusion ℝ) v, Fixed o f → Fixed o (f.measureVel v) := by
    intro f v h; unfold Fusion.measureVel; dsimp only; split_ifs <;> exact ⟨h.q, h.dt, h.opt⟩
  cases c with
  | time m =>
    have h1 := (fixed_prop s m h).1
    have e := timeUpdate_stages s m
    show Fixed o (s.2.timeUpdate s.1 m).2
    dsimp only at e
    rw [e]
    generalize propagated s m = f at h1
    have h2 : Fixed o f.zuptStage := by
      unfold Fusion.zuptStage Fusion.measureZeroVelocity; dsimp only; split_ifs <;> first | exact ⟨h1.q, h1.dt, h1.opt⟩ | exact h1
    generalize f.zuptStage = f at h2
    have h3 : Fixed o f.nhcStage := by
      unfold Fusion.nhcStage; split_ifs <;> exact ⟨h2.q, h2.dt, h2.opt⟩
    exact ⟨h3.q, h3.dt, h3.opt⟩
  | gnss m =>
    show Fixed o (s.2.measureGnss m)
    unfold Fusion.measureGnss; dsimp only; split_ifs <;> exact ⟨h.q, h.dt, h.opt⟩
  | pos p R => exact ⟨h.q, h.dt, h.opt⟩
  | vel v => exact hv _ v h
  | speed v => exact hv _ _ h
  | height x =>
    show Fixed o (s.2.measureRelativeHeight x)
    unfold Fusion.measureRelativeHeight; dsimp only; split_ifs <;> exact ⟨h.q, h.dt, h.opt⟩

theorem fixed_run {o : Opt ℝ} (cs : List (FCall ℝ)) (s : ℝ × Fusion ℝ) (h : Fixed o s.2) : Fixed o (frun cs s).2 := by
  induction cs generalizing s with
  | nil => exact h
  | cons c cs ih => exact ih _ (fixed_exec c s h)

theorem fixed_start (g : ℝ) (junk : Fusion ℝ) (nav : NavEpoch ℝ) (o : Opt ℝ) : Fixed o (fstart g junk nav o).2 := ⟨rfl, rfl, rfl⟩

/-- Velocity and the vertical gyroscope bias: what a zero-velocity update with zero angular rate measures. -/
def still : Fin 4 → Fin 15 := ![3, 4, 5, 11]
/-- The covariance of these four states. -/
def stillCov (P : Matrix (Fin 15) (Fin 15) ℝ) : Matrix (Fin 4) (Fin 4) ℝ := fun i j => P (still i) (still j)
/-- The matrix that picks them. -/
def stillPick : Matrix (Fin 4) (Fin 15) ℝ := fun i j => if j = still i then 1 else 0
/-- Velocity within these four. -/
def velOf4 : Matrix (Fin 3) (Fin 4) ℝ := fun i j => if j.val = i.val then 1 else 0
/-- Bias within these four. -/
def biasOf4 : Matrix (Fin 1) (Fin 4) ℝ := fun _ j => if j = 3 then 1 else 0

theorem stillPick_cov (P : Matrix (Fin 15) (Fin 15) ℝ) : stillPick * P * stillPickᵀ = stillCov P := by
  ext i j
  rw [Matrix.mul_apply]
  simp only [Matrix.mul_apply, transpose_apply, stillPick, stillCov]
  rw [Finset.sum_eq_single (still j) (fun b _ hb => by rw [if_neg hb, mul_zero]) (fun h => absurd (Finset.mem_univ _) h)]
  rw [Finset.sum_eq_single (still i) (fun b _ hb => by rw [if_neg hb, zero_mul]) (fun h => absurd (Finset.mem_univ _) h)]
  simp

theorem velPick_still : velPick = velOf4 * stillPick := by
  ext i j
  rw [Matrix.mul_apply, Fin.sum_univ_four]
  fin_cases i <;> fin_cases j <;> simp [velPick, velOf4, stillPick, still]
theorem biasPick_still : (fun _ j => if j.val = 11 then 1 else 0 : Matrix (Fin 1) (Fin 15) ℝ) = biasOf4 * stillPick := by
  ext i j
  rw [Matrix.mul_apply, Fin.sum_univ_four]
  fin_cases i <;> fin_cases j <;> simp [biasOf4, stillPick, still]

/-- Updating with combinations of some states acts on their covariance as if they were the state. -/
theorem measured_sub {n q p : Nat} (k : Kf n ℝ) (H : Matrix (Fin q) (Fin n) ℝ) (A : Matrix (Fin p) (Fin q) ℝ) (z : Fin p → ℝ)
    (R : Matrix (Fin p) (Fin p) ℝ) (x : Fin q → ℝ) :
    H * (k.update (A * H) z R).P * Hᵀ = ((Kf.ofState x (H * k.P * Hᵀ)).update A z R).P := by
  rw [(update_P k (A * H) z R).1, (update_P (Kf.ofState x (H * k.P * Hᵀ)) A z R).1]
  have e : (Kf.ofState x (H * k.P * Hᵀ)).P = H * k.P * Hᵀ := rfl
  have e2 : A * H * k.P * (A * H)ᵀ = A * (H * k.P * Hᵀ) * Aᵀ := by simp only [transpose_mul, Matrix.mul_assoc]
  rw [e, e2]
  generalize (A * (H * k.P * Hᵀ) * Aᵀ + R)⁻¹ = T
  simp only [transpose_sub, transpose_mul, transpose_one, transpose_transpose, Matrix.sub_mul, Matrix.mul_sub, Matrix.add_mul, Matrix.mul_add,
    Matrix.one_mul, Matrix.mul_one, Matrix.mul_assoc]

/-- The process noise of these four states is diagonal and nonnegative. -/
theorem still_noise (g : ℝ) (f : Fusion ℝ) (o : Opt ℝ) (hQ : f.Q0 = Fusion.initQ0 o) :
    stillCov (f.stepQ (f.transferMatrix g)) = diagonal fun i => f.stepQ (f.transferMatrix g) (still i) (still i) := by
  have h0 : Fusion.initQ0 o = diagonal (fun i => Fusion.initQ0 o i i) := by
    rw [Fusion.initQ0, diagM_real]; ext i j; simp [diagonal_apply]
  have hv : ∀ k : Fin 15, 3 ≤ k.val → k.val < 6 → Fusion.initQ0 o k k = o.imuPara.vrw * o.imuPara.vrw := by
    intro k h1 h2; simp [Fusion.initQ0, diagM, show ¬ k.val < 3 by omega, h2]
  have key : ∀ a b, f.stepQ (f.transferMatrix g) a b =
      f.ins.dt * (1 / 2 * (f.transferMatrix g a b * Fusion.initQ0 o b b + Fusion.initQ0 o a a * f.transferMatrix g b a)) := by
    intro a b
    unfold Fusion.stepQ
    rw [hQ, h0]
    simp only [mmul_real, ms_real, sm_real, Matrix.smul_apply, Matrix.add_apply, mul_diagonal, diagonal_mul,
      transpose_apply, smul_eq_mul, lit_real, diagonal_apply_eq]
    push_cast; ring
  ext i j
  rw [diagonal_apply]
  split_ifs with h
  · subst h; rfl
  · rw [stillCov, key]
    have b : ∀ i : Fin 3, f.transferMatrix g ⟨i + 3, by omega⟩ 11 = 0 ∧ f.transferMatrix g 11 ⟨i + 3, by omega⟩ = 0 := by
      intro i; fin_cases i <;> simp [Fusion.transferMatrix, setBlock]
    have v : ∀ i j : Fin 3, i ≠ j → f.transferMatrix g ⟨i + 3, by omega⟩ ⟨j + 3, by omega⟩ = - f.transferMatrix g ⟨j + 3, by omega⟩ ⟨i + 3, by omega⟩ := by
      intro i j hij
      fin_cases i <;> fin_cases j <;> simp [Fusion.transferMatrix, setBlock, ms, eyeM, skew] at hij ⊢ <;> ring
    have hi4 : ∀ i : Fin 4, (∃ a : Fin 3, still i = ⟨a + 3, by omega⟩ ∧ i = ⟨a, by omega⟩) ∨ (still i = 11 ∧ i = 3) := by
      intro i
      fin_cases i
      · exact Or.inl ⟨0, rfl, rfl⟩
      · exact Or.inl ⟨1, rfl, rfl⟩
      · exact Or.inl ⟨2, rfl, rfl⟩
      · exact Or.inr ⟨rfl, rfl⟩
    rcases hi4 i with ⟨a, ha, ia⟩ | ⟨ha, ia⟩ <;> rcases hi4 j with ⟨c, hc, jc⟩ | ⟨hc, jc⟩
    · have hac : a ≠ c := by rintro rfl; exact h (ia.trans jc.symm)
      rw [ha, hc, v a c hac, hv _ (by simp) (by simp; omega), hv _ (by simp) (by simp; omega)]
      ring
    · rw [ha, hc, (b a).1, (b a).2]; ring
    · rw [ha, hc, (b c).1, (b c).2]; ring
    · exact absurd (ia.trans jc.symm) h

theorem valid_diag {p : Nat} (d : Fin p → ℝ) (h : ∀ i, 0 ≤ d i) : validCov (diagonal d) := by
  rw [validCov_iff]
  exact Matrix.PosSemidef.diagonal h

theorem valid_still (P : Matrix (Fin 15) (Fin 15) ℝ) (h : validCov P) : validCov (stillCov P) := by
  rw [← stillPick_cov]
  rw [validCov_iff] at h ⊢
  have := h.mul_mul_conjTranspose_same stillPick
  rwa [conjTranspose_eq_transpose_of_trivial] at this

/-- After propagation from a valid covariance, the four states still have a valid one. -/
theorem still_propagated {o : Opt ℝ} (s : ℝ × Fusion ℝ) (m : Imu ℝ) (hf : Fixed o s.2) (hP : validCov s.2.kf.P) (hr : 0 < o.dRate)
    (hg : 1 / (o.dRate : ℝ) ≤ o.imuPara.gtCorr) : validCov (stillCov (propagated s m).kf.P) := by
  obtain ⟨h1, g, hPp⟩ := fixed_prop s m hf
  generalize propagated s m = f at h1 hPp
  have hd : f.ins.dt = 1 / (o.dRate : ℝ) := by rw [h1.dt]; simp [ofI]
  have hdr : (0 : ℝ) < o.dRate := by exact_mod_cast hr
  have hgt : 0 < o.imuPara.gtCorr := lt_of_lt_of_le (by positivity) hg
  have e : stillCov f.kf.P = stillCov (f.transferMatrix g * s.2.kf.P * (f.transferMatrix g)ᵀ) + stillCov (f.stepQ (f.transferMatrix g)) := by
    rw [hPp]; rfl
  have v1 : validCov (stillCov (f.transferMatrix g * s.2.kf.P * (f.transferMatrix g)ᵀ)) := by
    apply valid_still
    rw [validCov_iff] at hP ⊢
    have := hP.mul_mul_conjTranspose_same (f.transferMatrix g)
    rwa [conjTranspose_eq_transpose_of_trivial] at this
  have v2 : validCov (stillCov (f.stepQ (f.transferMatrix g))) := by
    rw [still_noise g f o h1.q]
    refine valid_diag _ fun i => ?_
    rw [noise_diag g f o h1.q, phi_diag, h1.opt]
    have hd0 : 0 ≤ f.ins.dt := by rw [hd]; positivity
    have hb : 0 ≤ 2 * o.imuPara.gbStd 2 * o.imuPara.gbStd 2 / o.imuPara.gtCorr := by
      have := mul_self_nonneg (o.imuPara.gbStd 2); apply div_nonneg _ hgt.le; nlinarith
    have hc : 0 ≤ 1 - f.ins.dt / o.imuPara.gtCorr := by
      have : f.ins.dt / o.imuPara.gtCorr ≤ 1 := by rw [div_le_one hgt, hd]; exact hg
      linarith
    apply mul_nonneg hd0
    fin_cases i
    · simp [still, Fusion.initQ0, diagM, mul_self_nonneg]
    · simp [still, Fusion.initQ0, diagM, mul_self_nonneg]
    · simp [still, Fusion.initQ0, diagM, mul_self_nonneg]
    · simp [still, Fusion.initQ0, diagM]
      exact mul_nonneg hc hb
  rw [e]
  rw [validCov_iff] at v1 v2 ⊢
  exact v1.add v2

theorem varOf_unit {p : Nat} (P : Matrix (Fin p) (Fin p) ℝ) (i : Fin p) : varOf P (Pi.single i 1) = P i i := by
  rw [varOf_eq]; simp

/-- A zero-velocity update on a filter whose velocity has a valid covariance bounds its variances, with or without
the zero-angular-rate part. -/
theorem zupt_bound (f : Fusion ℝ) (hP : validCov (stillCov f.kf.P)) (hs : f.opt.zuptStd ≠ 0) (ha : f.opt.zuptaEnable ≠ 0 → f.opt.zuptaStd ≠ 0) (i : Fin 3) :
    0 ≤ f.measureZeroVelocity.kf.P ⟨3 + i, by omega⟩ ⟨3 + i, by omega⟩ ∧
    f.measureZeroVelocity.kf.P ⟨3 + i, by omega⟩ ⟨3 + i, by omega⟩ ≤ f.opt.zuptStd ^ 2 := by
  have hstill : ∀ P : Matrix (Fin 15) (Fin 15) ℝ, P ⟨3 + i, by omega⟩ ⟨3 + i, by omega⟩ = stillCov P ⟨i, by omega⟩ ⟨i, by omega⟩ := by
    intro P; fin_cases i <;> rfl
  have hz : f.measureZupt.kf = f.kf.update (velOf4 * stillPick) f.ins.nav.vn (diagM fun _ => f.opt.zuptStd * f.opt.zuptStd) := by
    rw [← velPick_still, ← zupt_H]; rfl
  have hR : positive (diagM fun _ => f.opt.zuptStd * f.opt.zuptStd : M3 ℝ) := by
    rw [diagM_real, positive_iff]
    exact Matrix.PosDef.diagonal fun _ => mul_self_pos.2 hs
  -- first update
  have e1 := measured_sub f.kf stillPick velOf4 f.ins.nav.vn (diagM fun _ => f.opt.zuptStd * f.opt.zuptStd) (fun _ => 0)
  rw [← hz, stillPick_cov, stillPick_cov] at e1
  have v1 : validCov (stillCov f.measureZupt.kf.P) := by
    rw [e1]; exact (C24_update_valid _ _ _ _ hP (positive_valid hR)).1
  have b1 : stillCov f.measureZupt.kf.P ⟨i, by omega⟩ ⟨i, by omega⟩ ≤ f.opt.zuptStd ^ 2 := by
    have h := C128_measured_covariance velPick (diagM fun _ => f.opt.zuptStd * f.opt.zuptStd)
      [(f.ins.nav.vn, diagM fun _ => f.opt.zuptStd * f.opt.zuptStd)] f.kf (by
        have : velPick * f.kf.P * velPickᵀ = velOf4 * stillCov f.kf.P * velOf4ᵀ := by
          rw [velPick_still, ← stillPick_cov]; simp only [transpose_mul, Matrix.mul_assoc]
        rw [this]
        rw [validCov_iff] at hP ⊢
        have := hP.mul_mul_conjTranspose_same velOf4
        rwa [conjTranspose_eq_transpose_of_trivial] at this) (by
        intro m hm
        rw [List.mem_singleton.1 hm]
        exact ⟨hR, fun w => le_refl _⟩) (by simp) (Pi.single i 1)
    have h2 := h.2
    rw [varOf_unit, varOf_unit] at h2
    have e : repeated velPick [(f.ins.nav.vn, diagM fun _ => f.opt.zuptStd * f.opt.zuptStd)] f.kf = f.measureZupt.kf := by
      rw [hz, ← velPick_still]; rfl
    have e3 : velPick * f.measureZupt.kf.P * velPickᵀ = velCov f.measureZupt := by rw [← zupt_S, zupt_H]
    rw [e, e3] at h2
    rw [← hstill f.measureZupt.kf.P]
    have : velCov f.measureZupt i i = f.measureZupt.kf.P ⟨3 + i, by omega⟩ ⟨3 + i, by omega⟩ := rfl
    rw [← this]
    rw [diagM_real, diagonal_apply_eq] at h2
    simp at h2
    nlinarith
  rw [hstill f.measureZeroVelocity.kf.P]
  unfold Fusion.measureZeroVelocity
  dsimp only
  split_ifs with hza
  · refine ⟨?_, b1⟩
    have := v1.2 (Pi.single ⟨i, by omega⟩ 1)
    have e : varOf (stillCov f.measureZupt.kf.P) (Pi.single ⟨i, by omega⟩ 1) = _ := varOf_unit _ _
    rw [← e]; exact this
  · -- second update
    have hzi : f.measureZupt.measureZihr.kf = f.measureZupt.kf.update (biasOf4 * stillPick) (fun _ => f.ins.gyroPre 2 / f.ins.dt)
        (fun _ _ => f.opt.zuptaStd * f.opt.zuptaStd) := by
      rw [← biasPick_still]; rfl
    have hR2 : positive (fun _ _ => f.opt.zuptaStd * f.opt.zuptaStd : Matrix (Fin 1) (Fin 1) ℝ) := by
      refine ⟨fun _ _ => rfl, fun w hw => ?_⟩
      have hw0 : w 0 ≠ 0 := fun h => hw (by ext j; fin_cases j; exact h)
      have := ha hza
      simp only [varOf, Finset.univ_unique, Fin.default_eq_zero, Finset.sum_singleton]
      have h1 : 0 < (w 0 * f.opt.zuptaStd) ^ 2 := by positivity
      calc (0 : ℝ) < _ := h1
        _ = _ := by ring
    have e2 := measured_sub f.measureZupt.kf stillPick biasOf4 (fun _ => f.ins.gyroPre 2 / f.ins.dt) (fun _ _ => f.opt.zuptaStd * f.opt.zuptaStd) (fun _ => 0)
    rw [← hzi, stillPick_cov, stillPick_cov] at e2
    have c := C24_update_valid (Kf.ofState (fun _ => 0) (stillCov f.measureZupt.kf.P)) biasOf4 (fun _ => f.ins.gyroPre 2 / f.ins.dt)
      (fun _ _ => f.opt.zuptaStd * f.opt.zuptaStd) v1 (positive_valid hR2)
    rw [← e2] at c
    have hu : IsUnit (biasOf4 * stillCov f.measureZupt.kf.P * biasOf4ᵀ + (Matrix.of fun _ _ => f.opt.zuptaStd * f.opt.zuptaStd : Matrix (Fin 1) (Fin 1) ℝ)).det := by
      refine unit_sum ?_ hR2
      rw [validCov_iff] at v1 ⊢
      have := v1.mul_mul_conjTranspose_same biasOf4
      rwa [conjTranspose_eq_transpose_of_trivial] at this
    refine ⟨?_, ((c.2 hu).2 _).trans b1⟩
    have := c.1.2 (Pi.single ⟨i, by omega⟩ 1)
    have e : varOf (stillCov f.measureZupt.measureZihr.kf.P) (Pi.single ⟨i, by omega⟩ 1) = _ := varOf_unit _ _
    rw [← e]; exact this

/-- C132 for the filter: when an IMU sample finds the vehicle static and a zero-velocity update is due (and no
non-holonomic one), the velocity variances afterwards lie between zero and the square of `zupt_std`, whatever they were before, with
or without the zero-angular-rate update. -/
theorem C132_zupt_bounds_velocity (g : ℝ) (junk : Fusion ℝ) (nav : NavEpoch ℝ) (o : Opt ℝ) (cs : List (FCall ℝ)) (m : Imu ℝ)
    (hr : 0 < o.dRate) (hg : 1 / (o.dRate : ℝ) ≤ o.imuPara.gtCorr) (hs : o.zuptStd ≠ 0) (ha : o.zuptaEnable ≠ 0 → o.zuptaStd ≠ 0)
    (samples : List (Imu ℝ)) (hsam : samples = fimus cs ++ [m])
    (hz : zuptDue o (samples.length % 2 ^ 32) (calmLast zuptThr 2 10 samples 3)) (hn : ¬ nhcDue o (samples.length % 2 ^ 32))
    (before : ℝ × Fusion ℝ) (hb : before = frun cs (fstart g junk nav o)) (hP : validCov before.2.kf.P) (after : Fusion ℝ)
    (haft : after = (frun (cs ++ [.time m]) (fstart g junk nav o)).2) (i : Fin 3) :
    0 ≤ after.kf.P ⟨3 + i, by omega⟩ ⟨3 + i, by omega⟩ ∧ after.kf.P ⟨3 + i, by omega⟩ ⟨3 + i, by omega⟩ ≤ o.zuptStd ^ 2 ∧
    0 ≤ after.output.vnStd i ∧ after.output.vnStd i ^ 2 ≤ o.zuptStd ^ 2 := by
  have hsch := (C30_schedule g junk nav o cs m).2.1
  rw [← hsam, if_pos hz, if_neg hn, ← hb] at hsch
  have n1 : frun (cs ++ [.time m]) (fstart g junk nav o) = FCall.exec (.time m) before := by rw [frun_append, hb]; rfl
  have hkf : after.kf = (propagated before m).measureZeroVelocity.kf := by rw [haft, n1]; exact hsch
  have hf : Fixed o before.2 := by rw [hb]; exact fixed_run cs _ (fixed_start g junk nav o)
  have hv := still_propagated before m hf hP hr hg
  have ho := (fixed_prop before m hf).1.opt
  have h := zupt_bound (propagated before m) hv (by rw [ho]; exact hs) (by rw [ho]; exact ha) i
  rw [← hkf, ho] at h
  have c := C37_reported_deviation after i
  refine ⟨h.1, h.2, c.1.2.1, ?_⟩
  rw [c.2.2.1 h.1]
  exact h.2

theorem imus_from (cs : List (Call ℝ)) : fimus (filterCalls (fromFirstSample cs)) = imusOf cs := by
  have h2 : ∀ cs : List (Call ℝ), fimus (filterCalls cs) = imusOf cs := by
    intro cs
    induction cs with
    | nil => rfl
    | cons c cs ih =>
      cases c with
      | time m => cases m <;> simp [filterCalls, fimus, imusOf, ih]
      | gnss m => cases m <;> simp [filterCalls, fimus, imusOf, ih]
      | _ => simpa [filterCalls, fimus, imusOf] using ih
  induction cs with
  | nil => rfl
  | cons c cs ih =>
    cases c with
    | time m => cases m <;> simp [fromFirstSample, filterCalls, fimus, imusOf, ih, h2]
    | _ => simpa [fromFirstSample, filterCalls, fimus, imusOf] using ih

theorem imus_append (cs : List (Call ℝ)) (m : Imu ℝ) : imusOf (cs ++ [.time (some m)]) = imusOf cs ++ [m] := by
  induction cs with
  | nil => rfl
  | cons c cs ih =>
    cases c with
    | time m => cases m <;> simp [imusOf, ih]
    | _ => simpa [imusOf] using ih

/-- C132 through the C interface, for an instance started from given values: whatever was called before, when a sample
triggers a zero-velocity update and no other, the velocity deviations of the result read next are at most `zupt_std`. -/
theorem C132_reported_deviation (junk : Junk ℝ) (d0 d : Dev ℝ) (o : Opt ℝ) (n : NavOutput ℝ) (hm : o.alignMode = 2)
    (h : rgioeInit junk d0 (some o) (some n) = some (0, d)) (cs : List (Call ℝ)) (hc : ∀ c ∈ cs, c.isInit = false) (hne : imusOf cs ≠ [])
    (hr : 0 < o.dRate) (hg : 1 / (o.dRate : ℝ) ≤ o.imuPara.gtCorr) (hs : 0 < o.zuptStd) (ha : o.zuptaEnable ≠ 0 → o.zuptaStd ≠ 0)
    (g : ℝ) (m : Imu ℝ) (samples : List (Imu ℝ)) (hsam : samples = imusOf cs ++ [m])
    (hz : zuptDue o (samples.length % 2 ^ 32) (calmLast zuptThr 2 10 samples 3)) (hn : ¬ nhcDue o (samples.length % 2 ^ 32))
    (hP : validCov (runCalls cs (g, d)).2.df.kf.P) (p : NavOutput ℝ) (i : Fin 3) :
    0 ≤ (rgioeGetResult (runCalls (cs ++ [.time (some m)]) (g, d)).2 p).2.vnStd i ∧
    (rgioeGetResult (runCalls (cs ++ [.time (some m)]) (g, d)).2 p).2.vnStd i ≤ o.zuptStd := by
  have hf : filterCalls (fromFirstSample (cs ++ [.time (some m)])) = filterCalls (fromFirstSample cs) ++ [.time m] := by
    have a : ∀ cs : List (Call ℝ), filterCalls (cs ++ [.time (some m)]) = filterCalls cs ++ [.time m] := by
      intro cs
      induction cs with
      | nil => rfl
      | cons c cs ih =>
        cases c with
        | time m => cases m <;> simp [filterCalls, ih]
        | gnss m => cases m <;> simp [filterCalls, ih]
        | _ => simpa [filterCalls] using ih
    have b : ∀ cs : List (Call ℝ), imusOf cs ≠ [] → fromFirstSample (cs ++ [.time (some m)]) = fromFirstSample cs ++ [.time (some m)] := by
      intro cs
      induction cs with
      | nil => intro h; exact absurd rfl h
      | cons c cs ih =>
        intro hi
        cases c with
        | time m =>
          cases m with
          | none => simpa [fromFirstSample] using ih (by simpa [imusOf] using hi)
          | some m => simp [fromFirstSample]
        | _ => simpa [fromFirstSample] using ih (by simpa [imusOf] using hi)
    rw [b cs hne, a]
  obtain ⟨h1, _⟩ := C126_given_start junk d0 d o n hm h cs hc hne g _ rfl
  obtain ⟨_, h2⟩ := C126_given_start junk d0 d o n hm h (cs ++ [.time (some m)]) (by
    intro c hcc
    rcases List.mem_append.1 hcc with hcc | hcc
    · exact hc c hcc
    · rw [List.mem_singleton.1 hcc]; rfl) (by
      intro hcon
      rw [imus_append] at hcon; simp at hcon) g _ rfl
  rw [h2.result p, hf]
  have := C132_zupt_bounds_velocity g junk.df (makeNavEpoch n o) o (filterCalls (fromFirstSample cs)) m hr hg hs.ne' ha samples
    (by rw [imus_from]; exact hsam) hz hn _ rfl (by rw [← congrArg Prod.snd h1]; exact hP) _ rfl i
  exact ⟨this.2.2.1, abs_le_of_sq_le_sq' this.2.2.2 hs.le |>.2⟩

theorem calm_still (thr : ℝ) (ht : 0 ≤ thr) (sw win : Int) (n : Nat) : calm thr sw win (List.replicate n (Ex.zImu : Imu ℝ)) := by
  have key : ∀ n, (∀ i, (feed thr sw win (List.replicate n (Ex.zImu : Imu ℝ))).ave.acce i = 0) ∧
      ∀ i, (feed thr sw win (List.replicate n (Ex.zImu : Imu ℝ))).var.acce i = 0 := by
    intro n
    induction n with
    | zero => exact ⟨fun i => by fin_cases i <;> rfl, fun i => by fin_cases i <;> rfl⟩
    | succ n ih =>
      rw [List.replicate_succ']
      have e : feed thr sw win (List.replicate n (Ex.zImu : Imu ℝ) ++ [Ex.zImu]) = (feed thr sw win (List.replicate n (Ex.zImu : Imu ℝ))).update Ex.zImu := by
        simp [feed, List.foldl_append]
      rw [e]
      generalize feed thr sw win (List.replicate n (Ex.zImu : Imu ℝ)) = s at ih
      have z : ∀ i, (Ex.zImu : Imu ℝ).acce i = 0 := fun i => by fin_cases i <;> rfl
      have ha : ∀ i, (s.update Ex.zImu).ave.acce i = 0 := by
        intro i
        have : (s.update Ex.zImu).ave.acce i = Smooth.stepAve _ (s.ave.acce i) ((Ex.zImu : Imu ℝ).acce i) := rfl
        rw [this, ih.1, z, Smooth.stepAve]; simp
      refine ⟨ha, fun i => ?_⟩
      have : (s.update Ex.zImu).var.acce i = Smooth.stepVar _ (s.var.acce i) ((s.update Ex.zImu).ave.acce i) ((Ex.zImu : Imu ℝ).acce i) := rfl
      rw [this, ih.2, ha, z, Smooth.stepVar]; simp
  rw [calm, Bool.eq_false_iff, Ne, lt_real]
  unfold Smooth.getStd
  rw [(key n).2, (key n).2, (key n).2]
  simp
  exact ht

/-- A filter without process noise keeps a valid covariance over samples that trigger no measurement. -/
theorem quiet_valid (g : ℝ) (junk : Fusion ℝ) (nav : NavEpoch ℝ) (o : Opt ℝ) (ho : Fusion.initQ0 o = 0) (hn : o.nhcEnable = 0)
    (ms : List (Imu ℝ)) (h : ms.length < 3) : validCov (frun (ms.map FCall.time) (fstart g junk nav o)).2.kf.P := by
  induction ms using List.reverseRecOn with
  | nil => exact (C68_initial_covariance g junk nav o).2.2
  | append_singleton ms m ih =>
    have hl : ms.length < 2 := by simp at h; omega
    have ih := ih (by omega)
    have hsch := (C30_schedule g junk nav o (ms.map FCall.time) m).2.1
    have hf : ∀ ms : List (Imu ℝ), fimus (ms.map FCall.time) = ms := by
      intro ms; induction ms with
      | nil => rfl
      | cons a b ih => simp [fimus, ih]
    rw [hf, if_neg (fun h => h.1 hn), if_neg (fun h => by have := h.2.1.1; simp at this; omega)] at hsch
    rw [List.map_append, frun_append]
    have e : (frun (List.map FCall.time [m]) (frun (ms.map FCall.time) (fstart g junk nav o))).2.kf =
        (FCall.exec (.time m) (frun (ms.map FCall.time) (fstart g junk nav o))).2.kf := rfl
    rw [e, hsch]
    have hfx : Fixed o (frun (ms.map FCall.time) (fstart g junk nav o)).2 := fixed_run _ _ (fixed_start g junk nav o)
    obtain ⟨f1, g1, hP⟩ := fixed_prop (frun (ms.map FCall.time) (fstart g junk nav o)) m hfx
    rw [hP]
    generalize propagated (frun (ms.map FCall.time) (fstart g junk nav o)) m = f at f1 hP
    have hz : f.stepQ (f.transferMatrix g1) = 0 := by
      unfold Fusion.stepQ
      rw [f1.q, ho]; simp [mmul_real, ms_real, sm_real]
    rw [hz, add_zero]
    rw [validCov_iff] at ih ⊢
    have := ih.mul_mul_conjTranspose_same (f.transferMatrix g1)
    rwa [conjTranspose_eq_transpose_of_trivial] at this

/-- The hypotheses are met: 100 Hz, zero-velocity updates with deviation 0.1 m/s and zero-angular-rate updates enabled, at the third of
three resting samples. The velocity deviation reported then is at most 0.1 m/s, whatever the initial one. -/
example (g : ℝ) (junk : Fusion ℝ) (nav : NavEpoch ℝ) (o : Opt ℝ)
    (ho : o = { (Ex.opt 2 : Opt ℝ) with
      zuptEnable := 1, zuptStd := 1 / 10, zuptaEnable := 1, zuptaStd := 1, imuPara := { (Ex.opt 2 : Opt ℝ).imuPara with gtCorr := 3600 } }) (i : Fin 3) :
    (frun [.time Ex.zImu, .time Ex.zImu, .time Ex.zImu] (fstart g junk nav o)).2.output.vnStd i ^ 2 ≤ (1 / 10) ^ 2 := by
  have h := C132_zupt_bounds_velocity g junk nav o [.time Ex.zImu, .time Ex.zImu] Ex.zImu (by rw [ho]; show (0 : Int) < 100; decide)
    (by rw [ho]; show 1 / (((100 : Int)) : ℝ) ≤ 3600; norm_num) (by rw [ho]; show (1 / 10 : ℝ) ≠ 0; norm_num)
    (by rw [ho]; intro _; exact one_ne_zero) (List.replicate 3 Ex.zImu) rfl
    ⟨by rw [ho]; show (1 : Int) ≠ 0; decide, ⟨by simp, fun j hj => by
      rw [List.take_replicate]
      exact calm_still _ (by simp [zuptThr]; norm_num) _ _ _⟩, by simp⟩
    (by rw [ho]; rintro ⟨h, -⟩; exact h rfl) _ rfl
    (quiet_valid g junk nav o (by
      rw [ho, Fusion.initQ0, diagM_real]
      ext a b
      rw [diagonal_apply]
      have hz : ∀ i, (zero3 : V3 ℝ) i = 0 := fun i => by fin_cases i <;> rfl
      simp [Ex.opt, Fusion.zeroOpt, hz]) (by rw [ho]; rfl) [Ex.zImu, Ex.zImu] (by simp)) _ rfl i
  have e : o.zuptStd = 1 / 10 := by rw [ho]
  rw [e] at h
  have n : frun [.time Ex.zImu, .time Ex.zImu, .time Ex.zImu] (fstart g junk nav o) =
      frun ([.time Ex.zImu, .time Ex.zImu] ++ [.time Ex.zImu]) (fstart g junk nav o) := by rw [List.cons_append, List.cons_append, List.nil_append]
  rw [n]
  exact h.2.2.2
end Verif.Props
