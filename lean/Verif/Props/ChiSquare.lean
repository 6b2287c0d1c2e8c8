import Verif.Spec.ChiSquare
import Verif.Props.Information
/-! # C158: inconsistent measurements are recognised and not used -/
namespace Verif.Props
open Matrix Verif.Spec

theorem ak_value {n p : Nat} (k : Kf n ℝ) (H : Matrix (Fin p) (Fin n) ℝ) (z : Fin p → ℝ) (R : Matrix (Fin p) (Fin p) ℝ)
    (hS : IsUnit (expected k.P H R).det) :
    (k.update H z R).ak = |∑ i, z i * ((expected k.P H R)ᵀ *ᵥ z) i| := by
  have e : (k.update H z R).ak = Real.sqrt ((∑ i, (((expected k.P H R)⁻¹)⁻¹ᵀ *ᵥ z) i * z i) *
      (∑ i, (((expected k.P H R)⁻¹)⁻¹ᵀ *ᵥ z) i * z i)) := by
    simp only [Kf.update, sqrt_real, sumF_real, mvec_real, minv_real, mmul_real]
    rfl
  rw [e, Real.sqrt_mul_self_eq_abs, Matrix.nonsing_inv_nonsing_inv _ hS]
  congr 1
  exact Finset.sum_congr rfl fun i _ => mul_comm ..

/-- C158, what `GetX2` returns after an update: the innovation weighted with its expected covariance instead of the
inverse of it. -/
theorem C158_statistic {n p : Nat} (k : Kf n ℝ) (H : Matrix (Fin p) (Fin n) ℝ) (z : Fin p → ℝ) (R : Matrix (Fin p) (Fin p) ℝ)
    (hP : validCov k.P) (hR : positive R) : (k.update H z R).ak = ∑ i, z i * (expected k.P H R *ᵥ z) i := by
  have hv : validCov (H * k.P * Hᵀ) := by
    rw [validCov_iff] at hP ⊢
    exact hP.mul_mul_conjTranspose_same H
  have hS : IsUnit (expected k.P H R).det := unit_sum hv hR
  have hpos : (expected k.P H R).PosDef := by
    unfold expected
    exact Matrix.PosDef.posSemidef_add ((validCov_iff _).1 hv) ((positive_iff R).1 hR)
  have ht : (expected k.P H R)ᵀ = expected k.P H R := by simpa using hpos.isHermitian.eq
  rw [ak_value k H z R hS, ht, abs_of_nonneg]
  have := hpos.posSemidef.dotProduct_mulVec_nonneg z
  simpa [dotProduct] using this

/-- C158, violated: a filter ten thousand times less certain (in variance) finds the same innovation ten thousand times
more suspicious, where the test should find it ten thousand times less. -/
theorem C158_inverted {n p : Nat} (k k' : Kf n ℝ) (H : Matrix (Fin p) (Fin n) ℝ) (z : Fin p → ℝ) (R : Matrix (Fin p) (Fin p) ℝ) (c : ℝ)
    (hc : 0 < c) (hP : validCov k.P) (hR : positive R) (hk : k'.P = c • k.P) :
    (k'.update H z (c • R)).ak = c * (k.update H z R).ak ∧
    mahalanobis (expected k'.P H (c • R)) z = c⁻¹ * mahalanobis (expected k.P H R) z := by
  have hP' : validCov k'.P := by
    rw [hk, validCov_iff]; exact ((validCov_iff _).1 hP).smul hc.le
  have hR' : positive (c • R) := by
    rw [positive_iff]; exact ((positive_iff R).1 hR).smul hc
  have hv : validCov (H * k.P * Hᵀ) := by
    rw [validCov_iff] at hP ⊢
    exact hP.mul_mul_conjTranspose_same H
  have hS : IsUnit (expected k.P H R).det := unit_sum hv hR
  have es : expected k'.P H (c • R) = c • expected k.P H R := by
    unfold expected
    rw [hk, Matrix.mul_smul, Matrix.smul_mul, smul_add]
  constructor
  · rw [C158_statistic k' H z _ hP' hR', C158_statistic k H z R hP hR, es, Finset.mul_sum]
    exact Finset.sum_congr rfl fun i _ => by rw [Matrix.smul_mulVec, Pi.smul_apply, smul_eq_mul]; ring
  · unfold mahalanobis
    have ei : (c • expected k.P H R)⁻¹ = c⁻¹ • (expected k.P H R)⁻¹ := by
      refine Matrix.inv_eq_left_inv ?_
      rw [Matrix.smul_mul, Matrix.mul_smul, smul_smul, Matrix.nonsing_inv_mul _ hS, inv_mul_cancel₀ hc.ne', one_smul]
    rw [es, ei, Finset.mul_sum]
    exact Finset.sum_congr rfl fun i _ => by rw [Matrix.smul_mulVec, Pi.smul_apply, smul_eq_mul]; ring

/-- C158, violated in every arithmetic: whatever the statistic, the measurement is used in full (gain times
innovation) and nothing is counted as rejected. -/
theorem C158_never_rejected {α : Type} [Add α] [Sub α] [Mul α] [Neg α] [Div α] [Zero α] [One α] [Fl α] {n p : Nat} (k : Kf n α)
    (H : Matrix (Fin p) (Fin n) α) (z : Fin p → α) (R : Matrix (Fin p) (Fin p) α) :
    (k.update H z R).Xd = mvec (k.gain H R) z ∧ (k.update H z R).rejectCnt = 0 := ⟨rfl, rfl⟩

/-- C158, violated: no jump is too large. If a measurement corrects a state at all, a large enough measured value of the
same kind corrects it by more than any bound, although its normalised length is beyond any bound as well. -/
theorem C158_any_jump {n p : Nat} (k : Kf n ℝ) (H : Matrix (Fin p) (Fin n) ℝ) (z : Fin p → ℝ) (R : Matrix (Fin p) (Fin p) ℝ) (i : Fin n)
    (hP : validCov k.P) (hR : positive R) (hi : (k.update H z R).Xd i ≠ 0) (B : ℝ) :
    ∃ t : ℝ, B < |(k.update H (t • z) R).Xd i| ∧ B < mahalanobis (expected k.P H R) (t • z) := by
  have hv : validCov (H * k.P * Hᵀ) := by
    rw [validCov_iff] at hP ⊢
    exact hP.mul_mul_conjTranspose_same H
  have hpos : (expected k.P H R).PosDef := by
    unfold expected
    exact Matrix.PosDef.posSemidef_add ((validCov_iff _).1 hv) ((positive_iff R).1 hR)
  have hx : ∀ t : ℝ, (k.update H (t • z) R).Xd i = t * (k.update H z R).Xd i := by
    intro t
    have e : ∀ w, (k.update H w R).Xd = k.gain H R *ᵥ w := fun w => by
      rw [(C158_never_rejected k H w R).1, mvec_real]
    rw [e, e, Matrix.mulVec_smul]
    rfl
  have hz : z ≠ 0 := by
    intro h0
    apply hi
    have := hx 0
    rw [zero_smul, zero_mul] at this
    rw [h0]; exact this
  have hm : 0 < mahalanobis (expected k.P H R) z := by
    have := hpos.inv.dotProduct_mulVec_pos hz
    simpa [mahalanobis, dotProduct] using this
  have hmt : ∀ t : ℝ, mahalanobis (expected k.P H R) (t • z) = t ^ 2 * mahalanobis (expected k.P H R) z := by
    intro t
    unfold mahalanobis
    rw [Finset.mul_sum]
    exact Finset.sum_congr rfl fun i _ => by
      rw [Matrix.mulVec_smul, Pi.smul_apply, Pi.smul_apply, smul_eq_mul, smul_eq_mul]; ring
  set x := (k.update H z R).Xd i with hxd
  set m := mahalanobis (expected k.P H R) z with hmd
  have hx0 : 0 < |x| := abs_pos.2 hi
  refine ⟨1 + |B| / |x| + |B| / m, ?_, ?_⟩
  · rw [hx, abs_mul]
    have h1 : 0 ≤ |B| / |x| := by positivity
    have h2 : 0 ≤ |B| / m := by positivity
    rw [abs_of_pos (by positivity : 0 < 1 + |B| / |x| + |B| / m)]
    have h3 : |B| / |x| * |x| = |B| := div_mul_cancel₀ _ hx0.ne'
    nlinarith [le_abs_self B, mul_nonneg h2 hx0.le]
  · rw [hmt]
    have h1 : 0 ≤ |B| / |x| := by positivity
    have h2 : 0 ≤ |B| / m := by positivity
    have h3 : |B| / m * m = |B| := div_mul_cancel₀ _ hm.ne'
    have h4 : 1 + |B| / m ≤ (1 + |B| / |x| + |B| / m) ^ 2 := by nlinarith
    have h5 : (1 + |B| / m) * m ≤ (1 + |B| / |x| + |B| / m) ^ 2 * m := mul_le_mul_of_nonneg_right h4 hm.le
    nlinarith [le_abs_self B]

/-- The hypotheses of C158 are met: one state measured directly, unit variances, an innovation of one. -/
example : ∃ (k : Kf 1 ℝ) (H R : Matrix (Fin 1) (Fin 1) ℝ) (z : Fin 1 → ℝ), validCov k.P ∧ positive R ∧ (k.update H z R).Xd 0 ≠ 0 := by
  refine ⟨⟨fun _ => 0, 1, 0, 0⟩, 1, 1, fun _ => 1, (validCov_iff _).2 Matrix.PosSemidef.one, (positive_iff _).2 Matrix.PosDef.one, ?_⟩
  rw [(C158_never_rejected _ _ _ _).1, mvec_real]
  have e : ((1 : Matrix (Fin 1) (Fin 1) ℝ) * 1 * 1ᵀ + 1) = (2 : ℝ) • 1 := by
    rw [Matrix.transpose_one, mul_one, mul_one, two_smul]
  have ei : ((2 : ℝ) • (1 : Matrix (Fin 1) (Fin 1) ℝ))⁻¹ = (1 / 2 : ℝ) • 1 := by
    refine Matrix.inv_eq_left_inv ?_
    rw [Matrix.smul_mul, Matrix.mul_smul, smul_smul, one_mul]; norm_num
  simp only [Kf.gain, mmul_real, minv_real, e, ei]
  simp [Matrix.mulVec, dotProduct]
end Verif.Props
