import Verif.Lemmas.Real
import Verif.Spec.Rotation
import Mathlib.Tactic.LinearCombination
import Mathlib.Tactic.FieldSimp
/-! Rotations and quaternions at `ℝ`. -/
namespace Verif
open Matrix Verif.Spec Verif.Convert

/-- The homogeneous form of the rotation matrix of a quaternion. -/
def rotH (q : Quat ℝ) : M3 ℝ :=
  !![q.w ^ 2 + q.x ^ 2 - q.y ^ 2 - q.z ^ 2, 2 * (q.x * q.y - q.w * q.z), 2 * (q.x * q.z + q.w * q.y);
     2 * (q.x * q.y + q.w * q.z), q.w ^ 2 - q.x ^ 2 + q.y ^ 2 - q.z ^ 2, 2 * (q.y * q.z - q.w * q.x);
     2 * (q.x * q.z - q.w * q.y), 2 * (q.y * q.z + q.w * q.x), q.w ^ 2 - q.x ^ 2 - q.y ^ 2 + q.z ^ 2]

theorem rotH_mul (p q : Quat ℝ) : rotH (p.mul q) = rotH p * rotH q := by
  ext i j
  fin_cases i <;> fin_cases j <;> simp [rotH, Quat.mul, Matrix.mul_apply, Fin.sum_univ_three] <;> ring
theorem rotH_orth (q : Quat ℝ) : rotH q * (rotH q)ᵀ = (qsq q ^ 2) • (1 : M3 ℝ) := by
  ext i j
  fin_cases i <;> fin_cases j <;> simp [rotH, qsq, Matrix.mul_apply, Fin.sum_univ_three] <;> ring
theorem rotH_orth' (q : Quat ℝ) : (rotH q)ᵀ * rotH q = (qsq q ^ 2) • (1 : M3 ℝ) := by
  ext i j
  fin_cases i <;> fin_cases j <;> simp [rotH, qsq, Matrix.mul_apply, Fin.sum_univ_three] <;> ring
theorem rotH_det (q : Quat ℝ) : (rotH q).det = qsq q ^ 3 := by
  simp [rotH, qsq, det_fin_three]; ring
theorem toRot_eq (q : Quat ℝ) (h : qsq q = 1) : q.toRot = rotH q := by
  unfold qsq at h
  ext i j
  fin_cases i <;> fin_cases j <;> simp [rotH, Quat.toRot] <;> first | ring1 | linear_combination (-1 : ℝ) * h | linear_combination h
theorem toRot_isRot (q : Quat ℝ) (h : qsq q = 1) : isRot q.toRot := by
  rw [toRot_eq q h]
  exact ⟨by rw [rotH_orth, h]; simp, by rw [rotH_orth', h]; simp, by rw [rotH_det, h]; simp⟩
theorem qsq_mul (p q : Quat ℝ) : qsq (p.mul q) = qsq p * qsq q := by
  simp [qsq, Quat.mul]; ring
theorem qsq_conj (p : Quat ℝ) : qsq p.conj = qsq p := by
  simp [qsq, Quat.conj]
theorem nsq_eq (p : Quat ℝ) : p.nsq = qsq p := by
  simp [qsq, Quat.nsq]; ring
theorem qsq_nonneg (p : Quat ℝ) : 0 ≤ qsq p := by unfold qsq; positivity
theorem qsq_normalized (p : Quat ℝ) (h : 0 < qsq p) : qsq p.normalized = 1 := by
  have hn : p.nsq = qsq p := nsq_eq p
  unfold Quat.normalized
  rw [if_pos (by rw [lt_real, hn]; exact h)]
  have hs : Real.sqrt (qsq p) ^ 2 = qsq p := Real.sq_sqrt h.le
  have hs0 : Real.sqrt (qsq p) ≠ 0 := (Real.sqrt_pos.2 h).ne'
  simp only [hn, sqrt_real]
  unfold qsq at *
  field_simp
  linarith [hs]
theorem normalized_unit (p : Quat ℝ) (h : qsq p = 1) : p.normalized = p := by
  unfold Quat.normalized
  rw [if_pos (by rw [lt_real, nsq_eq, h]; norm_num)]
  simp only [nsq_eq, h, sqrt_real, Real.sqrt_one, div_one]

theorem isRot_Rx (t : ℝ) : isRot (Rx t) := by
  have h := Real.sin_sq_add_cos_sq t
  refine ⟨?_, ?_, ?_⟩
  · ext i j; fin_cases i <;> fin_cases j <;> simp [Rx, Matrix.mul_apply, Fin.sum_univ_three] <;> first | ring1 | linear_combination h
  · ext i j; fin_cases i <;> fin_cases j <;> simp [Rx, Matrix.mul_apply, Fin.sum_univ_three] <;> first | ring1 | linear_combination h
  · simp [Rx, det_fin_three]; linear_combination h
theorem isRot_Ry (t : ℝ) : isRot (Ry t) := by
  have h := Real.sin_sq_add_cos_sq t
  refine ⟨?_, ?_, ?_⟩
  · ext i j; fin_cases i <;> fin_cases j <;> simp [Ry, Matrix.mul_apply, Fin.sum_univ_three] <;> first | ring1 | linear_combination h
  · ext i j; fin_cases i <;> fin_cases j <;> simp [Ry, Matrix.mul_apply, Fin.sum_univ_three] <;> first | ring1 | linear_combination h
  · simp [Ry, det_fin_three]; linear_combination h
theorem isRot_Rz (t : ℝ) : isRot (Rz t) := by
  have h := Real.sin_sq_add_cos_sq t
  refine ⟨?_, ?_, ?_⟩
  · ext i j; fin_cases i <;> fin_cases j <;> simp [Rz, Matrix.mul_apply, Fin.sum_univ_three] <;> first | ring1 | linear_combination h
  · ext i j; fin_cases i <;> fin_cases j <;> simp [Rz, Matrix.mul_apply, Fin.sum_univ_three] <;> first | ring1 | linear_combination h
  · simp [Rz, det_fin_three]; linear_combination h
theorem isRot_mul {A B : M3 ℝ} (hA : isRot A) (hB : isRot B) : isRot (A * B) := by
  obtain ⟨a1, a2, a3⟩ := hA
  obtain ⟨b1, b2, b3⟩ := hB
  refine ⟨?_, ?_, by rw [det_mul, a3, b3, one_mul]⟩
  · rw [transpose_mul, Matrix.mul_assoc, ← Matrix.mul_assoc B, b1, Matrix.one_mul, a1]
  · rw [transpose_mul, Matrix.mul_assoc, ← Matrix.mul_assoc Aᵀ, a2, Matrix.one_mul, b2]

theorem eulerToDcm_eq (e : V3 ℝ) : eulerToDcm e = Rz (e 2) * Ry (e 1) * Rx (e 0) := by
  ext i j
  fin_cases i <;> fin_cases j <;> simp [eulerToDcm, Rx, Ry, Rz, Matrix.mul_apply, Fin.sum_univ_three] <;> ring

/-- Elementary quaternions. -/
noncomputable def qx (t : ℝ) : Quat ℝ := ⟨Real.cos (t / 2), Real.sin (t / 2), 0, 0⟩
@[inherit_doc qx] noncomputable def qy (t : ℝ) : Quat ℝ := ⟨Real.cos (t / 2), 0, Real.sin (t / 2), 0⟩
@[inherit_doc qx] noncomputable def qz (t : ℝ) : Quat ℝ := ⟨Real.cos (t / 2), 0, 0, Real.sin (t / 2)⟩
theorem half_sin (t : ℝ) : Real.sin t = 2 * Real.sin (t / 2) * Real.cos (t / 2) := by
  rw [← Real.sin_two_mul]; congr 1; ring
theorem half_cos (t : ℝ) : Real.cos t = Real.cos (t / 2) ^ 2 - Real.sin (t / 2) ^ 2 := by
  rw [← Real.cos_two_mul']; congr 1; ring
theorem rotH_qx (t : ℝ) : rotH (qx t) = Rx t := by
  have h := Real.sin_sq_add_cos_sq (t / 2)
  ext i j
  fin_cases i <;> fin_cases j <;> simp [rotH, qx, Rx, half_sin t, half_cos t] <;> first | ring1 | linear_combination h
theorem rotH_qy (t : ℝ) : rotH (qy t) = Ry t := by
  have h := Real.sin_sq_add_cos_sq (t / 2)
  ext i j
  fin_cases i <;> fin_cases j <;> simp [rotH, qy, Ry, half_sin t, half_cos t] <;> first | ring1 | linear_combination h
theorem rotH_qz (t : ℝ) : rotH (qz t) = Rz t := by
  have h := Real.sin_sq_add_cos_sq (t / 2)
  ext i j
  fin_cases i <;> fin_cases j <;> simp [rotH, qz, Rz, half_sin t, half_cos t] <;> first | ring1 | linear_combination h
theorem eulerToQuat_eq (e : V3 ℝ) : eulerToQuat e = ((qz (e 2)).mul (qy (e 1))).mul (qx (e 0)) := by
  simp [eulerToQuat, qx, qy, qz, Quat.mul]
  refine ⟨?_, ?_, ?_, ?_⟩ <;> ring
theorem qsq_q (t : ℝ) : qsq (qx t) = 1 ∧ qsq (qy t) = 1 ∧ qsq (qz t) = 1 := by
  have h := Real.sin_sq_add_cos_sq (t / 2)
  refine ⟨?_, ?_, ?_⟩ <;> simp [qsq, qx, qy, qz] <;> linear_combination h
theorem qsq_euler (e : V3 ℝ) : qsq (eulerToQuat e) = 1 := by
  rw [eulerToQuat_eq, qsq_mul, qsq_mul, (qsq_q _).1, (qsq_q _).2.1, (qsq_q _).2.2]; norm_num
end Verif
