import Verif.Props.RotVec
import Verif.Spec.NaN
/-! C130: the rotation matrix of a rotation vector. -/
namespace Verif.Props
open Verif Verif.Spec Verif.Convert Matrix

/-- C130: for every non-zero vector the matrix is the rotation by `|v|` about `v`: it is the matrix of the exact
quaternion, it is a rotation, its axis is `v`, its trace is `1 + 2·cos |v|`, and the opposite vector gives the
inverse rotation. -/
theorem C130_rodrigues_partial (v : V3 ℝ) (hv : v ≠ 0) :
    rvToDcm v = quatToDcm (rotQuat v) ∧ isRot (rvToDcm v) ∧ rvToDcm v *ᵥ v = v ∧
    (rvToDcm v).trace = 1 + 2 * Real.cos (len v) ∧ rvToDcm (-v) = (rvToDcm v)ᵀ := by
  have hlen : 0 < len v := by
    rcases (len_nonneg v).lt_or_eq with h | h
    · exact h
    · exfalso
      have h2 := len_sq v
      rw [← h] at h2
      apply hv
      ext i
      fin_cases i <;> simp only [Fin.zero_eta, Fin.mk_one, Fin.reduceFinMk, Pi.zero_apply] <;>
        nlinarith [sq_nonneg (v 0), sq_nonneg (v 1), sq_nonneg (v 2)]
  have hl2 := len_sq v
  have key : ∀ v : V3 ℝ, 0 < len v → rvToDcm v = 1 + (Real.sin (len v) / len v) • skew v + ((1 - Real.cos (len v)) / len v ^ 2) • (skew v * skew v) := by
    intro v _
    have hm : v 0 * v 0 + v 1 * v 1 + v 2 * v 2 = len v ^ 2 := by rw [len_sq]; ring
    unfold rvToDcm
    simp only [hm, sqrt_real, Real.sqrt_sq (len_nonneg v), sin_real, cos_real, sm_real, mmul_real, eyeM_real, Matrix.smul_mul]
  have e1 : rvToDcm v = quatToDcm (rotQuat v) := by
    rw [key v hlen]
    unfold quatToDcm
    rw [toRot_eq _ (qsq_rotQuat v)]
    obtain ⟨t, ht⟩ : ∃ t, t = len v / 2 := ⟨_, rfl⟩
    have hL : len v = 2 * t := by rw [ht]; ring
    have ht0 : t ≠ 0 := by rw [ht]; positivity
    rw [hL] at hl2
    unfold rotQuat
    rw [hL, Real.sin_two_mul, Real.cos_two_mul]
    have hsc := Real.sin_sq_add_cos_sq t
    rw [show 2 * t / 2 = t by ring]
    generalize Real.sin t = s at hsc ⊢
    generalize Real.cos t = c at hsc ⊢
    have hs2 : 1 - (2 * c ^ 2 - 1) = 2 * s ^ 2 := by linear_combination (-2 : ℝ) * hsc
    rw [hs2]
    ext i j
    fin_cases i <;> fin_cases j <;>
      simp [skew, rotH] <;> field_simp <;>
      first
      | ring1
      | linear_combination (-4 * t ^ 2) * hsc + s ^ 2 * hl2
  refine ⟨e1, ?_, ?_, ?_, ?_⟩
  · rw [e1]; exact toRot_isRot _ (qsq_rotQuat v)
  · rw [key v hlen]
    have h0 : skew v *ᵥ v = 0 := by
      ext i
      fin_cases i <;> simp [skew, mulVec, dotProduct, Fin.sum_univ_three] <;> ring
    rw [Matrix.add_mulVec, Matrix.add_mulVec, Matrix.one_mulVec, Matrix.smul_mulVec, Matrix.smul_mulVec, ← Matrix.mulVec_mulVec, h0]
    simp
  · rw [key v hlen]
    have h1 : (skew v).trace = 0 := by simp [skew, Matrix.trace_fin_three]
    have h2 : (skew v * skew v).trace = -2 * len v ^ 2 := by
      rw [hl2]
      simp [skew, Matrix.trace_fin_three]; ring
    rw [Matrix.trace_add, Matrix.trace_add, Matrix.trace_smul, Matrix.trace_smul, h1, h2, Matrix.trace_one]
    simp only [smul_eq_mul, Fintype.card_fin]
    field_simp
    push_cast
    ring
  · have hn : len (-v) = len v := by simp [len]
    have hs : skew (-v) = -skew v := by ext i j; fin_cases i <;> fin_cases j <;> simp [skew]
    have ht : (skew v)ᵀ = -skew v := by ext i j; fin_cases i <;> fin_cases j <;> simp [skew]
    rw [key v hlen, key (-v) (by rw [hn]; exact hlen), hn, hs]
    simp only [transpose_add, transpose_one, transpose_smul, transpose_mul, ht, neg_mul_neg]
example : (v3 (1 : ℝ) 0 0) ≠ 0 := fun h => by simpa [v3] using congrFun h 0

section
variable {α : Type} [Add α] [Sub α] [Mul α] [Neg α] [Div α] [Zero α] [One α] [Fl α]
/-- C130, violation: the zero rotation does not give the identity. In any arithmetic with a not-a-number where
`0 / 0` is not a number, and `0 + 0`, `0 * 0`, `√0`, `sin 0` and `1 - cos 0` are zero, every entry of the matrix of the zero
vector is not a number. -/
theorem C130_zero_rotation_is_nan (bad : α → Prop) (hb : Absorbing bad) (h00 : bad (0 / 0)) (ha : (0 : α) + 0 = 0) (hm : (0 : α) * 0 = 0)
    (hq : Fl.sqrt (0 : α) = 0) (hs : Fl.sin (0 : α) = 0) (hc : (1 : α) - Fl.cos 0 = 0) (i j : Fin 3) :
    bad (rvToDcm (v3 (0 : α) 0 0) i j) := by
  have e : (v3 (0 : α) 0 0) 0 * (v3 (0 : α) 0 0) 0 + (v3 (0 : α) 0 0) 1 * (v3 (0 : α) 0 0) 1 + (v3 (0 : α) 0 0) 2 * (v3 (0 : α) 0 0) 2 = 0 := by
    show (0 : α) * 0 + 0 * 0 + 0 * 0 = 0
    rw [hm, ha, ha]
  unfold rvToDcm
  simp only [e, hq, hs, hc]
  refine hb.add_l _ _ (hb.add_r _ _ ?_)
  exact hb.mul_l _ _ h00
end
example : ∀ i j, rvToDcm (v3 (0 : NReal) 0 0) i j = none :=
  C130_zero_rotation_is_nan (α := NReal) (fun a => a = none) NReal.absorbing (by show (if (0 : ℝ) = 0 then _ else _) = none; simp)
    (by show some ((0 : ℝ) + 0) = some 0; simp) (by show some ((0 : ℝ) * 0) = some 0; simp) (by show some (Real.sqrt 0) = some 0; simp)
    (by show some (Real.sin 0) = some 0; simp) (by show some (1 - Real.cos 0) = some 0; simp)
end Verif.Props
