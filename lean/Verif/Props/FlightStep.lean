import Verif.Props.FlightGeo
import Verif.Props.VelocityMoves
/-! One sample of the mechanization against one interval of the truth. -/
namespace Verif.Props
open Verif Verif.Spec Verif.Convert Matrix
open scoped Quaternion

/-- Position quaternion after two turns. -/
noncomputable def placeTurned (e : V3 ℝ) (Q : Quat ℝ) (z : V3 ℝ) : Quat ℝ := (((rvToQuat e).conj.mul Q).mul (rvToQuat z)).normalized

theorem turned_unit (e : V3 ℝ) (Q : Quat ℝ) (z : V3 ℝ) (hQ : qsq Q = 1) : qsq (placeTurned e Q z) = 1 := by
  have pe := rv_pos e; have pz := rv_pos z
  have pQ : 0 < qsq Q := by rw [hQ]; norm_num
  exact qsq_normalized _ (by rw [qsq_mul, qsq_mul, qsq_conj]; positivity)

theorem turned_eq (e : V3 ℝ) (Q : Quat ℝ) (z : V3 ℝ) (hQ : qsq Q = 1) :
    toH (placeTurned e Q z) = star (toH (rvToQuat e).normalized) * toH Q * toH (rvToQuat z).normalized := by
  have pe := rv_pos e; have pz := rv_pos z
  have pQ : 0 < qsq Q := by rw [hQ]; norm_num
  unfold placeTurned
  rw [normalized_mul _ _ (by rw [qsq_mul, qsq_conj]; positivity) pz, normalized_mul _ _ (by rw [qsq_conj]; exact pe) pQ, normalized_unit _ hQ,
    toH_normalized _ (by rw [qsq_conj]; exact pe), toH_normalized _ pe, toH_conj, norm_star]
  simp

theorem star_pure (x : V3 ℝ) : star (pureH x) = -pureH x := by ext <;> simp [pureH]

theorem turned_two (e : V3 ℝ) (Q : Quat ℝ) (z : V3 ℝ) (hQ : qsq Q = 1) (he : len e ≤ 1) (hz : len z ≤ 1) :
    ‖toH (placeTurned e Q z) - toH Q - (1 / 2 : ℝ) • (toH Q * pureH z) + (1 / 2 : ℝ) • (pureH e * toH Q)‖ ≤ 2 * (len e ^ 2 + len z ^ 2) := by
  rw [turned_eq e Q z hQ]
  have h1 := turn_two e he
  have h2 := turn_two z hz
  have uZ := toH_norm _ (qsq_normalized _ (rv_pos z))
  have uQ := toH_norm _ hQ
  have ne := pureH_norm e
  have nz := pureH_norm z
  have se := star_pure e
  have le := len_nonneg e
  have lz := len_nonneg z
  have h1' : ‖star (toH (rvToQuat e).normalized) - 1 + (1 / 2 : ℝ) • pureH e‖ ≤ len e ^ 2 := by
    have : star (toH (rvToQuat e).normalized) - 1 + (1 / 2 : ℝ) • pureH e = star (toH (rvToQuat e).normalized - 1 - (1 / 2 : ℝ) • pureH e) := by
      ext <;> simp [pureH]
    rw [this, norm_star]; exact h1
  generalize star (toH (rvToQuat e).normalized) = E at *
  generalize toH (rvToQuat z).normalized = Z at *
  generalize toH Q = P at *
  generalize pureH e = p at *
  generalize pureH z = q at *
  have a : E * P * Z - P - (1 / 2 : ℝ) • (P * q) + (1 / 2 : ℝ) • (p * P) =
      (E - 1 + (1 / 2 : ℝ) • p) * P * Z + (P * (Z - 1 - (1 / 2 : ℝ) • q) - (1 / 2 : ℝ) • (p * P * (Z - 1 - (1 / 2 : ℝ) • q)) - (1 / 4 : ℝ) • (p * P * q)) := by
    simp only [mul_sub, sub_mul, add_mul, smul_mul_assoc, mul_smul_comm, smul_sub, smul_smul, mul_one, one_mul]
    norm_num
    abel
  rw [a]
  refine (norm_add_le _ _).trans ?_
  have n1 := norm_sub_le (P * (Z - 1 - (1 / 2 : ℝ) • q) - (1 / 2 : ℝ) • (p * P * (Z - 1 - (1 / 2 : ℝ) • q))) ((1 / 4 : ℝ) • (p * P * q))
  have n2 := norm_sub_le (P * (Z - 1 - (1 / 2 : ℝ) • q)) ((1 / 2 : ℝ) • (p * P * (Z - 1 - (1 / 2 : ℝ) • q)))
  rw [norm_smul, norm_mul, norm_mul, norm_mul, ne, uQ, Real.norm_of_nonneg (by norm_num)] at n2
  rw [norm_smul, norm_mul (p * P) q, norm_mul, ne, nz, uQ, Real.norm_of_nonneg (by norm_num)] at n1
  rw [norm_mul, norm_mul, uQ, uZ]
  have r0 := norm_nonneg (Z - 1 - (1 / 2 : ℝ) • q)
  generalize ‖Z - 1 - (1 / 2 : ℝ) • q‖ = r at *
  have m1 : len e * r ≤ 1 * len z ^ 2 := mul_le_mul he h2 r0 (by norm_num)
  nlinarith [sq_nonneg (len e - len z)]

theorem turned_one (e : V3 ℝ) (Q : Quat ℝ) (z : V3 ℝ) (hQ : qsq Q = 1) (he : len e ≤ 1) (hz : len z ≤ 1) :
    ‖toH (placeTurned e Q z) - toH Q‖ ≤ 2 * len e + 2 * len z := by
  rw [turned_eq e Q z hQ]
  have h1 := turn_one e he
  have h2 := turn_one z hz
  have uZ := toH_norm _ (qsq_normalized _ (rv_pos z))
  have uQ := toH_norm _ hQ
  have h1' : ‖star (toH (rvToQuat e).normalized) - 1‖ ≤ 2 * len e := by
    rw [← star_one, ← star_sub, norm_star]; exact h1
  generalize star (toH (rvToQuat e).normalized) = E at *
  generalize toH (rvToQuat z).normalized = Z at *
  generalize toH Q = P at *
  have a : E * P * Z - P = (E - 1) * P * Z + P * (Z - 1) := by noncomm_ring
  rw [a]
  refine (norm_add_le _ _).trans ?_
  rw [norm_mul, norm_mul, norm_mul, uQ, uZ]
  linarith

/-- The turn of the body and of the frame on an attitude, to second order. -/
theorem att_two (R : M3 ℝ) (hR : ∀ y, len (R *ᵥ y) = len y) (f b x : V3 ℝ) (hf : len f ≤ 1) (hb : len b ≤ 1) :
    len (((turnM f)ᵀ * R * turnM b) *ᵥ x - R *ᵥ x - R *ᵥ xp b x + xp f (R *ᵥ x)) ≤ (len f + len b) ^ 2 * len x := by
  have h1 := turn_first b x (by linarith)
  have h2 := turn_first (-f) (R *ᵥ (turnM b *ᵥ x)) (by rw [show len (-f) = len f by unfold len; simp]; linarith)
  have lf := len_nonneg f
  have lb := len_nonneg b
  have lx := len_nonneg x
  rw [hR, turnM_rot, show len (-f) = len f by unfold len; simp] at h2
  rw [← mulVec_mulVec, ← mulVec_mulVec, turnM_t]
  have e : turnM (-f) *ᵥ (R *ᵥ (turnM b *ᵥ x)) - R *ᵥ x - R *ᵥ xp b x + xp f (R *ᵥ x) =
      (turnM (-f) *ᵥ (R *ᵥ (turnM b *ᵥ x)) - R *ᵥ (turnM b *ᵥ x) - xp (-f) (R *ᵥ (turnM b *ᵥ x))) + (R *ᵥ (turnM b *ᵥ x - x - xp b x) -
        xp f (R *ᵥ (turnM b *ᵥ x - x))) := by
    have : xp (-f) (R *ᵥ (turnM b *ᵥ x)) = -xp f (R *ᵥ (turnM b *ᵥ x)) := by ext i; fin_cases i <;> simp [xp] <;> ring
    rw [this, mulVec_sub, mulVec_sub, xp_sub_right]; abel
  rw [e]
  refine (len_add_le _ _).trans ?_
  have n1 := len_sub_le (R *ᵥ (turnM b *ᵥ x - x - xp b x)) (xp f (R *ᵥ (turnM b *ᵥ x - x)))
  rw [hR] at n1
  have n2 := len_xp_le f (R *ᵥ (turnM b *ᵥ x - x))
  rw [hR] at n2
  have n3 : len (turnM b *ᵥ x - x) ≤ 2 * len b * len x := by
    have e : turnM b *ᵥ x - x = (turnM b *ᵥ x - x - xp b x) + xp b x := by abel
    rw [e]
    refine (len_add_le _ _).trans ?_
    have := len_xp_le b x
    have : len b ^ 2 * len x ≤ len b * len x := mul_le_mul_of_nonneg_right (by nlinarith) lx
    linarith
  have n4 := mul_le_mul_of_nonneg_left n3 lf
  nlinarith
end Verif.Props
