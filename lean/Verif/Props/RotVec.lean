import Verif.Lemmas.Rotation
import Verif.Lemmas.Taylor
import Mathlib.Tactic.Positivity
import Mathlib.Analysis.Real.Pi.Bounds
/-! Rotation vectors to quaternions, in exact arithmetic. -/
namespace Verif.Props
open Verif Verif.Spec Verif.Convert Matrix

theorem len_sq (v : V3 ℝ) : len v ^ 2 = v 0 ^ 2 + v 1 ^ 2 + v 2 ^ 2 := Real.sq_sqrt (by positivity)
theorem len_nonneg (v : V3 ℝ) : 0 ≤ len v := Real.sqrt_nonneg _
theorem comp_le_len (v : V3 ℝ) (i : Fin 3) : |v i| ≤ len v := by
  apply abs_le_of_sq_le_sq _ (len_nonneg v)
  rw [len_sq]
  fin_cases i <;> simp <;> nlinarith [sq_nonneg (v 0), sq_nonneg (v 1), sq_nonneg (v 2)]

/-- The two polynomials of the series branch, in `t`, half the angle. -/
noncomputable def csP (t : ℝ) : ℝ := 1 - t ^ 2 / 2 + t ^ 4 / 24 - t ^ 6 / 720
@[inherit_doc csP] noncomputable def snP (t : ℝ) : ℝ := 1 - t ^ 2 / 6 + t ^ 4 / 120 - t ^ 6 / 5040

theorem rv_small (v : V3 ℝ) (h : len v < Real.pi) :
    rvToQuat v = ⟨csP (len v / 2), 1 / 2 * snP (len v / 2) * v 0, 1 / 2 * snP (len v / 2) * v 1,
      1 / 2 * snP (len v / 2) * v 2⟩ := by
  have hm : v 0 * v 0 + v 1 * v 1 + v 2 * v 2 = len v ^ 2 := by rw [len_sq]; ring
  unfold rvToQuat
  simp only [hm, pi_real, lit_real]
  rw [if_pos (by rw [lt_real]; nlinarith [len_nonneg v])]
  simp only [Quat.mk.injEq, csP, snP]
  push_cast
  refine ⟨?_, ?_, ?_, ?_⟩ <;> ring

theorem rv_large (v : V3 ℝ) (h : Real.pi ≤ len v) :
    rvToQuat v = if Real.cos (len v / 2) < 0 then
      ⟨-(rotQuat v).w, -(rotQuat v).x, -(rotQuat v).y, -(rotQuat v).z⟩ else rotQuat v := by
  have hm : v 0 * v 0 + v 1 * v 1 + v 2 * v 2 = len v ^ 2 := by rw [len_sq]; ring
  unfold rvToQuat
  simp only [hm, pi_real, lit_real, sqrt_real, Real.sqrt_sq (len_nonneg v), sin_real, cos_real]
  rw [if_neg (by rw [lt_real]; nlinarith [len_nonneg v, Real.pi_pos])]
  push_cast
  by_cases hc : Real.cos (len v / 2) < 0
  · rw [if_pos (by rw [lt_real]; exact hc), if_pos hc]
    simp only [Quat.mk.injEq, rotQuat]
    refine ⟨trivial, ?_, ?_, ?_⟩ <;> ring
  · rw [if_neg (by rw [lt_real]; exact hc), if_neg hc]
    simp only [Quat.mk.injEq, rotQuat]
    refine ⟨trivial, ?_, ?_, ?_⟩ <;> ring

theorem half_lt (v : V3 ℝ) (h : len v < Real.pi) : len v / 2 ≤ 1.5708 := by
  have := Real.pi_lt_d4; norm_num at *; linarith

theorem cs_err (t : ℝ) (h0 : 0 ≤ t) (h : t ≤ 1.5708) : 0 ≤ Real.cos t - csP t ∧ Real.cos t - csP t < 1 / 1000 := by
  have h1 := Taylor.cos6 t h0
  have h2 := Taylor.cos8 t h0
  have h3 : t ^ 8 ≤ 1.5708 ^ 8 := pow_le_pow_left₀ h0 h 8
  have h4 : (1.5708 : ℝ) ^ 8 < 40 := by norm_num
  unfold csP
  constructor <;> linarith
theorem sn_err (t : ℝ) (h0 : 0 ≤ t) (h : t ≤ 1.5708) : 0 ≤ Real.sin t - t * snP t ∧ Real.sin t - t * snP t < 1 / 1000 := by
  have h1 := Taylor.sin7 t h0
  have h2 := Taylor.sin9 t h0
  have h3 : t ^ 9 ≤ 1.5708 ^ 9 := pow_le_pow_left₀ h0 h 9
  have h4 : (1.5708 : ℝ) ^ 9 < 60 := by norm_num
  unfold snP
  constructor <;> nlinarith

theorem qsq_rotQuat (v : V3 ℝ) : qsq (rotQuat v) = 1 := by
  have h := Real.sin_sq_add_cos_sq (len v / 2)
  have hl := len_sq v
  by_cases h0 : len v = 0
  · simp [qsq, rotQuat, h0]
  · simp only [qsq, rotQuat]
    field_simp
    linear_combination (len v) ^ 2 * h - Real.sin (len v / 2) ^ 2 * hl

theorem norm_small (t : ℝ) (h0 : 0 ≤ t) (h : t ≤ 1.5708) :
    csP t ^ 2 + (t * snP t) ^ 2 ≤ 1 ∧ 1 - 1 / 1000 < csP t ^ 2 + (t * snP t) ^ 2 := by
  set m := t ^ 2 with hm
  have m0 : 0 ≤ m := sq_nonneg t
  have m1 : m ≤ 5 / 2 := by
    have : t ^ 2 ≤ 1.5708 ^ 2 := pow_le_pow_left₀ h0 h 2
    norm_num at this; linarith
  have e : csP t ^ 2 + (t * snP t) ^ 2 = 1 - m ^ 4 * (1 / 20160 - m / 50400 + m ^ 2 / 725760 - m ^ 3 / 25401600) := by
    rw [hm]; unfold csP snP; ring
  rw [e]
  have q0 : 0 ≤ 1 / 20160 - m / 50400 + m ^ 2 / 725760 - m ^ 3 / 25401600 := by nlinarith [mul_nonneg m0 m0]
  have m4 : 0 ≤ m ^ 4 := by positivity
  refine ⟨by nlinarith [mul_nonneg m4 q0], ?_⟩
  have k1 : 0 ≤ 2 / 5 * m ^ 5 - m ^ 4 + 16 / 5 := by
    have : 2 / 5 * m ^ 5 - m ^ 4 + 16 / 5 = 2 / 5 * ((m - 2) ^ 2 * (m ^ 3 + 3 / 2 * m ^ 2 + 2 * m + 2)) := by ring
    rw [this]; positivity
  have k2 : m ^ 6 ≤ (5 / 2) ^ 6 := pow_le_pow_left₀ m0 m1 6
  have k3 : 0 ≤ m ^ 7 := by positivity
  have k4 : ((5 : ℝ) / 2) ^ 6 < 250 := by norm_num
  nlinarith

/-- C43: the quaternion of a rotation vector is within one part in a thousand of the exact one and of unit
length for less than half a turn, and is exactly the exact one, up to the sign that makes its scalar part
non-negative, from half a turn on. -/
theorem C43_rotation_vector (v : V3 ℝ) :
    rvToQuat (v3 (0 : ℝ) 0 0) = ⟨1, 0, 0, 0⟩ ∧ 0 < qsq (rvToQuat v) ∧
    (len v < Real.pi →
      |(rvToQuat v).w - (rotQuat v).w| < 1 / 1000 ∧ |(rvToQuat v).x - (rotQuat v).x| < 1 / 1000 ∧
      |(rvToQuat v).y - (rotQuat v).y| < 1 / 1000 ∧ |(rvToQuat v).z - (rotQuat v).z| < 1 / 1000 ∧
      |qsq (rvToQuat v) - 1| < 1 / 1000) ∧
    (Real.pi ≤ len v → qsq (rvToQuat v) = 1 ∧ 0 ≤ (rvToQuat v).w ∧
      (rvToQuat v = rotQuat v ∨
       rvToQuat v = ⟨-(rotQuat v).w, -(rotQuat v).x, -(rotQuat v).y, -(rotQuat v).z⟩)) := by
  have small : len v < Real.pi → |qsq (rvToQuat v) - 1| < 1 / 1000 := by
    intro h
    have h0 : 0 ≤ len v / 2 := by have := len_nonneg v; linarith
    obtain ⟨a, b⟩ := norm_small _ h0 (half_lt v h)
    have e : qsq (rvToQuat v) = csP (len v / 2) ^ 2 + (len v / 2 * snP (len v / 2)) ^ 2 := by
      rw [rv_small v h]
      simp only [qsq]
      linear_combination (-(1 / 4 : ℝ)) * snP (len v / 2) ^ 2 * len_sq v
    rw [e, abs_lt]
    constructor <;> linarith
  have large : Real.pi ≤ len v → qsq (rvToQuat v) = 1 ∧ 0 ≤ (rvToQuat v).w ∧
      (rvToQuat v = rotQuat v ∨
       rvToQuat v = ⟨-(rotQuat v).w, -(rotQuat v).x, -(rotQuat v).y, -(rotQuat v).z⟩) := by
    intro h
    rw [rv_large v h]
    have hq := qsq_rotQuat v
    split_ifs with hc
    · refine ⟨?_, ?_, Or.inr rfl⟩
      · rw [← hq]; simp [qsq]
      · simp only [rotQuat]; linarith
    · exact ⟨hq, not_lt.1 hc, Or.inl rfl⟩
  refine ⟨?_, ?_, fun h => ?_, large⟩
  · have h0 : len (v3 (0 : ℝ) 0 0) = 0 := by simp [len, v3]
    rw [rv_small _ (by rw [h0]; exact Real.pi_pos), h0]
    simp [csP, v3]
  · rcases lt_or_ge (len v) Real.pi with h | h
    · have := abs_lt.1 (small h); linarith [this.1]
    · rw [(large h).1]; norm_num
  · have h0 : 0 ≤ len v / 2 := by have := len_nonneg v; linarith
    have a := cs_err _ h0 (half_lt v h)
    have b := sn_err _ h0 (half_lt v h)
    have comp : ∀ i : Fin 3, |1 / 2 * snP (len v / 2) * v i - Real.sin (len v / 2) / len v * v i| < 1 / 1000 := by
      intro i
      rcases (len_nonneg v).eq_or_lt with hz | hp
      · have : v i = 0 := by have := comp_le_len v i; rw [← hz] at this; exact abs_eq_zero.1 (le_antisymm this (abs_nonneg _))
        rw [this]; norm_num
      · have e : 1 / 2 * snP (len v / 2) * v i - Real.sin (len v / 2) / len v * v i =
            -((Real.sin (len v / 2) - len v / 2 * snP (len v / 2)) * (v i / len v)) := by field_simp; ring
        rw [e, abs_neg, abs_mul, abs_of_nonneg b.1]
        have hv : |v i / len v| ≤ 1 := by
          rw [abs_div, abs_of_pos hp, div_le_one hp]; exact comp_le_len v i
        nlinarith [b.1, b.2, abs_nonneg (v i / len v)]
    refine ⟨?_, ?_, ?_, ?_, small h⟩
    · rw [rv_small v h, abs_sub_comm]
      simp only [rotQuat]
      rw [abs_of_nonneg a.1]; exact a.2
    · rw [rv_small v h]; exact comp 0
    · rw [rv_small v h]; exact comp 1
    · rw [rv_small v h]; exact comp 2

/-- C43: just below half a turn the scalar part does become negative. -/
theorem C43_scalar_part_can_be_negative : ∃ v : V3 ℝ, len v < Real.pi ∧ (rvToQuat v).w < 0 := by
  have h0 : len (v3 3.1415 0 0) = 3.1415 := by
    have : len (v3 3.1415 0 0) = Real.sqrt (3.1415 ^ 2) := by unfold len v3; congr 1; simp
    rw [this, Real.sqrt_sq (by norm_num)]
  have h1 : len (v3 3.1415 0 0) < Real.pi := by rw [h0]; exact Real.pi_gt_d4
  refine ⟨_, h1, ?_⟩
  rw [rv_small _ h1, h0]
  simp only [csP]; norm_num

/-- Both ranges of C43 are inhabited. -/
example : len (v3 (0 : ℝ) 0 0) < Real.pi ∧ Real.pi ≤ len (v3 Real.pi 0 0) := by
  have := Real.pi_pos
  constructor
  · simp [len, v3, this]
  · simp [len, v3, Real.sqrt_sq this.le]
end Verif.Props
