import Verif.Props.Convert
import Mathlib.Tactic.LinearCombination
/-! Reported angles near gimbal lock, in exact arithmetic. -/
namespace Verif.Props
open Verif Verif.Spec Verif.Convert Matrix

theorem dcm_entries (e : V3 ℝ) :
    eulerToDcm e 2 0 = -Real.sin (e 1) ∧
    eulerToDcm e 2 1 = Real.cos (e 1) * Real.sin (e 0) ∧ eulerToDcm e 2 2 = Real.cos (e 1) * Real.cos (e 0) ∧
    eulerToDcm e 1 2 - eulerToDcm e 0 1 = (1 + Real.sin (e 1)) * Real.sin (e 2 - e 0) ∧
    eulerToDcm e 0 2 + eulerToDcm e 1 1 = (1 + Real.sin (e 1)) * Real.cos (e 2 - e 0) ∧
    eulerToDcm e 1 2 + eulerToDcm e 0 1 = -((1 - Real.sin (e 1)) * Real.sin (e 2 + e 0)) := by
  refine ⟨by simp [eulerToDcm], by simp [eulerToDcm]; ring, by simp [eulerToDcm]; ring, ?_, ?_, ?_⟩ <;>
    simp [eulerToDcm, Real.sin_sub, Real.cos_sub, Real.sin_add] <;> ring

theorem lock_pitch (e : V3 ℝ) (hpitch : e 1 ∈ Set.Ioo (-(Real.pi / 2)) (Real.pi / 2)) : dcmToEuler (eulerToDcm e) 1 = e 1 := by
  have hc : 0 < Real.cos (e 1) := Real.cos_pos_of_mem_Ioo hpitch
  obtain ⟨c20, c21, c22, -⟩ := dcm_entries e
  have hs : Real.sqrt (Real.cos (e 1) * Real.sin (e 0) * (Real.cos (e 1) * Real.sin (e 0)) +
      Real.cos (e 1) * Real.cos (e 0) * (Real.cos (e 1) * Real.cos (e 0))) = Real.cos (e 1) := by
    rw [show Real.cos (e 1) * Real.sin (e 0) * (Real.cos (e 1) * Real.sin (e 0)) +
      Real.cos (e 1) * Real.cos (e 0) * (Real.cos (e 1) * Real.cos (e 0)) = Real.cos (e 1) ^ 2 from by
        linear_combination Real.cos (e 1) ^ 2 * Real.sin_sq_add_cos_sq (e 0)]
    exact Real.sqrt_sq hc.le
  have key : (Fl.atan (-(eulerToDcm e 2 0) / Fl.sqrt (eulerToDcm e 2 1 * eulerToDcm e 2 1 + eulerToDcm e 2 2 * eulerToDcm e 2 2)) : ℝ) = e 1 := by
    simp only [c20, c21, c22, sqrt_real, hs, neg_neg, atan_real]
    rw [← Real.tan_eq_sin_div_cos]
    exact Real.arctan_tan hpitch.1 hpitch.2
  unfold dcmToEuler
  split_ifs <;> simpa [v3] using key

/-- C149: with the nose up beyond the threshold the pitch reported is right, and the heading reported is the heading
that the attitude has when the roll is taken as zero: heading minus roll, modulo a turn. -/
theorem C149_nose_up (e : V3 ℝ) (hpitch : e 1 ∈ Set.Ioo (-(Real.pi / 2)) (Real.pi / 2))
    (hlock : 999 / 1000 ≤ Real.sin (e 1)) :
    dcmToEuler (eulerToDcm e) 1 = e 1 ∧
    Real.sin (dcmToEuler (eulerToDcm e) 2) = Real.sin (e 2 - e 0) ∧
    Real.cos (dcmToEuler (eulerToDcm e) 2) = Real.cos (e 2 - e 0) := by
  obtain ⟨c20, -, -, d1, d2, -⟩ := dcm_entries e
  refine ⟨lock_pitch e hpitch, ?_⟩
  have h2 : dcmToEuler (eulerToDcm e) 2 = Complex.arg ⟨(1 + Real.sin (e 1)) * Real.cos (e 2 - e 0), (1 + Real.sin (e 1)) * Real.sin (e 2 - e 0)⟩ := by
    unfold dcmToEuler
    rw [if_pos (by simp only [c20, le_real, lit_real]; push_cast; linarith)]
    simp [v3, d1, d2, atan2_real]
  have hp : 0 < 1 + Real.sin (e 1) := by linarith
  have := polar_arg ((1 + Real.sin (e 1)) * Real.cos (e 2 - e 0)) ((1 + Real.sin (e 1)) * Real.sin (e 2 - e 0)) (1 + Real.sin (e 1)) hp
    (by linear_combination (1 + Real.sin (e 1)) ^ 2 * Real.sin_sq_add_cos_sq (e 2 - e 0))
  rw [h2, this.1, this.2]
  constructor <;> field_simp

/-- What the heading reported with the nose up means: at a quarter turn of pitch, heading minus roll with zero roll is
the very same attitude. -/
theorem C149_zero_roll (e : V3 ℝ) (h : e 1 = Real.pi / 2) : eulerToDcm (v3 0 (e 1) (e 2 - e 0)) = eulerToDcm e := by
  ext i j
  fin_cases i <;> fin_cases j <;> simp [eulerToDcm, v3, h, Real.sin_sub, Real.cos_sub] <;> ring

/-- Likewise with the nose down: heading plus roll with zero roll is the very same attitude; this is what should be
reported there. -/
theorem C149_zero_roll_down (e : V3 ℝ) (h : e 1 = -(Real.pi / 2)) : eulerToDcm (v3 0 (e 1) (e 2 + e 0)) = eulerToDcm e := by
  ext i j
  fin_cases i <;> fin_cases j <;> simp [eulerToDcm, v3, h, Real.sin_add, Real.cos_add] <;> ring

/-- C149, exactly what is reported with the nose down beyond the threshold: the pitch is right; the heading is in the
direction with north component `-(1 + sin pitch) cos (heading - roll)` and east component
`(1 - sin pitch) sin (heading + roll)`. -/
theorem C149_nose_down (e : V3 ℝ) (hpitch : e 1 ∈ Set.Ioo (-(Real.pi / 2)) (Real.pi / 2))
    (hlock : Real.sin (e 1) ≤ -(999 / 1000)) :
    dcmToEuler (eulerToDcm e) 1 = e 1 ∧
    ∃ r > 0,
      r * Real.cos (dcmToEuler (eulerToDcm e) 2) = -((1 + Real.sin (e 1)) * Real.cos (e 2 - e 0)) ∧
      r * Real.sin (dcmToEuler (eulerToDcm e) 2) = (1 - Real.sin (e 1)) * Real.sin (e 2 + e 0) ∨
    (Real.cos (e 2 - e 0) = 0 ∧ Real.sin (e 2 + e 0) = 0) := by
  obtain ⟨c20, -, -, -, d2, d3⟩ := dcm_entries e
  by_cases hz : Real.cos (e 2 - e 0) = 0 ∧ Real.sin (e 2 + e 0) = 0
  · exact ⟨lock_pitch e hpitch, 1, one_pos, Or.inr hz⟩
  refine ⟨lock_pitch e hpitch, ?_⟩
  set x := (1 + Real.sin (e 1)) * Real.cos (e 2 - e 0) with hx
  set y := -((1 - Real.sin (e 1)) * Real.sin (e 2 + e 0)) with hy
  have h2 : dcmToEuler (eulerToDcm e) 2 = Complex.arg ⟨x, y⟩ + Real.pi := by
    unfold dcmToEuler
    rw [if_neg (by simp only [c20, le_real, lit_real]; push_cast; linarith),
      if_pos (by simp only [c20, le_real, lit_real]; push_cast; linarith)]
    simp [v3, d2, d3, atan2_real, hx, hy]
  have hc : 0 < Real.cos (e 1) := Real.cos_pos_of_mem_Ioo hpitch
  have hs : 0 < 1 + Real.sin (e 1) := by nlinarith [Real.sin_sq_add_cos_sq (e 1), Real.neg_one_le_sin (e 1), Real.sin_le_one (e 1)]
  have hd : 0 < 1 - Real.sin (e 1) := by linarith
  have hne : 0 < x ^ 2 + y ^ 2 := by
    rcases not_and_or.1 hz with h | h
    · have : x ≠ 0 := mul_ne_zero hs.ne' h
      positivity
    · have : y ≠ 0 := neg_ne_zero.2 (mul_ne_zero hd.ne' h)
      positivity
  have hr := Real.sqrt_pos.2 hne
  obtain ⟨p1, p2⟩ := polar_arg x y (Real.sqrt (x ^ 2 + y ^ 2)) hr (Real.sq_sqrt hne.le).symm
  refine ⟨_, hr, Or.inl ⟨?_, ?_⟩⟩
  · rw [h2, Real.cos_add_pi, p1]; field_simp
  · rw [h2, Real.sin_add_pi, p2, show (1 - Real.sin (e 1)) * Real.sin (e 2 + e 0) = -y by rw [hy]; ring]; field_simp

/-- C149, the violation: with the nose down beyond the threshold and no roll, north and south are exchanged: whenever
the vehicle's heading has a northern component the heading reported has a southern one, and conversely. -/
theorem C149_north_south_swapped (e : V3 ℝ) (hpitch : e 1 ∈ Set.Ioo (-(Real.pi / 2)) (Real.pi / 2))
    (hlock : Real.sin (e 1) ≤ -(999 / 1000)) (hroll : e 0 = 0) :
    (0 < Real.cos (e 2) → Real.cos (dcmToEuler (eulerToDcm e) 2) < 0) ∧
    (Real.cos (e 2) < 0 → 0 < Real.cos (dcmToEuler (eulerToDcm e) 2)) := by
  have hc : 0 < Real.cos (e 1) := Real.cos_pos_of_mem_Ioo hpitch
  have hs : 0 < 1 + Real.sin (e 1) := by nlinarith [Real.sin_sq_add_cos_sq (e 1), Real.neg_one_le_sin (e 1), Real.sin_le_one (e 1)]
  obtain ⟨-, r, hr, h | h⟩ := C149_nose_down e hpitch hlock
  · rw [hroll, sub_zero] at h
    constructor
    · intro k
      have : r * Real.cos (dcmToEuler (eulerToDcm e) 2) < 0 := by rw [h.1]; have := mul_pos hs k; linarith
      by_contra hn
      have := mul_nonneg hr.le (not_lt.1 hn)
      linarith
    · intro k
      have : 0 < r * Real.cos (dcmToEuler (eulerToDcm e) 2) := by rw [h.1]; have := mul_neg_of_pos_of_neg hs k; linarith
      exact (pos_iff_pos_of_mul_pos this).1 hr
  · rw [hroll, sub_zero, add_zero] at h
    have := Real.sin_sq_add_cos_sq (e 2)
    rw [h.1, h.2] at this
    norm_num at this

/-- The hypotheses are met: pitch of minus 1.55 rad (88.8 degrees down), heading north. -/
example : ∃ e : V3 ℝ, e 1 ∈ Set.Ioo (-(Real.pi / 2)) (Real.pi / 2) ∧ Real.sin (e 1) ≤ -(999 / 1000) ∧ e 0 = 0 ∧ 0 < Real.cos (e 2) := by
  refine ⟨v3 0 (-(Real.arcsin (999 / 1000))) 0, ?_, ?_, rfl, by simp [v3]⟩
  · have h := Real.arcsin_lt_pi_div_two.2 (show (999 / 1000 : ℝ) < 1 by norm_num)
    have h0 := Real.arcsin_pos.2 (show (0 : ℝ) < 999 / 1000 by norm_num)
    have := Real.pi_pos
    constructor <;> simp [v3] <;> linarith
  · simp [v3, Real.sin_neg, Real.sin_arcsin (show (-1 : ℝ) ≤ 999 / 1000 by norm_num) (by norm_num)]
example : ∃ e : V3 ℝ, e 1 ∈ Set.Ioo (-(Real.pi / 2)) (Real.pi / 2) ∧ 999 / 1000 ≤ Real.sin (e 1) ∧ e 0 ≠ 0 := by
  refine ⟨v3 1 (Real.arcsin (999 / 1000)) 0, ?_, ?_, by simp [v3]⟩
  · have h := Real.arcsin_lt_pi_div_two.2 (show (999 / 1000 : ℝ) < 1 by norm_num)
    have h0 := Real.arcsin_pos.2 (show (0 : ℝ) < 999 / 1000 by norm_num)
    have := Real.pi_pos
    constructor <;> simp [v3] <;> linarith
  · simp [v3, Real.sin_arcsin (show (-1 : ℝ) ≤ 999 / 1000 by norm_num) (by norm_num)]
end Verif.Props
