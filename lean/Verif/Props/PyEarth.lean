import Verif.Props.Convert
import Verif.Model.PyEarth
import Mathlib.Analysis.SpecialFunctions.Trigonometric.Bounds
import Mathlib.Tactic.Ring
import Mathlib.Tactic.NormNum
import Mathlib.Tactic.Linarith
import Mathlib.Tactic.LinearCombination
import Mathlib.Tactic.FieldSimp
import Mathlib.Tactic.Positivity
import Mathlib.Tactic.FinCases
/-! From earth-fixed coordinates back to latitude, longitude and height, in exact arithmetic. -/
namespace Verif.Props
open Verif PyEarth

/-- `√(1 + (1 − e²) t²)` and `√(1 + t²)`, for `t` the tangent of a latitude. -/
noncomputable def tU (t : ℝ) : ℝ := Real.sqrt (1 + (1 - PyEarth.e2) * t ^ 2)
@[inherit_doc tU] noncomputable def tS (t : ℝ) : ℝ := Real.sqrt (1 + t ^ 2)

theorem e2_range : (0 : ℝ) < PyEarth.e2 ∧ PyEarth.e2 < 67 / 10000 := by unfold PyEarth.e2; norm_num

theorem tU_sq (t : ℝ) : tU t ^ 2 = 1 + (1 - PyEarth.e2) * t ^ 2 := by
  refine Real.sq_sqrt ?_
  nlinarith [sq_nonneg t, e2_range.1, e2_range.2]
theorem tS_sq (t : ℝ) : tS t ^ 2 = 1 + t ^ 2 := Real.sq_sqrt (by positivity)
theorem tU_ge (t : ℝ) : 1 ≤ tU t := by
  refine Real.le_sqrt_of_sq_le ?_
  nlinarith [sq_nonneg t, e2_range.1, e2_range.2]
theorem tS_ge (t : ℝ) : 1 ≤ tS t := Real.le_sqrt_of_sq_le (by nlinarith [sq_nonneg t])
theorem tU_pos (t : ℝ) : 0 < tU t := by linarith [tU_ge t]
theorem tS_pos (t : ℝ) : 0 < tS t := by linarith [tS_ge t]

theorem RN_arctan (t : ℝ) : PyEarth.RN (Real.arctan t) = r * tS t / tU t := by
  have h : 1 - PyEarth.e2 * Real.sin (Real.arctan t) * Real.sin (Real.arctan t) = (1 + (1 - PyEarth.e2) * t ^ 2) / (1 + t ^ 2) := by
    rw [Real.sin_arctan]
    have h1 : Real.sqrt (1 + t ^ 2) ^ 2 = 1 + t ^ 2 := Real.sq_sqrt (by positivity)
    have h2 : Real.sqrt (1 + t ^ 2) ≠ 0 := by positivity
    field_simp
    rw [h1]; ring
  unfold PyEarth.RN
  rw [h, Real.sqrt_div' _ (by positivity)]
  show r / (tU t / tS t) = _
  have := (tU_pos t).ne'
  have := (tS_pos t).ne'
  field_simp

/-- The height a round computes, as a function of the tangent it starts from. -/
noncomputable def tH (p t : ℝ) : ℝ := p * tS t - r * tS t / tU t
/-- The tangent a round computes. -/
noncomputable def tF (p z t : ℝ) : ℝ := z / (p - PyEarth.e2 * r / tU t)

theorem cos_of_arctan (t : ℝ) : Real.cos (Real.arctan t) = 1 / tS t := Real.cos_arctan t

theorem rounds_eq (p z : ℝ) (left : Nat) (t hp : ℝ) (h0 : 0 < p) (h1 : 0 < p - PyEarth.e2 * r / tU t) :
    rounds p z left (Real.arctan t) hp =
      if |tH p t - hp| < 1 / 100000000 then (Real.arctan (tF p z t), tH p t, false)
      else match left with
        | 0 => (Real.arctan (tF p z t), tH p t, true)
        | k + 1 => rounds p z k (Real.arctan (tF p z t)) (tH p t) := by
  have hS := tS_pos t
  have hU := tU_pos t
  have e1 : p / Real.cos (Real.arctan t) - PyEarth.RN (Real.arctan t) = tH p t := by
    rw [cos_of_arctan, RN_arctan]; unfold tH; rw [div_div_eq_mul_div, div_one]
  have e2' : Complex.arg ⟨p * (1 - PyEarth.e2 * PyEarth.RN (Real.arctan t) / (PyEarth.RN (Real.arctan t) + tH p t)), z⟩ =
      Real.arctan (tF p z t) := by
    have e3 : p * (1 - PyEarth.e2 * PyEarth.RN (Real.arctan t) / (PyEarth.RN (Real.arctan t) + tH p t)) = p - PyEarth.e2 * r / tU t := by
      rw [RN_arctan]
      unfold tH
      rw [show r * tS t / tU t + (p * tS t - r * tS t / tU t) = p * tS t by ring]
      field_simp
    rw [e3]
    have hlt := (Complex.abs_arg_lt_pi_div_two_iff (z := ⟨p - PyEarth.e2 * r / tU t, z⟩)).2 (Or.inl h1)
    rw [abs_lt] at hlt
    have ht := Complex.tan_arg ⟨p - PyEarth.e2 * r / tU t, z⟩
    rw [← Real.arctan_tan hlt.1 hlt.2, ht]
    rfl
  cases left with
  | zero =>
    unfold rounds
    dsimp only
    rw [e1, e2']
    by_cases h : |tH p t - hp| < 1 / 100000000 <;> simp [h]
  | succ k =>
    rw [rounds]
    dsimp only
    rw [e1, e2']
    by_cases h : |tH p t - hp| < 1 / 100000000 <;> simp [h]

/-! ## How the square roots change -/

theorem tU_scale_up (T k : ℝ) (hk : 1 ≤ k) : tU T ≤ tU (T * k) ∧ tU (T * k) ≤ k * tU T := by
  have h1 := tU_sq T
  have h2 := tU_sq (T * k)
  have hU := tU_pos T
  have hV := tU_pos (T * k)
  have he : (0 : ℝ) < 1 - PyEarth.e2 := by linarith [e2_range.2]
  have hT : 0 ≤ (1 - PyEarth.e2) * T ^ 2 := by positivity
  constructor
  · refine le_of_abs_le (abs_le_of_sq_le_sq ?_ hV.le)
    rw [h1, h2]; nlinarith [mul_nonneg hT (show (0 : ℝ) ≤ k ^ 2 - 1 by nlinarith)]
  · refine le_of_abs_le (abs_le_of_sq_le_sq ?_ (by positivity))
    rw [mul_pow, h1, h2]; nlinarith

theorem tS_scale_up (T k : ℝ) (hk : 1 ≤ k) : tS T ≤ tS (T * k) ∧ tS (T * k) ≤ k * tS T := by
  have h1 := tS_sq T
  have h2 := tS_sq (T * k)
  have hU := tS_pos T
  have hV := tS_pos (T * k)
  have hT : 0 ≤ T ^ 2 := by positivity
  constructor
  · refine le_of_abs_le (abs_le_of_sq_le_sq ?_ hV.le)
    rw [h1, h2]; nlinarith [mul_nonneg hT (show (0 : ℝ) ≤ k ^ 2 - 1 by nlinarith)]
  · refine le_of_abs_le (abs_le_of_sq_le_sq ?_ (by positivity))
    rw [mul_pow, h1, h2]; nlinarith

theorem tU_scale_down (T k : ℝ) (h0 : 0 < k) (hk : k ≤ 1) : k * tU T ≤ tU (T * k) ∧ tU (T * k) ≤ tU T := by
  have h := tU_scale_up (T * k) (1 / k) (by rw [le_div_iff₀ h0]; linarith)
  rw [mul_assoc, mul_one_div_cancel h0.ne', mul_one] at h
  refine ⟨?_, h.1⟩
  have := h.2
  rw [one_div, inv_mul_eq_div, le_div_iff₀ h0] at this
  linarith

theorem tS_scale_down (T k : ℝ) (h0 : 0 < k) (hk : k ≤ 1) : k * tS T ≤ tS (T * k) ∧ tS (T * k) ≤ tS T := by
  have h := tS_scale_up (T * k) (1 / k) (by rw [le_div_iff₀ h0]; linarith)
  rw [mul_assoc, mul_one_div_cancel h0.ne', mul_one] at h
  refine ⟨?_, h.1⟩
  have := h.2
  rw [one_div, inv_mul_eq_div, le_div_iff₀ h0] at this
  linarith

/-- The height of a round grows with the size of the tangent, but no faster than `p √(1 + t²)`. -/
theorem tH_mono (p t1 t2 : ℝ) (ht : t1 ^ 2 ≤ t2 ^ 2) (hp : PyEarth.e2 * r / (tU t1 * tU t2) ≤ p) :
    0 ≤ tH p t2 - tH p t1 ∧ tH p t2 - tH p t1 ≤ p * (tS t2 - tS t1) := by
  have u1 := tU_ge t1
  have u2 := tU_ge t2
  have s1 := tS_ge t1
  have s2 := tS_ge t2
  have q1 := tU_sq t1
  have q2 := tU_sq t2
  have r1 := tS_sq t1
  have r2 := tS_sq t2
  obtain ⟨he0, he1⟩ := e2_range
  have hr : 0 < r := by unfold r; norm_num
  have hS : tS t1 ≤ tS t2 := Real.sqrt_le_sqrt (by linarith)
  have hd : (tS t2 * tU t1 - tS t1 * tU t2) * (tS t2 * tU t1 + tS t1 * tU t2) = PyEarth.e2 * (t2 ^ 2 - t1 ^ 2) := by
    have : (tS t2 * tU t1 - tS t1 * tU t2) * (tS t2 * tU t1 + tS t1 * tU t2) = tS t2 ^ 2 * tU t1 ^ 2 - tS t1 ^ 2 * tU t2 ^ 2 := by ring
    rw [this, q1, q2, r1, r2]; ring
  have hs : (tS t2 - tS t1) * (tS t2 + tS t1) = t2 ^ 2 - t1 ^ 2 := by
    have : (tS t2 - tS t1) * (tS t2 + tS t1) = tS t2 ^ 2 - tS t1 ^ 2 := by ring
    rw [this, r1, r2]; ring
  have hsum : tS t2 + tS t1 ≤ tS t2 * tU t1 + tS t1 * tU t2 := by nlinarith
  have hpos : 0 < tS t2 * tU t1 + tS t1 * tU t2 := by linarith
  have hD0 : 0 ≤ tS t2 * tU t1 - tS t1 * tU t2 := by
    by_contra hneg
    push Not at hneg
    have := mul_neg_of_neg_of_pos hneg hpos
    rw [hd] at this
    nlinarith
  have hD1 : tS t2 * tU t1 - tS t1 * tU t2 ≤ PyEarth.e2 * (tS t2 - tS t1) := by
    have h1 : (tS t2 * tU t1 - tS t1 * tU t2) * (tS t2 + tS t1) ≤ PyEarth.e2 * (tS t2 - tS t1) * (tS t2 + tS t1) := by
      calc _ ≤ (tS t2 * tU t1 - tS t1 * tU t2) * (tS t2 * tU t1 + tS t1 * tU t2) := mul_le_mul_of_nonneg_left hsum hD0
        _ = PyEarth.e2 * (t2 ^ 2 - t1 ^ 2) := hd
        _ = _ := by rw [← hs]; ring
    exact le_of_mul_le_mul_right h1 (by linarith)
  have hN : r * tS t2 / tU t2 - r * tS t1 / tU t1 = r / (tU t1 * tU t2) * (tS t2 * tU t1 - tS t1 * tU t2) := by
    field_simp
  have hk : 0 < r / (tU t1 * tU t2) := by positivity
  have hN1 : r * tS t2 / tU t2 - r * tS t1 / tU t1 ≤ p * (tS t2 - tS t1) := by
    rw [hN]
    calc _ ≤ r / (tU t1 * tU t2) * (PyEarth.e2 * (tS t2 - tS t1)) := mul_le_mul_of_nonneg_left hD1 hk.le
      _ = PyEarth.e2 * r / (tU t1 * tU t2) * (tS t2 - tS t1) := by ring
      _ ≤ _ := mul_le_mul_of_nonneg_right hp (by linarith)
  have hN0 : 0 ≤ r * tS t2 / tU t2 - r * tS t1 / tU t1 := by rw [hN]; exact mul_nonneg hk.le hD0
  unfold tH
  constructor <;> linarith

/-! ## One round -/

/-- A point off the axis: the tangent `T` of its latitude, `k` its distance from the axis over that of the foot of its height. -/
structure Site (p z T k : ℝ) : Prop where
  low : 99 / 100 ≤ k
  hp : p = k * (r / tU T)
  hz : z = T * (p - PyEarth.e2 * (r / tU T))

theorem Site.p_pos {p z T k : ℝ} (s : Site p z T k) : 0 < p := by
  have hr : 0 < r := by unfold r; norm_num
  have := s.low
  rw [s.hp]
  exact mul_pos (by linarith) (div_pos hr (tU_pos T))

/-- `U(T) / U(Tρ)` is on the other side of one than `ρ`, and not further away, relatively. -/
theorem ratio_bound (T ρ δ : ℝ) (hδ : δ ≤ 1 / 140) (h : |ρ - 1| ≤ δ) :
    |tU T / tU (T * ρ) - 1| ≤ 140 / 139 * δ ∧ (1 ≤ ρ → tU T / tU (T * ρ) ≤ 1) ∧ (ρ ≤ 1 → 1 ≤ tU T / tU (T * ρ)) := by
  have hV := tU_pos (T * ρ)
  have hU := tU_pos T
  rw [abs_le] at h
  have hup : 1 ≤ ρ → tU T / tU (T * ρ) ≤ 1 := fun h1 => (div_le_one hV).2 (tU_scale_up T ρ h1).1
  have hdn : ρ ≤ 1 → 1 ≤ tU T / tU (T * ρ) := fun h1 => (one_le_div hV).2 (tU_scale_down T ρ (by linarith) h1).2
  refine ⟨?_, hup, hdn⟩
  rcases le_total 1 ρ with h1 | h1
  · have e := (tU_scale_up T ρ h1).2
    have : 1 / ρ ≤ tU T / tU (T * ρ) := by
      rw [div_le_div_iff₀ (by linarith) hV]; linarith
    have h3 : 1 - δ ≤ 1 / ρ := by
      rw [le_div_iff₀ (by linarith)]; nlinarith
    have := hup h1
    rw [abs_le]; constructor <;> nlinarith
  · have e := (tU_scale_down T ρ (by linarith) h1).1
    have : tU T / tU (T * ρ) ≤ 1 / ρ := by
      rw [div_le_div_iff₀ hV (by linarith)]; linarith
    have h3 : 1 / ρ ≤ 1 + 140 / 139 * δ := by
      rw [div_le_iff₀ (by linarith)]; nlinarith
    have := hdn h1
    rw [abs_le]; constructor <;> linarith

/-- One round: the relative error of the tangent changes its sign and becomes smaller by a factor of at least 140. -/
theorem round_tangent {p z T k : ℝ} (s : Site p z T k) (ρ δ : ℝ) (hδ : δ ≤ 1 / 140) (h : |ρ - 1| ≤ δ) :
    0 < p - PyEarth.e2 * r / tU (T * ρ) ∧ ∃ ρ', tF p z (T * ρ) = T * ρ' ∧ |ρ' - 1| ≤ δ / 140 ∧ (1 ≤ ρ → ρ' ≤ 1) ∧ (ρ ≤ 1 → 1 ≤ ρ') := by
  obtain ⟨hq, hup, hdn⟩ := ratio_bound T ρ δ hδ h
  have hV := tU_pos (T * ρ)
  have hU := tU_pos T
  have hr : 0 < r := by unfold r; norm_num
  have hl := s.low
  obtain ⟨he0, he1⟩ := e2_range
  have hδ0 : 0 ≤ δ := le_trans (abs_nonneg _) h
  set q := tU T / tU (T * ρ) with hqd
  have hp0 : 0 < r / tU T := div_pos hr hU
  have e1 : p - PyEarth.e2 * r / tU (T * ρ) = (r / tU T) * (k - PyEarth.e2 * q) := by
    rw [s.hp, hqd]; field_simp
  rw [abs_le] at hq
  have hq2 : q ≤ 2 := by linarith
  have hden : 98 / 100 ≤ k - PyEarth.e2 * q := by nlinarith
  have hden0 : 0 < k - PyEarth.e2 * q := by linarith
  refine ⟨by rw [e1]; exact mul_pos hp0 hden0, (k - PyEarth.e2) / (k - PyEarth.e2 * q), ?_, ?_, ?_, ?_⟩
  · unfold tF
    rw [e1, s.hz, s.hp]
    field_simp
  · have e2' : (k - PyEarth.e2) / (k - PyEarth.e2 * q) - 1 = PyEarth.e2 * (q - 1) / (k - PyEarth.e2 * q) := by
      field_simp; ring
    rw [e2', abs_div, abs_mul, abs_of_pos he0, abs_of_pos hden0, div_le_iff₀ hden0]
    have : |q - 1| ≤ 140 / 139 * δ := abs_le.2 hq
    calc PyEarth.e2 * |q - 1| ≤ 67 / 10000 * (140 / 139 * δ) := mul_le_mul he1.le this (abs_nonneg _) (by norm_num)
      _ ≤ δ / 140 * (98 / 100) := by linarith
      _ ≤ _ := mul_le_mul_of_nonneg_left hden (by linarith)
  · intro h1
    rw [div_le_one hden0]
    nlinarith [hup h1]
  · intro h1
    rw [one_le_div hden0]
    nlinarith [hdn h1]

/-- One round: the height it computes is on the side of the true one where the tangent is. -/
theorem round_height {p z T k : ℝ} (s : Site p z T k) (ρ δ : ℝ) (hδ : δ ≤ 1 / 140) (h : |ρ - 1| ≤ δ) :
    |tH p (T * ρ) - tH p T| ≤ p * tS T * δ ∧ (1 ≤ ρ → tH p T ≤ tH p (T * ρ)) ∧ (ρ ≤ 1 → tH p (T * ρ) ≤ tH p T) := by
  have hp := s.p_pos
  have hU := tU_pos T
  have hV := tU_ge (T * ρ)
  have hl := s.low
  obtain ⟨he0, he1⟩ := e2_range
  have hr : 0 < r := by unfold r; norm_num
  have hp0 : 0 < r / tU T := div_pos hr hU
  have hc : PyEarth.e2 * r / (tU T * tU (T * ρ)) ≤ p := by
    have : PyEarth.e2 * r / (tU T * tU (T * ρ)) = PyEarth.e2 / tU (T * ρ) * (r / tU T) := by
      have := (tU_pos (T * ρ)).ne'
      field_simp
    rw [this, s.hp]
    refine mul_le_mul_of_nonneg_right ?_ hp0.le
    rw [div_le_iff₀ (by linarith)]
    nlinarith
  have hS := tS_pos T
  rw [abs_le] at h
  rcases le_total 1 ρ with h1 | h1
  · obtain ⟨a, b⟩ := tH_mono p T (T * ρ) (by rw [mul_pow]; nlinarith [mul_nonneg (sq_nonneg T) (show (0 : ℝ) ≤ ρ ^ 2 - 1 by nlinarith)]) hc
    have c := (tS_scale_up T ρ h1).2
    have d : p * (tS (T * ρ) - tS T) ≤ p * tS T * δ := by
      rw [mul_assoc]
      exact mul_le_mul_of_nonneg_left (by nlinarith) hp.le
    refine ⟨by rw [abs_of_nonneg a]; linarith, fun _ => by linarith, fun h2 => ?_⟩
    have : ρ = 1 := le_antisymm h2 h1
    rw [this, mul_one]
  · obtain ⟨a, b⟩ := tH_mono p (T * ρ) T (by rw [mul_pow]; nlinarith [mul_nonneg (sq_nonneg T) (show (0 : ℝ) ≤ 1 - ρ ^ 2 by nlinarith)])
      (by rw [mul_comm (tU (T * ρ))]; exact hc)
    have c := (tS_scale_down T ρ (by linarith) h1).1
    have d : p * (tS T - tS (T * ρ)) ≤ p * tS T * δ := by
      rw [mul_assoc]
      exact mul_le_mul_of_nonneg_left (by nlinarith) hp.le
    refine ⟨by rw [abs_sub_comm, abs_of_nonneg a]; linarith, fun h2 => ?_, fun _ => by linarith⟩
    have : ρ = 1 := le_antisymm h1 h2
    rw [this, mul_one]

/-! ## The loop -/

theorem rounds_end {p z T k : ℝ} (s : Site p z T k) (left : Nat) : ∀ (ρ δ hp : ℝ), δ ≤ 1 / 140 → |ρ - 1| ≤ δ →
    (1 ≤ ρ ∧ hp ≤ tH p T ∨ ρ ≤ 1 ∧ tH p T ≤ hp) → |hp - tH p T| ≤ 140 * (p * tS T * δ) →
    141 * (p * tS T * δ) < 1 / 100000000 * 140 ^ left →
    ∃ ρ' h, rounds p z left (Real.arctan (T * ρ)) hp = (Real.arctan (T * ρ'), h, false) ∧ |ρ' - 1| ≤ δ / 140 ∧
      |h - tH p T| < 1 / 100000000 := by
  induction left with
  | zero =>
    intro ρ δ hp hδ hρ hside hb hf
    obtain ⟨hpos, ρ', e, b, -, -⟩ := round_tangent s ρ δ hδ hρ
    obtain ⟨hh, hh1, hh2⟩ := round_height s ρ δ hδ hρ
    have hstop : |tH p (T * ρ) - hp| < 1 / 100000000 := by
      have := abs_sub_le (tH p (T * ρ)) (tH p T) hp
      rw [abs_sub_comm (tH p T) hp] at this
      linarith
    rw [rounds_eq p z 0 _ hp s.p_pos hpos, if_pos hstop, e]
    refine ⟨ρ', _, rfl, b, lt_of_le_of_lt ?_ hstop⟩
    rcases hside with ⟨h1, h2⟩ | ⟨h1, h2⟩
    · rw [abs_of_nonneg (by linarith [hh1 h1]), abs_of_nonneg (by linarith [hh1 h1])]; linarith
    · rw [abs_of_nonpos (by linarith [hh2 h1]), abs_of_nonpos (by linarith [hh2 h1])]; linarith
  | succ n ih =>
    intro ρ δ hp hδ hρ hside hb hf
    obtain ⟨hpos, ρ', e, b, a1, a2⟩ := round_tangent s ρ δ hδ hρ
    obtain ⟨hh, hh1, hh2⟩ := round_height s ρ δ hδ hρ
    have hδ0 : 0 ≤ δ := le_trans (abs_nonneg _) hρ
    rw [rounds_eq p z (n + 1) _ hp s.p_pos hpos, e]
    by_cases hstop : |tH p (T * ρ) - hp| < 1 / 100000000
    · rw [if_pos hstop]
      refine ⟨ρ', _, rfl, b, lt_of_le_of_lt ?_ hstop⟩
      rcases hside with ⟨h1, h2⟩ | ⟨h1, h2⟩
      · rw [abs_of_nonneg (by linarith [hh1 h1]), abs_of_nonneg (by linarith [hh1 h1])]; linarith
      · rw [abs_of_nonpos (by linarith [hh2 h1]), abs_of_nonpos (by linarith [hh2 h1])]; linarith
    · rw [if_neg hstop]
      dsimp only
      obtain ⟨ρ'', h, e2, b2, c2⟩ := ih ρ' (δ / 140) (tH p (T * ρ)) (by linarith) b
        (by
          rcases hside with ⟨h1, -⟩ | ⟨h1, -⟩
          · exact Or.inr ⟨a1 h1, hh1 h1⟩
          · exact Or.inl ⟨a2 h1, hh2 h1⟩)
        (by linarith) (by rw [pow_succ] at hf; linarith)
      exact ⟨ρ'', h, e2, by linarith, c2⟩

/-- The tangents of two latitudes, one `ρ` times the other: the latitudes differ by no more than `|ρ − 1|`. -/
theorem arctan_scale (T ρ : ℝ) (h : |ρ - 1| ≤ 1 / 140) : |Real.arctan (T * ρ) - Real.arctan T| ≤ |ρ - 1| := by
  have hρ : 139 / 140 ≤ ρ := by rw [abs_le] at h; linarith
  have hab : ∀ y : ℝ, |Real.arctan y| ≤ |y| := by
    intro y
    have hpos : ∀ y : ℝ, 0 ≤ y → Real.arctan y ≤ y := by
      intro y hy
      have h1 := Real.arctan_lt_pi_div_two y
      have h2 : 0 ≤ Real.arctan y := Real.arctan_nonneg.2 hy
      have := Real.le_tan h2 h1
      rwa [Real.tan_arctan] at this
    rcases le_total 0 y with hy | hy
    · rw [abs_of_nonneg hy, abs_of_nonneg (Real.arctan_nonneg.2 hy)]; exact hpos y hy
    · have h3 := hpos (-y) (by linarith)
      have h4 : 0 ≤ Real.arctan (-y) := Real.arctan_nonneg.2 (by linarith)
      rw [Real.arctan_neg] at h3 h4
      rw [abs_of_nonpos hy, abs_of_nonpos (by linarith)]; exact h3
  have e : Real.arctan (T * ρ) - Real.arctan T = Real.arctan ((T * ρ + -T) / (1 - T * ρ * -T)) := by
    rw [← Real.arctan_add (by nlinarith [sq_nonneg T, mul_nonneg (sq_nonneg T) (show (0 : ℝ) ≤ ρ by linarith)]), Real.arctan_neg]; ring
  rw [e]
  refine (hab _).trans ?_
  have hT := sq_nonneg T
  have hden : 0 < 1 - T * ρ * -T := by nlinarith [mul_nonneg hT (show (0 : ℝ) ≤ ρ by linarith)]
  rw [abs_div, abs_of_pos hden, div_le_iff₀ hden]
  have : T * ρ + -T = T * (ρ - 1) := by ring
  rw [this, abs_mul, mul_comm]
  refine mul_le_mul_of_nonneg_left ?_ (abs_nonneg _)
  have h2 : |T| ≤ 1 + T ^ 2 * (139 / 140) := by
    have := sq_abs T
    nlinarith [sq_nonneg (|T| - 1/2 - 1/280), abs_nonneg T]
  nlinarith [mul_le_mul_of_nonneg_left hρ hT]

/-! ## There and back -/

theorem lon_back (p lon : ℝ) (hp : 0 < p) (hl : |lon| < Real.pi) :
    2 * Complex.arg ⟨p * Real.cos lon + p, p * Real.sin lon⟩ = lon := by
  rw [abs_lt] at hl
  have hc : 0 < Real.cos (lon / 2) := Real.cos_pos_of_mem_Ioo ⟨by linarith, by linarith⟩
  have e : (⟨p * Real.cos lon + p, p * Real.sin lon⟩ : ℂ) =
      ((2 * p * Real.cos (lon / 2) : ℝ) : ℂ) * (Complex.cos ((lon / 2 : ℝ) : ℂ) + Complex.sin ((lon / 2 : ℝ) : ℂ) * Complex.I) := by
    have h1 : Real.cos lon = 2 * Real.cos (lon / 2) ^ 2 - 1 := by rw [← Real.cos_two_mul]; ring_nf
    have h2 : Real.sin lon = 2 * Real.sin (lon / 2) * Real.cos (lon / 2) := by rw [← Real.sin_two_mul]; ring_nf
    rw [← Complex.ofReal_cos, ← Complex.ofReal_sin]
    apply Complex.ext
    · rw [Complex.re_ofReal_mul]
      simp only [Complex.add_re, Complex.ofReal_re, Complex.mul_re, Complex.I_re, Complex.I_im, Complex.ofReal_im]
      rw [h1]; ring
    · rw [Complex.im_ofReal_mul]
      simp only [Complex.add_im, Complex.ofReal_re, Complex.mul_im, Complex.I_re, Complex.I_im, Complex.ofReal_im]
      rw [h2]; ring
  rw [e, Complex.arg_mul_cos_add_sin_mul_I (by positivity) ⟨by linarith, by linarith⟩]
  ring

/-- The place with given latitude and height. -/
theorem site_of (lat h : ℝ) (hlat : |lat| < Real.pi / 2) (hh : -60000 ≤ h) :
    Site ((PyEarth.RN lat + h) * Real.cos lat) ((PyEarth.RN lat * (1 - PyEarth.e2) + h) * Real.sin lat) (Real.tan lat)
      ((PyEarth.RN lat + h) / PyEarth.RN lat) ∧
    (PyEarth.RN lat + h) * Real.cos lat * tS (Real.tan lat) = PyEarth.RN lat + h ∧
    tH ((PyEarth.RN lat + h) * Real.cos lat) (Real.tan lat) = h ∧ 6378137 ≤ PyEarth.RN lat := by
  rw [abs_lt] at hlat
  have ha : Real.arctan (Real.tan lat) = lat := Real.arctan_tan hlat.1 hlat.2
  have hN : PyEarth.RN lat = r * tS (Real.tan lat) / tU (Real.tan lat) := by
    have := RN_arctan (Real.tan lat); rwa [ha] at this
  have hc : Real.cos lat = 1 / tS (Real.tan lat) := by
    have := cos_of_arctan (Real.tan lat); rwa [ha] at this
  have hc0 : 0 < Real.cos lat := Real.cos_pos_of_mem_Ioo ⟨hlat.1, hlat.2⟩
  have hs : Real.sin lat = Real.tan lat * Real.cos lat := (Real.tan_mul_cos hc0.ne').symm
  have hS := tS_pos (Real.tan lat)
  have hU := tU_pos (Real.tan lat)
  have hr : r = 6378137 := rfl
  have hr0 : 0 < r := by rw [hr]; norm_num
  have hSU : tU (Real.tan lat) ≤ tS (Real.tan lat) := by
    refine Real.sqrt_le_sqrt ?_
    nlinarith [sq_nonneg (Real.tan lat), e2_range.1]
  have hNr : 6378137 ≤ PyEarth.RN lat := by
    rw [hN, ← hr, le_div_iff₀ hU]
    exact mul_le_mul_of_nonneg_left hSU hr0.le
  have hN0 : 0 < PyEarth.RN lat := by linarith
  have hNc : PyEarth.RN lat * Real.cos lat = r / tU (Real.tan lat) := by
    rw [hN, hc]; field_simp
  have hmul : (PyEarth.RN lat + h) * Real.cos lat * tS (Real.tan lat) = PyEarth.RN lat + h := by
    rw [hc]; field_simp
  refine ⟨⟨?_, ?_, ?_⟩, hmul, ?_, hNr⟩
  · rw [le_div_iff₀ hN0]; linarith
  · rw [← hNc]; field_simp
  · rw [← hNc, hs]; ring
  · unfold tH
    rw [hmul, ← hN]; ring

/-- C174: for every point off the axis of the earth, off the antimeridian, from 60 km below to 10¹³ m above the ellipsoid, converting to
earth-fixed coordinates and back gives the longitude exactly, the height to less than 10⁻⁸ m, the latitude to a third of a
millimetre per kilometre of height (plus 10⁻⁸ m), and never prints the message. -/
theorem C174_there_and_back (lat lon h : ℝ) (hlat : |lat| < Real.pi / 2) (hlon : |lon| < Real.pi) (h0 : -60000 ≤ h) (h1 : h ≤ 10 ^ 13) :
    ∃ lat' h', ecefToLla (llaToEcef lat lon h).1 (llaToEcef lat lon h).2.1 (llaToEcef lat lon h).2.2 = (lat', lon, h', false) ∧
      |h' - h| < 1 / 100000000 ∧ (PyEarth.RN lat + h) * |lat' - lat| ≤ |h| / 140 ^ 3 + 1 / 100000000 := by
  obtain ⟨s, e1, e2', e3⟩ := site_of lat h hlat h0
  have hp := s.p_pos
  have hx : Real.sqrt ((llaToEcef lat lon h).1 ^ 2 + (llaToEcef lat lon h).2.1 ^ 2) = (PyEarth.RN lat + h) * Real.cos lat := by
    rw [Real.sqrt_eq_iff_mul_self_eq (by positivity) hp.le]
    unfold llaToEcef
    have := Real.sin_sq_add_cos_sq lon
    linear_combination (((PyEarth.RN lat + h) * Real.cos lat) ^ 2) * this
  have hk0 : 0 < PyEarth.RN lat + h := by linarith
  have hN0 : 0 < PyEarth.RN lat := by linarith
  obtain ⟨he0, he1⟩ := e2_range
  set p := (PyEarth.RN lat + h) * Real.cos lat with hpd
  set z := (PyEarth.RN lat * (1 - PyEarth.e2) + h) * Real.sin lat with hzd
  set T := Real.tan lat with hT
  set k := (PyEarth.RN lat + h) / PyEarth.RN lat with hkd
  have hkl := s.low
  have hU := tU_pos T
  have hr0 : 0 < r := by unfold r; norm_num
  -- the first guess
  set ρ := (k - PyEarth.e2) / (k * (1 - PyEarth.e2)) with hρd
  have hd : 0 < k * (1 - PyEarth.e2) := mul_pos (by linarith) (by linarith)
  have hstart : z / (p * (1 - PyEarth.e2)) = T * ρ := by
    rw [s.hz, s.hp, hρd]
    have : (1 : ℝ) - PyEarth.e2 ≠ 0 := by linarith
    have : k ≠ 0 := by linarith
    field_simp
  have hρ1 : ρ - 1 = PyEarth.e2 / (1 - PyEarth.e2) * (h / (PyEarth.RN lat + h)) := by
    rw [hρd, hkd]
    have : (1 : ℝ) - PyEarth.e2 ≠ 0 := by linarith
    field_simp
    ring
  have hf : PyEarth.e2 / (1 - PyEarth.e2) ≤ 1 / 140 := by
    rw [div_le_div_iff₀ (by linarith) (by norm_num)]; unfold PyEarth.e2; norm_num
  have hf0 : 0 < PyEarth.e2 / (1 - PyEarth.e2) := div_pos he0 (by linarith)
  set d := |h| / (PyEarth.RN lat + h) with hdd
  have hd1 : d ≤ 1 := by
    rw [hdd, div_le_one hk0, abs_le]; constructor <;> linarith
  have hd0 : 0 ≤ d := by positivity
  have hρ2 : |ρ - 1| ≤ d / 140 := by
    rw [hρ1, abs_mul, abs_of_pos hf0, abs_div, abs_of_pos hk0]
    calc _ ≤ 1 / 140 * d := mul_le_mul_of_nonneg_right hf hd0
      _ = d / 140 := by ring
  have hpd' : p * tS T * d = |h| := by rw [e1, hdd]; field_simp
  have habs : |h| ≤ 10 ^ 13 := by rw [abs_le]; constructor <;> linarith
  have hside : 1 ≤ ρ ∧ 0 ≤ tH p T ∨ ρ ≤ 1 ∧ tH p T ≤ 0 := by
    rw [e2']
    rcases le_total 0 h with hs | hs
    · refine Or.inl ⟨?_, hs⟩
      have : 0 ≤ ρ - 1 := by rw [hρ1]; exact mul_nonneg hf0.le (div_nonneg hs hk0.le)
      linarith
    · refine Or.inr ⟨?_, hs⟩
      have : ρ - 1 ≤ 0 := by rw [hρ1]; exact mul_nonpos_of_nonneg_of_nonpos hf0.le (div_nonpos_of_nonpos_of_nonneg hs hk0.le)
      linarith
  have hlonback := lon_back p lon hp hlon
  have hres : ∃ ρ' h', rounds p z 10 (Real.arctan (T * ρ)) 0 = (Real.arctan (T * ρ'), h', false) ∧ |h' - h| < 1 / 100000000 ∧
      |ρ' - 1| ≤ 1 / 140 ∧ (PyEarth.RN lat + h) * |ρ' - 1| ≤ |h| / 140 ^ 3 + 1 / 100000000 := by
    obtain ⟨hpos, ρ', e, b, a1, a2⟩ := round_tangent s ρ (d / 140) (by linarith) hρ2
    obtain ⟨hh, hh1, hh2⟩ := round_height s ρ (d / 140) (by linarith) hρ2
    rw [rounds_eq p z 10 _ 0 hp hpos, e]
    by_cases hstop : |tH p (T * ρ) - 0| < 1 / 100000000
    · rw [if_pos hstop]
      rw [sub_zero] at hstop
      have hboth : |tH p (T * ρ) - h| < 1 / 100000000 ∧ |h| < 1 / 100000000 := by
        rw [e2'] at hside hh1 hh2
        rcases hside with ⟨h2, h3⟩ | ⟨h2, h3⟩
        · have := hh1 h2
          rw [abs_of_nonneg (by linarith)] at hstop ⊢
          rw [abs_of_nonneg h3]
          constructor <;> linarith
        · have := hh2 h2
          rw [abs_of_nonpos (by linarith)] at hstop ⊢
          rw [abs_of_nonpos h3]
          constructor <;> linarith
      refine ⟨ρ', _, rfl, hboth.1, by linarith, ?_⟩
      have h5 : (PyEarth.RN lat + h) * |ρ' - 1| ≤ (PyEarth.RN lat + h) * (d / 140 / 140) := mul_le_mul_of_nonneg_left b hk0.le
      have h6 : (PyEarth.RN lat + h) * (d / 140 / 140) = |h| / 140 / 140 := by rw [hdd]; field_simp
      have := abs_nonneg h
      linarith [hboth.2]
    · rw [if_neg hstop]
      dsimp only
      obtain ⟨ρ'', h', q1, q2, q3⟩ := rounds_end s 9 ρ' (d / 140 / 140) (tH p (T * ρ)) (by linarith) b
        (by
          rcases hside with ⟨h2, -⟩ | ⟨h2, -⟩
          · exact Or.inr ⟨a1 h2, hh1 h2⟩
          · exact Or.inl ⟨a2 h2, hh2 h2⟩)
        (by linarith) (by
          have : 141 * (p * tS T * (d / 140 / 140)) = 141 / 140 / 140 * |h| := by rw [← hpd']; ring
          rw [this]
          calc 141 / 140 / 140 * |h| ≤ 141 / 140 / 140 * 10 ^ 13 := by linarith
            _ < _ := by norm_num)
      rw [e2'] at q3
      refine ⟨ρ'', h', q1, q3, by linarith, ?_⟩
      have h5 : (PyEarth.RN lat + h) * |ρ'' - 1| ≤ (PyEarth.RN lat + h) * (d / 140 / 140 / 140) := mul_le_mul_of_nonneg_left q2 hk0.le
      have h6 : (PyEarth.RN lat + h) * (d / 140 / 140 / 140) = |h| / 140 ^ 3 := by rw [hdd]; field_simp
      linarith
  obtain ⟨ρ', h', q1, q2, q3, q4⟩ := hres
  refine ⟨Real.arctan (T * ρ'), h', ?_, q2, ?_⟩
  · unfold ecefToLla
    dsimp only
    rw [hx]
    have hz' : (llaToEcef lat lon h).2.2 = z := rfl
    have hx' : (llaToEcef lat lon h).1 = p * Real.cos lon := rfl
    have hy' : (llaToEcef lat lon h).2.1 = p * Real.sin lon := rfl
    rw [hz', hx', hy', hlonback, hstart, q1]
  · have ha : Real.arctan T = lat := by
      rw [abs_lt] at hlat
      exact Real.arctan_tan hlat.1 hlat.2
    have h9 := arctan_scale T ρ' q3
    rw [ha] at h9
    exact (mul_le_mul_of_nonneg_left h9 hk0.le).trans q4

/-- A town at 45° north, 9° east, 200 m. -/
example : |Real.pi / 4| < Real.pi / 2 ∧ |Real.pi / 20| < Real.pi ∧ (-60000 : ℝ) ≤ 200 ∧ (200 : ℝ) ≤ 10 ^ 13 := by
  have := Real.pi_pos
  refine ⟨?_, ?_, by norm_num, by norm_num⟩ <;> rw [abs_of_pos (by positivity)] <;> linarith

/-- C174: on the ellipsoid itself the latitude is exact as well. -/
theorem C174_on_the_ellipsoid (lat lon : ℝ) (hlat : |lat| < Real.pi / 2) (hlon : |lon| < Real.pi) :
    ecefToLla (llaToEcef lat lon 0).1 (llaToEcef lat lon 0).2.1 (llaToEcef lat lon 0).2.2 = (lat, lon, 0, false) := by
  obtain ⟨s, e1, e2', e3⟩ := site_of lat 0 hlat (by norm_num)
  rw [add_zero, add_zero] at *
  have hp := s.p_pos
  have hx : Real.sqrt ((llaToEcef lat lon 0).1 ^ 2 + (llaToEcef lat lon 0).2.1 ^ 2) = PyEarth.RN lat * Real.cos lat := by
    rw [Real.sqrt_eq_iff_mul_self_eq (by positivity) hp.le]
    unfold llaToEcef
    have := Real.sin_sq_add_cos_sq lon
    linear_combination ((PyEarth.RN lat * Real.cos lat) ^ 2) * this
  have ha : Real.arctan (Real.tan lat) = lat := by
    rw [abs_lt] at hlat
    exact Real.arctan_tan hlat.1 hlat.2
  obtain ⟨hpos, ρ', e, b, -, -⟩ := round_tangent s 1 0 (by norm_num) (by simp)
  have hρ' : ρ' = 1 := by
    rw [zero_div] at b
    have := abs_nonpos_iff.1 b
    linarith
  rw [mul_one] at hpos e
  have hN0 : PyEarth.RN lat ≠ 0 := by linarith
  have he : (1 : ℝ) - PyEarth.e2 ≠ 0 := by linarith [e2_range.2]
  have hstart : PyEarth.RN lat * (1 - PyEarth.e2) * Real.sin lat / (PyEarth.RN lat * Real.cos lat * (1 - PyEarth.e2)) = Real.tan lat := by
    rw [Real.tan_eq_sin_div_cos]
    have hc : Real.cos lat ≠ 0 := by
      intro h; rw [h, mul_zero] at hp; exact lt_irrefl _ hp
    field_simp
  have hl := lon_back (PyEarth.RN lat * Real.cos lat) lon hp hlon
  unfold ecefToLla
  dsimp only
  rw [hx]
  have hz' : (llaToEcef lat lon 0).2.2 = PyEarth.RN lat * (1 - PyEarth.e2) * Real.sin lat := by unfold llaToEcef; simp only [add_zero]
  have hx' : (llaToEcef lat lon 0).1 = PyEarth.RN lat * Real.cos lat * Real.cos lon := by unfold llaToEcef; simp only [add_zero]
  have hy' : (llaToEcef lat lon 0).2.1 = PyEarth.RN lat * Real.cos lat * Real.sin lon := by unfold llaToEcef; simp only [add_zero]
  rw [hz', hx', hy', hl, hstart, rounds_eq _ _ 10 _ 0 hp hpos, e, e2', hρ', mul_one, ha, if_pos (by norm_num)]

/-- C174 (violated on the antimeridian): the point where the antimeridian crosses the equator gets longitude zero. -/
theorem C174_antimeridian : (ecefToLla (-6378137) 0 0).2.1 = 0 ∧ llaToEcef 0 Real.pi 0 = (-6378137, 0, 0) := by
  constructor
  · unfold ecefToLla
    dsimp only
    have h1 : Real.sqrt ((-6378137 : ℝ) ^ 2 + 0 ^ 2) = 6378137 := by
      rw [show ((-6378137 : ℝ) ^ 2 + 0 ^ 2) = 6378137 ^ 2 by norm_num]
      exact Real.sqrt_sq (by norm_num)
    rw [h1, show ((⟨-6378137 + 6378137, 0⟩ : ℂ)) = 0 by apply Complex.ext <;> norm_num, Complex.arg_zero, mul_zero]
  · unfold llaToEcef PyEarth.RN r
    simp

/-- C174: the Python tool and the library put a point at the same place in the earth-fixed frame. -/
theorem C174_same_place (lat lon h : ℝ) : let p := Convert.llaToXyz (v3 lat lon h)
    llaToEcef lat lon h = (p 0, p 1, p 2) := by
  dsimp only
  have hr : Earth.RN lat = PyEarth.RN lat := by
    rw [RN_val]; unfold PyEarth.RN PyEarth.r PyEarth.e2 wgsA wgsE2; norm_num
  have he : (Earth.e2 : ℝ) = PyEarth.e2 := by rw [e2_val]; unfold PyEarth.e2 wgsE2; norm_num
  unfold Convert.llaToXyz llaToEcef
  simp only [v3, Matrix.cons_val_zero, Matrix.cons_val_one, Matrix.cons_val, sin_real, cos_real, hr, he]

/-- C175: the reference of the error analysis, moved by the lever arm: whenever the antenna (the reference plus the lever arm, turned into
the earth-fixed frame by the attitude) has latitude, longitude and height as in C174, these are what the analysis uses, within the
same bounds, in degrees. -/
theorem C175_lever_arm (lat lon h : ℝ) (atti offset : V3 ℝ) (lat2 lon2 h2 : ℝ) (hlat : |lat2| < 90) (hlon : |lon2| < 180) (h0 : -60000 ≤ h2)
    (h1 : h2 ≤ 10 ^ 13)
    (hpt : let d := Real.pi / 180
      let arm := (Convert.llaToCne ⟨lat * d, lon * d⟩ * Convert.eulerToDcm (v3 (atti 0 * d) (atti 1 * d) (atti 2 * d))).mulVec offset
      let e := llaToEcef (lat * d) (lon * d) h
      llaToEcef (lat2 * d) (lon2 * d) h2 = (e.1 + arm 0, e.2.1 + arm 1, e.2.2 + arm 2)) :
    ∃ lat' h', PyEarth.compensate lat lon h atti offset = (lat', lon2, h') ∧ |h' - h2| < 1 / 100000000 ∧
      (PyEarth.RN (lat2 * (Real.pi / 180)) + h2) * (Real.pi / 180 * |lat' - lat2|) ≤ |h2| / 140 ^ 3 + 1 / 100000000 := by
  have hpi := Real.pi_pos
  obtain ⟨l, h', e, b, c⟩ := C174_there_and_back (lat2 * (Real.pi / 180)) (lon2 * (Real.pi / 180)) h2
    (by rw [abs_mul, abs_of_pos (by positivity : 0 < Real.pi / 180)]; nlinarith)
    (by rw [abs_mul, abs_of_pos (by positivity : 0 < Real.pi / 180)]; nlinarith) h0 h1
  dsimp only at hpt
  rw [hpt] at e
  refine ⟨l / (Real.pi / 180), h', ?_, b, ?_⟩
  · unfold PyEarth.compensate
    dsimp only at e ⊢
    rw [e]
    dsimp only
    rw [mul_div_cancel_right₀ _ (by positivity)]
  · have : Real.pi / 180 * |l / (Real.pi / 180) - lat2| = |l - lat2 * (Real.pi / 180)| := by
      rw [show l - lat2 * (Real.pi / 180) = Real.pi / 180 * (l / (Real.pi / 180) - lat2) by field_simp, abs_mul,
        abs_of_pos (by positivity : 0 < Real.pi / 180)]
    rw [this]
    exact c

/-- C175 with no lever arm meets the hypothesis: the antenna is where the reference is. -/
example (lat lon h : ℝ) (atti : V3 ℝ) : let d := Real.pi / 180
    let arm := (Convert.llaToCne ⟨lat * d, lon * d⟩ * Convert.eulerToDcm (v3 (atti 0 * d) (atti 1 * d) (atti 2 * d))).mulVec (0 : V3 ℝ)
    let e := llaToEcef (lat * d) (lon * d) h
    llaToEcef (lat * d) (lon * d) h = (e.1 + arm 0, e.2.1 + arm 1, e.2.2 + arm 2) := by
  dsimp only
  rw [Matrix.mulVec_zero]
  simp

/-- C175, a real lever arm: level, heading north, at latitude and longitude zero, an arm of one metre down makes the antenna one metre lower. -/
example : let d := Real.pi / 180
    let arm := (Convert.llaToCne ⟨0 * d, 0 * d⟩ * Convert.eulerToDcm (v3 (0 * d) (0 * d) (0 * d))).mulVec (v3 0 0 1 : V3 ℝ)
    let e := llaToEcef (0 * d) (0 * d) 100
    llaToEcef (0 * d) (0 * d) 99 = (e.1 + arm 0, e.2.1 + arm 1, e.2.2 + arm 2) := by
  dsimp only
  simp [Convert.llaToCne, Convert.eulerToDcm, llaToEcef, v3, Matrix.mulVec, Matrix.mul_apply, dotProduct, Fin.sum_univ_three, sin_real, cos_real]
  ring
end Verif.Props
