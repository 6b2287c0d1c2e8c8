import Verif.Spec.RoundedAttitude
import Verif.Props.RoundedReports
/-! The attitude of C206: the angles reported with rounding describe the true attitude. -/
namespace Verif.Props
open Verif Verif.Spec Verif.Convert Matrix

/-- The direction of a vector in the plane changes little when the vector does. -/
theorem direction_close (x y x0 y0 m η : ℝ) (hm : 0 < m) (h0 : m ^ 2 ≤ x0 ^ 2 + y0 ^ 2) (hx : |x - x0| ≤ η) (hy : |y - y0| ≤ η) (hη : 4 * η ≤ m) :
    0 < x ^ 2 + y ^ 2 ∧ |x / Real.sqrt (x ^ 2 + y ^ 2) - x0 / Real.sqrt (x0 ^ 2 + y0 ^ 2)| ≤ 4 * η / m ∧
    |y / Real.sqrt (x ^ 2 + y ^ 2) - y0 / Real.sqrt (x0 ^ 2 + y0 ^ 2)| ≤ 4 * η / m ∧ |Real.sqrt (x ^ 2 + y ^ 2) - Real.sqrt (x0 ^ 2 + y0 ^ 2)| ≤ 2 * η := by
  have η0 : 0 ≤ η := (abs_nonneg _).trans hx
  have nrm : ∀ a b : ℝ, ‖(⟨a, b⟩ : ℂ)‖ = Real.sqrt (a ^ 2 + b ^ 2) := fun a b => by
    rw [Complex.norm_def, Complex.normSq_mk]; congr 1; ring
  obtain ⟨z, hz⟩ : ∃ z : ℂ, z = ⟨x, y⟩ := ⟨_, rfl⟩
  obtain ⟨z0, hz0⟩ : ∃ z : ℂ, z = ⟨x0, y0⟩ := ⟨_, rfl⟩
  have e1 : ‖z‖ = Real.sqrt (x ^ 2 + y ^ 2) := by rw [hz, nrm]
  have e0 : ‖z0‖ = Real.sqrt (x0 ^ 2 + y0 ^ 2) := by rw [hz0, nrm]
  have hm0 : m ≤ ‖z0‖ := by rw [e0]; exact Real.le_sqrt_of_sq_le h0
  have hd : ‖z - z0‖ ≤ 2 * η := by
    have := Complex.norm_le_abs_re_add_abs_im (z - z0)
    have r1 : (z - z0).re = x - x0 := by rw [hz, hz0]; rfl
    have r2 : (z - z0).im = y - y0 := by rw [hz, hz0]; rfl
    rw [r1, r2] at this; linarith
  have hdiff : |‖z‖ - ‖z0‖| ≤ 2 * η := (abs_norm_sub_norm_le z z0).trans hd
  have hzp : 0 < ‖z‖ := by have := abs_le.1 hdiff; linarith
  have hz0p : 0 < ‖z0‖ := by linarith
  have key : ‖z / (‖z‖ : ℂ) - z0 / (‖z0‖ : ℂ)‖ ≤ 4 * η / m := by
    have e : z / (‖z‖ : ℂ) - z0 / (‖z0‖ : ℂ) = (z - z0) / (‖z0‖ : ℂ) + (z / (‖z‖ : ℂ)) * (((‖z0‖ - ‖z‖ : ℝ) : ℂ) / (‖z0‖ : ℂ)) := by
      have a : (‖z‖ : ℂ) ≠ 0 := by exact_mod_cast hzp.ne'
      have b : (‖z0‖ : ℂ) ≠ 0 := by exact_mod_cast hz0p.ne'
      push_cast
      field_simp
      ring
    rw [e]
    refine (norm_add_le _ _).trans ?_
    have n1 : ‖(z - z0) / (‖z0‖ : ℂ)‖ ≤ 2 * η / m := by
      rw [norm_div, Complex.norm_real, norm_norm]
      exact div_le_div₀ (by linarith) hd hm hm0
    have n2 : ‖(z / (‖z‖ : ℂ)) * (((‖z0‖ - ‖z‖ : ℝ) : ℂ) / (‖z0‖ : ℂ))‖ ≤ 2 * η / m := by
      rw [norm_mul, norm_div, norm_div, Complex.norm_real, Complex.norm_real, norm_norm, Complex.norm_real, norm_norm, div_self hzp.ne', one_mul, Real.norm_eq_abs]
      exact div_le_div₀ (by linarith) (by rw [abs_sub_comm]; exact hdiff) hm hm0
    have : 4 * η / m = 2 * η / m + 2 * η / m := by ring
    linarith
  have c1 : (z / (‖z‖ : ℂ) - z0 / (‖z0‖ : ℂ)).re = x / ‖z‖ - x0 / ‖z0‖ := by
    rw [Complex.sub_re, Complex.div_ofReal_re, Complex.div_ofReal_re, hz, hz0]
  have c2 : (z / (‖z‖ : ℂ) - z0 / (‖z0‖ : ℂ)).im = y / ‖z‖ - y0 / ‖z0‖ := by
    rw [Complex.sub_im, Complex.div_ofReal_im, Complex.div_ofReal_im, hz, hz0]
  rw [← e1, ← e0, ← c1, ← c2]
  refine ⟨?_, (Complex.abs_re_le_norm _).trans key, (Complex.abs_im_le_norm _).trans key, hdiff⟩
  by_contra hh
  rw [e1, Real.sqrt_eq_zero_of_nonpos (not_lt.1 hh)] at hzp
  exact lt_irrefl _ hzp

theorem turn_close (x y a η : ℝ) (h : 0 < x ^ 2 + y ^ 2) (k : ℤ) (ha : |a - (Complex.arg ⟨x, y⟩ + k * (2 * Real.pi))| ≤ η) :
    |Real.cos a - x / Real.sqrt (x ^ 2 + y ^ 2)| ≤ η ∧ |Real.sin a - y / Real.sqrt (x ^ 2 + y ^ 2)| ≤ η := by
  have nrm : ‖(⟨x, y⟩ : ℂ)‖ = Real.sqrt (x ^ 2 + y ^ 2) := by
    rw [Complex.norm_def, Complex.normSq_mk]; congr 1; ring
  have hne : (⟨x, y⟩ : ℂ) ≠ 0 := by
    intro hh
    have := Complex.ext_iff.1 hh
    simp at this
    rw [this.1, this.2] at h; simp at h
  have c := Complex.cos_arg hne
  have s := Complex.sin_arg (⟨x, y⟩ : ℂ)
  rw [nrm] at c s
  rw [← Real.cos_add_int_mul_two_pi _ k] at c
  rw [← Real.sin_add_int_mul_two_pi _ k] at s
  rw [← c, ← s]
  exact ⟨(Real.abs_cos_sub_cos_le _ _).trans ha, (Real.abs_sin_sub_sin_le _ _).trans ha⟩

/-- Away from the vertical the angles are the plain ones. -/
theorem euler_plain (C : M3 ℝ) (hl : |C 2 0| < 999 / 1000) : dcmToEuler C =
    v3 (Complex.arg ⟨C 2 2, C 2 1⟩) (Real.arctan (-C 2 0 / Real.sqrt (C 2 1 ^ 2 + C 2 2 ^ 2))) (Complex.arg ⟨C 0 0, C 1 0⟩) := by
  obtain ⟨h1, h2⟩ := abs_lt.1 hl
  unfold dcmToEuler
  dsimp only
  rw [if_neg, if_neg]
  · have e : C 2 1 ^ 2 + C 2 2 ^ 2 = C 2 1 * C 2 1 + C 2 2 * C 2 2 := by ring
    rw [e]; rfl
  · simp only [Fl.le, Fl.lit, decide_eq_true_eq, not_le]
    push_cast; linarith
  · simp only [Fl.le, Fl.lit, decide_eq_true_eq, not_le]
    push_cast; linarith

theorem triple_close {a b c a0 b0 c0 κ : ℝ} (hb : |b| ≤ 1) (hc : |c| ≤ 1) (ha0 : |a0| ≤ 1) (hb0 : |b0| ≤ 1)
    (h1 : |a - a0| ≤ κ) (h2 : |b - b0| ≤ κ) (h3 : |c - c0| ≤ κ) : |a * b * c - a0 * b0 * c0| ≤ 3 * κ := by
  have κ0 : 0 ≤ κ := (abs_nonneg _).trans h1
  have e : a * b * c - a0 * b0 * c0 = (a - a0) * (b * c) + a0 * ((b - b0) * c) + (a0 * b0) * (c - c0) := by ring
  have p1 : |(a - a0) * (b * c)| ≤ κ := by
    rw [abs_mul, abs_mul]
    have := mul_le_one₀ hb (abs_nonneg c) hc
    exact (mul_le_mul h1 this (by positivity) κ0).trans (by rw [mul_one])
  have p2 : |a0 * ((b - b0) * c)| ≤ κ := by
    rw [abs_mul, abs_mul]
    have q := (mul_le_mul h2 hc (abs_nonneg c) κ0).trans_eq (mul_one κ)
    exact (mul_le_mul ha0 q (by positivity) zero_le_one).trans_eq (one_mul κ)
  have p3 : |(a0 * b0) * (c - c0)| ≤ κ := by
    rw [abs_mul, abs_mul]
    have := mul_le_one₀ ha0 (abs_nonneg b0) hb0
    exact (mul_le_mul this h3 (abs_nonneg _) zero_le_one).trans_eq (one_mul κ)
  rw [e]
  have := abs_add_three ((a - a0) * (b * c)) (a0 * ((b - b0) * c)) ((a0 * b0) * (c - c0))
  linarith

/-- Rotations about angles with nearby sines and cosines are close. -/
theorem angles_close (a b : V3 ℝ) (κ : ℝ) (hc : ∀ i, |Real.cos (a i) - Real.cos (b i)| ≤ κ) (hs : ∀ i, |Real.sin (a i) - Real.sin (b i)| ≤ κ)
    (i j : Fin 3) : |(Rz (a 2) * Ry (a 1) * Rx (a 0)) i j - (Rz (b 2) * Ry (b 1) * Rx (b 0)) i j| ≤ 6 * κ := by
  have κ0 : 0 ≤ κ := (abs_nonneg _).trans (hc 0)
  have C1 := fun x => Real.abs_cos_le_one x
  have S1 := fun x => Real.abs_sin_le_one x
  have one : |(1 : ℝ)| ≤ 1 := by simp
  have z : |(1 : ℝ) - 1| ≤ κ := by simpa using κ0
  have p : ∀ {x y x0 y0 : ℝ}, |x - x0| ≤ 3 * κ → |y - y0| ≤ 3 * κ → |x + y - (x0 + y0)| ≤ 6 * κ := by
    intro x y x0 y0 h1 h2
    have := abs_add_le (x - x0) (y - y0)
    rw [show x + y - (x0 + y0) = x - x0 + (y - y0) by ring]; linarith
  have m : ∀ {x y x0 y0 : ℝ}, |x - x0| ≤ 3 * κ → |y - y0| ≤ 3 * κ → |x - y - (x0 - y0)| ≤ 6 * κ := by
    intro x y x0 y0 h1 h2
    have := abs_sub (x - x0) (y - y0)
    rw [show x - y - (x0 - y0) = x - x0 - (y - y0) by ring]; linarith
  have entries : ∀ e : V3 ℝ, Rz (e 2) * Ry (e 1) * Rx (e 0) = !![
      Real.cos (e 2) * Real.cos (e 1) * 1, Real.cos (e 2) * Real.sin (e 1) * Real.sin (e 0) - Real.sin (e 2) * Real.cos (e 0) * 1,
      Real.cos (e 2) * Real.sin (e 1) * Real.cos (e 0) + Real.sin (e 2) * Real.sin (e 0) * 1;
      Real.sin (e 2) * Real.cos (e 1) * 1, Real.sin (e 2) * Real.sin (e 1) * Real.sin (e 0) + Real.cos (e 2) * Real.cos (e 0) * 1,
      Real.sin (e 2) * Real.sin (e 1) * Real.cos (e 0) - Real.cos (e 2) * Real.sin (e 0) * 1;
      -(Real.sin (e 1)), Real.cos (e 1) * Real.sin (e 0) * 1, Real.cos (e 1) * Real.cos (e 0) * 1] := by
    intro e
    ext i j
    fin_cases i <;> fin_cases j <;> simp [Rz, Ry, Rx, Matrix.mul_apply, Fin.sum_univ_three] <;> ring
  rw [entries a, entries b]
  have w : ∀ {x x0 : ℝ}, |x - x0| ≤ 3 * κ → |x - x0| ≤ 6 * κ := fun h => h.trans (by linarith)
  fin_cases i <;> fin_cases j
  · exact w (triple_close (C1 _) one (C1 _) (C1 _) (hc 2) (hc 1) z)
  · exact m (triple_close (S1 _) (S1 _) (C1 _) (S1 _) (hc 2) (hs 1) (hs 0)) (triple_close (C1 _) one (S1 _) (C1 _) (hs 2) (hc 0) z)
  · exact p (triple_close (S1 _) (C1 _) (C1 _) (S1 _) (hc 2) (hs 1) (hc 0)) (triple_close (S1 _) one (S1 _) (S1 _) (hs 2) (hs 0) z)
  · exact w (triple_close (C1 _) one (S1 _) (C1 _) (hs 2) (hc 1) z)
  · exact p (triple_close (S1 _) (S1 _) (S1 _) (S1 _) (hs 2) (hs 1) (hs 0)) (triple_close (C1 _) one (C1 _) (C1 _) (hc 2) (hc 0) z)
  · exact m (triple_close (S1 _) (C1 _) (S1 _) (S1 _) (hs 2) (hs 1) (hc 0)) (triple_close (S1 _) one (C1 _) (S1 _) (hc 2) (hs 0) z)
  · show |-(Real.sin (a 1)) - -(Real.sin (b 1))| ≤ 6 * κ
    rw [show -(Real.sin (a 1)) - -(Real.sin (b 1)) = -(Real.sin (a 1) - Real.sin (b 1)) by ring, abs_neg]
    linarith [hs 1]
  · exact w (triple_close (S1 _) one (C1 _) (S1 _) (hc 1) (hs 0) z)
  · exact w (triple_close (C1 _) one (C1 _) (C1 _) (hc 1) (hc 0) z)

theorem arctan_arg (ρ y : ℝ) (h : 0 < ρ) : Real.arctan (y / ρ) = Complex.arg ⟨ρ, y⟩ := by
  have h1 : |Complex.arg ⟨ρ, y⟩| < Real.pi / 2 := Complex.abs_arg_lt_pi_div_two_iff.2 (.inl h)
  have h2 := Complex.tan_arg ⟨ρ, y⟩
  have h3 := abs_lt.1 h1
  rw [← Real.arctan_tan (by linarith [h3.1] : -(Real.pi / 2) < Complex.arg ⟨ρ, y⟩) h3.2, h2]

/-- Angles near those of a matrix near a rotation describe nearly that rotation, away from the vertical. -/
theorem euler_close (C D : M3 ℝ) (hC : isRot C) (hl : |C 2 0| ≤ 99 / 100) (η ε : ℝ) (hD : ∀ i j, |D i j - C i j| ≤ η) (hη : η ≤ 1 / 1000)
    (a : V3 ℝ) (k k' : ℤ) (h0 : |a 0 - (Complex.arg ⟨D 2 2, D 2 1⟩ + k * (2 * Real.pi))| ≤ ε)
    (h1 : |a 1 - Real.arctan (-D 2 0 / Real.sqrt (D 2 1 ^ 2 + D 2 2 ^ 2))| ≤ ε)
    (h2 : |a 2 - (Complex.arg ⟨D 0 0, D 1 0⟩ + k' * (2 * Real.pi))| ≤ ε) (i j : Fin 3) :
    |(Rz (a 2) * Ry (a 1) * Rx (a 0)) i j - C i j| ≤ 6 * (ε + 40 * η) := by
  have η0 : 0 ≤ η := (abs_nonneg _).trans (hD 0 0)
  have hl' : |C 2 0| < 999 / 1000 := by linarith
  have hsq : C 2 0 ^ 2 ≤ (99 / 100) ^ 2 := by rw [← sq_abs]; exact pow_le_pow_left₀ (abs_nonneg _) hl 2
  have row : C 2 1 ^ 2 + C 2 2 ^ 2 = 1 - C 2 0 ^ 2 := by
    have := congrFun (congrFun hC.1 2) 2
    simp [Matrix.mul_apply, Fin.sum_univ_three] at this
    linarith
  have col : C 0 0 ^ 2 + C 1 0 ^ 2 = 1 - C 2 0 ^ 2 := by
    have := congrFun (congrFun hC.2.1 0) 0
    simp [Matrix.mul_apply, Fin.sum_univ_three] at this
    linarith
  have hb := C40_matrix_round_trip C hC hl'
  rw [eulerToDcm_eq, euler_plain C hl'] at hb
  obtain ⟨b, hb0⟩ : ∃ b : V3 ℝ, b = v3 (Complex.arg ⟨C 2 2, C 2 1⟩) (Real.arctan (-C 2 0 / Real.sqrt (C 2 1 ^ 2 + C 2 2 ^ 2))) (Complex.arg ⟨C 0 0, C 1 0⟩) := ⟨_, rfl⟩
  rw [← hb0] at hb
  have b0 : b 0 = Complex.arg ⟨C 2 2, C 2 1⟩ := by rw [hb0]; rfl
  have b1 : b 1 = Real.arctan (-C 2 0 / Real.sqrt (C 2 1 ^ 2 + C 2 2 ^ 2)) := by rw [hb0]; rfl
  have b2 : b 2 = Complex.arg ⟨C 0 0, C 1 0⟩ := by rw [hb0]; rfl
  -- roll
  have tri : ∀ x y w w' : ℝ, |x - w| ≤ ε → |w - w'| ≤ 40 * η → |y - w'| ≤ 0 → |x - y| ≤ ε + 40 * η := by
    intro x y w w' e1 e2 e3
    have e4 : y = w' := by have := abs_nonpos_iff.1 e3; linarith
    rw [e4]
    have := abs_sub_le x w w'
    linarith
  have roll : |Real.cos (a 0) - Real.cos (b 0)| ≤ ε + 40 * η ∧ |Real.sin (a 0) - Real.sin (b 0)| ≤ ε + 40 * η := by
    obtain ⟨d1, d2, d3, -⟩ := direction_close (D 2 2) (D 2 1) (C 2 2) (C 2 1) (1 / 10) η (by norm_num) (by linarith) (hD 2 2) (hD 2 1) (by linarith)
    obtain ⟨t1, t2⟩ := turn_close _ _ _ _ d1 k h0
    obtain ⟨s1, s2⟩ := turn_close (C 2 2) (C 2 1) (b 0) 0 (by linarith) 0 (by rw [b0]; simp)
    exact ⟨tri _ _ _ _ t1 (d2.trans (by linarith)) s1, tri _ _ _ _ t2 (d3.trans (by linarith)) s2⟩
  have yaw : |Real.cos (a 2) - Real.cos (b 2)| ≤ ε + 40 * η ∧ |Real.sin (a 2) - Real.sin (b 2)| ≤ ε + 40 * η := by
    obtain ⟨d1, d2, d3, -⟩ := direction_close (D 0 0) (D 1 0) (C 0 0) (C 1 0) (1 / 10) η (by norm_num) (by linarith) (hD 0 0) (hD 1 0) (by linarith)
    obtain ⟨t1, t2⟩ := turn_close _ _ _ _ d1 k' h2
    obtain ⟨s1, s2⟩ := turn_close (C 0 0) (C 1 0) (b 2) 0 (by linarith) 0 (by rw [b2]; simp)
    exact ⟨tri _ _ _ _ t1 (d2.trans (by linarith)) s1, tri _ _ _ _ t2 (d3.trans (by linarith)) s2⟩
  have pitch : |Real.cos (a 1) - Real.cos (b 1)| ≤ ε + 40 * η ∧ |Real.sin (a 1) - Real.sin (b 1)| ≤ ε + 40 * η := by
    obtain ⟨d1, -, -, d4⟩ := direction_close (D 2 1) (D 2 2) (C 2 1) (C 2 2) (1 / 10) η (by norm_num) (by linarith) (hD 2 1) (hD 2 2) (by linarith)
    have rD := Real.sqrt_pos.2 d1
    have rC : 0 < Real.sqrt (C 2 1 ^ 2 + C 2 2 ^ 2) := Real.sqrt_pos.2 (by linarith)
    have sC : Real.sqrt (C 2 1 ^ 2 + C 2 2 ^ 2) ^ 2 = C 2 1 ^ 2 + C 2 2 ^ 2 := Real.sq_sqrt (by linarith)
    rw [arctan_arg _ _ rD] at h1
    rw [arctan_arg _ _ rC] at b1
    obtain ⟨e1, e2, e3, -⟩ := direction_close (Real.sqrt (D 2 1 ^ 2 + D 2 2 ^ 2)) (-D 2 0) (Real.sqrt (C 2 1 ^ 2 + C 2 2 ^ 2)) (-C 2 0) 1 (2 * η) one_pos
      (by rw [sC, row]; linarith [neg_sq (C 2 0)]) d4 (by rw [show -D 2 0 - -C 2 0 = -(D 2 0 - C 2 0) by ring, abs_neg]; linarith [hD 2 0]) (by linarith)
    obtain ⟨t1, t2⟩ := turn_close _ _ _ ε e1 0 (by simpa using h1)
    obtain ⟨s1, s2⟩ := turn_close (Real.sqrt (C 2 1 ^ 2 + C 2 2 ^ 2)) (-C 2 0) (b 1) 0 (by rw [sC, row]; linarith [neg_sq (C 2 0)]) 0 (by rw [b1]; simp)
    exact ⟨tri _ _ _ _ t1 (e2.trans (by linarith)) s1, tri _ _ _ _ t2 (e3.trans (by linarith)) s2⟩
  rw [← hb]
  refine angles_close a b _ ?_ ?_ i j
  · intro l; fin_cases l
    · exact roll.1
    · exact pitch.1
    · exact yaw.1
  · intro l; fin_cases l
    · exact roll.2
    · exact pitch.2
    · exact yaw.2

/-- Matrices whose pitch is not near the vertical. -/
structure SitM where
  R : Rounding
  u : ℝ
  acc : AccurateLib R u
  c : M3 (RR R)
  le : ∀ i j, |(c i j).v| ≤ 2
  far : 1 / 100 ≤ (c 2 1).v * (c 2 1).v + (c 2 2).v * (c 2 2).v
instance : Sit SitM := ⟨fun i => i.R, fun i => i.u, fun i => i.acc⟩

/-- The computed pitch. -/
theorem pitch_rounded : ∃ k r : ℝ, 0 ≤ k ∧ 0 < r ∧ ∀ (R : Rounding) (u : ℝ), AccurateLib R u → ∀ c : M3 (RR R), (∀ i j, |(c i j).v| ≤ 2) →
    1 / 100 ≤ (c 2 1).v ^ 2 + (c 2 2).v ^ 2 → u ≤ r →
    |(Fl.atan (-(c 2 0) / Fl.sqrt (c 2 1 * c 2 1 + c 2 2 * c 2 2)) : RR R).v - Real.arctan (-(c 2 0).v / Real.sqrt ((c 2 1).v ^ 2 + (c 2 2).v ^ 2))| ≤ k * u := by
  have h : ∀ i j, Ap (fun s : SitM => (s.c i j).v) (fun s => s.c i j) := fun i j => Apr.exact _ 2 (fun s => s.le i j)
  have h1 := Ap.sqrt (1 / 100) (by norm_num) (fun s => s.far) (((h 2 1).mul (h 2 1)).add ((h 2 2).mul (h 2 2)))
  have h2 := Ap.atan (Ap.div (1 / 10) (by norm_num) (fun s => by
    refine (Real.le_sqrt_of_sq_le ?_).trans (le_abs_self _)
    exact le_trans (by norm_num) s.far) (h 2 0).neg h1)
  obtain ⟨_, k, r, _, hk, hr, H⟩ := h2
  refine ⟨k, r, hk, hr, fun R u acc c hc hf hu => ?_⟩
  have e : ∀ x : ℝ, x * x = x ^ 2 := fun x => (sq x).symm
  have hf' : 1 / 100 ≤ (c 2 1).v * (c 2 1).v + (c 2 2).v * (c 2 2).v := by rw [e, e]; exact hf
  have q : |(Fl.atan (-(c 2 0) / Fl.sqrt (c 2 1 * c 2 1 + c 2 2 * c 2 2)) : RR R).v -
      Real.arctan (-(c 2 0).v / Real.sqrt ((c 2 1).v * (c 2 1).v + (c 2 2).v * (c 2 2).v))| ≤ k * u := (H ⟨R, u, acc, c, hc, hf'⟩).2 hu
  rw [e, e] at q
  exact q

/-- Away from the vertical the computed angles are the plain ones, too. -/
theorem euler_plain_rounded {R : Rounding} {u : ℝ} (acc : AccurateLib R u) (c : M3 (RR R)) (hl : |(c 2 0).v| ≤ 998 / 1000) : dcmToEuler c =
    v3 (Fl.atan2 (c 2 1) (c 2 2)) (Fl.atan (-(c 2 0) / Fl.sqrt (c 2 1 * c 2 1 + c 2 2 * c 2 2))) (Fl.atan2 (c 1 0) (c 0 0)) := by
  obtain ⟨h1, h2⟩ := abs_le.1 hl
  have us := acc.small
  have u0 := acc.pos
  unfold dcmToEuler
  dsimp only
  rw [if_neg, if_neg]
  · have := abs_le.1 (acc.rnd (((999 / 1000 : ℚ) : ℝ)))
    have e : |(((999 / 1000 : ℚ) : ℝ))| ≤ 1 := by norm_num
    have e2 : (((999 / 1000 : ℚ) : ℝ)) = 999 / 1000 := by norm_num
    have e3 : u * (|(((999 / 1000 : ℚ) : ℝ))| + 1) ≤ u * 2 := mul_le_mul_of_nonneg_left (by linarith) u0
    rw [e2] at this e3
    simp only [Fl.le, Fl.lit, decide_eq_true_eq, not_le]
    rw [e2]
    linarith [this.1]
  · have := abs_le.1 (acc.rnd (((-999 / 1000 : ℚ) : ℝ)))
    have e : |(((-999 / 1000 : ℚ) : ℝ))| ≤ 1 := by norm_num [abs_le]
    have e2 : (((-999 / 1000 : ℚ) : ℝ)) = -999 / 1000 := by norm_num
    have e3 : u * (|(((-999 / 1000 : ℚ) : ℝ))| + 1) ≤ u * 2 := mul_le_mul_of_nonneg_left (by linarith) u0
    rw [e2] at this e3
    simp only [Fl.le, Fl.lit, decide_eq_true_eq, not_le]
    rw [e2]
    linarith [this.2]

theorem entry_of (A B : M3 ℝ) (c : ℝ) (h : ∀ x, len (A *ᵥ x - B *ᵥ x) ≤ c * len x) (i j : Fin 3) : |A i j - B i j| ≤ c := by
  have h1 := h (Pi.single j 1)
  have h2 := comp_le_len (A *ᵥ Pi.single j 1 - B *ᵥ Pi.single j 1) i
  have e : (A *ᵥ Pi.single j 1 - B *ᵥ Pi.single j 1) i = A i j - B i j := by simp
  have e2 : len (Pi.single j 1 : V3 ℝ) = 1 := by fin_cases j <;> simp [len]
  rw [e] at h2
  rw [e2, mul_one] at h1
  exact h2.trans h1

theorem of_entries (A B : M3 ℝ) (c : ℝ) (h : ∀ i j, |A i j - B i j| ≤ c) (y : V3 ℝ) : len (A *ᵥ y - B *ᵥ y) ≤ 9 * c * len y := by
  have c0 : 0 ≤ c := (abs_nonneg _).trans (h 0 0)
  have l0 := len_nonneg y
  have row : ∀ i, |(A *ᵥ y - B *ᵥ y) i| ≤ 3 * c * len y := by
    intro i
    have e : (A *ᵥ y - B *ᵥ y) i = (A i 0 - B i 0) * y 0 + (A i 1 - B i 1) * y 1 + (A i 2 - B i 2) * y 2 := by
      simp [Matrix.mulVec, dotProduct, Fin.sum_univ_three]; ring
    have t : ∀ j, |(A i j - B i j) * y j| ≤ c * len y := fun j => by
      rw [abs_mul]; exact mul_le_mul (h i j) (comp_le_len y j) (abs_nonneg _) c0
    rw [e]
    have := abs_add_three ((A i 0 - B i 0) * y 0) ((A i 1 - B i 1) * y 1) ((A i 2 - B i 2) * y 2)
    linarith [t 0, t 1, t 2]
  have := len_le_sum (A *ᵥ y - B *ᵥ y)
  linarith [row 0, row 1, row 2]

theorem rot_le_one (C : M3 ℝ) (h : isRot C) (i j : Fin 3) : |C i j| ≤ 1 := by
  have hh := congrFun (congrFun h.1 i) i
  simp [Matrix.mul_apply, Fin.sum_univ_three] at hh
  have a0 := mul_self_nonneg (C i 0)
  have a1 := mul_self_nonneg (C i 1)
  have a2 := mul_self_nonneg (C i 2)
  have key : C i j * C i j ≤ 1 := by
    fin_cases j
    · show C i 0 * C i 0 ≤ 1; linarith
    · show C i 1 * C i 1 ≤ 1; linarith
    · show C i 2 * C i 2 ≤ 1; linarith
  apply abs_le_of_sq_le_sq _ zero_le_one
  rw [sq, one_pow]; exact key

/-- C206, the attitude: if, besides, the two-argument arctangent is accurate as an angle, the whole navigation result is as near the truth,
the attitude too, wherever the true pitch is not within about 8 degrees of the vertical. -/
theorem C206_rounded_attitude (B : Limits) (hB : B.Sane) (T b : ℝ) : ∃ K r : ℝ, 0 < r ∧
    ∀ (lat lon h : ℝ → ℝ) (v : ℝ → V3 ℝ) (C : ℝ → M3 ℝ) (w θ f α : ℝ → V3 ℝ), TrueFlight B T lat lon h v C w θ f α →
    ∀ (R : Rounding) (u : ℝ), AccurateLib R u → AccurateAtan2 R u →
    ∀ (junk : Junk (RR R)) (d0 d : Dev (RR R)) (o : Opt (RR R)) (n : NavOutput (RR R)),
    o.alignMode = 2 → noAids o → o.outputProjectEnable = 0 → 0 < o.dRate → rgioeInit junk d0 (some o) (some n) = some (0, d) →
    (∀ j, |(o.imuPara.gbIni j).v| ≤ b ∧ |(o.imuPara.abIni j).v| ≤ b ∧ |(o.imuPara.gsIni j).v| ≤ b ∧ |(o.imuPara.asIni j).v| ≤ b) →
    (∀ j, |(n.atti j).v| ≤ b) →
    ∀ (e δ dt x : ℝ), dt = 1 / o.dRate → x = e + δ + dt + u / dt → x ≤ r → 0 ≤ δ → ResultNear e (valsOut n) (lat 0) (lon 0) (h 0) (v 0) (C 0) →
    ∀ cs : List (Call (RR R)), (∀ c ∈ cs, c.isInit = false) → (∀ m ∈ fixesOf cs, ¬ usable m.mode) → imusOf cs ≠ [] →
    ReadsNear δ (valsPara o.imuPara) dt θ α 0 ((imusOf cs).map valsImu) → (∀ m ∈ imusOf cs, ∀ j, |(m.gyro j).v| ≤ b ∧ |(m.acce j).v| ≤ b) →
    ∀ t : ℝ, t = (imusOf cs).length * dt → t ≤ T → |C t 2 0| ≤ 99 / 100 →
    ∀ (g : RR R) (p : NavOutput (RR R)), ∃ q : NavOutput (RR R), rgioeGetResult (runCalls cs (g, d)).2 p = (0, q) ∧
      ResultNear (K * x) (valsOut q) (lat t) (lon t) (h t) (v t) (C t) := by
  obtain ⟨K0, r0, hr0, H⟩ := rounded_core B hB T b
  obtain ⟨K, hK⟩ : ∃ K, K = max K0 0 := ⟨_, rfl⟩
  have hK0 : K0 ≤ K := hK ▸ le_max_left _ _
  have hKn : 0 ≤ K := hK ▸ le_max_right _ _
  obtain ⟨kp, rp, hkp, hrp, hpit⟩ := pitch_rounded
  obtain ⟨cd, rd, hcd, hrd, hdeg⟩ := to_degrees (4 + kp)
  refine ⟨K + 54 * (cd + kp + 5 + 40 * K), min (min r0 rp) (min (min rd 1) (1 / (1000 * (K + 1)))), lt_min (lt_min hr0 hrp) (lt_min (lt_min hrd one_pos) (by positivity)), ?_⟩
  intro lat lon h v C w θ f α F R u acc acc2 junk d0 d o n hm ha ho hdr hi hb hba e δ dt x hdt hx hxr hδ hn cs hc hg hs hp hrb t ht hT hl g p
  have r1 := hxr.trans ((min_le_left _ _).trans (min_le_left _ _))
  have r2 := hxr.trans ((min_le_left _ _).trans (min_le_right _ _))
  have r3 := hxr.trans ((min_le_right _ _).trans ((min_le_left _ _).trans (min_le_left _ _)))
  have r4 := hxr.trans ((min_le_right _ _).trans ((min_le_left _ _).trans (min_le_right _ _)))
  have r5 := hxr.trans ((min_le_right _ _).trans (min_le_right _ _))
  obtain ⟨q, E, hq, q1, q2, q3, q4, q5, q6, q7⟩ := H lat lon h v C w θ f α F R u acc junk d0 d o n hm ha ho hdr hi hb hba e δ dt x hdt hx r1 hδ hn cs hc hg hs hp hrb t ht hT g p
  have u0 := acc.pos
  have hD1 : (1 : ℝ) ≤ o.dRate := by exact_mod_cast hdr
  have hdt0 : 0 < dt := by rw [hdt]; positivity
  have hdt1 : dt ≤ 1 := by rw [hdt, div_le_one (by linarith)]; exact hD1
  have he0 : 0 ≤ e := (abs_nonneg _).trans hn.height
  have hu1 : u ≤ u / dt := by
    rw [le_div_iff₀ hdt0]
    have := mul_le_mul_of_nonneg_left hdt1 u0
    linarith
  have hux : u ≤ x := by rw [hx]; linarith
  have hx0 : 0 ≤ x := u0.trans hux
  have t0 : 0 ≤ t := by rw [ht]; positivity
  have hKx : K0 * x ≤ K * x := mul_le_mul_of_nonneg_right hK0 hx0
  have hsplit : (K + 54 * (cd + kp + 5 + 40 * K)) * x = K * x + 54 * (cd * x + kp * x + 5 * x + 40 * (K * x)) := by ring
  have p1 : 0 ≤ cd * x := mul_nonneg hcd hx0
  have p2 : 0 ≤ kp * x := mul_nonneg hkp hx0
  have p3 : 0 ≤ K * x := mul_nonneg hKn hx0
  have hall : K0 * x ≤ (K + 54 * (cd + kp + 5 + 40 * K)) * x := by rw [hsplit]; linarith
  refine ⟨q, hq, q1.trans hall, q2.trans hall, q3.trans hall, q4.trans hall, ?_⟩
  have hη : K * x ≤ 1 / 1000 := by
    rw [le_div_iff₀ (by positivity)] at r5
    have : x * (1000 * (K + 1)) = 1000 * (K * x) + 1000 * x := by ring
    linarith
  have hrot : isRot (C t) := F.rot t t0 hT
  obtain ⟨D, hD⟩ : ∃ D : M3 ℝ, D = fun i j => (E.Cbn i j).v := ⟨_, rfl⟩
  have hDC : ∀ i j, |D i j - C t i j| ≤ K * x := by
    intro i j
    refine (entry_of D (C t) (K0 * x) ?_ i j).trans hKx
    rw [hD]; exact q7
  have hDv : ∀ i j, (E.Cbn i j).v = D i j := fun i j => by rw [hD]
  have hCle : ∀ i j, |C t i j| ≤ 1 := rot_le_one _ hrot
  have hD2 : ∀ i j, |D i j| ≤ 2 := by
    intro i j
    have := abs_sub_abs_le_abs_sub (D i j) (C t i j)
    linarith [hDC i j, hCle i j]
  have hsq : C t 2 0 ^ 2 ≤ (99 / 100) ^ 2 := by rw [← sq_abs]; exact pow_le_pow_left₀ (abs_nonneg _) hl 2
  have row : C t 2 1 ^ 2 + C t 2 2 ^ 2 = 1 - C t 2 0 ^ 2 := by
    have := congrFun (congrFun hrot.1 2) 2
    simp [Matrix.mul_apply, Fin.sum_univ_three] at this
    linarith
  have col : C t 0 0 ^ 2 + C t 1 0 ^ 2 = 1 - C t 2 0 ^ 2 := by
    have := congrFun (congrFun hrot.2.1 0) 0
    simp [Matrix.mul_apply, Fin.sum_univ_three] at this
    linarith
  have lower : ∀ y y0 : ℝ, |y - y0| ≤ K * x → |y0| ≤ 1 → y0 ^ 2 - 2 / 1000 ≤ y ^ 2 := by
    intro y y0 h1 h2
    have e : y ^ 2 = y0 ^ 2 + 2 * (y0 * (y - y0)) + (y - y0) ^ 2 := by ring
    have e2 : |y0 * (y - y0)| ≤ 1 / 1000 := by
      rw [abs_mul]
      exact (mul_le_mul h2 (h1.trans hη) (abs_nonneg _) zero_le_one).trans_eq (one_mul _)
    have := (abs_le.1 e2).1
    nlinarith [sq_nonneg (y - y0)]
  have far : 1 / 100 ≤ D 2 1 ^ 2 + D 2 2 ^ 2 := by
    have := lower _ _ (hDC 2 1) (hCle 2 1)
    have := lower _ _ (hDC 2 2) (hCle 2 2)
    linarith
  have far2 : 1 / 100 ≤ D 0 0 ^ 2 + D 1 0 ^ 2 := by
    have := lower _ _ (hDC 0 0) (hCle 0 0)
    have := lower _ _ (hDC 1 0) (hCle 1 0)
    linarith
  have hlE : |(E.Cbn 2 0).v| ≤ 998 / 1000 := by
    rw [hDv]
    have := abs_sub_abs_le_abs_sub (D 2 0) (C t 2 0)
    linarith [hDC 2 0]
  have plain := euler_plain_rounded acc E.Cbn hlE
  have nz : ∀ a b : ℝ, 1 / 100 ≤ a ^ 2 + b ^ 2 → a ≠ 0 ∨ b ≠ 0 := by
    intro a b hab
    by_contra hh
    simp only [ne_eq, not_or, not_not] at hh
    rw [hh.1, hh.2] at hab; norm_num at hab
  have argle : ∀ z : ℂ, |Complex.arg z| + 1 ≤ 5 := fun z => by
    have := Complex.abs_arg_le_pi z
    linarith [Real.pi_le_four]
  have n0 : E.atti 0 = Fl.atan2 (E.Cbn 2 1) (E.Cbn 2 2) := by rw [q6, plain]; rfl
  have n1 : E.atti 1 = Fl.atan (-(E.Cbn 2 0) / Fl.sqrt (E.Cbn 2 1 * E.Cbn 2 1 + E.Cbn 2 2 * E.Cbn 2 2)) := by rw [q6, plain]; rfl
  have n2 : E.atti 2 = Fl.atan2 (E.Cbn 1 0) (E.Cbn 0 0) := by rw [q6, plain]; rfl
  obtain ⟨A0, k, A1⟩ := acc2 (D 2 1) (D 2 2) (nz _ _ (by linarith))
  obtain ⟨B0, k', B1⟩ := acc2 (D 1 0) (D 0 0) (nz _ _ far2)
  have P1 := hpit R u acc E.Cbn (fun i j => by rw [hDv]; exact hD2 i j) (by rw [hDv, hDv]; exact far) (hux.trans r2)
  rw [← n1, hDv, hDv, hDv] at P1
  have v0 : (E.atti 0).v = R.atan2 (D 2 1) (D 2 2) := by rw [n0, ← hDv, ← hDv]; rfl
  have v2 : (E.atti 2).v = R.atan2 (D 1 0) (D 0 0) := by rw [n2, ← hDv, ← hDv]; rfl
  rw [← v0] at A0 A1
  rw [← v2] at B0 B1
  have hu5 : ∀ z : ℂ, u * (|Complex.arg z| + 1) ≤ 5 * x := fun z => by
    have := mul_le_mul hux (argle z) (by positivity) hx0
    linarith
  have hku : kp * u ≤ kp * x := mul_le_mul_of_nonneg_left hux hkp
  have hcu : cd * u ≤ cd * x := mul_le_mul_of_nonneg_left hux hcd
  have P0 : |(E.atti 1).v| ≤ 4 + kp := by
    have a1 := abs_sub_abs_le_abs_sub (E.atti 1).v (Real.arctan (-D 2 0 / Real.sqrt (D 2 1 ^ 2 + D 2 2 ^ 2)))
    have a2 := arctan_le (-D 2 0 / Real.sqrt (D 2 1 ^ 2 + D 2 2 ^ 2))
    have a3 : kp * x ≤ kp := mul_le_of_le_one_right hkp r4
    linarith
  have g0 := hdeg R u acc (E.atti 0) (by linarith) (hux.trans r3)
  have g1 := hdeg R u acc (E.atti 1) P0 (hux.trans r3)
  have g2 := hdeg R u acc (E.atti 2) (by linarith) (hux.trans r3)
  have s0 : (valsOut q).atti 0 = (E.atti 0 / deg).v := by show (q.atti 0).v = _; rw [q5]; rfl
  have s1 : (valsOut q).atti 1 = (E.atti 1 / deg).v := by show (q.atti 1).v = _; rw [q5]; rfl
  have s2 : (valsOut q).atti 2 = (E.atti 2 / deg).v := by show (q.atti 2).v = _; rw [q5]; rfl
  rw [← s0] at g0
  rw [← s1] at g1
  rw [← s2] at g2
  intro y
  have ent := euler_close (C t) D hrot hl (K * x) (cd * x + kp * x + 5 * x) hDC hη ![inRad ((valsOut q).atti 0), inRad ((valsOut q).atti 1), inRad ((valsOut q).atti 2)] k k'
    (by
      have := abs_sub_le (inRad ((valsOut q).atti 0)) (E.atti 0).v (Complex.arg ⟨D 2 2, D 2 1⟩ + k * (2 * Real.pi))
      have := hu5 ⟨D 2 2, D 2 1⟩
      show |inRad ((valsOut q).atti 0) - _| ≤ _
      linarith)
    (by
      have := abs_sub_le (inRad ((valsOut q).atti 1)) (E.atti 1).v (Real.arctan (-D 2 0 / Real.sqrt (D 2 1 ^ 2 + D 2 2 ^ 2)))
      show |inRad ((valsOut q).atti 1) - _| ≤ _
      linarith)
    (by
      have := abs_sub_le (inRad ((valsOut q).atti 2)) (E.atti 2).v (Complex.arg ⟨D 0 0, D 1 0⟩ + k' * (2 * Real.pi))
      have := hu5 ⟨D 0 0, D 1 0⟩
      show |inRad ((valsOut q).atti 2) - _| ≤ _
      linarith)
  refine (of_entries (rotOf (valsOut q).atti) (C t) (6 * (cd * x + kp * x + 5 * x + 40 * (K * x))) ent y).trans ?_
  refine mul_le_mul_of_nonneg_right ?_ (len_nonneg y)
  rw [hsplit]; linarith

/-- The arithmetic rounding down to multiples of `u` has such an arctangent. -/
theorem grid_atan2 (u : ℝ) (h0 : 0 < u) : AccurateAtan2 (grid u) u := by
  intro y x _
  refine ⟨(Complex.abs_arg_le_pi _).trans Real.pi_le_four, 0, ?_⟩
  show |Complex.arg ⟨x, y⟩ - (Complex.arg ⟨x, y⟩ + ((0 : ℤ) : ℝ) * (2 * Real.pi))| ≤ _
  simp only [Int.cast_zero, zero_mul, add_zero, sub_self, abs_zero]
  positivity
end Verif.Props
