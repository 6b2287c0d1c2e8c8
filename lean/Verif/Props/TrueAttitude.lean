import Verif.Props.EarthAttitude
import Verif.Spec.TrueAttitude
import Mathlib.Analysis.Calculus.MeanValue
import Mathlib.Analysis.Calculus.Deriv.Mul
import Mathlib.Analysis.Calculus.Deriv.Shift
/-! C198: the computed attitude follows the true one. -/
namespace Verif.Props
open Verif Verif.Spec Verif.Convert Matrix
open scoped Quaternion

theorem pureH_add' (x y : V3 ℝ) : pureH (x + y) = pureH x + pureH y := by ext <;> simp [pureH]
theorem pureH_sub' (x y : V3 ℝ) : pureH (x - y) = pureH x - pureH y := by ext <;> simp [pureH]
theorem len_add_le (x y : V3 ℝ) : len (x + y) ≤ len x + len y := by
  rw [← pureH_norm, ← pureH_norm, ← pureH_norm, pureH_add']; exact norm_add_le _ _
theorem len_sub_le (x y : V3 ℝ) : len (x - y) ≤ len x + len y := by
  rw [← pureH_norm, ← pureH_norm, ← pureH_norm, pureH_sub']; exact norm_sub_le _ _

theorem len_isRot (C : M3 ℝ) (h : isRot C) (v : V3 ℝ) : len (C *ᵥ v) = len v := by
  have e : ∀ x : V3 ℝ, x 0 ^ 2 + x 1 ^ 2 + x 2 ^ 2 = x ⬝ᵥ x := by
    intro x; simp [dotProduct, Fin.sum_univ_three]; ring
  unfold len
  rw [e, e, Matrix.dotProduct_mulVec, Matrix.vecMul_mulVec, ← Matrix.dotProduct_mulVec, h.2.1, Matrix.one_mulVec]

/-- A vector whose rate of change is bounded. -/
theorem grow (f f' : ℝ → V3 ℝ) (h : ∀ t i, HasDerivAt (fun u => f u i) (f' t i) t) (B B' : ℝ → ℝ) (hB : ∀ t, HasDerivAt B (B' t) t) (T : ℝ) (hT : 0 ≤ T)
    (h0 : len (f 0) ≤ B 0) (hb : ∀ t, 0 ≤ t → t < T → len (f' t) ≤ B' t) : len (f T) ≤ B T := by
  have hd : ∀ t, HasDerivAt (fun u => pureH (f u)) (pureH (f' t)) t := by
    intro t
    have e : ∀ x : V3 ℝ, pureH x = x 0 • (⟨0, 1, 0, 0⟩ : ℍ[ℝ]) + x 1 • (⟨0, 0, 1, 0⟩ : ℍ[ℝ]) + x 2 • (⟨0, 0, 0, 1⟩ : ℍ[ℝ]) := by
      intro x; ext <;> simp [pureH]
    simp only [e]
    exact (((h t 0).smul_const _).add ((h t 1).smul_const _)).add ((h t 2).smul_const _)
  rw [← pureH_norm]
  exact image_norm_le_of_norm_deriv_right_le_deriv_boundary (f := fun u => pureH (f u)) (a := 0) (b := T) (fun t _ => (hd t).continuousAt.continuousWithinAt)
    (fun t _ => (hd t).hasDerivWithinAt) (B := B) (B' := B') (by rw [pureH_norm]; exact h0) hB (fun t ht => by rw [pureH_norm]; exact hb t ht.1 ht.2)
    ⟨hT, le_refl T⟩

theorem xp_sub_right (a b c : V3 ℝ) : xp a (b - c) = xp a b - xp a c := by
  ext i; fin_cases i <;> simp [xp] <;> ring
theorem xp_sub_left (a b c : V3 ℝ) : xp (a - b) c = xp a c - xp b c := by
  ext i; fin_cases i <;> simp [xp] <;> ring
theorem xp_self (a : V3 ℝ) : xp a a = 0 := by
  ext i; fin_cases i <;> simp [xp] <;> ring
theorem xp_jacobi (a b x : V3 ℝ) : xp a (xp b x) - xp b (xp a x) = xp (xp a b) x := by
  ext i; fin_cases i <;> simp [xp] <;> ring

/-- The second-order expansion of a turn. -/
noncomputable def second (φ x : V3 ℝ) : V3 ℝ := x + xp φ x + (1 / 2 : ℝ) • xp φ (xp φ x)

/-- An exact turn is its second-order expansion up to the third power. -/
theorem turn_second (b x : V3 ℝ) (hb : len b ≤ 2) : len (turnM b *ᵥ x - second b x) ≤ len b ^ 3 / 4 * len x := by
  have hl := len_nonneg b
  have hx := len_nonneg x
  have e : turnM b *ᵥ x - second b x = (Real.sin (len b) / len b - 1) • xp b x + ((1 - Real.cos (len b)) / len b ^ 2 - 1 / 2) • xp b (xp b x) := by
    unfold turnM second
    rw [add_mulVec, add_mulVec, one_mulVec, smul_mulVec, smul_mulVec, ← mulVec_mulVec, xm_mulVec, xm_mulVec]
    ext i; simp only [Pi.add_apply, Pi.sub_apply, Pi.smul_apply, smul_eq_mul]; ring
  have h1 : len (xp b x) ≤ len b * len x := len_xp_le b x
  have h2 : len (xp b (xp b x)) ≤ len b * (len b * len x) := (len_xp_le b _).trans (mul_le_mul_of_nonneg_left h1 hl)
  rw [e]
  refine (len_add_le _ _).trans ?_
  rw [len_smul, len_smul]
  rcases eq_or_lt_of_le hl with h0 | h0
  · rw [← h0] at h1 h2 ⊢
    have := len_nonneg (xp b x); have := len_nonneg (xp b (xp b x))
    have z1 : len (xp b x) = 0 := by linarith
    have z2 : len (xp b (xp b x)) = 0 := by linarith
    rw [z1, z2]; simp
  have s1 : |Real.sin (len b) / len b - 1| ≤ len b ^ 2 / 6 := by
    have a1 := Taylor.sin1 _ hl
    have a3 := Taylor.sin3 _ hl
    rw [abs_le]
    constructor
    · rw [neg_le_sub_iff_le_add, ← sub_le_iff_le_add, le_div_iff₀ h0]; nlinarith
    · rw [sub_le_iff_le_add, div_le_iff₀ h0]; have : 0 ≤ len b ^ 3 := by positivity
      nlinarith
  have s2 : |(1 - Real.cos (len b)) / len b ^ 2 - 1 / 2| ≤ len b ^ 2 / 24 := by
    have a1 := Taylor.cos2 _ hl
    have a3 := Taylor.cos4 _ hl
    have p : 0 < len b ^ 2 := by positivity
    rw [abs_le]
    constructor
    · rw [neg_le_sub_iff_le_add, ← sub_le_iff_le_add, le_div_iff₀ p]; nlinarith
    · rw [sub_le_iff_le_add, div_le_iff₀ p]; have : 0 ≤ len b ^ 4 := by positivity
      nlinarith
  have m1 := mul_le_mul s1 h1 (len_nonneg _) (by positivity)
  have m2 := mul_le_mul s2 h2 (len_nonneg _) (by positivity)
  refine (add_le_add m1 m2).trans ?_
  have : len b ^ 4 * len x ≤ 2 * len b ^ 3 * len x := by
    refine mul_le_mul_of_nonneg_right ?_ hx
    have : 0 ≤ len b ^ 3 := by positivity
    nlinarith
  nlinarith

/-- Two expansions of nearby turns. -/
theorem second_near (a b x : V3 ℝ) (ha : len a ≤ 13 / 12) (hb : len b ≤ 1) : len (second a x - second b x) ≤ len (a - b) * (21 / 10) * len x := by
  have e : second a x - second b x = xp (a - b) x + (1 / 2 : ℝ) • (xp a (xp (a - b) x) + xp (a - b) (xp b x)) := by
    unfold second
    rw [xp_sub_left, xp_sub_left, xp_sub_right]
    ext i; simp only [Pi.add_apply, Pi.sub_apply, Pi.smul_apply, smul_eq_mul]; ring
  have hx := len_nonneg x
  have hd := len_nonneg (a - b)
  have ha0 := len_nonneg a
  have hb0 := len_nonneg b
  have h1 := len_xp_le (a - b) x
  have p := mul_nonneg hd hx
  have h2 : len (xp a (xp (a - b) x)) ≤ 13 / 12 * (len (a - b) * len x) :=
    (len_xp_le a _).trans (mul_le_mul ha h1 (len_nonneg _) (by norm_num))
  have h3 : len (xp (a - b) (xp b x)) ≤ len (a - b) * (1 * len x) :=
    (len_xp_le _ _).trans (mul_le_mul_of_nonneg_left ((len_xp_le b x).trans (mul_le_mul_of_nonneg_right hb hx)) hd)
  rw [e]
  refine (len_add_le _ _).trans ?_
  rw [len_smul, abs_of_pos (by norm_num)]
  have := len_add_le (xp a (xp (a - b) x)) (xp (a - b) (xp b x))
  nlinarith

section
variable {w θ : ℝ → V3 ℝ} {Ω L : ℝ} (M : Signal w θ Ω L)
include M

theorem rate_nonneg : 0 ≤ Ω := (len_nonneg _).trans (M.rate 0)
theorem smooth_nonneg : 0 ≤ L := by
  have := M.smooth 1 0
  have h := len_nonneg (w 1 - w 0)
  rw [sub_zero, abs_one, mul_one] at this
  linarith

theorem angle_from (t : ℝ) (u : ℝ) (i : Fin 3) : HasDerivAt (fun u => (θ (t + u) - θ t) i) (w (t + u) i) u := by
  have := (M.angle (t + u) i).comp_const_add t u
  exact this.sub_const _

theorem angle_le (t h : ℝ) (hh : 0 ≤ h) : len (θ (t + h) - θ t) ≤ Ω * h := by
  refine grow (fun u => θ (t + u) - θ t) (fun u => w (t + u)) (angle_from M t) (fun u => Ω * u) (fun _ => Ω) (fun u => by simpa using (hasDerivAt_id u).const_mul Ω) h hh ?_
    (fun u _ _ => M.rate _)
  simp [len]

/-- The turn of an interval against the rate at its end. -/
theorem angle_end (t h : ℝ) (hh : 0 ≤ h) : len (θ (t + h) - θ t - h • w (t + h)) ≤ L * h ^ 2 / 2 := by
  have := grow (fun u => θ (t + u) - θ t - u • w (t + h)) (fun u => w (t + u) - w (t + h))
    (fun u i => by
      have := (angle_from M t u i).sub ((hasDerivAt_id u).mul_const (w (t + h) i))
      exact this.congr_deriv (by simp))
    (fun u => L * (h * u - u ^ 2 / 2)) (fun u => L * (h - u))
    (fun u => by
      have := (((hasDerivAt_id u).const_mul h).sub ((hasDerivAt_pow 2 u).div_const 2)).const_mul L
      refine this.congr_deriv ?_
      simp) h hh (by simp [len])
    (fun u h0 h1 => by
      refine (M.smooth _ _).trans ?_
      rw [show t + u - (t + h) = -(h - u) by ring, abs_neg, abs_of_pos (by linarith)])
  refine this.trans (le_of_eq ?_)
  ring

/-- Two consecutive intervals. -/
theorem angle_pair (t h : ℝ) (hh : 0 ≤ h) : len ((θ t - θ (t - h)) - (θ (t + h) - θ t)) ≤ L * h ^ 2 := by
  have := grow (fun u => (θ (t - h + u) - θ (t - h)) - (θ (t + u) - θ t)) (fun u => w (t - h + u) - w (t + u))
    (fun u i => (angle_from M (t - h) u i).sub (angle_from M t u i)) (fun u => L * h * u) (fun _ => L * h)
    (fun u => by simpa using (hasDerivAt_id u).const_mul (L * h)) h hh (by simp [len])
    (fun u _ _ => by
      refine (M.smooth _ _).trans ?_
      rw [show t - h + u - (t + u) = -h by ring, abs_neg, abs_of_nonneg hh])
  rw [sub_add_cancel] at this
  refine this.trans (le_of_eq ?_)
  ring

end

section
variable {C : ℝ → M3 ℝ} {w θ : ℝ → V3 ℝ} {Ω L : ℝ} (M : TurningBody C w θ Ω L)
include M

/-- The true turn since `t`, on a fixed vector. -/
theorem turn_from (t : ℝ) (y : V3 ℝ) (u : ℝ) (i : Fin 3) :
    HasDerivAt (fun u => (((C t)ᵀ * C (t + u)) *ᵥ y) i) ((((C t)ᵀ * C (t + u)) *ᵥ xp (w (t + u)) y) i) u := by
  have hC : ∀ j k, HasDerivAt (fun u => C (t + u) j k) ((C (t + u) * xm (w (t + u))) j k) u := fun j k => (M.turns (t + u) j k).comp_const_add t u
  have hv : ∀ j, HasDerivAt (fun u => (C (t + u) *ᵥ y) j) ((C (t + u) *ᵥ xp (w (t + u)) y) j) u := by
    intro j
    rw [← xm_mulVec, mulVec_mulVec]
    simp only [mulVec, dotProduct, Fin.sum_univ_three]
    exact (((hC j 0).mul_const _).add ((hC j 1).mul_const _)).add ((hC j 2).mul_const _)
  have e : ∀ u z, ((((C t)ᵀ * C (t + u)) *ᵥ z) i) = C t 0 i * (C (t + u) *ᵥ z) 0 + C t 1 i * (C (t + u) *ᵥ z) 1 + C t 2 i * (C (t + u) *ᵥ z) 2 := by
    intro u z
    rw [← mulVec_mulVec]
    simp only [mulVec, dotProduct, Fin.sum_univ_three, transpose_apply]
  simp only [e]
  exact (((hv 0).const_mul _).add ((hv 1).const_mul _)).add ((hv 2).const_mul _)

theorem between_rot (t u : ℝ) (z : V3 ℝ) : len (((C t)ᵀ * C (t + u)) *ᵥ z) = len z := by
  have h := M.rot t
  have ht : isRot (C t)ᵀ := ⟨by rw [transpose_transpose]; exact h.2.1, by rw [transpose_transpose]; exact h.1, by rw [det_transpose]; exact h.2.2⟩
  rw [← mulVec_mulVec, len_isRot _ ht, len_isRot _ (M.rot _)]

theorem between_zero (t : ℝ) (z : V3 ℝ) : ((C t)ᵀ * C (t + 0)) *ᵥ z = z := by
  rw [add_zero, (M.rot t).2.1, one_mulVec]

theorem first_turn (t : ℝ) (y : V3 ℝ) (u : ℝ) (hu : 0 ≤ u) : len (((C t)ᵀ * C (t + u)) *ᵥ y - y) ≤ Ω * len y * u := by
  refine grow (fun u => ((C t)ᵀ * C (t + u)) *ᵥ y - y) (fun u => ((C t)ᵀ * C (t + u)) *ᵥ xp (w (t + u)) y)
    (fun u i => (turn_from M t y u i).sub_const _) (fun u => Ω * len y * u) (fun _ => Ω * len y) (fun u => by simpa using (hasDerivAt_id u).const_mul (Ω * len y)) u hu ?_ ?_
  · rw [between_zero M, sub_self]; simp [len]
  · intro v _ _
    rw [between_rot M]
    exact (len_xp_le _ _).trans (mul_le_mul_of_nonneg_right (M.rate _) (len_nonneg y))

theorem xp_deriv (t : ℝ) (y : V3 ℝ) (u : ℝ) (i : Fin 3) :
    HasDerivAt (fun u => xp (θ (t + u) - θ t) y i) (xp (w (t + u)) y i) u := by
  have h := angle_from M.toSignal t u
  fin_cases i
  · exact (((h 1).mul_const (y 2)).sub ((h 2).mul_const (y 1))).congr_deriv (by simp [xp])
  · exact (((h 2).mul_const (y 0)).sub ((h 0).mul_const (y 2))).congr_deriv (by simp [xp])
  · exact (((h 0).mul_const (y 1)).sub ((h 1).mul_const (y 0))).congr_deriv (by simp [xp])

theorem second_turn (t : ℝ) (y : V3 ℝ) (u : ℝ) (hu : 0 ≤ u) :
    len (((C t)ᵀ * C (t + u)) *ᵥ y - y - xp (θ (t + u) - θ t) y) ≤ Ω ^ 2 * len y * u ^ 2 / 2 := by
  have hΩ := rate_nonneg M.toSignal
  refine grow (fun u => ((C t)ᵀ * C (t + u)) *ᵥ y - y - xp (θ (t + u) - θ t) y) (fun u => ((C t)ᵀ * C (t + u)) *ᵥ xp (w (t + u)) y - xp (w (t + u)) y)
    (fun u i => ((turn_from M t y u i).sub_const _).sub (xp_deriv M t y u i)) (fun u => Ω ^ 2 * len y * u ^ 2 / 2) (fun u => Ω ^ 2 * len y * u)
    (fun u => (((hasDerivAt_pow 2 u).const_mul (Ω ^ 2 * len y)).div_const 2).congr_deriv (by simp; ring)) u hu ?_ ?_
  · rw [between_zero M]; simp [len, xp]
  · intro v hv _
    refine (first_turn M t _ v hv).trans ?_
    have := (len_xp_le (w (t + v)) y).trans (mul_le_mul_of_nonneg_right (M.rate _) (len_nonneg y))
    have := mul_le_mul_of_nonneg_left this (mul_nonneg hΩ hv)
    nlinarith

/-- The true turn over an interval is the second-order expansion of the integrated rate, up to the third power of the interval. -/
theorem true_second (t : ℝ) (x : V3 ℝ) (u : ℝ) (hu : 0 ≤ u) :
    len (((C t)ᵀ * C (t + u)) *ᵥ x - second (θ (t + u) - θ t) x) ≤ (Ω ^ 3 / 6 + L * Ω / 12) * len x * u ^ 3 := by
  have hΩ := rate_nonneg M.toSignal
  have hL := smooth_nonneg M.toSignal
  have hx := len_nonneg x
  refine grow (fun u => ((C t)ᵀ * C (t + u)) *ᵥ x - second (θ (t + u) - θ t) x)
    (fun u => ((C t)ᵀ * C (t + u)) *ᵥ xp (w (t + u)) x - (xp (w (t + u)) x + (1 / 2 : ℝ) • (xp (w (t + u)) (xp (θ (t + u) - θ t) x) + xp (θ (t + u) - θ t) (xp (w (t + u)) x))))
    ?_ (fun u => (Ω ^ 3 / 6 + L * Ω / 12) * len x * u ^ 3) (fun u => (Ω ^ 3 / 2 + L * Ω / 4) * len x * u ^ 2)
    (fun u => ((hasDerivAt_pow 3 u).const_mul ((Ω ^ 3 / 6 + L * Ω / 12) * len x)).congr_deriv (by push_cast; ring)) u hu ?_ ?_
  · intro v i
    have h1 := turn_from M t x v i
    have h2 := xp_deriv M t x v
    have h := angle_from M.toSignal t v
    have h3 : HasDerivAt (fun u => xp (θ (t + u) - θ t) (xp (θ (t + u) - θ t) x) i)
        ((xp (w (t + v)) (xp (θ (t + v) - θ t) x) + xp (θ (t + v) - θ t) (xp (w (t + v)) x)) i) v := by
      fin_cases i
      · exact (((h 1).mul (h2 2)).sub ((h 2).mul (h2 1))).congr_deriv (by simp [xp]; ring)
      · exact (((h 2).mul (h2 0)).sub ((h 0).mul (h2 2))).congr_deriv (by simp [xp]; ring)
      · exact (((h 0).mul (h2 1)).sub ((h 1).mul (h2 0))).congr_deriv (by simp [xp]; ring)
    exact h1.sub (((h2 i).const_add (x i)).add (h3.const_mul (1 / 2 : ℝ)))
  · have : second (θ (t + 0) - θ t) x = x := by
      rw [add_zero, sub_self]; unfold second; rw [xp_zero, xp_zero]; simp
    rw [between_zero M, this, sub_self]; simp [len]
  · intro v hv _
    have e : ((C t)ᵀ * C (t + v)) *ᵥ xp (w (t + v)) x - (xp (w (t + v)) x + (1 / 2 : ℝ) • (xp (w (t + v)) (xp (θ (t + v) - θ t) x) + xp (θ (t + v) - θ t) (xp (w (t + v)) x))) =
        (((C t)ᵀ * C (t + v)) *ᵥ xp (w (t + v)) x - xp (w (t + v)) x - xp (θ (t + v) - θ t) (xp (w (t + v)) x)) +
          (1 / 2 : ℝ) • xp (xp (θ (t + v) - θ t - v • w (t + v)) (w (t + v))) x := by
      have : xp (θ (t + v) - θ t - v • w (t + v)) (w (t + v)) = xp (θ (t + v) - θ t) (w (t + v)) := by
        rw [xp_sub_left _ (v • w (t + v))]
        have : xp (v • w (t + v)) (w (t + v)) = 0 := by ext i; fin_cases i <;> simp [xp] <;> ring
        rw [this, sub_zero]
      rw [this, ← xp_jacobi]
      ext i; simp only [Pi.add_apply, Pi.sub_apply, Pi.smul_apply, smul_eq_mul]; ring
    rw [e]
    refine (len_add_le _ _).trans ?_
    rw [len_smul, abs_of_pos (by norm_num)]
    have hw := M.rate (t + v)
    have hwx : len (xp (w (t + v)) x) ≤ Ω * len x := (len_xp_le _ _).trans (mul_le_mul_of_nonneg_right hw hx)
    have a1 := second_turn M t (xp (w (t + v)) x) v hv
    have a2 : Ω ^ 2 * len (xp (w (t + v)) x) * v ^ 2 / 2 ≤ Ω ^ 3 / 2 * len x * v ^ 2 := by
      have := mul_le_mul_of_nonneg_left hwx (by positivity : 0 ≤ Ω ^ 2 * v ^ 2 / 2)
      nlinarith
    have b1 : len (xp (θ (t + v) - θ t - v • w (t + v)) (w (t + v))) ≤ L * v ^ 2 / 2 * Ω :=
      (len_xp_le _ _).trans (mul_le_mul (angle_end M.toSignal t v hv) hw (len_nonneg _) (by positivity))
    have b2 : len (xp (xp (θ (t + v) - θ t - v • w (t + v)) (w (t + v))) x) ≤ L * v ^ 2 / 2 * Ω * len x :=
      (len_xp_le _ _).trans (mul_le_mul_of_nonneg_right b1 hx)
    have := a1.trans a2
    nlinarith

/-- One interval: the turn the program forms from perfect readings against the true one. -/
theorem body_true (t h : ℝ) (hh : 0 ≤ h) (h1 : Ω * h ≤ 1) (prev : V3 ℝ) (hp : BeforeFirst h θ t prev) (x : V3 ℝ) :
    len (turnM (bodyTurn prev (θ (t + h) - θ t)) *ᵥ x - ((C t)ᵀ * C (t + h)) *ᵥ x) ≤ h ^ 3 * (Ω ^ 3 / 2 + 3 * L * Ω / 10) * len x := by
  have hΩ := rate_nonneg M.toSignal
  have hL := smooth_nonneg M.toSignal
  have hx := len_nonneg x
  have hφ := angle_le M.toSignal t h hh
  have key := true_second M t x h hh
  have hpair := angle_pair M.toSignal t h hh
  have hprev : len prev ≤ Ω * h := by
    rcases hp with rfl | rfl
    · have : len (0 : V3 ℝ) = 0 := by simp [len]
      rw [this]; positivity
    · have := angle_le M.toSignal (t - h) h hh
      rwa [sub_add_cancel] at this
  obtain ⟨φ, hφe⟩ : ∃ φ, φ = θ (t + h) - θ t := ⟨_, rfl⟩
  rw [← hφe] at hφ key hpair ⊢
  have hx2 : len (xp prev φ) ≤ L * h ^ 2 * (Ω * h) := by
    rcases hp with rfl | rfl
    · have : xp (0 : V3 ℝ) φ = 0 := by ext i; fin_cases i <;> simp [xp]
      rw [this]
      have : len (0 : V3 ℝ) = 0 := by simp [len]
      rw [this]; positivity
    · have : xp (θ t - θ (t - h)) φ = xp (θ t - θ (t - h) - φ) φ := by rw [xp_sub_left _ φ, xp_self, sub_zero]
      rw [this]
      exact (len_xp_le _ _).trans (mul_le_mul hpair hφ (len_nonneg _) (by positivity))
  have hx3 : len (xp prev φ) ≤ (Ω * h) * (Ω * h) := (len_xp_le _ _).trans (mul_le_mul hprev hφ (len_nonneg _) (by positivity))
  obtain ⟨b, hb⟩ : ∃ b, b = bodyTurn prev φ := ⟨_, rfl⟩
  rw [← hb]
  have hbφ : b - φ = (1 / 12 : ℝ) • xp prev φ := by
    rw [hb]; ext i; simp [bodyTurn]; ring
  have hbl : len (b - φ) ≤ L * Ω * h ^ 3 / 12 := by
    rw [hbφ, len_smul, abs_of_pos (by norm_num)]; nlinarith
  have hb1 : len b ≤ 13 / 12 * (Ω * h) := by
    have e : b = φ + (b - φ) := by ext i; simp
    rw [e]
    refine (len_add_le _ _).trans ?_
    rw [hbφ, len_smul, abs_of_pos (by norm_num)]
    have : (Ω * h) * (Ω * h) ≤ Ω * h := by have := mul_nonneg hΩ hh; nlinarith
    linarith
  have p0 := mul_nonneg hΩ hh
  have t1 := turn_second b x (by linarith)
  have t2 := second_near b φ x (by linarith) (by linarith)
  have e : turnM b *ᵥ x - ((C t)ᵀ * C (t + h)) *ᵥ x = (turnM b *ᵥ x - second b x) + (second b x - second φ x) - (((C t)ᵀ * C (t + h)) *ᵥ x - second φ x) := by
    ext i; simp only [Pi.add_apply, Pi.sub_apply]; ring
  rw [e]
  refine (len_sub_le _ _).trans ((add_le_add_left (len_add_le _ _) _).trans ?_)
  have c1 : len b ^ 3 / 4 * len x ≤ (13 / 12 * (Ω * h)) ^ 3 / 4 * len x :=
    mul_le_mul_of_nonneg_right (div_le_div_of_nonneg_right (pow_le_pow_left₀ (len_nonneg b) hb1 3) (by norm_num)) hx
  have c2 : len (b - φ) * (21 / 10) * len x ≤ L * Ω * h ^ 3 / 12 * (21 / 10) * len x :=
    mul_le_mul_of_nonneg_right (mul_le_mul_of_nonneg_right hbl (by norm_num)) hx
  have q1 : 0 ≤ Ω ^ 3 * h ^ 3 * len x := by positivity
  have q2 : 0 ≤ L * Ω * h ^ 3 * len x := by positivity
  have f1 : (13 / 12 * (Ω * h)) ^ 3 / 4 * len x = 2197 / 6912 * (Ω ^ 3 * h ^ 3 * len x) := by ring
  have f2 : L * Ω * h ^ 3 / 12 * (21 / 10) * len x = 21 / 120 * (L * Ω * h ^ 3 * len x) := by ring
  have f3 : (Ω ^ 3 / 6 + L * Ω / 12) * len x * h ^ 3 = 1 / 6 * (Ω ^ 3 * h ^ 3 * len x) + 1 / 12 * (L * Ω * h ^ 3 * len x) := by ring
  have f4 : h ^ 3 * (Ω ^ 3 / 2 + 3 * L * Ω / 10) * len x = 1 / 2 * (Ω ^ 3 * h ^ 3 * len x) + 3 / 10 * (L * Ω * h ^ 3 * len x) := by ring
  rw [f3] at key
  rw [f1] at c1
  rw [f2] at c2
  rw [f4]
  linarith
end

/-- A turn about the third axis. -/
theorem axis_turn (a : ℝ) : turnM ![0, 0, a] = Rz a := by
  have hl : len (![0, 0, a] : V3 ℝ) = |a| := len_axis a
  unfold turnM
  rw [hl]
  have hc : Real.cos |a| = Real.cos a := Real.cos_abs a
  rcases eq_or_ne a 0 with rfl | h0
  · ext i j; fin_cases i <;> fin_cases j <;> simp [xm, Rz]
  have hs : Real.sin |a| / |a| = Real.sin a / a := by
    rcases abs_choice a with h | h <;> rw [h]
    rw [Real.sin_neg, neg_div_neg_eq]
  rw [hs, hc, sq_abs]
  ext i j
  fin_cases i <;> fin_cases j <;> simp [xm, Rz] <;> field_simp <;> ring

theorem earth_turns_add (s t : ℝ) : turnM (earthAxisTurn (s + t)) = turnM (earthAxisTurn s) * turnM (earthAxisTurn t) := by
  unfold earthAxisTurn
  rw [axis_turn, axis_turn, axis_turn, mul_add]
  ext i j
  fin_cases i <;> fin_cases j <;> simp [Rz, Matrix.mul_apply, Fin.sum_univ_three, Real.cos_add, Real.sin_add] <;> ring

theorem turnM_rot (v : V3 ℝ) (x : V3 ℝ) : len (turnM v *ᵥ x) = len x := by
  rw [turnM_eq]; exact len_rot _ (qsq_rotQuat v) x
theorem turnM_rot_t (v : V3 ℝ) (x : V3 ℝ) : len ((turnM v)ᵀ *ᵥ x) = len x := by
  rw [turnM_eq]; exact len_inv _ (qsq_rotQuat v) x

/-- Any number of samples: the composition of the turns formed from perfect readings follows the truth. -/
theorem gyros_follow {C : ℝ → M3 ℝ} {w θ : ℝ → V3 ℝ} {Ω L : ℝ} (M : TurningBody C w θ Ω L) (n : NavEpoch ℝ) (dt : ℝ) (hd : 0 ≤ dt) (h1 : Ω * dt ≤ 1) (t0 : ℝ) (ws : List (V3 ℝ)) :
    ∀ (t : ℝ) (prev : V3 ℝ) (_ : BeforeFirst dt θ (t0 + t) prev) (_ : PerfectGyros n dt θ (t0 + t) ws) (A : M3 ℝ) (ε : ℝ)
      (_ : ∀ x, len (A *ᵥ x - trueOverEarth C t0 t *ᵥ x) ≤ ε * len x) (x : V3 ℝ),
    len (overEarth dt (bodyTurns n dt prev ws) A *ᵥ x - trueOverEarth C t0 (t + ws.length * dt) *ᵥ x)
      ≤ (ε + ws.length * (dt ^ 3 * (Ω ^ 3 / 2 + 3 * L * Ω / 10))) * len x := by
  induction ws with
  | nil => intro t prev _ _ A ε h x; simpa [bodyTurns, overEarth] using h x
  | cons v vs ih =>
    intro t prev hp hg A ε hA x
    obtain ⟨g1, g2⟩ := hg
    rw [bodyTurns, g1]
    have g2' : PerfectGyros n dt θ (t0 + (t + dt)) vs := by rw [← add_assoc]; exact g2
    have hp' : BeforeFirst dt θ (t0 + (t + dt)) (θ (t0 + t + dt) - θ (t0 + t)) := by
      right; rw [← add_assoc, add_sub_cancel_right]
    obtain ⟨b, hb⟩ : ∃ b, b = bodyTurn prev (θ (t0 + t + dt) - θ (t0 + t)) := ⟨_, rfl⟩
    have hstep : ∀ x, len (((turnM (earthAxisTurn dt))ᵀ * A * turnM b) *ᵥ x - trueOverEarth C t0 (t + dt) *ᵥ x)
        ≤ (ε + dt ^ 3 * (Ω ^ 3 / 2 + 3 * L * Ω / 10)) * len x := by
      intro x
      have e1 : trueOverEarth C t0 (t + dt) = (turnM (earthAxisTurn dt))ᵀ * (trueOverEarth C t0 t * ((C (t0 + t))ᵀ * C (t0 + t + dt))) := by
        unfold trueOverEarth
        rw [earth_turns_add, transpose_mul, Matrix.mul_assoc, Matrix.mul_assoc, ← Matrix.mul_assoc (C (t0 + t)), (M.rot _).1, Matrix.one_mul, add_assoc]
      have e2 : ((turnM (earthAxisTurn dt))ᵀ * A * turnM b) *ᵥ x - trueOverEarth C t0 (t + dt) *ᵥ x =
          (turnM (earthAxisTurn dt))ᵀ *ᵥ ((A *ᵥ (turnM b *ᵥ x) - trueOverEarth C t0 t *ᵥ (turnM b *ᵥ x)) +
            trueOverEarth C t0 t *ᵥ (turnM b *ᵥ x - ((C (t0 + t))ᵀ * C (t0 + t + dt)) *ᵥ x)) := by
        rw [e1]
        simp only [mulVec_add, mulVec_sub, mulVec_mulVec, Matrix.mul_assoc]
        abel
      rw [e2, turnM_rot_t]
      refine (len_add_le _ _).trans ?_
      have k1 := hA (turnM b *ᵥ x)
      rw [turnM_rot] at k1
      have k2 := body_true M (t0 + t) dt hd h1 prev hp x
      rw [← hb] at k2
      have k3 : ∀ z, len (trueOverEarth C t0 t *ᵥ z) = len z := by
        intro z
        unfold trueOverEarth
        rw [← mulVec_mulVec, turnM_rot_t, len_isRot _ (M.rot _)]
      rw [k3]
      linarith
    have := ih (t + dt) _ hp' g2' _ _ hstep x
    rw [List.length_cons]
    have e : t + ((vs.length + 1 : ℕ) : ℝ) * dt = t + dt + vs.length * dt := by push_cast; ring
    rw [e, ← hb]
    refine this.trans (le_of_eq ?_)
    push_cast
    ring

/-- C198: over any flight without a correction, with gyroscopes free of error, the computed attitude relative to the earth stays with the true
one: the error per sample is of the third power of the interval, so over a given time it falls with its square. What else enters are the errors of
the truncated turns and of the two computations of the frame's turn (C196). -/
theorem C198_follows_truth {C : ℝ → M3 ℝ} {w θ : ℝ → V3 ℝ} {Ω L : ℝ} (M : TurningBody C w θ Ω L) (g : ℝ) (s : Ins ℝ) (hq : qsq s.nav.Qbn = 1) (hn : qsq s.nav.Qne = 1)
    (hd : 0 ≤ s.dt) (h1 : Ω * s.dt ≤ 1) (t0 : ℝ) (hp : BeforeFirst s.dt θ t0 s.gyroPre) (hC : s.nav.Qne.toRot * s.nav.Qbn.toRot = C t0)
    (ms : List (Imu ℝ)) (hg : PerfectGyros s.nav s.dt θ t0 (ms.map fun m => m.gyro)) (x : V3 ℝ) :
    len (((flight g s ms).2.nav.Qne.toRot * (flight g s ms).2.nav.Qbn.toRot : M3 ℝ) *ᵥ x - trueOverEarth C t0 (ms.length * s.dt) *ᵥ x)
      ≤ (2 * (fourSeries g s s.gyroPre ms).sum + (frameMismatch g s ms).sum + ms.length * (s.dt ^ 3 * (Ω ^ 3 / 2 + 3 * L * Ω / 10))) * len x := by
  have h := C196_earth_attitude g s hq hn ms x
  have hstart : ∀ x, len ((s.nav.Qne.toRot * s.nav.Qbn.toRot : M3 ℝ) *ᵥ x - trueOverEarth C t0 0 *ᵥ x) ≤ 0 * len x := by
    intro x
    have : trueOverEarth C t0 0 = C t0 := by
      unfold trueOverEarth earthAxisTurn
      rw [axis_turn, mul_zero, add_zero]
      have : (Rz 0)ᵀ = 1 := by ext i j; fin_cases i <;> fin_cases j <;> simp [Rz]
      rw [this, Matrix.one_mul]
    rw [this, hC, sub_self]
    simp [len]
  have k := gyros_follow M s.nav s.dt hd h1 t0 (ms.map fun m => m.gyro) 0 s.gyroPre (by rw [add_zero]; exact hp) (by rw [add_zero]; exact hg) _ 0 hstart x
  rw [zero_add, zero_add, List.length_map] at k
  have e : (((flight g s ms).2.nav.Qne.toRot * (flight g s ms).2.nav.Qbn.toRot : M3 ℝ) *ᵥ x - trueOverEarth C t0 (ms.length * s.dt) *ᵥ x) =
      (fun i => ((((flight g s ms).2.nav.Qne.toRot * (flight g s ms).2.nav.Qbn.toRot : M3 ℝ)) *ᵥ x) i -
        (overEarth s.dt (bodyTurns s.nav s.dt s.gyroPre (ms.map fun m => m.gyro)) (s.nav.Qne.toRot * s.nav.Qbn.toRot) *ᵥ x) i) +
      (overEarth s.dt (bodyTurns s.nav s.dt s.gyroPre (ms.map fun m => m.gyro)) (s.nav.Qne.toRot * s.nav.Qbn.toRot) *ᵥ x - trueOverEarth C t0 (ms.length * s.dt) *ᵥ x) := by
    ext i; simp
  rw [e]
  refine (len_add_le _ _).trans ?_
  rw [add_mul]
  linarith

/-- A body turning evenly about its third axis is such a motion, and perfect readings of it exist for any number of samples. -/
theorem even_turning (Ω : ℝ) (h : 0 ≤ Ω) : TurningBody (fun t => Rz (Ω * t)) (fun _ => ![0, 0, Ω]) (fun t => ![0, 0, Ω * t]) Ω 0 := by
  have hd : ∀ t, HasDerivAt (fun u => Ω * u) Ω t := fun t => by simpa using (hasDerivAt_id t).const_mul Ω
  refine ⟨⟨?_, ?_, ?_⟩, ?_, ?_⟩
  · intro t i
    fin_cases i <;> simp
    · exact hasDerivAt_const _ _
    · exact hasDerivAt_const _ _
    · exact hd t
  · intro t; rw [len_axis, abs_of_nonneg h]
  · intro t u; rw [sub_self]; simp [len]
  · intro t
    have hsc := Real.sin_sq_add_cos_sq (Ω * t)
    refine ⟨?_, ?_, ?_⟩
    · ext i j; fin_cases i <;> fin_cases j <;> simp [Rz, Matrix.mul_apply, Fin.sum_univ_three] <;> linarith
    · ext i j; fin_cases i <;> fin_cases j <;> simp [Rz, Matrix.mul_apply, Fin.sum_univ_three] <;> linarith
    · rw [det_fin_three]; simp [Rz]; linarith
  · intro t i j
    have hs := (Real.hasDerivAt_sin (Ω * t)).comp t (hd t)
    have hc := (Real.hasDerivAt_cos (Ω * t)).comp t (hd t)
    have hn := hs.neg
    fin_cases i <;> fin_cases j <;> simp [Rz, Matrix.mul_apply, Fin.sum_univ_three, xm] <;>
      first
      | exact hasDerivAt_const _ _
      | exact hs.congr_deriv (by ring)
      | exact hc.congr_deriv (by ring)
      | exact hn.congr_deriv (by ring)

example (n : NavEpoch ℝ) (hb : n.gb = 0) (hs : n.gs = 0) (Ω dt : ℝ) (N : ℕ) :
    PerfectGyros n dt (fun t => ![0, 0, Ω * t]) 0 (List.replicate N ![0, 0, Ω * dt]) := by
  have : ∀ t, PerfectGyros n dt (fun t => ![0, 0, Ω * t]) t (List.replicate N ![0, 0, Ω * dt]) := by
    induction N with
    | zero => intro t; trivial
    | succ N ih =>
      intro t
      refine ⟨?_, ih _⟩
      ext i
      simp only [increment, hb, hs]
      fin_cases i <;> simp
      ring
  exact this 0
end Verif.Props
