import Verif.Props.GainBound
import Mathlib.Tactic.Linarith
/-! How far the covariance of the filter can be from a valid one, in exact arithmetic: one prediction, one update. -/
namespace Verif.Props
open Verif Verif.Spec Verif.Convert Matrix

/-- Symmetric, and between `-η` and `ω` in every direction. -/
structure Form {n : Nat} (P : Matrix (Fin n) (Fin n) ℝ) (η ω : ℝ) : Prop where
  symm : Pᵀ = P
  lower : ∀ x : Fin n → ℝ, -(η * (x ⬝ᵥ x)) ≤ x ⬝ᵥ P *ᵥ x
  upper : ∀ x : Fin n → ℝ, x ⬝ᵥ P *ᵥ x ≤ ω * (x ⬝ᵥ x)

/-- A matrix which makes no vector longer than `a` times. -/
def Shrinks {m n : Nat} (M : Matrix (Fin m) (Fin n) ℝ) (a : ℝ) : Prop := ∀ x : Fin n → ℝ, M *ᵥ x ⬝ᵥ M *ᵥ x ≤ a ^ 2 * (x ⬝ᵥ x)

variable {n p : Nat}

theorem dot_self_nonneg {n : Nat} (x : Fin n → ℝ) : 0 ≤ x ⬝ᵥ x := Finset.sum_nonneg fun i _ => mul_self_nonneg (x i)

theorem dot_sq_le {n : Nat} (x y : Fin n → ℝ) : (x ⬝ᵥ y) ^ 2 ≤ (x ⬝ᵥ x) * (y ⬝ᵥ y) := by
  have := cov_schwarz (S := (1 : Matrix (Fin n) (Fin n) ℝ)) PosSemidef.one x y
  simpa only [one_mulVec] using this

theorem dot_sandwich {m : Nat} (M : Matrix (Fin m) (Fin n) ℝ) (P : Matrix (Fin n) (Fin n) ℝ) (x : Fin m → ℝ) : x ⬝ᵥ (M * P * Mᵀ) *ᵥ x = (Mᵀ *ᵥ x) ⬝ᵥ P *ᵥ (Mᵀ *ᵥ x) := by
  rw [← mulVec_mulVec, ← mulVec_mulVec, dotProduct_mulVec, ← mulVec_transpose]

theorem dot_symm {P : Matrix (Fin n) (Fin n) ℝ} (h : Pᵀ = P) (x y : Fin n → ℝ) : x ⬝ᵥ P *ᵥ y = y ⬝ᵥ P *ᵥ x := by
  rw [dotProduct_mulVec, ← mulVec_transpose, h, dotProduct_comm]

/-- The length of a sum. -/
theorem shrinks_one_add {A : Matrix (Fin n) (Fin n) ℝ} {a : ℝ} (ha : 0 ≤ a) (h : Shrinks A a) : Shrinks (1 + A) (1 + a) := by
  intro x
  rw [add_mulVec, one_mulVec]
  have s := dot_sq_le x (A *ᵥ x)
  have hx := h x
  have e : (x + A *ᵥ x) ⬝ᵥ (x + A *ᵥ x) = x ⬝ᵥ x + 2 * (x ⬝ᵥ A *ᵥ x) + A *ᵥ x ⬝ᵥ A *ᵥ x := by
    rw [add_dotProduct, dotProduct_add, dotProduct_add, dotProduct_comm (A *ᵥ x) x]; ring
  rw [e]
  have x0 := dot_self_nonneg x
  have : x ⬝ᵥ A *ᵥ x ≤ a * (x ⬝ᵥ x) := by
    refine (abs_le_of_sq_le_sq' ?_ (mul_nonneg ha x0)).2
    refine s.trans ?_
    have := mul_le_mul_of_nonneg_left hx x0
    exact this.trans (le_of_eq (by ring))
  have e2 : (1 + a) ^ 2 * (x ⬝ᵥ x) = x ⬝ᵥ x + 2 * (a * (x ⬝ᵥ x)) + a ^ 2 * (x ⬝ᵥ x) := by ring
  rw [e2]; linarith

theorem shrinks_entries {m : Nat} {M : Matrix (Fin m) (Fin n) ℝ} {c : ℝ} (h : ∀ i j, |M i j| ≤ c) : ∀ x : Fin n → ℝ, M *ᵥ x ⬝ᵥ M *ᵥ x ≤ (m * n : ℝ) * c ^ 2 * (x ⬝ᵥ x) := by
  intro x
  have row : ∀ i, (M *ᵥ x) i * (M *ᵥ x) i ≤ n * c ^ 2 * (x ⬝ᵥ x) := by
    intro i
    have s := dot_sq_le (M i) x
    have e : (M *ᵥ x) i = M i ⬝ᵥ x := rfl
    rw [e, ← pow_two]
    refine s.trans (mul_le_mul_of_nonneg_right ?_ (dot_self_nonneg x))
    have : M i ⬝ᵥ M i ≤ ∑ _j : Fin n, c ^ 2 := by
      refine Finset.sum_le_sum fun j _ => ?_
      have := h i j
      have := abs_nonneg (M i j)
      rw [← abs_mul_abs_self, ← pow_two]
      exact pow_le_pow_left₀ this (h i j) 2
    simpa using this
  have : M *ᵥ x ⬝ᵥ M *ᵥ x ≤ ∑ _i : Fin m, (n * c ^ 2 * (x ⬝ᵥ x)) := Finset.sum_le_sum fun i _ => row i
  refine this.trans (le_of_eq ?_)
  simp; ring

theorem shrinks_sq {m n : Nat} {M : Matrix (Fin m) (Fin n) ℝ} {c : ℝ} (k : ℕ) (hk : m * n ≤ k ^ 2) (h : ∀ i j, |M i j| ≤ c) : Shrinks M (k * c) := by
  intro x
  refine (shrinks_entries h x).trans (mul_le_mul_of_nonneg_right ?_ (dot_self_nonneg x))
  rw [mul_pow]
  refine mul_le_mul_of_nonneg_right ?_ (sq_nonneg c)
  exact_mod_cast hk

/-- A symmetric matrix between two bounds does not make vectors longer than the sum of the bounds. -/
theorem form_shrinks {P : Matrix (Fin n) (Fin n) ℝ} {η ω : ℝ} (hη : 0 ≤ η) (hω : 0 ≤ ω) (h : Form P η ω) : Shrinks P (ω + 2 * η) := by
  have hS : (P + η • (1 : Matrix (Fin n) (Fin n) ℝ)).PosSemidef := by
    rw [posSemidef_iff_dotProduct_mulVec]
    refine ⟨?_, fun x => ?_⟩
    · rw [IsHermitian, conjTranspose_eq_transpose_of_trivial, transpose_add, transpose_smul, transpose_one, h.symm]
    · rw [star_trivial, add_mulVec, smul_mulVec, one_mulVec, dotProduct_add, dotProduct_smul, smul_eq_mul]
      have := h.lower x; linarith
  intro x
  obtain ⟨y, hy⟩ : ∃ y, y = (P + η • (1 : Matrix (Fin n) (Fin n) ℝ)) *ᵥ x := ⟨_, rfl⟩
  have up : ∀ u : Fin n → ℝ, u ⬝ᵥ (P + η • (1 : Matrix (Fin n) (Fin n) ℝ)) *ᵥ u ≤ (ω + η) * (u ⬝ᵥ u) := by
    intro u
    rw [add_mulVec, smul_mulVec, one_mulVec, dotProduct_add, dotProduct_smul, smul_eq_mul]
    have := h.upper u; linarith
  have c := cov_schwarz hS y x
  rw [← hy] at c
  have b1 := up y
  have b2 := up x
  have n2 : 0 ≤ x ⬝ᵥ (P + η • (1 : Matrix (Fin n) (Fin n) ℝ)) *ᵥ x := by have := hS.dotProduct_mulVec_nonneg x; rwa [star_trivial] at this
  rw [← hy] at b2 n2
  have ey : y = P *ᵥ x + η • x := by rw [hy, add_mulVec, smul_mulVec, one_mulVec]
  have x0 := dot_self_nonneg x
  have y0 := dot_self_nonneg y
  have w0 : 0 ≤ ω + η := by linarith
  have ly : y ⬝ᵥ y ≤ (ω + η) ^ 2 * (x ⬝ᵥ x) := by
    rcases y0.eq_or_lt with q | q
    · rw [← q]; positivity
    · have c2 : (y ⬝ᵥ y) * (y ⬝ᵥ y) ≤ (y ⬝ᵥ y) * ((ω + η) ^ 2 * (x ⬝ᵥ x)) := by
        have c3 : y ⬝ᵥ (P + η • (1 : Matrix (Fin n) (Fin n) ℝ)) *ᵥ y * (x ⬝ᵥ y) ≤ (ω + η) * (y ⬝ᵥ y) * ((ω + η) * (x ⬝ᵥ x)) :=
          mul_le_mul b1 b2 n2 (mul_nonneg w0 y0)
        have c4 := c.trans c3
        linarith [show (y ⬝ᵥ y) ^ 2 = (y ⬝ᵥ y) * (y ⬝ᵥ y) by ring, show (ω + η) * (y ⬝ᵥ y) * ((ω + η) * (x ⬝ᵥ x)) = (y ⬝ᵥ y) * ((ω + η) ^ 2 * (x ⬝ᵥ x)) by ring]
      exact le_of_mul_le_mul_left c2 q
  have ep : P *ᵥ x = y - η • x := by rw [ey]; abel
  have s := dot_sq_le y x
  have ea : |y ⬝ᵥ x| ≤ (ω + η) * (x ⬝ᵥ x) := by
    refine abs_le_of_sq_le_sq ?_ (mul_nonneg w0 x0)
    refine s.trans ((mul_le_mul_of_nonneg_right ly x0).trans (le_of_eq (by ring)))
  have e1 : P *ᵥ x ⬝ᵥ P *ᵥ x = y ⬝ᵥ y - 2 * η * (y ⬝ᵥ x) + η ^ 2 * (x ⬝ᵥ x) := by
    rw [ep, sub_dotProduct, dotProduct_sub, dotProduct_sub, smul_dotProduct, dotProduct_smul, smul_dotProduct, dotProduct_smul, dotProduct_comm x y]
    simp only [smul_eq_mul]; ring
  rw [e1]
  have := (abs_le.1 ea).1
  have e3 := mul_le_mul_of_nonneg_left this (by linarith : 0 ≤ 2 * η)
  have e2 : (ω + 2 * η) ^ 2 * (x ⬝ᵥ x) = (ω + η) ^ 2 * (x ⬝ᵥ x) + 2 * η * ((ω + η) * (x ⬝ᵥ x)) + η ^ 2 * (x ⬝ᵥ x) := by ring
  rw [e2]
  linarith

/-- One prediction with the noise as the program composes it: the bound below is lost by a term of second order only. -/
theorem form_predict (k : Kf n ℝ) (A Q : Matrix (Fin n) (Fin n) ℝ) {a q d η ω : ℝ} (ha : 0 ≤ a) (hd : 0 ≤ d) (hη : 0 ≤ η) (hω : 0 ≤ ω) (hq : 0 ≤ q) (hA : Shrinks Aᵀ a) (h : Form k.P η ω) (hQ : Form Q 0 q) :
    Form (k.predict (1 + A) ((d / 2) • ((1 + A) * Q + Q * (1 + A)ᵀ))).P ((1 + a) ^ 2 * η + d / 2 * (q * a ^ 2)) ((1 + a) ^ 2 * ω + d / 2 * (q * (1 + (1 + a) ^ 2))) := by
  rw [(predict_P k _ _).1]
  have key : ∀ x : Fin n → ℝ, x ⬝ᵥ ((1 + A) * k.P * (1 + A)ᵀ + (d / 2) • ((1 + A) * Q + Q * (1 + A)ᵀ)) *ᵥ x =
      ((1 + A)ᵀ *ᵥ x) ⬝ᵥ k.P *ᵥ ((1 + A)ᵀ *ᵥ x) + d / 2 * (x ⬝ᵥ Q *ᵥ x + ((1 + A)ᵀ *ᵥ x) ⬝ᵥ Q *ᵥ ((1 + A)ᵀ *ᵥ x) - (Aᵀ *ᵥ x) ⬝ᵥ Q *ᵥ (Aᵀ *ᵥ x)) := by
    intro x
    have ey : (1 + A)ᵀ *ᵥ x = x + Aᵀ *ᵥ x := by rw [transpose_add, transpose_one, add_mulVec, one_mulVec]
    have e1 : x ⬝ᵥ ((1 + A) * Q) *ᵥ x = ((1 + A)ᵀ *ᵥ x) ⬝ᵥ Q *ᵥ x := by
      rw [← mulVec_mulVec, dotProduct_mulVec, ← mulVec_transpose]
    have e2 : x ⬝ᵥ (Q * (1 + A)ᵀ) *ᵥ x = x ⬝ᵥ Q *ᵥ ((1 + A)ᵀ *ᵥ x) := by rw [← mulVec_mulVec]
    rw [add_mulVec, dotProduct_add, dot_sandwich, smul_mulVec, dotProduct_smul, smul_eq_mul, add_mulVec, dotProduct_add, e1, e2, ey]
    congr 2
    have sy := dot_symm hQ.symm x (Aᵀ *ᵥ x)
    generalize Aᵀ *ᵥ x = z at *
    simp only [mulVec_add, add_dotProduct, dotProduct_add]
    rw [sy]; ring
  have y2 : ∀ x : Fin n → ℝ, ((1 + A)ᵀ *ᵥ x) ⬝ᵥ ((1 + A)ᵀ *ᵥ x) ≤ (1 + a) ^ 2 * (x ⬝ᵥ x) := by
    intro x
    have := shrinks_one_add ha hA x
    rwa [transpose_add, transpose_one]
  refine ⟨?_, fun x => ?_, fun x => ?_⟩
  · simp only [transpose_add, transpose_mul, transpose_smul, transpose_transpose, transpose_one, h.symm, hQ.symm, Matrix.mul_assoc]
    congr 2
    abel
  · rw [key]
    have l1 := h.lower ((1 + A)ᵀ *ᵥ x)
    have l2 := hQ.lower x
    have l3 := hQ.lower ((1 + A)ᵀ *ᵥ x)
    have l4 := hQ.upper (Aᵀ *ᵥ x)
    have m1 := mul_le_mul_of_nonneg_left (y2 x) hη
    have m2 := mul_le_mul_of_nonneg_left (hA x) hq
    have : -(q * (a ^ 2 * (x ⬝ᵥ x))) ≤ x ⬝ᵥ Q *ᵥ x + ((1 + A)ᵀ *ᵥ x) ⬝ᵥ Q *ᵥ ((1 + A)ᵀ *ᵥ x) - (Aᵀ *ᵥ x) ⬝ᵥ Q *ᵥ (Aᵀ *ᵥ x) := by linarith
    have m3 := mul_le_mul_of_nonneg_left this (by linarith : 0 ≤ d / 2)
    have e : -(((1 + a) ^ 2 * η + d / 2 * (q * a ^ 2)) * (x ⬝ᵥ x)) = -(η * ((1 + a) ^ 2 * (x ⬝ᵥ x))) + d / 2 * -(q * (a ^ 2 * (x ⬝ᵥ x))) := by ring
    rw [e]; linarith
  · rw [key]
    have l1 := h.upper ((1 + A)ᵀ *ᵥ x)
    have l2 := hQ.upper x
    have l3 := hQ.upper ((1 + A)ᵀ *ᵥ x)
    have l4 := hQ.lower (Aᵀ *ᵥ x)
    have m1 := mul_le_mul_of_nonneg_left (y2 x) hω
    have m2 := mul_le_mul_of_nonneg_left (y2 x) hq
    have : x ⬝ᵥ Q *ᵥ x + ((1 + A)ᵀ *ᵥ x) ⬝ᵥ Q *ᵥ ((1 + A)ᵀ *ᵥ x) - (Aᵀ *ᵥ x) ⬝ᵥ Q *ᵥ (Aᵀ *ᵥ x) ≤ q * (x ⬝ᵥ x) + q * ((1 + a) ^ 2 * (x ⬝ᵥ x)) := by linarith
    have m3 := mul_le_mul_of_nonneg_left this (by linarith : 0 ≤ d / 2)
    have e : ((1 + a) ^ 2 * ω + d / 2 * (q * (1 + (1 + a) ^ 2))) * (x ⬝ᵥ x) = ω * ((1 + a) ^ 2 * (x ⬝ᵥ x)) + d / 2 * (q * (x ⬝ᵥ x) + q * ((1 + a) ^ 2 * (x ⬝ᵥ x))) := by ring
    rw [e]; linarith

/-- One update with a covariance that need not be valid: when the innovation still has at least half its noise, the bound above is kept, the bound below is multiplied by a constant, and the
correction is bounded by the innovation. -/
theorem form_update (k : Kf n ℝ) (H : Matrix (Fin p) (Fin n) ℝ) (z : Fin p → ℝ) (R : Matrix (Fin p) (Fin p) ℝ) {η ω b r W : ℝ} (hη : 0 ≤ η) (hω : 0 ≤ ω) (hr : 0 < r) (hb : 0 ≤ b)
    (h : Form k.P η ω) (hH : Shrinks H b) (hHt : Shrinks Hᵀ b) (hRs : Rᵀ = R) (hR : ∀ w : Fin p → ℝ, 2 * r * (w ⬝ᵥ w) ≤ w ⬝ᵥ R *ᵥ w) (hs : b ^ 2 * η ≤ r) (hW : ω + 2 * η ≤ W) :
    Form (k.update H z R).P ((1 + b ^ 2 * W / r) ^ 2 * η) ω ∧ (k.update H z R).Xd ⬝ᵥ (k.update H z R).Xd ≤ (W * b / r) ^ 2 * (z ⬝ᵥ z) := by
  have hW0 : 0 ≤ W := by linarith
  have hP : Shrinks k.P W := fun x => (form_shrinks hη hω h x).trans
    (mul_le_mul_of_nonneg_right (pow_le_pow_left₀ (by linarith) hW 2) (dot_self_nonneg x))
  set S := H * k.P * Hᵀ + R with hS
  have hSs : Sᵀ = S := by rw [hS]; simp only [transpose_add, transpose_mul, transpose_transpose, h.symm, hRs, Matrix.mul_assoc]
  have low : ∀ w : Fin p → ℝ, r * (w ⬝ᵥ w) ≤ w ⬝ᵥ S *ᵥ w := by
    intro w
    rw [hS, add_mulVec, dotProduct_add, dot_sandwich]
    have l1 := h.lower (Hᵀ *ᵥ w)
    have l2 := mul_le_mul_of_nonneg_left (hHt w) hη
    have l3 := mul_le_mul_of_nonneg_right hs (dot_self_nonneg w)
    have := hR w
    linarith [show η * (b ^ 2 * (w ⬝ᵥ w)) = b ^ 2 * η * (w ⬝ᵥ w) by ring]
  have hSp : S.PosDef := by
    rw [posDef_iff_dotProduct_mulVec]
    refine ⟨by rw [IsHermitian, conjTranspose_eq_transpose_of_trivial, hSs], fun {w} hw => ?_⟩
    rw [star_trivial]
    have q : 0 < w ⬝ᵥ w := by
      rcases (dot_self_nonneg w).eq_or_lt with q | q
      · exact absurd (dotProduct_self_eq_zero.1 q.symm) hw
      · exact q
    have := low w
    have := mul_pos hr q
    linarith
  have hdet : IsUnit S.det := hSp.det_pos.ne'.isUnit
  have inv : ∀ y : Fin p → ℝ, S⁻¹ *ᵥ y ⬝ᵥ S⁻¹ *ᵥ y ≤ (1 / r) ^ 2 * (y ⬝ᵥ y) := by
    intro y
    obtain ⟨w, hw⟩ : ∃ w, w = S⁻¹ *ᵥ y := ⟨_, rfl⟩
    have e1 : S *ᵥ w = y := by rw [hw, mulVec_mulVec, mul_nonsing_inv _ hdet, one_mulVec]
    rw [← hw]
    have h1 := low w
    rw [e1] at h1
    have h2 := dot_sq_le w y
    have n1 := dot_self_nonneg w
    have n2 := dot_self_nonneg y
    have h3 : (r * (w ⬝ᵥ w)) ^ 2 ≤ (w ⬝ᵥ y) ^ 2 := pow_le_pow_left₀ (mul_nonneg hr.le n1) h1 2
    have h4 : r ^ 2 * (w ⬝ᵥ w) ≤ y ⬝ᵥ y := by
      rcases n1.eq_or_lt with q | q
      · rw [← q]; simpa using n2
      · have : (w ⬝ᵥ w) * (r ^ 2 * (w ⬝ᵥ w)) ≤ (w ⬝ᵥ w) * (y ⬝ᵥ y) := by
          refine le_trans (le_of_eq (by ring)) (h3.trans h2)
        exact le_of_mul_le_mul_left this q
    rw [div_pow, one_pow, div_mul_eq_mul_div, one_mul, le_div_iff₀ (by positivity), mul_comm]
    exact h4
  have hdrop := update_drop k H z R h.symm hSs hdet
  obtain ⟨hu, hx⟩ := update_P k H z R
  rw [← hS] at hdrop hu hx
  set Kg := k.P * Hᵀ * S⁻¹ with hK
  -- the gain
  have gain : ∀ y : Fin p → ℝ, Kg *ᵥ y ⬝ᵥ Kg *ᵥ y ≤ (W * b / r) ^ 2 * (y ⬝ᵥ y) := by
    intro y
    rw [hK, ← mulVec_mulVec, ← mulVec_mulVec]
    refine (hP _).trans ?_
    have a1 := (hHt (S⁻¹ *ᵥ y)).trans (mul_le_mul_of_nonneg_left (inv y) (sq_nonneg b))
    refine (mul_le_mul_of_nonneg_left a1 (sq_nonneg W)).trans (le_of_eq ?_)
    field_simp
  have gainT : Shrinks (-(Kg * H))ᵀ (b ^ 2 * W / r) := by
    intro x
    have e : (-(Kg * H))ᵀ *ᵥ x = -(Hᵀ *ᵥ (S⁻¹ *ᵥ (H *ᵥ (k.P *ᵥ x)))) := by
      rw [transpose_neg, neg_mulVec, hK]
      simp only [transpose_mul, transpose_transpose, transpose_nonsing_inv, hSs, h.symm, mulVec_mulVec, Matrix.mul_assoc]
    rw [e, neg_dotProduct, dotProduct_neg, neg_neg]
    refine (hHt _).trans ?_
    have a1 := (hH (k.P *ᵥ x)).trans (mul_le_mul_of_nonneg_left (hP x) (sq_nonneg b))
    have a2 := (inv (H *ᵥ (k.P *ᵥ x))).trans (mul_le_mul_of_nonneg_left a1 (sq_nonneg _))
    refine (mul_le_mul_of_nonneg_left a2 (sq_nonneg b)).trans (le_of_eq ?_)
    field_simp
  have c0 : 0 ≤ b ^ 2 * W / r := by positivity
  have one := shrinks_one_add c0 gainT
  refine ⟨⟨?_, fun x => ?_, fun x => ?_⟩, ?_⟩
  · rw [hu]
    simp only [transpose_add, transpose_mul, transpose_transpose, h.symm, hRs, Matrix.mul_assoc]
  · rw [hu, add_mulVec, dotProduct_add, dot_sandwich, dot_sandwich]
    have l1 := h.lower ((1 - Kg * H)ᵀ *ᵥ x)
    have l2 := hR (Kgᵀ *ᵥ x)
    have l3 := mul_nonneg (by linarith : 0 ≤ 2 * r) (dot_self_nonneg (Kgᵀ *ᵥ x))
    have l4 := one x
    have e : (1 - Kg * H)ᵀ = 1 + (-(Kg * H))ᵀ := by rw [sub_eq_add_neg, transpose_add, transpose_one]
    rw [← e] at l4
    have l5 := mul_le_mul_of_nonneg_left l4 hη
    have e2 : (1 + b ^ 2 * W / r) ^ 2 * η * (x ⬝ᵥ x) = η * ((1 + b ^ 2 * W / r) ^ 2 * (x ⬝ᵥ x)) := by ring
    rw [e2]; linarith
  · have d : x ⬝ᵥ (k.P - (k.update H z R).P) *ᵥ x = (Kgᵀ *ᵥ x) ⬝ᵥ S *ᵥ (Kgᵀ *ᵥ x) := by rw [hdrop, dot_sandwich]
    rw [sub_mulVec, dotProduct_sub] at d
    have l1 := low (Kgᵀ *ᵥ x)
    have l2 := mul_nonneg hr.le (dot_self_nonneg (Kgᵀ *ᵥ x))
    have := h.upper x
    linarith
  · rw [hx]; exact gain z
end Verif.Props
