import Verif.Lemmas.Real
import Verif.Lemmas.Schedule
import Mathlib.Data.Real.StarOrdered
import Mathlib.Tactic.Abel
import Mathlib.Tactic.FieldSimp
/-! Covariance properties, in exact arithmetic. -/
namespace Verif.Props
open Verif Verif.Spec Matrix

/-- A covariance matrix is valid: symmetric and positive semidefinite, in elementary terms. -/
def validCov {n : Nat} (P : Matrix (Fin n) (Fin n) ℝ) : Prop :=
  (∀ i j, P i j = P j i) ∧ ∀ x : Fin n → ℝ, 0 ≤ ∑ i, ∑ j, x i * P i j * x j

theorem validCov_iff {n : Nat} (P : Matrix (Fin n) (Fin n) ℝ) : validCov P ↔ P.PosSemidef := by
  have hq : ∀ x : Fin n → ℝ, (∑ i, ∑ j, x i * P i j * x j) = x ⬝ᵥ (P *ᵥ x) := by
    intro x
    simp only [dotProduct, mulVec, Finset.mul_sum]
    refine Finset.sum_congr rfl fun i _ => Finset.sum_congr rfl fun j _ => by ring
  rw [posSemidef_iff_dotProduct_mulVec]
  constructor
  · rintro ⟨h1, h2⟩
    refine ⟨?_, fun x => ?_⟩
    · ext i j; simp [h1 j i]
    · have := h2 x; rw [hq] at this; simpa using this
  · rintro ⟨h1, h2⟩
    refine ⟨fun i j => ?_, fun x => ?_⟩
    · have := congrFun (congrFun h1 j) i; simpa using this
    · rw [hq]; simpa using h2 x

/-- C24: for every state and measurement dimension, a valid covariance stays valid in a measurement update
with valid measurement noise, and if the innovation covariance is invertible the decrease is itself a valid
covariance: no combination of states, in particular no single state, becomes more uncertain. -/
theorem C24_update_valid {n p : Nat} (k : Kf n ℝ) (H : Matrix (Fin p) (Fin n) ℝ) (z : Fin p → ℝ)
    (R : Matrix (Fin p) (Fin p) ℝ) (hP : validCov k.P) (hR : validCov R) :
    validCov (k.update H z R).P ∧
    (IsUnit (H * k.P * Hᵀ + R).det →
      validCov (k.P - (k.update H z R).P) ∧ ∀ i, (k.update H z R).P i i ≤ k.P i i) := by
  rw [validCov_iff] at hP hR
  have hu := (update_P k H z R).1
  set S := H * k.P * Hᵀ + R with hS
  set K := k.P * Hᵀ * S⁻¹ with hK
  have hPs : k.Pᵀ = k.P := by have := hP.isHermitian; rwa [IsHermitian, conjTranspose_eq_transpose_of_trivial] at this
  have hRs : Rᵀ = R := by have := hR.isHermitian; rwa [IsHermitian, conjTranspose_eq_transpose_of_trivial] at this
  have hSpd : S.PosSemidef := by
    have h1 := hP.mul_mul_conjTranspose_same H
    rw [conjTranspose_eq_transpose_of_trivial] at h1
    exact h1.add hR
  have hSs : Sᵀ = S := by have := hSpd.isHermitian; rwa [IsHermitian, conjTranspose_eq_transpose_of_trivial] at this
  have hvalid : (k.update H z R).P.PosSemidef := by
    rw [hu]
    have h1 := hP.mul_mul_conjTranspose_same (1 - K * H)
    have h2 := hR.mul_mul_conjTranspose_same K
    rw [conjTranspose_eq_transpose_of_trivial] at h1 h2
    exact h1.add h2
  refine ⟨(validCov_iff _).2 hvalid, fun hdet => ?_⟩
  have hKS : K * S = k.P * Hᵀ := by
    rw [hK, Matrix.mul_assoc, nonsing_inv_mul _ hdet, Matrix.mul_one]
  clear_value K
  have hdiff : k.P - (k.update H z R).P = K * S * Kᵀ := by
    have e1 : K * S * Kᵀ = k.P * Hᵀ * Kᵀ := by rw [hKS]
    have e2 : K * S * Kᵀ = K * H * k.P := by
      have : (K * S * Kᵀ)ᵀ = K * S * Kᵀ := by
        rw [transpose_mul, transpose_mul, transpose_transpose, hSs, Matrix.mul_assoc]
      rw [← this, e1, transpose_mul, transpose_mul, transpose_transpose, transpose_transpose, hPs, Matrix.mul_assoc]
    have e3 : (1 - K * H) * k.P * (1 - K * H)ᵀ + K * R * Kᵀ =
        k.P - K * H * k.P - k.P * Hᵀ * Kᵀ + K * S * Kᵀ := by
      rw [hS, transpose_sub, transpose_mul, transpose_one]
      simp only [Matrix.mul_add, Matrix.add_mul, Matrix.mul_sub, Matrix.sub_mul, Matrix.one_mul, Matrix.mul_one,
        Matrix.mul_assoc]
      abel
    rw [hu, e3, ← e1, ← e2]
    abel
  have hD : (k.P - (k.update H z R).P).PosSemidef := by
    rw [hdiff]
    have h2 := hSpd.mul_mul_conjTranspose_same K
    rwa [conjTranspose_eq_transpose_of_trivial] at h2
  refine ⟨(validCov_iff _).2 hD, fun i => ?_⟩
  have := hD.diag_nonneg (i := i)
  rw [Matrix.sub_apply] at this
  linarith

/-- The hypotheses of `C24_update_valid` are met, e.g. by unit covariances and `H = 1`. -/
example : validCov (1 : Matrix (Fin 2) (Fin 2) ℝ) ∧
    IsUnit ((1 : Matrix (Fin 2) (Fin 2) ℝ) * 1 * 1ᵀ + 1).det := by
  refine ⟨(validCov_iff _).2 PosSemidef.one, ?_⟩
  rw [isUnit_iff_ne_zero]
  simp only [transpose_one, Matrix.mul_one]
  rw [show (1 : Matrix (Fin 2) (Fin 2) ℝ) + 1 = (2 : ℝ) • 1 by ext i j; simp [Matrix.one_apply]; split_ifs <;> norm_num]
  simp

/-- C26, the part that holds: prediction keeps a covariance valid whenever the added noise is valid. -/
theorem C26_predict_valid_partial {n : Nat} (k : Kf n ℝ) (phi Q : Matrix (Fin n) (Fin n) ℝ) (hP : validCov k.P)
    (hQ : validCov Q) : validCov (k.predict phi Q).P := by
  rw [validCov_iff] at *
  rw [(predict_P k phi Q).1]
  have h1 := hP.mul_mul_conjTranspose_same phi
  rw [conjTranspose_eq_transpose_of_trivial] at h1
  exact h1.add hQ

/-- A matrix with a zero on the diagonal and a non-zero entry in that row is no covariance. -/
theorem not_validCov {n : Nat} (P : Matrix (Fin n) (Fin n) ℝ) (i j : Fin n) (hii : P i i = 0) (hij : P i j ≠ 0) :
    ¬ validCov P := by
  rintro ⟨hs, hx⟩
  have hne : i ≠ j := by rintro rfl; exact hij hii
  let t : ℝ := -(P j j + 1) / (2 * P i j)
  have h := hx (fun k => if k = i then t else if k = j then 1 else 0)
  have e : (∑ a, ∑ b, (if a = i then t else if a = j then (1 : ℝ) else 0) * P a b *
      (if b = i then t else if b = j then 1 else 0)) = t * P i i * t + t * P i j + P j i * t + P j j := by
    have hin : ∀ a, (∑ b, (if a = i then t else if a = j then (1 : ℝ) else 0) * P a b *
        (if b = i then t else if b = j then 1 else 0)) =
        (if a = i then t else if a = j then (1 : ℝ) else 0) * (P a i * t + P a j) := by
      intro a
      have : ∀ b, (if a = i then t else if a = j then (1 : ℝ) else 0) * P a b * (if b = i then t else if b = j then 1 else 0)
          = (if b = i then (if a = i then t else if a = j then (1 : ℝ) else 0) * P a i * t else 0) +
            (if b = j then (if a = i then t else if a = j then (1 : ℝ) else 0) * P a j else 0) := by
        intro b
        by_cases h1 : b = i
        · subst h1; simp [hne]
        · by_cases h2 : b = j
          · subst h2; simp [h1]
          · simp [h1, h2]
      simp only [this, Finset.sum_add_distrib, Finset.sum_ite_eq', Finset.mem_univ, if_true]
      ring
    simp only [hin]
    have : ∀ a, (if a = i then t else if a = j then (1 : ℝ) else 0) * (P a i * t + P a j) =
        (if a = i then t * (P i i * t + P i j) else 0) + (if a = j then P j i * t + P j j else 0) := by
      intro a
      by_cases h1 : a = i
      · subst h1; simp [hne]
      · by_cases h2 : a = j
        · subst h2; simp [h1]
        · simp [h1, h2]
    simp only [this, Finset.sum_add_distrib, Finset.sum_ite_eq', Finset.mem_univ, if_true]
    ring
  rw [e, hii, ← hs i j] at h
  have : t * 0 * t + t * P i j + P i j * t + P j j = -1 := by
    simp only [t]; field_simp; ring
  linarith

/-- C68: after initialisation the covariance is diagonal and holds the squares of the given deviations, in
the documented order of the states. -/
theorem C68_initial_covariance (g : ℝ) (junk : Fusion ℝ) (nav : NavEpoch ℝ) (o : Opt ℝ) :
    let P := (fstart g junk nav o).2.kf.P
    (∀ i : Fin 3,
      P ⟨i, by omega⟩ ⟨i, by omega⟩ = nav.posStd i ^ 2 ∧
      P ⟨3 + i, by omega⟩ ⟨3 + i, by omega⟩ = nav.velStd i ^ 2 ∧
      P ⟨6 + i, by omega⟩ ⟨6 + i, by omega⟩ = nav.attStd i ^ 2 ∧
      P ⟨9 + i, by omega⟩ ⟨9 + i, by omega⟩ = o.imuPara.gbStd i ^ 2 ∧
      P ⟨12 + i, by omega⟩ ⟨12 + i, by omega⟩ = o.imuPara.abStd i ^ 2) ∧
    (∀ i j, i ≠ j → P i j = 0) ∧ validCov P := by
  intro P
  let v : Fin 15 → ℝ := ![nav.posStd 0, nav.posStd 1, nav.posStd 2, nav.velStd 0, nav.velStd 1, nav.velStd 2,
    nav.attStd 0, nav.attStd 1, nav.attStd 2, o.imuPara.gbStd 0, o.imuPara.gbStd 1, o.imuPara.gbStd 2,
    o.imuPara.abStd 0, o.imuPara.abStd 1, o.imuPara.abStd 2]
  have hD : Fusion.initStd nav o = diagonal v := by
    ext i j
    fin_cases i <;> fin_cases j <;> rfl
  have hP : P = diagonal fun i => v i * v i := by
    show mmul (Fusion.initStd nav o) (Fusion.initStd nav o) = _
    rw [mmul_real, hD, diagonal_mul_diagonal]
  rw [hP]
  refine ⟨fun i => ?_, fun i j h => diagonal_apply_ne _ h, ?_⟩
  · fin_cases i <;> simp [v, sq]
  · rw [validCov_iff]
    exact PosSemidef.diagonal fun i => mul_self_nonneg _

/-- C37: every reported deviation is non-negative, and its square is the variance, wherever that is
non-negative. -/
theorem C37_reported_deviation (f : Fusion ℝ) (i : Fin 3) :
    (0 ≤ f.output.posStd i ∧ 0 ≤ f.output.vnStd i ∧ 0 ≤ f.output.attiStd i) ∧
    (0 ≤ f.kf.P ⟨i, by omega⟩ ⟨i, by omega⟩ → f.output.posStd i ^ 2 = f.kf.P ⟨i, by omega⟩ ⟨i, by omega⟩) ∧
    (0 ≤ f.kf.P ⟨3 + i, by omega⟩ ⟨3 + i, by omega⟩ →
      f.output.vnStd i ^ 2 = f.kf.P ⟨3 + i, by omega⟩ ⟨3 + i, by omega⟩) ∧
    (0 ≤ f.kf.P ⟨6 + i, by omega⟩ ⟨6 + i, by omega⟩ →
      f.output.attiStd i ^ 2 = f.kf.P ⟨6 + i, by omega⟩ ⟨6 + i, by omega⟩) :=
  ⟨⟨Real.sqrt_nonneg _, Real.sqrt_nonneg _, Real.sqrt_nonneg _⟩,
    fun h => Real.sq_sqrt h, fun h => Real.sq_sqrt h, fun h => Real.sq_sqrt h⟩
end Verif.Props
