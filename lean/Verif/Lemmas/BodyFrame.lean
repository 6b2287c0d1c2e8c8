import Verif.Lemmas.Rotation
import Verif.Props.Rigid
import Mathlib.Tactic.NormNum
import Mathlib.Tactic.FinCases
import Mathlib.Tactic.LinearCombination
/-! Rotating the body frame: cross products, rotation vectors, and matrices made of blocks. -/
namespace Verif.Body
open Verif Verif.Spec Matrix Verif.Convert Verif.Props

/-! ## Vectors -/
theorem adj_rot {R : M3 ℝ} (h : isRot R) : R.adjugate = Rᵀ := by
  have : R.adjugate * (R * Rᵀ) = Rᵀ := by rw [← Matrix.mul_assoc, adjugate_mul, h.2.2, one_smul, Matrix.one_mul]
  rwa [h.1, Matrix.mul_one] at this

/-- The cross product turns with its factors. -/
theorem cross_rot {R : M3 ℝ} (h : isRot R) (a b : V3 ℝ) : cross (R *ᵥ a) (R *ᵥ b) = R *ᵥ cross a b := by
  have hadj := adj_rot h
  have e : ∀ i j, R.adjugate i j = R j i := fun i j => by rw [hadj]; rfl
  rw [adjugate_fin_three] at e
  have e00 := e 0 0; have e01 := e 0 1; have e02 := e 0 2
  have e10 := e 1 0; have e11 := e 1 1; have e12 := e 1 2
  have e20 := e 2 0; have e21 := e 2 1; have e22 := e 2 2
  simp at e00 e01 e02 e10 e11 e12 e20 e21 e22
  ext i
  fin_cases i <;> simp [cross, v3, mulVec, dotProduct, Fin.sum_univ_three]
  · linear_combination (a 1 * b 2 - a 2 * b 1) * e00 + (a 2 * b 0 - a 0 * b 2) * e10 + (a 0 * b 1 - a 1 * b 0) * e20
  · linear_combination (a 1 * b 2 - a 2 * b 1) * e01 + (a 2 * b 0 - a 0 * b 2) * e11 + (a 0 * b 1 - a 1 * b 0) * e21
  · linear_combination (a 1 * b 2 - a 2 * b 1) * e02 + (a 2 * b 0 - a 0 * b 2) * e12 + (a 0 * b 1 - a 1 * b 0) * e22

theorem cross_skew (a b : V3 ℝ) : cross a b = skew a *ᵥ b := by
  rw [(C42_skew_is_cross a b).2.1, mvec_real]

theorem skew_rot {R : M3 ℝ} (h : isRot R) (a : V3 ℝ) : skew (R *ᵥ a) = R * skew a * Rᵀ := by
  have e : skew (R *ᵥ a) * R = R * skew a := by
    apply Matrix.ext_of_mulVec_single
    intro j
    rw [← mulVec_mulVec, ← cross_skew, cross_rot h, cross_skew, mulVec_mulVec]
  rw [← e, Matrix.mul_assoc, h.1, Matrix.mul_one]

theorem sq_rot {R : M3 ℝ} (h : isRot R) (v : V3 ℝ) : (R *ᵥ v) 0 * (R *ᵥ v) 0 + (R *ᵥ v) 1 * (R *ᵥ v) 1 + (R *ᵥ v) 2 * (R *ᵥ v) 2 =
    v 0 * v 0 + v 1 * v 1 + v 2 * v 2 := by
  have e : (R *ᵥ v) ⬝ᵥ (R *ᵥ v) = v ⬝ᵥ v := by
    rw [dotProduct_mulVec, vecMul_mulVec, ← mulVec_transpose]
    rw [transpose_mul, transpose_transpose, h.2.1, one_mulVec]
  simpa [dotProduct, Fin.sum_univ_three] using e

/-! ## Quaternions -/
/-- The rotation of a quaternion of any non-zero length. -/
noncomputable def rn (q : Quat ℝ) : M3 ℝ := (qsq q)⁻¹ • rotH q

theorem rn_mul (p q : Quat ℝ) : rn (p.mul q) = rn p * rn q := by
  unfold rn
  rw [qsq_mul, rotH_mul, mul_inv, Matrix.smul_mul, Matrix.mul_smul, smul_smul]

theorem rn_unit (q : Quat ℝ) (h : qsq q = 1) : q.toRot = rn q := by
  rw [rn, h, inv_one, one_smul, toRot_eq q h]

theorem rn_normalized (q : Quat ℝ) (h : 0 < qsq q) : rn q.normalized = rn q := by
  unfold rn
  rw [qsq_normalized q h]
  have hs : Real.sqrt (qsq q) ^ 2 = qsq q := Real.sq_sqrt h.le
  have h0 : Real.sqrt (qsq q) ≠ 0 := (Real.sqrt_pos.2 h).ne'
  unfold Quat.normalized
  rw [if_pos (by rw [lt_real, nsq_eq]; exact h)]
  simp only [nsq_eq, sqrt_real]
  rw [inv_one, one_smul]
  have hi : (qsq q)⁻¹ = (Real.sqrt (qsq q))⁻¹ ^ 2 := by rw [inv_pow, hs]
  rw [hi]
  generalize Real.sqrt (qsq q) = s
  ext i j
  fin_cases i <;> fin_cases j <;> simp [rotH, div_eq_mul_inv] <;> ring

/-- The vector part. -/
def vp (q : Quat ℝ) : V3 ℝ := ![q.x, q.y, q.z]

theorem rotH_form (q : Quat ℝ) : rotH q = (q.w ^ 2 - (vp q 0 * vp q 0 + vp q 1 * vp q 1 + vp q 2 * vp q 2)) • (1 : M3 ℝ) +
    (2 : ℝ) • vecMulVec (vp q) (vp q) + (2 * q.w) • skew (vp q) := by
  ext i j
  fin_cases i <;> fin_cases j <;> simp [rotH, vp, vecMulVec, skew] <;> ring

theorem rn_turn {R : M3 ℝ} (h : isRot R) (q q' : Quat ℝ) (hw : q'.w = q.w) (hv : vp q' = R *ᵥ vp q) : rn q' = R * rn q * Rᵀ := by
  have hq : qsq q' = qsq q := by
    have := sq_rot h (vp q)
    rw [← hv] at this
    simp [vp] at this
    unfold qsq; rw [hw]; nlinarith
  unfold rn
  rw [hq, Matrix.mul_smul, Matrix.smul_mul]
  congr 1
  rw [rotH_form, rotH_form, hw, hv, sq_rot h, skew_rot h]
  have o : vecMulVec (R *ᵥ vp q) (R *ᵥ vp q) = R * vecMulVec (vp q) (vp q) * Rᵀ := by
    rw [mul_vecMulVec, vecMulVec_mul, vecMul_transpose]
  rw [o]
  simp only [Matrix.mul_add, Matrix.add_mul, Matrix.mul_smul, Matrix.smul_mul, Matrix.mul_one]
  rw [h.1]

theorem vp_scale (w c : ℝ) (v : V3 ℝ) (q : Quat ℝ) (h : q = ⟨w, c * v 0, c * v 1, c * v 2⟩) : vp q = c • v := by
  subst h
  ext i; fin_cases i <;> simp [vp]

/-- Turning a rotation vector turns its quaternion. -/
theorem rv_turn {R : M3 ℝ} (h : isRot R) (v : V3 ℝ) : rn (rvToQuat (R *ᵥ v)) = R * rn (rvToQuat v) * Rᵀ := by
  have key : ∃ w c : ℝ, rvToQuat v = ⟨w, c * v 0, c * v 1, c * v 2⟩ ∧
      rvToQuat (R *ᵥ v) = ⟨w, c * (R *ᵥ v) 0, c * (R *ᵥ v) 1, c * (R *ᵥ v) 2⟩ := by
    have hs := sq_rot h v
    unfold rvToQuat
    simp only [hs]
    split_ifs
    · exact ⟨_, _, rfl, rfl⟩
    · refine ⟨-Fl.cos (Fl.sqrt (v 0 * v 0 + v 1 * v 1 + v 2 * v 2) / Fl.lit 2), -(Real.sin (Real.sqrt (v 0 * v 0 + v 1 * v 1 + v 2 * v 2) / ((2 : ℚ) : ℝ)) / Real.sqrt (v 0 * v 0 + v 1 * v 1 + v 2 * v 2)), ?_, ?_⟩ <;>
      simp only [Quat.mk.injEq, sqrt_real, sin_real, lit_real] <;> refine ⟨trivial, ?_, ?_, ?_⟩ <;> ring
    · refine ⟨Fl.cos (Fl.sqrt (v 0 * v 0 + v 1 * v 1 + v 2 * v 2) / Fl.lit 2), Real.sin (Real.sqrt (v 0 * v 0 + v 1 * v 1 + v 2 * v 2) / ((2 : ℚ) : ℝ)) / Real.sqrt (v 0 * v 0 + v 1 * v 1 + v 2 * v 2), ?_, ?_⟩ <;>
      simp only [Quat.mk.injEq, sqrt_real, sin_real, lit_real] <;> refine ⟨trivial, ?_, ?_, ?_⟩ <;> ring
  obtain ⟨w, c, e1, e2⟩ := key
  refine rn_turn h _ _ (by rw [e1, e2]) ?_
  rw [vp_scale w c v _ e1, vp_scale w c _ _ e2, mulVec_smul]

/-! ## Matrices of five blocks -/
/-- The index of the `a`-th component of the `i`-th group of three. -/
def ix (i : Fin 5) (a : Fin 3) : Fin 15 := ⟨3 * i.val + a.val, by omega⟩
theorem ix_surj (k : Fin 15) : ∃ i a, k = ix i a :=
  ⟨⟨k.val / 3, by omega⟩, ⟨k.val % 3, by omega⟩, by apply Fin.ext; simp only [ix]; omega⟩

theorem sum_ix (f : Fin 15 → ℝ) : ∑ k, f k = ∑ i, ∑ a, f (ix i a) := by
  have e : ∀ n (f : Fin n → ℝ), ∑ k, f k = ∑ k ∈ Finset.range n, if h : k < n then f ⟨k, h⟩ else 0 := by
    intro n f
    rw [← Fin.sum_univ_eq_sum_range (fun k => if h : k < n then f ⟨k, h⟩ else 0) n]
    exact Finset.sum_congr rfl fun k _ => by simp
  rw [e 15, Fin.sum_univ_five]
  simp only [Fin.sum_univ_three, Finset.sum_range_succ, Finset.sum_range_zero, zero_add]
  simp [ix]
  ring

/-- A block of a square matrix. -/
def bk (M : Matrix (Fin 15) (Fin 15) ℝ) (i j : Fin 5) : M3 ℝ := fun a b => M (ix i a) (ix j b)
/-- A block of columns. -/
def hb {p : Nat} (H : Matrix (Fin p) (Fin 15) ℝ) (j : Fin 5) : Matrix (Fin p) (Fin 3) ℝ := fun a b => H a (ix j b)
/-- A block of a vector. -/
def xb (x : Fin 15 → ℝ) (i : Fin 5) : V3 ℝ := fun a => x (ix i a)

theorem bk_ext {M N : Matrix (Fin 15) (Fin 15) ℝ} (h : ∀ i j, bk M i j = bk N i j) : M = N := by
  ext k l
  obtain ⟨i, a, rfl⟩ := ix_surj k
  obtain ⟨j, b, rfl⟩ := ix_surj l
  exact congrFun (congrFun (h i j) a) b
theorem hb_ext {p : Nat} {M N : Matrix (Fin p) (Fin 15) ℝ} (h : ∀ j, hb M j = hb N j) : M = N := by
  ext k l
  obtain ⟨j, b, rfl⟩ := ix_surj l
  exact congrFun (congrFun (h j) k) b
theorem xb_ext {x y : Fin 15 → ℝ} (h : ∀ j, xb x j = xb y j) : x = y := by
  ext k
  obtain ⟨i, a, rfl⟩ := ix_surj k
  exact congrFun (h i) a

theorem bk_mul (M N : Matrix (Fin 15) (Fin 15) ℝ) (i j : Fin 5) : bk (M * N) i j = ∑ k, bk M i k * bk N k j := by
  ext a b
  rw [Matrix.sum_apply]
  show (M * N) (ix i a) (ix j b) = _
  rw [Matrix.mul_apply, sum_ix]
  rfl
theorem hb_mul {p : Nat} (H : Matrix (Fin p) (Fin 15) ℝ) (N : Matrix (Fin 15) (Fin 15) ℝ) (j : Fin 5) : hb (H * N) j = ∑ k, hb H k * bk N k j := by
  ext a b
  rw [Matrix.sum_apply]
  show (H * N) a (ix j b) = _
  rw [Matrix.mul_apply, sum_ix]
  rfl
theorem xb_mulVec (M : Matrix (Fin 15) (Fin 15) ℝ) (x : Fin 15 → ℝ) (i : Fin 5) : xb (M *ᵥ x) i = ∑ k, bk M i k *ᵥ xb x k := by
  ext a
  rw [Finset.sum_apply]
  show (M *ᵥ x) (ix i a) = _
  rw [mulVec, dotProduct, sum_ix]
  rfl

theorem bk_set (M : Matrix (Fin 15) (Fin 15) ℝ) (r c : Nat) (A : M3 ℝ) (i0 j0 i j : Fin 5) (hr : r = 3 * i0.val) (hc : c = 3 * j0.val) :
    bk (setBlock M r c A) i j = if i = i0 ∧ j = j0 then A else bk M i j := by
  subst hr hc
  ext a b
  show setBlock M _ _ A (ix i a) (ix j b) = _
  unfold setBlock
  by_cases h : i = i0 ∧ j = j0
  · obtain ⟨rfl, rfl⟩ := h
    rw [dif_pos (by simp only [ix]; omega), if_pos ⟨rfl, rfl⟩]
    congr 1 <;> apply Fin.ext <;> simp [ix]
  · rw [dif_neg, if_neg h]
    · rfl
    · rintro ⟨h1, h2, h3, h4⟩
      refine h ⟨Fin.ext ?_, Fin.ext ?_⟩ <;> simp only [ix] at h1 h2 h3 h4 <;> omega
theorem hb_set (M : Matrix (Fin 3) (Fin 15) ℝ) (c : Nat) (A : M3 ℝ) (j0 j : Fin 5) (hc : c = 3 * j0.val) :
    hb (setBlock M 0 c A) j = if j = j0 then A else hb M j := by
  subst hc
  ext a b
  show setBlock M _ _ A a (ix j b) = _
  unfold setBlock
  by_cases h : j = j0
  · subst h
    rw [dif_pos (by simp only [ix]; omega), if_pos rfl]
    congr 1; apply Fin.ext; simp [ix]
  · rw [dif_neg, if_neg h]
    · rfl
    · rintro ⟨h1, h2, h3, h4⟩
      refine h (Fin.ext ?_); simp only [ix] at h1 h2 h3 h4; omega

theorem bk_set0 (r c : Nat) (A : M3 ℝ) (i0 j0 i j : Fin 5) (hr : r = 3 * i0.val) (hc : c = 3 * j0.val) :
    bk (setBlock (fun _ _ => 0) r c A) i j = if i = i0 ∧ j = j0 then A else 0 := bk_set (0 : Matrix (Fin 15) (Fin 15) ℝ) r c A i0 j0 i j hr hc
theorem hb_set0 (c : Nat) (A : M3 ℝ) (j0 j : Fin 5) (hc : c = 3 * j0.val) :
    hb (setBlock (fun _ _ => 0) 0 c A : Matrix (Fin 3) (Fin 15) ℝ) j = if j = j0 then A else 0 := hb_set (0 : Matrix (Fin 3) (Fin 15) ℝ) c A j0 j hc

/-- The rotation of the state: the two bias groups are turned, the rest stays. -/
def rb (R : M3 ℝ) (i : Fin 5) : M3 ℝ := if i.val < 3 then 1 else R
@[inherit_doc rb] def BB (R : M3 ℝ) : Matrix (Fin 15) (Fin 15) ℝ := fun p q =>
  if p.val / 3 = q.val / 3 then rb R ⟨p.val / 3, by omega⟩ ⟨p.val % 3, by omega⟩ ⟨q.val % 3, by omega⟩ else 0

theorem bk_BB (R : M3 ℝ) (i j : Fin 5) : bk (BB R) i j = if i = j then rb R i else 0 := by
  have d : ∀ (i : Fin 5) (a : Fin 3), (ix i a).val / 3 = i.val := fun i a => by simp only [ix]; omega
  have m : ∀ (i : Fin 5) (a : Fin 3), (ix i a).val % 3 = a.val := fun i a => by simp only [ix]; omega
  ext a b
  show BB R (ix i a) (ix j b) = _
  unfold BB
  simp only [d, m]
  by_cases h : i = j
  · subst h; simp
  · rw [if_neg (fun e => h (Fin.ext e)), if_neg h]; rfl

theorem bk_transpose (M : Matrix (Fin 15) (Fin 15) ℝ) (i j : Fin 5) : bk Mᵀ i j = (bk M j i)ᵀ := rfl

theorem bk_conj (R : M3 ℝ) (M : Matrix (Fin 15) (Fin 15) ℝ) (i j : Fin 5) : bk (BB R * M * (BB R)ᵀ) i j = rb R i * bk M i j * (rb R j)ᵀ := by
  rw [bk_mul]
  have e : ∀ k, bk (BB R * M) i k = rb R i * bk M i k := by
    intro k
    rw [bk_mul, Finset.sum_eq_single i]
    · rw [bk_BB, if_pos rfl]
    · intro l _ hl
      rw [bk_BB, if_neg (Ne.symm hl), Matrix.zero_mul]
    · simp
  rw [Finset.sum_eq_single j]
  · rw [e, bk_transpose, bk_BB, if_pos rfl]
  · intro l _ hl
    rw [bk_transpose, bk_BB, if_neg (Ne.symm hl), transpose_zero, Matrix.mul_zero]
  · simp
theorem hb_conj {p : Nat} (R : M3 ℝ) (H : Matrix (Fin p) (Fin 15) ℝ) (j : Fin 5) : hb (H * (BB R)ᵀ) j = hb H j * (rb R j)ᵀ := by
  rw [hb_mul, Finset.sum_eq_single j]
  · rw [bk_transpose, bk_BB, if_pos rfl]
  · intro l _ hl
    rw [bk_transpose, bk_BB, if_neg (Ne.symm hl), transpose_zero, Matrix.mul_zero]
  · simp
theorem xb_BB (R : M3 ℝ) (x : Fin 15 → ℝ) (i : Fin 5) : xb (BB R *ᵥ x) i = rb R i *ᵥ xb x i := by
  rw [xb_mulVec, Finset.sum_eq_single i]
  · rw [bk_BB, if_pos rfl]
  · intro l _ hl
    rw [bk_BB, if_neg (Ne.symm hl), zero_mulVec]
  · simp

theorem bk_one (i j : Fin 5) : bk 1 i j = if i = j then 1 else 0 := by
  ext a b
  show (1 : Matrix (Fin 15) (Fin 15) ℝ) (ix i a) (ix j b) = _
  by_cases h : i = j
  · subst h
    rw [if_pos rfl, Matrix.one_apply, Matrix.one_apply]
    congr 1
    simp [ix, Fin.ext_iff]
  · rw [if_neg h, Matrix.one_apply_ne]
    · rfl
    · intro e
      simp only [ix, Fin.ext_iff] at e
      exact h (Fin.ext (by omega))

theorem BB_orth {R : M3 ℝ} (h : isRot R) : BB R * (BB R)ᵀ = 1 := by
  apply bk_ext
  intro i j
  have := bk_conj R 1 i j
  rw [Matrix.mul_one] at this
  rw [this, bk_one]
  by_cases e : i = j
  · subst e
    rw [if_pos rfl, Matrix.mul_one]
    unfold rb
    split_ifs
    · rw [transpose_one, Matrix.mul_one]
    · exact h.1
  · rw [if_neg e, Matrix.mul_zero, Matrix.zero_mul]
theorem BB_orth' {R : M3 ℝ} (h : isRot R) : (BB R)ᵀ * BB R = 1 := mul_eq_one_comm.1 (BB_orth h)

/-! ## The filter -/
/-- The filter after the body frame is turned. -/
noncomputable def bdK (R : M3 ℝ) (k : Kf 15 ℝ) : Kf 15 ℝ := { k with Xd := BB R *ᵥ k.Xd, P := BB R * k.P * (BB R)ᵀ }

theorem bdK_update {R : M3 ℝ} (h : isRot R) {p : Nat} (k : Kf 15 ℝ) (H : Matrix (Fin p) (Fin 15) ℝ) (z : Fin p → ℝ)
    (V : Matrix (Fin p) (Fin p) ℝ) : (bdK R k).update (H * (BB R)ᵀ) z V = bdK R (k.update H z V) := by
  have o := BB_orth h
  have o' := BB_orth' h
  simp only [Kf.update, bdK, mmul_real, mvec_real, minv_real, eyeM_real, sqrt_real]
  generalize BB R = B at *
  have c : ∀ {q : Nat} (X : Matrix (Fin 15) (Fin q) ℝ), Bᵀ * (B * X) = X := fun X => by rw [← Matrix.mul_assoc, o', Matrix.one_mul]
  have e1 : H * Bᵀ * (B * k.P * Bᵀ) * (H * Bᵀ)ᵀ = H * k.P * Hᵀ := by
    simp only [transpose_mul, transpose_transpose, Matrix.mul_assoc, c]
  rw [e1]
  generalize (H * k.P * Hᵀ + V)⁻¹ = S
  have e2 : B * k.P * Bᵀ * (H * Bᵀ)ᵀ * S = B * (k.P * Hᵀ * S) := by
    simp only [transpose_mul, transpose_transpose, Matrix.mul_assoc, c]
  rw [e2]
  generalize k.P * Hᵀ * S = K
  have e3 : 1 - B * K * (H * Bᵀ) = B * (1 - K * H) * Bᵀ := by
    rw [Matrix.mul_sub, Matrix.sub_mul, Matrix.mul_one, o]; simp only [Matrix.mul_assoc]
  rw [e3, mulVec_mulVec]
  congr 1
  generalize 1 - K * H = T
  simp only [transpose_mul, transpose_transpose, Matrix.mul_assoc, c, Matrix.mul_add, Matrix.add_mul]

theorem bdK_predict {R : M3 ℝ} (h : isRot R) (k : Kf 15 ℝ) (phi Q : Matrix (Fin 15) (Fin 15) ℝ) :
    (bdK R k).predict (BB R * phi * (BB R)ᵀ) (BB R * Q * (BB R)ᵀ) = bdK R (k.predict phi Q) := by
  have o' := BB_orth' h
  simp only [Kf.predict, bdK, mmul_real, mvec_real]
  generalize BB R = B at *
  have c : ∀ {q : Nat} (X : Matrix (Fin 15) (Fin q) ℝ), Bᵀ * (B * X) = X := fun X => by rw [← Matrix.mul_assoc, o', Matrix.one_mul]
  have e : (B * phi * Bᵀ) *ᵥ (B *ᵥ k.Xd) = B *ᵥ (phi *ᵥ k.Xd) := by
    rw [mulVec_mulVec, mulVec_mulVec]
    congr 1
    rw [Matrix.mul_assoc, o', Matrix.mul_one]
  rw [e]
  congr 1
  simp only [transpose_mul, transpose_transpose, Matrix.mul_assoc, c, Matrix.mul_add, Matrix.add_mul]
end Verif.Body
