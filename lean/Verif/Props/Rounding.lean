import Verif.Lemmas.RoundingRv
import Verif.Lemmas.Schedule
import Verif.Lemmas.Api
import Verif.Spec.Api
import Verif.Spec.Examples
import Mathlib.LinearAlgebra.Matrix.Determinant.Basic
import Mathlib.Tactic.FinCases
import Mathlib.Tactic.SplitIfs
/-! C127: rounding errors do not pile up in the attitude and the position. -/
namespace Verif.Props
open Verif Verif.Spec Verif.Convert Verif.Rnd
variable {R : Rounding} {u : ℝ}

/-- A computed matrix, as exact numbers. -/
def reM (C : M3 (RR R)) : Matrix (Fin 3) (Fin 3) ℝ := fun i j => (C i j).v
/-- A matrix is a proper rotation up to `e`: rows of unit length and orthogonal up to `e`, determinant one up to `e`. -/
def nearRot (e : ℝ) (C : Matrix (Fin 3) (Fin 3) ℝ) : Prop :=
  (∀ i j, |(C * C.transpose) i j - (1 : Matrix (Fin 3) (Fin 3) ℝ) i j| ≤ e) ∧ |C.det - 1| ≤ e

theorem det_close {C E : Matrix (Fin 3) (Fin 3) ℝ} {d : ℝ} (hd : d ≤ 1 / 100) (hE : ∀ i j, |E i j| ≤ 11 / 10)
    (hC : ∀ i j, |C i j - E i j| ≤ d) : |C.det - E.det| ≤ 23 * d := by
  have d0 : 0 ≤ d := (abs_nonneg _).trans (hC 0 0)
  have tri : ∀ a b c a' b' c' : ℝ, |a - a'| ≤ d → |b - b'| ≤ d → |c - c'| ≤ d → |a'| ≤ 11 / 10 → |b'| ≤ 11 / 10 → |c'| ≤ 11 / 10 →
      |a * b * c - a' * b' * c'| ≤ 23 / 6 * d := by
    intro a b c a' b' c' h1 h2 h3 k1 k2 k3
    have e : a * b * c - a' * b' * c' = (a - a') * (b * c) + a' * ((b - b') * c) + a' * (b' * (c - c')) := by ring
    have bb : |b| ≤ 111 / 100 := by
      have : b = b' + (b - b') := by ring
      rw [this]; exact (abs_add_le _ _).trans (by linarith)
    have cc : |c| ≤ 111 / 100 := by
      have : c = c' + (c - c') := by ring
      rw [this]; exact (abs_add_le _ _).trans (by linarith)
    have t1 : |(a - a') * (b * c)| ≤ d * (111 / 100 * (111 / 100)) := by rw [abs_mul, abs_mul]; gcongr
    have t2 : |a' * ((b - b') * c)| ≤ 11 / 10 * (d * (111 / 100)) := by rw [abs_mul, abs_mul]; gcongr
    have t3 : |a' * (b' * (c - c'))| ≤ 11 / 10 * (11 / 10 * d) := by rw [abs_mul, abs_mul]; gcongr
    rw [e]
    refine (abs_add_le _ _).trans ?_
    have := abs_add_le ((a - a') * (b * c)) (a' * ((b - b') * c))
    linarith
  rw [Matrix.det_fin_three, Matrix.det_fin_three]
  have f : ∀ i j k l m n : Fin 3, _ := fun i j k l m n =>
    abs_le.1 (tri _ _ _ _ _ _ (hC i j) (hC k l) (hC m n) (hE i j) (hE k l) (hE m n))
  have f1 := f 0 0 1 1 2 2
  have f2 := f 0 0 1 2 2 1
  have f3 := f 0 1 1 0 2 2
  have f4 := f 0 1 1 2 2 0
  have f5 := f 0 2 1 0 2 1
  have f6 := f 0 2 1 1 2 0
  rw [abs_le]
  constructor <;> linarith [f1.1, f1.2, f2.1, f2.2, f3.1, f3.2, f4.1, f4.2, f5.1, f5.2, f6.1, f6.2]

theorem mul_close {C E : Matrix (Fin 3) (Fin 3) ℝ} {d : ℝ} (hd : d ≤ 1 / 100) (hE : ∀ i j, |E i j| ≤ 11 / 10)
    (hC : ∀ i j, |C i j - E i j| ≤ d) (i j : Fin 3) : |(C * C.transpose) i j - (E * E.transpose) i j| ≤ 7 * d := by
  have d0 : 0 ≤ d := (abs_nonneg _).trans (hC 0 0)
  have two : ∀ a b a' b' : ℝ, |a - a'| ≤ d → |b - b'| ≤ d → |a'| ≤ 11 / 10 → |b'| ≤ 11 / 10 → |a * b - a' * b'| ≤ 7 / 3 * d := by
    intro a b a' b' h1 h2 k1 k2
    have e : a * b - a' * b' = (a - a') * b + a' * (b - b') := by ring
    have bb : |b| ≤ 111 / 100 := by
      have : b = b' + (b - b') := by ring
      rw [this]; exact (abs_add_le _ _).trans (by linarith)
    have t1 : |(a - a') * b| ≤ d * (111 / 100) := by rw [abs_mul]; gcongr
    have t2 : |a' * (b - b')| ≤ 11 / 10 * d := by rw [abs_mul]; gcongr
    rw [e]
    exact (abs_add_le _ _).trans (by linarith)
  simp only [Matrix.mul_apply, Matrix.transpose_apply, Fin.sum_univ_three]
  have f : ∀ k : Fin 3, _ := fun k => abs_le.1 (two _ _ _ _ (hC i k) (hC j k) (hE i k) (hE j k))
  have f1 := f 0
  have f2 := f 1
  have f3 := f 2
  rw [abs_le]
  constructor <;> linarith [f1.1, f1.2, f2.1, f2.2, f3.1, f3.2]

theorem nearRot_of {C E : Matrix (Fin 3) (Fin 3) ℝ} {d e : ℝ} (hd : d ≤ 1 / 100) (hE : ∀ i j, |E i j| ≤ 11 / 10)
    (hC : ∀ i j, |C i j - E i j| ≤ d) (h : nearRot e E) : nearRot (e + 23 * d) C := by
  have d0 : 0 ≤ d := (abs_nonneg _).trans (hC 0 0)
  constructor
  · intro i j
    have a := abs_le.1 (mul_close hd hE hC i j)
    have b := abs_le.1 (h.1 i j)
    rw [abs_le]
    constructor <;> linarith [a.1, a.2, b.1, b.2]
  · have a := abs_le.1 (det_close hd hE hC)
    have b := abs_le.1 h.2
    rw [abs_le]
    constructor <;> linarith [a.1, a.2, b.1, b.2]

/-- The exact matrix of a quaternion of about unit length. -/
theorem toRot_near (q : Quat ℝ) {e : ℝ} (he : e ≤ 1 / 1000) (h : |qsq q - 1| ≤ e) :
    nearRot (5 * e) q.toRot ∧ ∀ i j, |q.toRot i j| ≤ 11 / 10 := by
  have e0 : 0 ≤ e := (abs_nonneg _).trans h
  obtain ⟨w, x, y, z⟩ := q
  obtain ⟨N, hN⟩ : ∃ N, N = qsq ⟨w, x, y, z⟩ := ⟨_, rfl⟩
  rw [← hN] at h
  have hN' : N = w ^ 2 + x ^ 2 + y ^ 2 + z ^ 2 := by rw [hN]; simp only [qsq]
  have h' := abs_le.1 h
  have sq : 0 ≤ w ^ 2 ∧ 0 ≤ x ^ 2 ∧ 0 ≤ y ^ 2 ∧ 0 ≤ z ^ 2 := ⟨sq_nonneg _, sq_nonneg _, sq_nonneg _, sq_nonneg _⟩
  have mm : ∀ a b c : ℝ, 0 ≤ c → a ^ 2 + b ^ 2 + c ≤ N → |2 * (a * b)| ≤ N := by
    intro a b c hc hab
    rw [abs_le]
    constructor <;> nlinarith [sq_nonneg (a + b), sq_nonneg (a - b)]
  -- entries of the symmetric part
  have off : ∀ k : ℝ, |k| ≤ 2 * N → |(1 - N) * k| ≤ 3 * e := by
    intro k hk
    rw [abs_mul, abs_sub_comm]
    calc |N - 1| * |k| ≤ e * 3 := mul_le_mul h (by linarith) (abs_nonneg _) e0
      _ = _ := by ring
  have dia : ∀ k : ℝ, |k| ≤ N → |N ^ 2 + 2 * (1 - N) * k + (1 - N) ^ 2 - 1| ≤ 5 * e := by
    intro k hk
    have e1 : N ^ 2 + 2 * (1 - N) * k + (1 - N) ^ 2 - 1 = (N - 1) * (2 * N - 2 * k) := by ring
    have hk' := abs_le.1 hk
    rw [e1, abs_mul, mul_comm 5]
    refine mul_le_mul h ?_ (abs_nonneg _) e0
    rw [abs_le]
    constructor <;> linarith [hk'.1, hk'.2]
  have Eq : (Quat.toRot ⟨w, x, y, z⟩ : M3 ℝ) =
      !![1 - 2 * (y ^ 2 + z ^ 2), 2 * (x * y - w * z), 2 * (x * z + w * y);
         2 * (x * y + w * z), 1 - 2 * (x ^ 2 + z ^ 2), 2 * (y * z - w * x);
         2 * (x * z - w * y), 2 * (y * z + w * x), 1 - 2 * (x ^ 2 + y ^ 2)] := by
    ext i j
    fin_cases i <;> fin_cases j <;>
      simp only [Quat.toRot, Matrix.of_apply, Fin.zero_eta, Fin.mk_one, Fin.reduceFinMk, Matrix.cons_val_zero, Matrix.cons_val_one, Matrix.cons_val,
        lit_real, Rat.cast_ofNat] <;> ring
  rw [Eq]
  refine ⟨⟨?_, ?_⟩, ?_⟩
  · intro i j
    fin_cases i <;> fin_cases j <;>
      simp only [Matrix.mul_apply, Matrix.transpose_apply, Fin.sum_univ_three, Matrix.of_apply, Fin.zero_eta, Fin.mk_one, Fin.reduceFinMk,
        Matrix.cons_val_zero, Matrix.cons_val_one, Matrix.cons_val, Matrix.one_apply_eq]
    · have := dia (w ^ 2 + x ^ 2 - y ^ 2 - z ^ 2) (by rw [abs_le]; constructor <;> linarith)
      convert this using 2; rw [hN']; ring
    · have := off (4 * (x * y)) (by have := mm x y (w ^ 2 + z ^ 2) (by linarith) (by linarith); rw [abs_le] at *; constructor <;> linarith [this.1, this.2])
      refine le_trans (le_of_eq ?_) (this.trans (by linarith))
      congr 1; rw [hN']; simp; ring
    · have := off (4 * (x * z)) (by have := mm x z (w ^ 2 + y ^ 2) (by linarith) (by linarith); rw [abs_le] at *; constructor <;> linarith [this.1, this.2])
      refine le_trans (le_of_eq ?_) (this.trans (by linarith))
      congr 1; rw [hN']; simp; ring
    · have := off (4 * (x * y)) (by have := mm x y (w ^ 2 + z ^ 2) (by linarith) (by linarith); rw [abs_le] at *; constructor <;> linarith [this.1, this.2])
      refine le_trans (le_of_eq ?_) (this.trans (by linarith))
      congr 1; rw [hN']; simp; ring
    · have := dia (w ^ 2 - x ^ 2 + y ^ 2 - z ^ 2) (by rw [abs_le]; constructor <;> linarith)
      convert this using 2; rw [hN']; ring
    · have := off (4 * (y * z)) (by have := mm y z (w ^ 2 + x ^ 2) (by linarith) (by linarith); rw [abs_le] at *; constructor <;> linarith [this.1, this.2])
      refine le_trans (le_of_eq ?_) (this.trans (by linarith))
      congr 1; rw [hN']; simp; ring
    · have := off (4 * (x * z)) (by have := mm x z (w ^ 2 + y ^ 2) (by linarith) (by linarith); rw [abs_le] at *; constructor <;> linarith [this.1, this.2])
      refine le_trans (le_of_eq ?_) (this.trans (by linarith))
      congr 1; rw [hN']; simp; ring
    · have := off (4 * (y * z)) (by have := mm y z (w ^ 2 + x ^ 2) (by linarith) (by linarith); rw [abs_le] at *; constructor <;> linarith [this.1, this.2])
      refine le_trans (le_of_eq ?_) (this.trans (by linarith))
      congr 1; rw [hN']; simp; ring
    · have := dia (w ^ 2 - x ^ 2 - y ^ 2 + z ^ 2) (by rw [abs_le]; constructor <;> linarith)
      convert this using 2; rw [hN']; ring
  · have := dia (w ^ 2 - x ^ 2 - y ^ 2 - z ^ 2) (by rw [abs_le]; constructor <;> linarith)
    rw [Matrix.det_fin_three]
    simp only [Matrix.of_apply, Matrix.cons_val_zero, Matrix.cons_val_one, Matrix.cons_val]
    convert this using 2; rw [hN']; ring
  · have o : ∀ a b c d : ℝ, a ^ 2 + b ^ 2 + c ^ 2 + d ^ 2 = N → |2 * (a * b + c * d)| ≤ 11 / 10 := by
      intro a b c d hh
      rw [abs_le]
      constructor <;> nlinarith [sq_nonneg (a + b), sq_nonneg (a - b), sq_nonneg (c + d), sq_nonneg (c - d)]
    have dg : ∀ a b c d : ℝ, a ^ 2 + b ^ 2 + c ^ 2 + d ^ 2 = N → |1 - 2 * (a ^ 2 + b ^ 2)| ≤ 11 / 10 := by
      intro a b c d hh
      rw [abs_le]
      constructor <;> nlinarith [sq_nonneg a, sq_nonneg b, sq_nonneg c, sq_nonneg d]
    intro i j
    fin_cases i <;> fin_cases j <;>
      simp only [Matrix.of_apply, Fin.zero_eta, Fin.mk_one, Fin.reduceFinMk, Matrix.cons_val_zero, Matrix.cons_val_one, Matrix.cons_val]
    · exact dg y z w x (by linarith)
    · have := o x y (-w) z (by nlinarith); rwa [neg_mul, ← sub_eq_add_neg] at this
    · exact o x z w y (by linarith)
    · exact o x y w z (by linarith)
    · exact dg x z w y (by linarith)
    · have := o y z (-w) x (by nlinarith); rwa [neg_mul, ← sub_eq_add_neg] at this
    · have := o x z (-w) y (by nlinarith); rwa [neg_mul, ← sub_eq_add_neg] at this
    · exact o y z w x (by linarith)
    · exact dg x y w z (by linarith)

/-- The matrix computed from a quaternion of about unit length, entry by entry. -/
theorem dcm_entry (h : Accurate R u) (q : Quat (RR R)) (hq : |rsq q - 1| ≤ 60 * u) (i j : Fin 3) :
    |reM (quatToDcm q) i j - (re q).toRot i j| ≤ 50 * u := by
  have u0 := h.pos
  have u1 := h.small
  rw [rsq_re] at hq
  have hN := abs_le.1 hq
  obtain ⟨bw, bx, bY, bz⟩ := comp_bound (re q) (N := 101 / 100) (b := 101 / 100) (by linarith [hN.2]) (by norm_num) (by norm_num)
  have l2 := lit_near h 2 (by norm_num)
  have self : ∀ a : ℝ, |a - a| ≤ 0 * u := fun a => by simp
  -- a product with a doubled coefficient
  have p2 : ∀ a b : ℝ, |a| ≤ 101 / 100 → |b| ≤ 101 / 100 →
      |R.rnd (R.rnd (R.rnd 2 * a) * b) - 2 * a * b| ≤ 17 * u ∧ |2 * a * b| ≤ 21 / 10 := by
    intro a b ha hb
    have c1 := near_mul h l2 (self a) (B := 2) (B' := 101 / 100) (by rw [abs_of_pos] <;> norm_num) ha (by norm_num) (by norm_num) (by norm_num) (by norm_num)
    have c1 := weaken h c1 (l := 9) (by norm_num)
    have b1 : |2 * a| ≤ 202 / 100 := by rw [abs_mul, abs_of_pos (by norm_num : (0:ℝ) < 2)]; linarith
    have c2 := near_mul h c1 (self b) (B := 202 / 100) (B' := 101 / 100) b1 hb (by norm_num) (by norm_num) (by norm_num) (by norm_num)
    refine ⟨weaken h c2 (by norm_num), ?_⟩
    rw [abs_mul]
    exact (mul_le_mul b1 hb (abs_nonneg _) (by norm_num)).trans (by norm_num)
  have en : ∀ a b c d : ℝ, |a| ≤ 101 / 100 → |b| ≤ 101 / 100 → |c| ≤ 101 / 100 → |d| ≤ 101 / 100 →
      |R.rnd (R.rnd (R.rnd (R.rnd 2 * a) * b) + R.rnd (R.rnd (R.rnd 2 * c) * d)) - (2 * a * b + 2 * c * d)| ≤ 41 * u := by
    intro a b c d ha hb hc hd
    obtain ⟨p, pb⟩ := p2 a b ha hb
    obtain ⟨q', qb⟩ := p2 c d hc hd
    exact weaken h (near_add h p q' (bound2 pb qb) (by norm_num)) (by norm_num)
  have es : ∀ a b c d : ℝ, |a| ≤ 101 / 100 → |b| ≤ 101 / 100 → |c| ≤ 101 / 100 → |d| ≤ 101 / 100 →
      |R.rnd (R.rnd (R.rnd (R.rnd 2 * a) * b) - R.rnd (R.rnd (R.rnd 2 * c) * d)) - (2 * a * b - 2 * c * d)| ≤ 50 * u := by
    intro a b c d ha hb hc hd
    obtain ⟨p, pb⟩ := p2 a b ha hb
    obtain ⟨q', qb⟩ := p2 c d hc hd
    exact weaken h (near_sub h p q' ((abs_sub _ _).trans (add_le_add pb qb)) (by norm_num)) (by norm_num)
  have ed : ∀ a b c d : ℝ, |a| ≤ 101 / 100 → |b| ≤ 101 / 100 → |c| ≤ 101 / 100 → |d| ≤ 101 / 100 →
      |R.rnd (1 - R.rnd (R.rnd (R.rnd (R.rnd 2 * a) * b) + R.rnd (R.rnd (R.rnd 2 * c) * d))) - (1 - (2 * a * b + 2 * c * d))| ≤ 50 * u := by
    intro a b c d ha hb hc hd
    have pb := (p2 a b ha hb).2
    have qb := (p2 c d hc hd).2
    have b1 : |1 - (2 * a * b + 2 * c * d)| ≤ 1 + (21 / 10 + 21 / 10) :=
      (abs_sub _ _).trans (add_le_add (by simp) (bound2 pb qb))
    exact weaken h (near_sub h (self 1) (en a b c d ha hb hc hd) b1 (by norm_num)) (by norm_num)
  have en : ∀ a b c d : ℝ, |a| ≤ 101 / 100 → |b| ≤ 101 / 100 → |c| ≤ 101 / 100 → |d| ≤ 101 / 100 →
      |R.rnd (R.rnd (R.rnd (R.rnd 2 * a) * b) + R.rnd (R.rnd (R.rnd 2 * c) * d)) - (2 * a * b + 2 * c * d)| ≤ 50 * u :=
    fun a b c d ha hb hc hd => weaken h (en a b c d ha hb hc hd) (by norm_num)
  fin_cases i <;> fin_cases j <;>
    simp only [reM, quatToDcm, Quat.toRot, Matrix.of_apply, Fin.zero_eta, Fin.mk_one, Fin.reduceFinMk, Matrix.cons_val_zero,
      Matrix.cons_val_one, Matrix.cons_val, lit_real, Rat.cast_ofNat, v_add, v_sub, v_mul, v_lit, v_one]
  · exact ed _ _ _ _ bY bY bz bz
  · exact es _ _ _ _ bY bx bz bw
  · exact en _ _ _ _ bz bx bY bw
  · exact en _ _ _ _ bY bx bz bw
  · exact ed _ _ _ _ bx bx bz bz
  · exact es _ _ _ _ bz bY bx bw
  · exact es _ _ _ _ bz bx bY bw
  · exact en _ _ _ _ bz bY bx bw
  · exact ed _ _ _ _ bx bx bY bY

/-- The matrix computed from a quaternion of about unit length is a rotation up to rounding. -/
theorem dcm_near (h : Accurate R u) (q : Quat (RR R)) (hq : |rsq q - 1| ≤ 60 * u) : nearRot (1500 * u) (reM (quatToDcm q)) := by
  have u0 := h.pos
  have u1 := h.small
  have ent := dcm_entry h q hq
  rw [rsq_re] at hq
  obtain ⟨t1, t2⟩ := toRot_near (re q) (by linarith) hq
  have := nearRot_of (by linarith : 50 * u ≤ 1 / 100) t2 ent t1
  have e : 5 * (60 * u) + 23 * (50 * u) ≤ 1500 * u := by linarith
  exact ⟨fun i j => (this.1 i j).trans e, this.2.trans e⟩

/-- The navigation-frame matrix computed from any latitude and longitude. -/
theorem cne_near (h : Accurate R u) (ll : LatLon (RR R)) : nearRot (200 * u) (reM (llaToCne ll)) := by
  have u0 := h.pos
  have u1 := h.small
  have a := h.sin ll.lat.v
  have b := h.cos ll.lat.v
  have c := h.sin ll.lon.v
  have d := h.cos ll.lon.v
  have a1 := Real.abs_sin_le_one ll.lat.v
  have b1 := Real.abs_cos_le_one ll.lat.v
  have c1 := Real.abs_sin_le_one ll.lon.v
  have d1 := Real.abs_cos_le_one ll.lon.v
  have k1 := Real.sin_sq_add_cos_sq ll.lat.v
  have k2 := Real.sin_sq_add_cos_sq ll.lon.v
  have C : reM (llaToCne ll) =
      !![R.rnd (-R.sin ll.lat.v * R.cos ll.lon.v), -R.sin ll.lon.v, R.rnd (-R.cos ll.lat.v * R.cos ll.lon.v);
         R.rnd (-R.sin ll.lat.v * R.sin ll.lon.v), R.cos ll.lon.v, R.rnd (-R.cos ll.lat.v * R.sin ll.lon.v);
         R.cos ll.lat.v, 0, -R.sin ll.lat.v] := by
    ext i j
    fin_cases i <;> fin_cases j <;> rfl
  rw [C]
  generalize Real.sin ll.lat.v = s at *
  generalize Real.cos ll.lat.v = t at *
  generalize Real.sin ll.lon.v = p at *
  generalize Real.cos ll.lon.v = q at *
  generalize R.sin ll.lat.v = s' at *
  generalize R.cos ll.lat.v = t' at *
  generalize R.sin ll.lon.v = p' at *
  generalize R.cos ll.lon.v = q' at *
  have pr : ∀ x y x' y' : ℝ, |x' - x| ≤ u → |y' - y| ≤ u → |x| ≤ 1 → |y| ≤ 1 → |R.rnd (-x' * y') - -x * y| ≤ 8 * u := by
    intro x y x' y' hx hy bx bY
    have : |-x' - -x| ≤ 1 * u := by rw [neg_sub_neg, abs_sub_comm, one_mul]; exact hx
    have := near_mul h this (by rw [one_mul]; exact hy : |y' - y| ≤ 1 * u) (B := 1) (B' := 1) (by rwa [abs_neg]) bY (by norm_num) (by norm_num) (by norm_num) (by norm_num)
    exact weaken h this (by norm_num)
  have ng : ∀ x x' : ℝ, |x' - x| ≤ u → |-x' - -x| ≤ 8 * u := by
    intro x x' hx
    rw [neg_sub_neg, abs_sub_comm]
    exact hx.trans (by linarith)
  obtain ⟨E, hE⟩ : ∃ E : Matrix (Fin 3) (Fin 3) ℝ, E = !![-s * q, -p, -t * q; -s * p, q, -t * p; t, 0, -s] := ⟨_, rfl⟩
  have ent : ∀ i j, |(!![R.rnd (-s' * q'), -p', R.rnd (-t' * q'); R.rnd (-s' * p'), q', R.rnd (-t' * p'); t', 0, -s'] :
      Matrix (Fin 3) (Fin 3) ℝ) i j - E i j| ≤ 8 * u := by
    intro i j
    rw [hE]
    fin_cases i <;> fin_cases j <;>
      simp only [Matrix.of_apply, Fin.zero_eta, Fin.mk_one, Fin.reduceFinMk, Matrix.cons_val_zero, Matrix.cons_val_one, Matrix.cons_val]
    · exact pr _ _ _ _ a d a1 d1
    · exact ng _ _ c
    · exact pr _ _ _ _ b d b1 d1
    · exact pr _ _ _ _ a c a1 c1
    · exact d.trans (by linarith)
    · exact pr _ _ _ _ b c b1 c1
    · exact b.trans (by linarith)
    · simp; linarith
    · exact ng _ _ a
  have bd : ∀ i j, |E i j| ≤ 11 / 10 := by
    have m : ∀ x y : ℝ, |x| ≤ 1 → |y| ≤ 1 → |-x * y| ≤ 11 / 10 := by
      intro x y hx hy
      rw [abs_mul, abs_neg]
      exact (mul_le_mul hx hy (abs_nonneg _) (by norm_num)).trans (by norm_num)
    intro i j
    rw [hE]
    fin_cases i <;> fin_cases j <;>
      simp only [Matrix.of_apply, Fin.zero_eta, Fin.mk_one, Fin.reduceFinMk, Matrix.cons_val_zero, Matrix.cons_val_one, Matrix.cons_val]
    · exact m _ _ a1 d1
    · rw [abs_neg]; linarith
    · exact m _ _ b1 d1
    · exact m _ _ a1 c1
    · linarith
    · exact m _ _ b1 c1
    · linarith
    · simp; norm_num
    · rw [abs_neg]; linarith
  have ex : nearRot 0 E := by
    rw [hE]
    constructor
    · intro i j
      fin_cases i <;> fin_cases j <;>
        simp [Matrix.mul_apply, Matrix.transpose_apply, Fin.sum_univ_three]
      · linear_combination q ^ 2 * k1 + k2
      · linear_combination p * q * k1
      · ring
      · linear_combination p * q * k1
      · linear_combination p ^ 2 * k1 + k2
      · ring
      · ring
      · ring
      · linear_combination k1
    · rw [Matrix.det_fin_three]
      simp
      linear_combination k1 * (q ^ 2 + p ^ 2) + k2
  have := nearRot_of (by linarith : 8 * u ≤ 1 / 100) bd ent ex
  have e : 0 + 23 * (8 * u) ≤ 200 * u := by linarith
  exact ⟨fun i j => (this.1 i j).trans e, this.2.trans e⟩

/-- Quaternions built from angles have about unit length. -/
theorem euler_rsq (h : Accurate R u) (e : V3 (RR R)) : |rsq (eulerToQuat e) - 1| ≤ 1 / 50 := by
  have u0 := h.pos
  have u1 := h.small
  unfold eulerToQuat
  dsimp only
  simp only [rsq, v_add, v_sub, v_mul, v_sin, v_cos]
  generalize (e 0 / (Fl.lit 2 : RR R)).v = x
  generalize (e 1 / (Fl.lit 2 : RR R)).v = y
  generalize (e 2 / (Fl.lit 2 : RR R)).v = z
  have one : ∀ x, |R.sin x - Real.sin x| ≤ 1 * u ∧ |R.cos x - Real.cos x| ≤ 1 * u := fun x => by
    rw [one_mul]; exact ⟨h.sin x, h.cos x⟩
  have tri : ∀ a b c a' b' c' : ℝ, |a' - a| ≤ 1 * u → |b' - b| ≤ 1 * u → |c' - c| ≤ 1 * u → |a| ≤ 1 → |b| ≤ 1 → |c| ≤ 1 →
      |R.rnd (R.rnd (a' * b') * c') - a * b * c| ≤ 11 * u ∧ |a * b * c| ≤ 1 := by
    intro a b c a' b' c' ha hb hc ka kb kc
    have p1 := near_mul h ha hb ka kb (by norm_num) (by norm_num) (by norm_num) (by norm_num)
    have kab : |a * b| ≤ 1 := by rw [abs_mul]; exact mul_le_one₀ ka (abs_nonneg _) kb
    have p2 := near_mul h p1 hc kab kc (by norm_num) (by norm_num) (by norm_num) (by norm_num)
    exact ⟨weaken h p2 (by norm_num), by rw [abs_mul]; exact mul_le_one₀ kab (abs_nonneg _) kc⟩
  have ad : ∀ p q p' q' : ℝ, |p' - p| ≤ 11 * u ∧ |p| ≤ 1 → |q' - q| ≤ 11 * u ∧ |q| ≤ 1 →
      |R.rnd (p' + q') - (p + q)| ≤ 30 * u ∧ |p + q| ≤ 2 := by
    intro p q p' q' hp hq
    have b : |p + q| ≤ 2 := (bound2 hp.2 hq.2).trans (by norm_num)
    exact ⟨weaken h (near_add h hp.1 hq.1 b (by norm_num)) (by norm_num), b⟩
  have sb : ∀ p q p' q' : ℝ, |p' - p| ≤ 11 * u ∧ |p| ≤ 1 → |q' - q| ≤ 11 * u ∧ |q| ≤ 1 →
      |R.rnd (p' - q') - (p - q)| ≤ 30 * u ∧ |p - q| ≤ 2 := by
    intro p q p' q' hp hq
    have b : |p - q| ≤ 2 := (abs_sub _ _).trans (by linarith [hp.2, hq.2])
    exact ⟨weaken h (near_sub h hp.1 hq.1 b (by norm_num)) (by norm_num), b⟩
  have sx := one x
  have sy := one y
  have sz := one z
  have a1 := Real.abs_sin_le_one x
  have a2 := Real.abs_cos_le_one x
  have b1 := Real.abs_sin_le_one y
  have b2 := Real.abs_cos_le_one y
  have c1 := Real.abs_sin_le_one z
  have c2 := Real.abs_cos_le_one z
  have k1 := Real.sin_sq_add_cos_sq x
  have k2 := Real.sin_sq_add_cos_sq y
  have k3 := Real.sin_sq_add_cos_sq z
  have q1 := ad _ _ _ _ (tri _ _ _ _ _ _ sx.2 sy.2 sz.2 a2 b2 c2) (tri _ _ _ _ _ _ sx.1 sy.1 sz.1 a1 b1 c1)
  have q2 := sb _ _ _ _ (tri _ _ _ _ _ _ sx.1 sy.2 sz.2 a1 b2 c2) (tri _ _ _ _ _ _ sx.2 sy.1 sz.1 a2 b1 c1)
  have q3 := ad _ _ _ _ (tri _ _ _ _ _ _ sx.2 sy.1 sz.2 a2 b1 c2) (tri _ _ _ _ _ _ sx.1 sy.2 sz.1 a1 b2 c1)
  have q4 := sb _ _ _ _ (tri _ _ _ _ _ _ sx.2 sy.2 sz.1 a2 b2 c1) (tri _ _ _ _ _ _ sx.1 sy.1 sz.2 a1 b1 c2)
  have r := sq4 q1.1 q2.1 q3.1 q4.1 q1.2 q2.2 q3.2 q4.2
  generalize Real.sin x = s1 at *
  generalize Real.cos x = t1 at *
  generalize Real.sin y = s2 at *
  generalize Real.cos y = t2 at *
  generalize Real.sin z = s3 at *
  generalize Real.cos z = t3 at *
  have e1 : (t1 * t2 * t3 + s1 * s2 * s3) ^ 2 + (s1 * t2 * t3 - t1 * s2 * s3) ^ 2 + (t1 * s2 * t3 + s1 * t2 * s3) ^ 2 +
      (t1 * t2 * s3 - s1 * s2 * t3) ^ 2 = 1 := by
    have : (t1 * t2 * t3 + s1 * s2 * s3) ^ 2 + (s1 * t2 * t3 - t1 * s2 * s3) ^ 2 + (t1 * s2 * t3 + s1 * t2 * s3) ^ 2 +
      (t1 * t2 * s3 - s1 * s2 * t3) ^ 2 = (s1 ^ 2 + t1 ^ 2) * (s2 ^ 2 + t2 ^ 2) * (s3 ^ 2 + t3 ^ 2) := by ring
    rw [this, k1, k2, k3]; norm_num
  rw [e1] at r
  refine r.trans ?_
  have k : 30 * u ≤ 1 / 1000 := by linarith
  have k' := pow_le_pow_left₀ (by linarith : 0 ≤ 30 * u) k 2
  linarith

/-- Quaternions built from latitude and longitude have about unit length. -/
theorem lla_rsq (h : Accurate R u) (ll : LatLon (RR R)) : |rsq (llaToQne ll) - 1| ≤ 1 / 50 := by
  have u0 := h.pos
  have u1 := h.small
  unfold llaToQne
  dsimp only
  generalize -(Fl.lit (1 / 4) : RR R) * Fl.pi - Fl.lit (1 / 2) * ll.lat = x
  generalize (Fl.lit (1 / 2) : RR R) * ll.lon = y
  simp only [rsq, v_mul, v_sin, v_cos, v_neg]
  generalize x.v = x
  generalize y.v = y
  have one : ∀ x, |R.sin x - Real.sin x| ≤ 1 * u ∧ |R.cos x - Real.cos x| ≤ 1 * u := fun x => by
    rw [one_mul]; exact ⟨h.sin x, h.cos x⟩
  have two : ∀ a b a' b' : ℝ, |a' - a| ≤ 1 * u → |b' - b| ≤ 1 * u → |a| ≤ 1 → |b| ≤ 1 →
      |R.rnd (a' * b') - a * b| ≤ 6 * u ∧ |a * b| ≤ 1 := by
    intro a b a' b' ha hb ka kb
    have p1 := near_mul h ha hb ka kb (by norm_num) (by norm_num) (by norm_num) (by norm_num)
    exact ⟨weaken h p1 (by norm_num), by rw [abs_mul]; exact mul_le_one₀ ka (abs_nonneg _) kb⟩
  have sx := one x
  have sy := one y
  have a1 := Real.abs_sin_le_one x
  have a2 := Real.abs_cos_le_one x
  have b1 := Real.abs_sin_le_one y
  have b2 := Real.abs_cos_le_one y
  have k1 := Real.sin_sq_add_cos_sq x
  have k2 := Real.sin_sq_add_cos_sq y
  have q1 := two _ _ _ _ sx.2 sy.2 a2 b2
  have q2 := two (-Real.sin x) _ (-R.sin x) _ (by rw [neg_sub_neg, abs_sub_comm]; exact sx.1) sy.1 (by rwa [abs_neg]) b1
  have q3 := two _ _ _ _ sx.1 sy.2 a1 b2
  have q4 := two _ _ _ _ sx.2 sy.1 a2 b1
  have r := sq4 q1.1 q2.1 q3.1 q4.1 q1.2 q2.2 q3.2 q4.2
  have e1 : (Real.cos x * Real.cos y) ^ 2 + (-Real.sin x * Real.sin y) ^ 2 + (Real.sin x * Real.cos y) ^ 2 + (Real.cos x * Real.sin y) ^ 2 = 1 := by
    have : (Real.cos x * Real.cos y) ^ 2 + (-Real.sin x * Real.sin y) ^ 2 + (Real.sin x * Real.cos y) ^ 2 + (Real.cos x * Real.sin y) ^ 2 =
      (Real.sin x ^ 2 + Real.cos x ^ 2) * (Real.sin y ^ 2 + Real.cos y ^ 2) := by ring
    rw [this, k1, k2]; norm_num
  rw [e1] at r
  refine r.trans ?_
  have k : 6 * u ≤ 1 / 1000 := by linarith
  have k' := pow_le_pow_left₀ (by linarith : 0 ≤ 6 * u) k 2
  linarith

/-- About unit length. -/
def about (q : Quat (RR R)) : Prop := |rsq q - 1| ≤ 1 / 50

theorem conj_rsq (q : Quat (RR R)) : rsq q.conj = rsq q := by
  simp only [rsq, Quat.conj, v_neg, neg_sq]
theorem prod2_near (h : Accurate R u) {a q : Quat (RR R)} (ha : about a) (hq : about q) : |rsq (a.mul q).normalized - 1| ≤ 60 * u := by
  have ha := abs_le.1 ha
  have hq := abs_le.1 hq
  have m := abs_le.1 (mul_rsq h a q (by linarith) (by linarith))
  refine normalized_near h _ ?_ ?_ <;> nlinarith [m.1, m.2]
theorem prod3_near (h : Accurate R u) {a q b : Quat (RR R)} (ha : about a) (hq : about q) (hb : about b) :
    |rsq ((a.mul q).mul b).normalized - 1| ≤ 60 * u := by
  have ha := abs_le.1 ha
  have hq := abs_le.1 hq
  have hb := abs_le.1 hb
  have m := abs_le.1 (mul_rsq h a q (by linarith) (by linarith))
  have l1 : 959 / 1000 ≤ rsq (a.mul q) := by nlinarith [m.1]
  have l2 : rsq (a.mul q) ≤ 1042 / 1000 := by nlinarith [m.2]
  have n := abs_le.1 (mul_rsq h (a.mul q) b (by linarith) (by linarith))
  refine normalized_near h _ ?_ ?_ <;> nlinarith [n.1, n.2]
theorem tight_about (h : Accurate R u) {q : Quat (RR R)} (hq : |rsq q - 1| ≤ 60 * u) : about q :=
  hq.trans (by linarith [h.small])

/-- What the epoch carries is a rotation up to rounding. -/
structure Sound (u : ℝ) (n : NavEpoch (RR R)) : Prop where
  qbn : |rsq n.Qbn - 1| ≤ 60 * u
  qne : |rsq n.Qne - 1| ≤ 60 * u
  cbn : nearRot (1500 * u) (reM n.Cbn)
  cne : nearRot (200 * u) (reM n.Cne)

/-- Quaternions of about unit length. -/
def Fit (n : NavEpoch (RR R)) : Prop := about n.Qbn ∧ about n.Qne

theorem sound_fit (h : Accurate R u) {n : NavEpoch (RR R)} (hn : Sound u n) : Fit n := ⟨tight_about h hn.qbn, tight_about h hn.qne⟩

theorem forward_sound (h : Accurate R u) (g : RR R) (s : Ins (RR R)) (m : Imu (RR R)) (hf : Fit s.nav) :
    Sound u (s.forwardImu g m).2.nav := by
  unfold Ins.forwardImu Ins.forward
  dsimp only
  have e1 : s.extrapolate.2.nav = s.nav := rfl
  generalize s.extrapolate = e at e1
  have e2 : ∀ (a b : V3 (RR R)), (Ins.velocityUpdate e.1 e.2 a b).nav.Qbn = s.nav.Qbn ∧
      (Ins.velocityUpdate e.1 e.2 a b).nav.Qne = s.nav.Qne := fun a b => by rw [← e1]; exact ⟨rfl, rfl⟩
  generalize Ins.compensate s.dt m.acce s.nav.ab s.nav.as = a
  generalize Ins.compensate s.dt m.gyro s.nav.gb s.nav.gs = b
  have e2 := e2 a b
  generalize Ins.velocityUpdate e.1 e.2 a b = v at e2
  have p : |rsq v.positionUpdate.nav.Qne - 1| ≤ 60 * u :=
    prod3_near h (by unfold about; rw [conj_rsq]; exact rv_rsq h _) (by rw [e2.2]; exact hf.2) (rv_rsq h _)
  have p2 : nearRot (200 * u) (reM v.positionUpdate.nav.Cne) := cne_near h _
  have q : v.positionUpdate.nav.Qbn = s.nav.Qbn := e2.1
  generalize v.positionUpdate = w at p p2 q
  have r : |rsq (w.attiUpdate b).nav.Qbn - 1| ≤ 60 * u :=
    prod3_near h (by unfold about; rw [conj_rsq]; exact rv_rsq h _) (by rw [q]; exact hf.1) (rv_rsq h _)
  exact ⟨r, p, dcm_near h _ r, p2⟩

theorem feedBack_fit (h : Accurate R u) (f : Fusion (RR R)) (x : Fin 15 → RR R) (hf : Fit f.ins.nav) : Fit (f.feedBack x).ins.nav := by
  have a : |rsq (f.feedBack x).ins.nav.Qbn - 1| ≤ 60 * u := prod2_near h (rv_rsq h _) hf.1
  have b : |rsq (f.feedBack x).ins.nav.Qne - 1| ≤ 60 * u := prod2_near h hf.2 (rv_rsq h _)
  exact ⟨tight_about h a, tight_about h b⟩
theorem correct_fit (h : Accurate R u) (f : Fusion (RR R)) (hf : Fit f.ins.nav) : Fit f.takeCorrection.applyCorrection.ins.nav := by
  have h1 : Fit f.takeCorrection.ins.nav := by unfold Fusion.takeCorrection; split_ifs <;> exact hf
  generalize f.takeCorrection = f1 at h1
  unfold Fusion.applyCorrection
  split_ifs
  · exact feedBack_fit h f1 _ h1
  · exact h1
theorem timeUpdate_sound (h : Accurate R u) (g : RR R) (f : Fusion (RR R)) (m : Imu (RR R)) (hf : Fit f.ins.nav) :
    Sound u (f.timeUpdate g m).2.ins.nav := by
  obtain ⟨i, hi⟩ := Fusion.timeUpdate_ins g f m
  have h1 := correct_fit h f hf
  rw [hi]
  generalize f.takeCorrection.applyCorrection = f1 at h1
  have k := forward_sound h g f1.ins m h1
  exact ⟨k.qbn, k.qne, k.cbn, k.cne⟩
theorem meas_fit {f f' : Fusion (RR R)} (k : MeasKeeps f f') (h : Fit f.ins.nav) : Fit f'.ins.nav := by
  obtain ⟨i, hi⟩ := k.ins
  rw [hi]
  exact h

/-- C127 for the filter object: however many samples and measurements are processed, and however the last place of every
operation is rounded, after a time update the attitude and position quaternions have unit length and the matrices are proper
rotations up to a fixed multiple of one rounding error. The bound does not depend on the length of the history. -/
theorem C127_filter (h : Accurate R u) (g : RR R) (junk : Fusion (RR R)) (nav : NavEpoch (RR R)) (o : Opt (RR R))
    (cs : List (FCall (RR R))) (m : Imu (RR R)) (hn : |rsq nav.Qbn - 1| ≤ 1 / 50 ∧ |rsq nav.Qne - 1| ≤ 1 / 50) :
    Sound u (frun (cs ++ [.time m]) (fstart g junk nav o)).2.ins.nav := by
  rw [frun_append]
  have key : ∀ (cs : List (FCall (RR R))) (s : RR R × Fusion (RR R)), Fit s.2.ins.nav → Fit (frun cs s).2.ins.nav := by
    intro cs
    induction cs with
    | nil => intro s h; exact h
    | cons c cs ih =>
      intro s hf
      refine ih _ ?_
      cases c with
      | time m => exact sound_fit h (timeUpdate_sound h s.1 s.2 m hf)
      | gnss m => exact meas_fit (meas_gnss _ m) hf
      | pos p R => exact meas_fit (meas_pos _ p R) hf
      | vel v => exact meas_fit (meas_vel _ v) hf
      | speed v => exact meas_fit (meas_vel _ _) hf
      | height x => exact meas_fit (meas_height _ x) hf
  have hk := key cs (fstart g junk nav o) hn
  generalize frun cs (fstart g junk nav o) = s at hk
  exact timeUpdate_sound h s.1 s.2 m hk

/-- The hypotheses hold for every epoch made from angles and a position. -/
theorem C127_start (h : Accurate R u) (n : NavOutput (RR R)) (o : Opt (RR R)) :
    |rsq (makeNavEpoch n o).Qbn - 1| ≤ 1 / 50 ∧ |rsq (makeNavEpoch n o).Qne - 1| ≤ 1 / 50 :=
  ⟨euler_rsq h _, lla_rsq h _⟩

/-- What an instance keeps. -/
structure RInv (d : Dev (RR R)) : Prop where
  am : Fit d.am.nav
  df : d.status = ST_NAVIGATION → Fit d.df.ins.nav

theorem rinv_am_imu (h : Accurate R u) (a : Align (RR R)) (m : Imu (RR R)) (hf : Fit a.nav) : Fit (a.updateImu m).nav := by
  unfold Align.updateImu
  dsimp only
  split_ifs
  · exact hf
  · exact hf
  · exact ⟨euler_rsq h _, hf.2⟩
theorem rinv_am_gnss (h : Accurate R u) (g : RR R) (a : Align (RR R)) (m : Gnss (RR R)) (hf : Fit a.nav) : Fit (a.updateGnss g m).2.nav := by
  unfold Align.updateGnss
  split_ifs
  · exact hf
  · exact ⟨euler_rsq h _, lla_rsq h _⟩
theorem rinv_time (h : Accurate R u) (g : RR R) (d : Dev (RR R)) (m : Imu (RR R)) (hd : RInv d) : RInv (rgioeTimeupdate g d (some m)).2.2 := by
  have ha := rinv_am_imu h d.am m hd.am
  have h1 := sound_fit h (timeUpdate_sound h (d.df.initFusion g (makeNavEpoch d.curPva d.opt) d.opt).1
    (d.df.initFusion g (makeNavEpoch d.curPva d.opt) d.opt).2 m (C127_start h d.curPva d.opt))
  have h2 : Fit (d.df.initFusion g (d.am.updateImu m).nav d.opt).2.ins.nav := ha
  unfold rgioeTimeupdate
  dsimp only
  generalize d.df.initFusion g (d.am.updateImu m).nav d.opt = a2 at *
  generalize Fusion.timeUpdate _ (d.df.initFusion g (makeNavEpoch d.curPva d.opt) d.opt).2 m = a3 at *
  split_ifs with c1 c2 c3 c4 c5 c6 c7
  · exact ⟨hd.am, fun _ => h1⟩
  · exact ⟨ha, fun hs => by simp [ST_ALIGN, ST_NAVIGATION] at hs⟩
  · exact ⟨ha, fun hs => by simp [ST_ATTITUDE, ST_NAVIGATION] at hs⟩
  · exact ⟨ha, fun hs => hd.df hs⟩
  · exact ⟨ha, fun _ => h2⟩
  · exact ⟨ha, fun hs => hd.df hs⟩
  · exact ⟨hd.am, fun _ => sound_fit h (timeUpdate_sound h g d.df m (hd.df c7))⟩
  · exact hd
theorem rinv_gnss (h : Accurate R u) (g : RR R) (d : Dev (RR R)) (m : Gnss (RR R)) (hd : RInv d) : RInv (rgioeGnssupdate g d (some m)).2.2 := by
  have ha := rinv_am_gnss h g d.am m hd.am
  unfold rgioeGnssupdate
  dsimp only
  generalize d.am.updateGnss g m = r at *
  split_ifs with c1 c2 c3
  · exact hd
  · exact ⟨ha, fun hs => hd.df hs⟩
  · exact ⟨hd.am, fun hs => meas_fit (meas_gnss d.df m) (hd.df hs)⟩
  · exact hd
theorem rinv_init (h : Accurate R u) (junk : Junk (RR R)) (d0 : Dev (RR R)) (o : Opt (RR R)) (nav : Option (NavOutput (RR R))) (e : Int)
    (d : Dev (RR R)) (hd : e = E_OK) (hi : rgioeInit junk d0 (some o) nav = some (e, d)) : RInv d := by
  have hz : Fit (Align.new junk.am o).nav := ⟨euler_rsq h _, lla_rsq h _⟩
  unfold rgioeInit at hi
  dsimp only at hi
  split_ifs at hi
  · simp only [Option.some.injEq, Prod.mk.injEq] at hi
    rw [hd] at hi
    simp [E_FAULT_CONFIG, E_OK] at hi
  · simp only [Option.some.injEq, Prod.mk.injEq] at hi
    obtain ⟨_, rfl⟩ := hi
    cases nav <;> exact ⟨hz, fun hs => by simp [ST_INIT, ST_NAVIGATION] at hs⟩

/-- Histories without another `rgioe_init` that is rejected. -/
def initsFine : List (Call (RR R)) → Prop
  | [] => True
  | .init o nav _ :: cs => ¬ (o.alignMode = 2 ∧ nav = none) ∧ initsFine cs
  | _ :: cs => initsFine cs

theorem rinv_run (h : Accurate R u) (cs : List (Call (RR R))) (s : RR R × Dev (RR R)) (hc : initsFine cs) (hd : RInv s.2) :
    RInv (runCalls cs s).2 := by
  induction cs generalizing s with
  | nil => exact hd
  | cons c cs ih =>
    rcases c with ⟨o, n, j⟩ | (_ | m) | (_ | m) | _ | _ | _ | _ | p | _
    · refine ih _ hc.2 ?_
      show RInv (Call.exec (.init o n j) s).1.2
      simp only [Call.exec]
      cases hi : rgioeInit j s.2 (some o) n with
      | none => exact hd
      | some r =>
        refine rinv_init h j s.2 o n r.1 r.2 ?_ hi
        unfold rgioeInit at hi
        dsimp only at hi
        rw [if_neg (by rintro ⟨a, b⟩; exact hc.1 ⟨a, by simpa using b⟩)] at hi
        simp only [Option.some.injEq] at hi
        rw [← hi]
    · exact ih _ hc hd
    · exact ih _ hc (rinv_time h s.1 s.2 m hd)
    · exact ih _ hc hd
    · exact ih _ hc (rinv_gnss h s.1 s.2 m hd)
    · exact ih _ hc hd
    · exact ih _ hc hd
    · exact ih _ hc hd
    · exact ih _ hc hd
    · exact ih _ hc hd
    · exact ih _ hc hd

/-- C127 for the C interface: after a successful `rgioe_init`, any history of calls and one more IMU sample that is
given in NAVIGATION or starts it from given values, attitude and position are rotations up to a fixed multiple of one
rounding error, whatever the numbers fed in and however long the history. -/
theorem C127_api (h : Accurate R u) (junk : Junk (RR R)) (d0 d : Dev (RR R)) (o : Opt (RR R)) (nav : Option (NavOutput (RR R))) (g : RR R)
    (hi : rgioeInit junk d0 (some o) nav = some (E_OK, d)) (cs : List (Call (RR R))) (hcs : initsFine cs) (m : Imu (RR R))
    (hs : (runCalls cs (g, d)).2.status = ST_NAVIGATION ∨
      ((runCalls cs (g, d)).2.status = ST_INIT ∧ (runCalls cs (g, d)).2.opt.alignMode = ALIGN_USE_GIVEN)) :
    (runCalls (cs ++ [.time (some m)]) (g, d)).2.status = ST_NAVIGATION ∧
    Sound u (runCalls (cs ++ [.time (some m)]) (g, d)).2.df.ins.nav := by
  have hq := rinv_run h cs (g, d) hcs (rinv_init h junk d0 o nav E_OK d rfl hi)
  have en : (runCalls (cs ++ [.time (some m)]) (g, d)).2.df.ins.nav =
      (rgioeTimeupdate (runCalls cs (g, d)).1 (runCalls cs (g, d)).2 (some m)).2.2.df.ins.nav := by
    simp only [runCalls_append]; rfl
  have es : (runCalls (cs ++ [.time (some m)]) (g, d)).2.status =
      (rgioeTimeupdate (runCalls cs (g, d)).1 (runCalls cs (g, d)).2 (some m)).2.2.status := by
    simp only [runCalls_append]; rfl
  rw [es, en]
  generalize runCalls cs (g, d) = s at *
  rcases hs with hs | ⟨hs, hm⟩
  · have e : rgioeTimeupdate s.1 s.2 (some m) = (E_OK, (s.2.df.timeUpdate s.1 m).1, { s.2 with df := (s.2.df.timeUpdate s.1 m).2 }) := by
      unfold rgioeTimeupdate
      dsimp only
      rw [if_neg (by rw [hs]; decide), if_neg (by rw [hs]; decide), if_neg (by rw [hs]; decide), if_pos hs]
    rw [e]
    exact ⟨hs, timeUpdate_sound h s.1 s.2.df m (hq.df hs)⟩
  · have e : rgioeTimeupdate s.1 s.2 (some m) =
        (E_OK, (Fusion.timeUpdate (s.2.df.initFusion s.1 (makeNavEpoch s.2.curPva s.2.opt) s.2.opt).1
          (s.2.df.initFusion s.1 (makeNavEpoch s.2.curPva s.2.opt) s.2.opt).2 m).1,
          { s.2 with df := (Fusion.timeUpdate (s.2.df.initFusion s.1 (makeNavEpoch s.2.curPva s.2.opt) s.2.opt).1
            (s.2.df.initFusion s.1 (makeNavEpoch s.2.curPva s.2.opt) s.2.opt).2 m).2, status := ST_NAVIGATION }) := by
      unfold rgioeTimeupdate
      dsimp only
      rw [if_pos hs, if_pos hm]
    rw [e]
    exact ⟨rfl, timeUpdate_sound h (s.2.df.initFusion s.1 (makeNavEpoch s.2.curPva s.2.opt) s.2.opt).1 _ m
      (C127_start h s.2.curPva s.2.opt)⟩

/-- Truncation to a grid of step `u`, with sine and cosine truncated too: a rounding the theorems apply to that really rounds. -/
noncomputable def grid (u : ℝ) : Rounding where
  rnd x := ⌊x / u⌋ * u
  sin x := ⌊Real.sin x / u⌋ * u
  cos x := ⌊Real.cos x / u⌋ * u
  tan := Real.tan
  asin := Real.arcsin
  atan := Real.arctan
  atan2 y x := Complex.arg ⟨x, y⟩
  pow x y := x ^ y
  f32 := id
  nan := 0
  minv A := A⁻¹
theorem grid_accurate (u : ℝ) (h0 : 0 < u) (h1 : u ≤ 1 / 1000000) : Accurate (grid u) u := by
  have key : ∀ x : ℝ, |⌊x / u⌋ * u - x| ≤ u := by
    intro x
    have a := Int.floor_le (x / u)
    have b := Int.lt_floor_add_one (x / u)
    rw [le_div_iff₀ h0] at a
    rw [div_lt_iff₀ h0] at b
    rw [abs_le]
    constructor <;> nlinarith
  refine ⟨h0.le, h1, fun x => (key x).trans ?_, fun x => key _, fun x => key _⟩
  have := abs_nonneg x
  nlinarith

/-- The hypotheses are met, by arithmetic that rounds: an instance started from given values, at its first sample. -/
example (n : NavOutput (RR (grid (1 / 1000000)))) (o : Opt (RR (grid (1 / 1000000)))) (j : Junk (RR (grid (1 / 1000000))))
    (d0 : Dev (RR (grid (1 / 1000000)))) (ho : o.alignMode = 2) :
    Accurate (grid (1 / 1000000)) (1 / 1000000) ∧ ∃ d, rgioeInit j d0 (some o) (some n) = some (E_OK, d) ∧
    (runCalls [] (0, d)).2.status = ST_INIT ∧ (runCalls [] (0, d)).2.opt.alignMode = ALIGN_USE_GIVEN := by
  refine ⟨grid_accurate _ (by norm_num) (by norm_num), ?_⟩
  unfold rgioeInit
  dsimp only
  rw [if_neg (by simp)]
  exact ⟨_, rfl, rfl, ho⟩
end Verif.Props
