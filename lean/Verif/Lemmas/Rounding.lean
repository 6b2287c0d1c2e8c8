import Verif.Spec.Rounding
import Verif.Lemmas.Rotation
import Mathlib.Analysis.Real.Pi.Bounds
import Mathlib.Tactic.Linarith
import Mathlib.Tactic.Ring
import Mathlib.Tactic.NormNum
import Mathlib.Tactic.Positivity
import Mathlib.Tactic.FieldSimp
import Mathlib.Tactic.GCongr
import Mathlib.Tactic.LinearCombination
/-! Error bounds for rounded arithmetic. -/
namespace Verif.Rnd
open Verif Verif.Spec
variable {R : Rounding} {u : ℝ}

@[simp] theorem v_add (a b : RR R) : (a + b).v = R.rnd (a.v + b.v) := rfl
@[simp] theorem v_sub (a b : RR R) : (a - b).v = R.rnd (a.v - b.v) := rfl
@[simp] theorem v_mul (a b : RR R) : (a * b).v = R.rnd (a.v * b.v) := rfl
@[simp] theorem v_div (a b : RR R) : (a / b).v = R.rnd (a.v / b.v) := rfl
@[simp] theorem v_neg (a : RR R) : (-a).v = -a.v := rfl
@[simp] theorem v_zero : (0 : RR R).v = 0 := rfl
@[simp] theorem v_one : (1 : RR R).v = 1 := rfl
@[simp] theorem v_lit (q : ℚ) : (Fl.lit q : RR R).v = R.rnd (q : ℝ) := rfl
@[simp] theorem v_pi : (Fl.pi : RR R).v = R.rnd Real.pi := rfl
@[simp] theorem v_sin (a : RR R) : (Fl.sin a).v = R.sin a.v := rfl
@[simp] theorem v_cos (a : RR R) : (Fl.cos a).v = R.cos a.v := rfl
@[simp] theorem v_sqrt (a : RR R) : (Fl.sqrt a).v = R.rnd (Real.sqrt a.v) := rfl
theorem lt_iff (a b : RR R) : Fl.lt a b = true ↔ a.v < b.v := by
  show @decide (a.v < b.v) (Classical.propDecidable _) = true ↔ _
  exact @decide_eq_true_iff _ (Classical.propDecidable _)

/-- Rounding an approximation. -/
theorem near (h : Accurate R u) {x y k B : ℝ} (hx : |x - y| ≤ k * u) (hB : |y| ≤ B) (hk : k ≤ 1000000) :
    |R.rnd x - y| ≤ (k + B + 2) * u := by
  have h0 := h.pos
  have h1 := h.rnd x
  have h2 : |x| ≤ B + 1 := by
    have : k * u ≤ 1 := by
      have := h.small
      nlinarith
    have e : x = y + (x - y) := by ring
    rw [e]
    exact (abs_add_le _ _).trans (by linarith)
  calc |R.rnd x - y| = |(R.rnd x - x) + (x - y)| := by ring_nf
    _ ≤ |R.rnd x - x| + |x - y| := abs_add_le _ _
    _ ≤ u * (|x| + 1) + k * u := by linarith
    _ ≤ (k + B + 2) * u := by nlinarith
theorem near0 (h : Accurate R u) {x B : ℝ} (hB : |x| ≤ B) : |R.rnd x - x| ≤ (B + 1) * u := by
  have := h.rnd x
  have h0 := h.pos
  nlinarith
theorem lit_near (h : Accurate R u) (q : ℝ) (hq : 0 ≤ q) : |R.rnd q - q| ≤ (q + 1) * u := near0 h (abs_of_nonneg hq).le

/-- Weakening a bound. -/
theorem weaken (h : Accurate R u) {x y k l : ℝ} (hx : |x - y| ≤ k * u) (hk : k ≤ l) : |x - y| ≤ l * u :=
  hx.trans (mul_le_mul_of_nonneg_right hk h.pos)

theorem near_add (h : Accurate R u) {x y x' y' k k' B : ℝ} (hx : |x - y| ≤ k * u) (hx' : |x' - y'| ≤ k' * u)
    (hB : |y + y'| ≤ B) (hk : k + k' ≤ 1000000) : |R.rnd (x + x') - (y + y')| ≤ (k + k' + B + 2) * u := by
  refine near h (k := k + k') ?_ hB hk
  have e : x + x' - (y + y') = (x - y) + (x' - y') := by ring
  rw [e]
  exact (abs_add_le _ _).trans (by linarith)
theorem near_sub (h : Accurate R u) {x y x' y' k k' B : ℝ} (hx : |x - y| ≤ k * u) (hx' : |x' - y'| ≤ k' * u)
    (hB : |y - y'| ≤ B) (hk : k + k' ≤ 1000000) : |R.rnd (x - x') - (y - y')| ≤ (k + k' + B + 2) * u := by
  have := near_add h (x' := -x') (y' := -y') (k' := k') (B := B) hx (by rw [neg_sub_neg, abs_sub_comm]; exact hx')
    (by rw [← sub_eq_add_neg]; exact hB) hk
  rwa [← sub_eq_add_neg, ← sub_eq_add_neg] at this
theorem prod_close (h : Accurate R u) {x y x' y' k k' B B' : ℝ} (hx : |x - y| ≤ k * u) (hx' : |x' - y'| ≤ k' * u)
    (hB : |y| ≤ B) (hB' : |y'| ≤ B') (hk : 0 ≤ k) (hk' : 0 ≤ k') (hkk : k * k' ≤ 1000000) :
    |x * x' - y * y'| ≤ (k * B' + k' * B + 1) * u := by
  have h0 := h.pos
  have e : x * x' - y * y' = (x - y) * y' + y * (x' - y') + (x - y) * (x' - y') := by ring
  have a1 : |(x - y) * y'| ≤ k * u * B' := by rw [abs_mul]; gcongr
  have a2 : |y * (x' - y')| ≤ B * (k' * u) := by
    rw [abs_mul]; gcongr
    exact (abs_nonneg _).trans hB
  have a3 : |(x - y) * (x' - y')| ≤ k * u * (k' * u) := by rw [abs_mul]; gcongr
  have a4 : k * u * (k' * u) ≤ u := by
    have h1 := h.small
    have : k * u * (k' * u) = (k * k' * u) * u := by ring
    rw [this]
    have : k * k' * u ≤ 1 := by
      have : k * k' * u ≤ 1000000 * u := mul_le_mul_of_nonneg_right hkk h0
      linarith
    nlinarith
  rw [e]
  calc |(x - y) * y' + y * (x' - y') + (x - y) * (x' - y')|
      ≤ |(x - y) * y'| + |y * (x' - y')| + |(x - y) * (x' - y')| :=
        (abs_add_le _ _).trans (add_le_add_left (abs_add_le _ _) _)
    _ ≤ _ := by linarith
theorem near_mul (h : Accurate R u) {x y x' y' k k' B B' : ℝ} (hx : |x - y| ≤ k * u) (hx' : |x' - y'| ≤ k' * u)
    (hB : |y| ≤ B) (hB' : |y'| ≤ B') (hk : 0 ≤ k) (hk' : 0 ≤ k') (hkk : k * k' ≤ 1000000)
    (hs : k * B' + k' * B + 1 ≤ 1000000) :
    |R.rnd (x * x') - y * y'| ≤ (k * B' + k' * B + B * B' + 3) * u := by
  have := near h (B := B * B') (prod_close h hx hx' hB hB' hk hk' hkk)
    (by rw [abs_mul]; exact mul_le_mul hB hB' (abs_nonneg _) ((abs_nonneg _).trans hB)) hs
  exact weaken h this (by linarith)
/-- Division by a literal that is at least 2. -/
theorem near_div_lit (h : Accurate R u) {x y k B c : ℝ} (hx : |x - y| ≤ k * u) (hB : |y| ≤ B) (hc : 2 ≤ c)
    (hk : k + 2 * B ≤ 1000000) : |R.rnd (x / R.rnd c) - y / c| ≤ (k + 3 * B + 2) * u := by
  have h0 := h.pos
  have h1 := h.small
  have hB0 : 0 ≤ B := (abs_nonneg _).trans hB
  have l := lit_near h c (by linarith)
  have l2 : c / 2 ≤ R.rnd c := by
    have := (abs_le.1 l).1
    nlinarith
  have cp : 0 < c := by linarith
  have dp : 0 < R.rnd c := by linarith
  have d1 : 1 ≤ R.rnd c := by linarith
  have key : |x / R.rnd c - y / c| ≤ (k + 2 * B) * u := by
    have e : x / R.rnd c - y / c = ((x - y) - y * ((R.rnd c - c) / c)) / R.rnd c := by field_simp; ring
    rw [e, abs_div, abs_of_pos dp]
    refine (div_le_self (abs_nonneg _) d1).trans ?_
    have e2 : |(R.rnd c - c) / c| ≤ 2 * u := by
      rw [abs_div, abs_of_pos cp, div_le_iff₀ cp]
      refine l.trans ?_
      nlinarith
    have e3 : |y * ((R.rnd c - c) / c)| ≤ B * (2 * u) := by
      rw [abs_mul]; gcongr
    exact (abs_sub _ _).trans (by linarith)
  have := near h (B := B) key (by
    rw [abs_div, abs_of_pos cp]
    exact (div_le_self (abs_nonneg _) (by linarith)).trans hB) hk
  exact weaken h this (by linarith)

/-- Sums of four rounded products, added up in any of the two signs, by the sequence of roundings of the code. -/
theorem sum4 (h : Accurate R u) {p1 p2 p3 p4 e1 e2 e3 e4 k B : ℝ} (h1 : |p1 - e1| ≤ k * u) (h2 : |p2 - e2| ≤ k * u)
    (h3 : |p3 - e3| ≤ k * u) (h4 : |p4 - e4| ≤ k * u) (b2 : |e1 + e2| ≤ B) (b3 : |e1 + e2 + e3| ≤ B)
    (b4 : |e1 + e2 + e3 + e4| ≤ B) (hB : 0 ≤ B) (hk : 0 ≤ k) (hs : 4 * k + 3 * B + 6 ≤ 1000000) :
    |R.rnd (R.rnd (R.rnd (p1 + p2) + p3) + p4) - (e1 + e2 + e3 + e4)| ≤ (4 * k + 3 * B + 6) * u := by
  have s1 := near_add h h1 h2 b2 (by linarith)
  have s2 := near_add h s1 h3 b3 (by linarith)
  have s3 := near_add h s2 h4 b4 (by linarith)
  exact weaken h s3 (by linarith)

/-- Four numbers off by little: the sum of the squares. -/
theorem sq4 {d B x1 x2 x3 x4 y1 y2 y3 y4 : ℝ} (h1 : |x1 - y1| ≤ d) (h2 : |x2 - y2| ≤ d) (h3 : |x3 - y3| ≤ d)
    (h4 : |x4 - y4| ≤ d) (b1 : |y1| ≤ B) (b2 : |y2| ≤ B) (b3 : |y3| ≤ B) (b4 : |y4| ≤ B) :
    |x1 ^ 2 + x2 ^ 2 + x3 ^ 2 + x4 ^ 2 - (y1 ^ 2 + y2 ^ 2 + y3 ^ 2 + y4 ^ 2)| ≤ 8 * B * d + 4 * d ^ 2 := by
  have key : ∀ x y : ℝ, |x - y| ≤ d → |y| ≤ B → |x ^ 2 - y ^ 2| ≤ 2 * B * d + d ^ 2 := by
    intro x y hx hy
    have d0 : 0 ≤ d := (abs_nonneg _).trans hx
    have B0 : 0 ≤ B := (abs_nonneg _).trans hy
    have e : x ^ 2 - y ^ 2 = 2 * y * (x - y) + (x - y) ^ 2 := by ring
    rw [e]
    have a : |2 * y * (x - y)| ≤ 2 * B * d := by
      rw [abs_mul, abs_mul, abs_of_pos (by norm_num : (0:ℝ) < 2)]
      gcongr
    have b : |(x - y) ^ 2| ≤ d ^ 2 := by rw [abs_pow]; gcongr
    exact (abs_add_le _ _).trans (by linarith)
  have k1 := abs_le.1 (key _ _ h1 b1)
  have k2 := abs_le.1 (key _ _ h2 b2)
  have k3 := abs_le.1 (key _ _ h3 b3)
  have k4 := abs_le.1 (key _ _ h4 b4)
  rw [abs_le]
  constructor <;> linarith [k1.1, k1.2, k2.1, k2.2, k3.1, k3.2, k4.1, k4.2]

/-- The coefficients of a computed quaternion, as exact numbers. -/
def re (q : Quat (RR R)) : Quat ℝ := ⟨q.w.v, q.x.v, q.y.v, q.z.v⟩
theorem rsq_re (q : Quat (RR R)) : rsq q = qsq (re q) := by simp only [rsq, qsq, re]
theorem comp_bound (q : Quat ℝ) {N b : ℝ} (h : qsq q ≤ N) (hb : N ≤ b ^ 2) (b0 : 0 ≤ b) :
    |q.w| ≤ b ∧ |q.x| ≤ b ∧ |q.y| ≤ b ∧ |q.z| ≤ b := by
  have h' : q.w ^ 2 + q.x ^ 2 + q.y ^ 2 + q.z ^ 2 ≤ b ^ 2 := by
    have : qsq q = q.w ^ 2 + q.x ^ 2 + q.y ^ 2 + q.z ^ 2 := by simp only [qsq]
    linarith
  refine ⟨?_, ?_, ?_, ?_⟩ <;> refine abs_le_of_sq_le_sq ?_ b0 <;> nlinarith [sq_nonneg q.w, sq_nonneg q.x, sq_nonneg q.y, sq_nonneg q.z]

/-- One rounded product of two coefficients. -/
theorem prod1 (h : Accurate R u) {a b : ℝ} (ha : |a| ≤ 3 / 2) (hb : |b| ≤ 3 / 2) : |R.rnd (a * b) - a * b| ≤ 4 * u := by
  have : |a * b| ≤ 3 := by rw [abs_mul]; nlinarith [abs_nonneg a, abs_nonneg b]
  exact weaken h (near0 h this) (by norm_num)
theorem bound2 {a b B C : ℝ} (h1 : |a| ≤ B) (h2 : |b| ≤ C) : |a + b| ≤ B + C := (abs_add_le _ _).trans (add_le_add h1 h2)
theorem prod_bound {a b : ℝ} (ha : |a| ≤ 3 / 2) (hb : |b| ≤ 3 / 2) : |a * b| ≤ 9 / 4 := by
  rw [abs_mul]; nlinarith [abs_nonneg a, abs_nonneg b]

/-- Signed sum of four products of coefficients. -/
theorem dot4 (h : Accurate R u) {a1 a2 a3 a4 b1 b2 b3 b4 : ℝ} (ha1 : |a1| ≤ 3 / 2) (ha2 : |a2| ≤ 3 / 2) (ha3 : |a3| ≤ 3 / 2)
    (ha4 : |a4| ≤ 3 / 2) (hb1 : |b1| ≤ 3 / 2) (hb2 : |b2| ≤ 3 / 2) (hb3 : |b3| ≤ 3 / 2) (hb4 : |b4| ≤ 3 / 2)
    {s2 s3 s4 : ℝ} (g2 : s2 = 1 ∨ s2 = -1) (g3 : s3 = 1 ∨ s3 = -1) (g4 : s4 = 1 ∨ s4 = -1) :
    |R.rnd (R.rnd (R.rnd (R.rnd (a1 * b1) + s2 * R.rnd (a2 * b2)) + s3 * R.rnd (a3 * b3)) + s4 * R.rnd (a4 * b4)) -
      (a1 * b1 + s2 * (a2 * b2) + s3 * (a3 * b3) + s4 * (a4 * b4))| ≤ 50 * u := by
  have sg : ∀ s x y : ℝ, (s = 1 ∨ s = -1) → |x - y| ≤ 4 * u → |s * x - s * y| ≤ 4 * u := by
    intro s x y hs hx
    rw [← mul_sub, abs_mul]
    rcases hs with rfl | rfl <;> simpa using hx
  have sb : ∀ s x : ℝ, (s = 1 ∨ s = -1) → |x| ≤ 9 / 4 → |s * x| ≤ 9 / 4 := by
    intro s x hs hx
    rw [abs_mul]
    rcases hs with rfl | rfl <;> simpa using hx
  have c1 := prod_bound ha1 hb1
  have c2 := sb _ _ g2 (prod_bound ha2 hb2)
  have c3 := sb _ _ g3 (prod_bound ha3 hb3)
  have c4 := sb _ _ g4 (prod_bound ha4 hb4)
  have := sum4 h (B := 9) (prod1 h ha1 hb1) (sg _ _ _ g2 (prod1 h ha2 hb2)) (sg _ _ _ g3 (prod1 h ha3 hb3))
    (sg _ _ _ g4 (prod1 h ha4 hb4)) ((bound2 c1 c2).trans (by norm_num)) ((bound2 (bound2 c1 c2) c3).trans (by norm_num))
    ((bound2 (bound2 (bound2 c1 c2) c3) c4).trans (by norm_num)) (by norm_num) (by norm_num) (by norm_num)
  exact weaken h this (by norm_num)

/-- The computed product of two quaternions that are not too long: every coefficient is within `50 u` of the exact one. -/
theorem mul_near (h : Accurate R u) (a b : Quat (RR R)) (ha : rsq a ≤ 2) (hb : rsq b ≤ 2) :
    |(a.mul b).w.v - ((re a).mul (re b)).w| ≤ 50 * u ∧ |(a.mul b).x.v - ((re a).mul (re b)).x| ≤ 50 * u ∧
    |(a.mul b).y.v - ((re a).mul (re b)).y| ≤ 50 * u ∧ |(a.mul b).z.v - ((re a).mul (re b)).z| ≤ 50 * u := by
  obtain ⟨aw, ax, ay, az⟩ := comp_bound (re a) (N := 2) (b := 3 / 2) (by rw [← rsq_re]; exact ha) (by norm_num) (by norm_num)
  obtain ⟨bw, bx, bY, bz⟩ := comp_bound (re b) (N := 2) (b := 3 / 2) (by rw [← rsq_re]; exact hb) (by norm_num) (by norm_num)
  have one : (1 : ℝ) = 1 ∨ (1 : ℝ) = -1 := Or.inl rfl
  have mone : (-1 : ℝ) = 1 ∨ (-1 : ℝ) = -1 := Or.inr rfl
  refine ⟨?_, ?_, ?_, ?_⟩
  · have := dot4 h aw ax ay az bw bx bY bz mone mone mone
    simpa only [neg_one_mul, ← sub_eq_add_neg, Quat.mul, re, v_sub, v_mul] using this
  · have := dot4 h aw ax ay az bx bw bz bY one one mone
    simpa only [neg_one_mul, one_mul, ← sub_eq_add_neg, Quat.mul, re, v_sub, v_mul, v_add] using this
  · have := dot4 h aw ay az ax bY bw bx bz one one mone
    simpa only [neg_one_mul, one_mul, ← sub_eq_add_neg, Quat.mul, re, v_sub, v_mul, v_add] using this
  · have := dot4 h aw az ax ay bz bw bY bx one one mone
    simpa only [neg_one_mul, one_mul, ← sub_eq_add_neg, Quat.mul, re, v_sub, v_mul, v_add] using this
theorem mul_rsq (h : Accurate R u) (a b : Quat (RR R)) (ha : rsq a ≤ 3 / 2) (hb : rsq b ≤ 3 / 2) :
    |rsq (a.mul b) - rsq a * rsq b| ≤ 1 / 1000 := by
  obtain ⟨k1, k2, k3, k4⟩ := mul_near h a b (by linarith) (by linarith)
  have e := qsq_mul (re a) (re b)
  rw [← rsq_re, ← rsq_re] at e
  have ha0 : 0 ≤ rsq a := by unfold rsq; positivity
  have hb0 : 0 ≤ rsq b := by unfold rsq; positivity
  obtain ⟨b1, b2, b3, b4⟩ := comp_bound ((re a).mul (re b)) (N := 9 / 4) (b := 3 / 2) (by rw [e]; nlinarith) (by norm_num) (by norm_num)
  have := sq4 k1 k2 k3 k4 b1 b2 b3 b4
  rw [← e]
  show |rsq (a.mul b) - qsq _| ≤ _
  have e2 : ∀ q : Quat ℝ, qsq q = q.w ^ 2 + q.x ^ 2 + q.y ^ 2 + q.z ^ 2 := fun q => by simp only [qsq]
  rw [e2]
  refine this.trans ?_
  have h0 := h.pos
  have h1 := h.small
  nlinarith

/-- Normalising a computed quaternion of about unit length. -/
theorem normalized_near (h : Accurate R u) (q : Quat (RR R)) (h1 : 9 / 10 ≤ rsq q) (h2 : rsq q ≤ 11 / 10) :
    |rsq q.normalized - 1| ≤ 60 * u := by
  have u0 := h.pos
  have u1 := h.small
  obtain ⟨bw, bx, bY, bz⟩ := comp_bound (re q) (N := 11 / 10) (b := 21 / 20) (by rw [← rsq_re]; exact h2) (by norm_num) (by norm_num)
  have sq : ∀ a : ℝ, |a| ≤ 21 / 20 → |R.rnd (a * a) - a * a| ≤ 5 / 2 * u := by
    intro a ha
    have : |a * a| ≤ 3 / 2 := by rw [abs_mul]; nlinarith [abs_nonneg a]
    exact weaken h (near0 h this) (by norm_num)
  have N : rsq q = q.x.v * q.x.v + q.y.v * q.y.v + q.z.v * q.z.v + q.w.v * q.w.v := by unfold rsq; ring
  have n : |q.nsq.v - rsq q| ≤ 20 * u := by
    have := sum4 h (B := 11 / 10) (sq _ bx) (sq _ bY) (sq _ bz) (sq _ bw) (by
        rw [abs_of_nonneg (by nlinarith [mul_self_nonneg (re q).x, mul_self_nonneg (re q).y])]
        show q.x.v * q.x.v + q.y.v * q.y.v ≤ _
        nlinarith [mul_self_nonneg q.z.v, mul_self_nonneg q.w.v])
      (by
        rw [abs_of_nonneg (by nlinarith [mul_self_nonneg (re q).x, mul_self_nonneg (re q).y, mul_self_nonneg (re q).z])]
        show q.x.v * q.x.v + q.y.v * q.y.v + q.z.v * q.z.v ≤ _
        nlinarith [mul_self_nonneg q.w.v])
      (by
        show |q.x.v * q.x.v + q.y.v * q.y.v + q.z.v * q.z.v + q.w.v * q.w.v| ≤ _
        rw [← N, abs_of_nonneg (by linarith)]; exact h2) (by norm_num) (by norm_num) (by norm_num)
    rw [N]
    exact weaken h this (by norm_num)
  have n' := abs_le.1 n
  have np : 0 < q.nsq.v := by linarith [n'.1]
  have c : Fl.lt 0 q.nsq = true := (lt_iff _ _).2 np
  set s := Real.sqrt q.nsq.v with hs
  have s2 : s ^ 2 = q.nsq.v := Real.sq_sqrt np.le
  have s0 : 0 ≤ s := Real.sqrt_nonneg _
  have s1 : s ≤ 11 / 10 := by
    have : s ^ 2 ≤ (11 / 10) ^ 2 := by rw [s2]; norm_num; linarith [n'.2]
    exact (abs_le_of_sq_le_sq' this (by norm_num)).2
  have s9 : 9 / 10 ≤ s := by
    have : (9 / 10) ^ 2 ≤ s ^ 2 := by rw [s2]; norm_num; linarith [n'.1]
    exact (abs_le_of_sq_le_sq' this s0).2
  have t := near0 h (x := s) (B := 11 / 10) (by rw [abs_of_nonneg s0]; exact s1)
  set m := R.rnd s with hm
  have t' := abs_le.1 t
  have m9 : 89 / 100 ≤ m := by linarith [t'.1]
  have m1 : m ≤ 111 / 100 := by linarith [t'.2]
  have mp : 0 < m := by linarith
  -- the exact quotient has squared length rsq q / m^2
  have d : |rsq q / m ^ 2 - 1| ≤ 33 * u := by
    have e : rsq q / m ^ 2 - 1 = (rsq q - m ^ 2) / m ^ 2 := by field_simp
    rw [e, abs_div, abs_of_pos (by positivity : 0 < m ^ 2), div_le_iff₀ (by positivity)]
    have : |rsq q - m ^ 2| ≤ 25 * u := by
      have e1 : rsq q - m ^ 2 = (rsq q - q.nsq.v) + (s - m) * (s + m) := by rw [← s2]; ring
      have e2 : |(s - m) * (s + m)| ≤ (11 / 10 + 1) * u * (221 / 100) := by
        rw [abs_mul, abs_of_nonneg (by linarith : 0 ≤ s + m), abs_sub_comm]
        exact mul_le_mul t (by linarith) (by linarith) (by positivity)
      rw [e1]
      refine (abs_add_le _ _).trans ?_
      rw [abs_sub_comm]
      linarith
    have mm : 79 / 100 ≤ m ^ 2 := by
      have := pow_le_pow_left₀ (by norm_num : (0:ℝ) ≤ 89 / 100) m9 2
      exact le_trans (by norm_num) this
    have := mul_le_mul_of_nonneg_left mm (by linarith : 0 ≤ 33 * u)
    linarith
  have e : q.normalized = ⟨q.w / Fl.sqrt q.nsq, q.x / Fl.sqrt q.nsq, q.y / Fl.sqrt q.nsq, q.z / Fl.sqrt q.nsq⟩ := by
    unfold Quat.normalized
    rw [if_pos c]
  have f : ∀ a : ℝ, |a| ≤ 21 / 20 → |R.rnd (a / m) - a / m| ≤ 11 / 5 * u ∧ |a / m| ≤ 6 / 5 := by
    intro a ha
    have : |a / m| ≤ 6 / 5 := by
      rw [abs_div, abs_of_pos mp, div_le_iff₀ mp]; linarith
    exact ⟨weaken h (near0 h this) (by norm_num), this⟩
  have r := sq4 (f _ bw).1 (f _ bx).1 (f _ bY).1 (f _ bz).1 (f _ bw).2 (f _ bx).2 (f _ bY).2 (f _ bz).2
  have e3 : rsq q.normalized = R.rnd ((re q).w / m) ^ 2 + R.rnd ((re q).x / m) ^ 2 + R.rnd ((re q).y / m) ^ 2 + R.rnd ((re q).z / m) ^ 2 := by
    rw [e]; rfl
  have e4 : ((re q).w / m) ^ 2 + ((re q).x / m) ^ 2 + ((re q).y / m) ^ 2 + ((re q).z / m) ^ 2 = rsq q / m ^ 2 := by
    have : rsq q = (re q).w ^ 2 + (re q).x ^ 2 + (re q).y ^ 2 + (re q).z ^ 2 := rfl
    rw [this]; field_simp
  rw [← e3, e4] at r
  have r' := abs_le.1 r
  have d' := abs_le.1 d
  have g : 8 * (6 / 5) * (11 / 5 * u) + 4 * (11 / 5 * u) ^ 2 ≤ 22 * u := by nlinarith
  rw [abs_le]
  constructor <;> linarith [r'.1, r'.2, d'.1, d'.2]
end Verif.Rnd
