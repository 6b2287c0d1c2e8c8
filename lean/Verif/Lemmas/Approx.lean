import Verif.Spec.RoundedFlight
import Verif.Lemmas.Real
/-! A calculus of approximation: expressions computed with rounding differ from the exact ones by a constant times the rounding unit, uniformly over a set of situations. -/
namespace Verif
open Verif.Spec

/-- Situations, each with an arithmetic. -/
class Sit (ι : Type) where
  R : ι → Rounding
  u : ι → ℝ
  acc : ∀ i, AccurateLib (R i) (u i)

section
variable {ι : Type} [Sit ι]
open Sit

/-- `y` is `x` up to a constant times the unit, and `x` is bounded, uniformly. -/
def Apr (x y : ι → ℝ) : Prop := ∃ M c r : ℝ, 0 ≤ M ∧ 0 ≤ c ∧ 0 < r ∧ ∀ i, |x i| ≤ M ∧ (Sit.u i ≤ r → |y i - x i| ≤ c * Sit.u i)

/-- The same for computed numbers. -/
def Ap (x : ι → ℝ) (X : (i : ι) → RR (Sit.R i)) : Prop := Apr x (fun i => (X i).v)

theorem u_nonneg (i : ι) : 0 ≤ u i := (acc i).pos
theorem u_le_one (i : ι) : u i ≤ 1 := (acc i).small.trans (by norm_num)

theorem Apr.exact (x : ι → ℝ) (M : ℝ) (h : ∀ i, |x i| ≤ M) : Apr x x := by
  refine ⟨|M|, 0, 1, abs_nonneg _, le_refl _, one_pos, fun i => ⟨(h i).trans (le_abs_self M), fun _ => ?_⟩⟩
  rw [sub_self, abs_zero, zero_mul]

theorem Apr.const (a : ℝ) : Apr (fun _ : ι => a) (fun _ => a) := Apr.exact _ |a| (fun _ => le_refl _)

/-- A Lipschitz function of two arguments on a region. -/
theorem Apr.lip2 {x y x' y' : ι → ℝ} (φ : ℝ → ℝ → ℝ) (P : ℝ → ℝ → Prop) (L d N : ℝ) (hd : 0 < d) (hx : Apr x y) (hx' : Apr x' y') (hP : ∀ i, P (x i) (x' i))
    (hN : ∀ i, |φ (x i) (x' i)| ≤ N)
    (hL : ∀ a b a' b', P a b → |a' - a| ≤ d → |b' - b| ≤ d → |φ a' b' - φ a b| ≤ L * (|a' - a| + |b' - b|)) : Apr (fun i => φ (x i) (x' i)) (fun i => φ (y i) (y' i)) := by
  obtain ⟨M, c, r, hM, hc, hr, h⟩ := hx
  obtain ⟨M', c', r', hM', hc', hr', h'⟩ := hx'
  refine ⟨|N|, |L| * (c + c'), min (min r r') (d / (c + c' + 1)), abs_nonneg _, mul_nonneg (abs_nonneg _) (by linarith), lt_min (lt_min hr hr') (div_pos hd (by linarith)), fun i => ⟨(hN i).trans (le_abs_self _), fun hu => ?_⟩⟩
  have u0 := u_nonneg i
  have h1 := (h i).2 (hu.trans ((min_le_left _ _).trans (min_le_left _ _)))
  have h2 := (h' i).2 (hu.trans ((min_le_left _ _).trans (min_le_right _ _)))
  have h3 := hu.trans (min_le_right _ _)
  rw [le_div_iff₀ (by linarith)] at h3
  have a1 := mul_nonneg hc u0
  have a2 := mul_nonneg hc' u0
  have e1 : u i * (c + c' + 1) = c * u i + c' * u i + u i := by ring
  have q := hL (x i) (x' i) (y i) (y' i) (hP i) (by linarith) (by linarith)
  refine q.trans ?_
  have q2 : L * (|y i - x i| + |y' i - x' i|) ≤ |L| * (|y i - x i| + |y' i - x' i|) := mul_le_mul_of_nonneg_right (le_abs_self L) (by positivity)
  refine q2.trans ?_
  rw [mul_assoc]
  refine mul_le_mul_of_nonneg_left ?_ (abs_nonneg _)
  linarith

theorem Apr.lip {x y : ι → ℝ} (φ : ℝ → ℝ) (P : ℝ → Prop) (L d N : ℝ) (hd : 0 < d) (hx : Apr x y) (hP : ∀ i, P (x i))
    (hN : ∀ i, |φ (x i)| ≤ N) (hL : ∀ a a', P a → |a' - a| ≤ d → |φ a' - φ a| ≤ L * |a' - a|) : Apr (fun i => φ (x i)) (fun i => φ (y i)) := by
  refine Apr.lip2 (fun a _ => φ a) (fun a _ => P a) |L| d N hd hx hx hP hN ?_
  intro a b a' b' h1 h2 h3
  refine (hL a a' h1 h2).trans ?_
  have q : L * |a' - a| ≤ |L| * |a' - a| := mul_le_mul_of_nonneg_right (le_abs_self L) (abs_nonneg _)
  have : 0 ≤ |L| * |b' - b| := by positivity
  linarith

/-- A further error of the order of the unit. -/
theorem Apr.more {x y z : ι → ℝ} (h : Apr x y) (k : ℝ) (hz : ∀ i, |y i - x i| ≤ 1 → |z i - y i| ≤ k * u i * (|y i| + 1)) : Apr x z := by
  obtain ⟨M, c, r, hM, hc, hr, h⟩ := h
  refine ⟨M, c + |k| * (M + 2), min r (1 / (c + 1)), hM, by positivity, lt_min hr (by positivity), fun i => ⟨(h i).1, fun hu => ?_⟩⟩
  have h1 := (h i).2 (hu.trans (min_le_left _ _))
  have h2 := hu.trans (min_le_right _ _)
  rw [le_div_iff₀ (by linarith)] at h2
  have u0 := u_nonneg i
  have h3 : |y i - x i| ≤ 1 := by
    have : u i * (c + 1) = c * u i + u i := by ring
    linarith
  have h4 := hz i h3
  have h5 : |y i| + 1 ≤ M + 2 := by have := abs_sub_abs_le_abs_sub (y i) (x i); have := (h i).1; linarith
  have h6 : k * u i * (|y i| + 1) ≤ |k| * (M + 2) * u i := by
    have q1 : k * u i ≤ |k| * u i := mul_le_mul_of_nonneg_right (le_abs_self k) u0
    have q2 := mul_le_mul q1 h5 (by positivity) (by positivity)
    linarith
  have h7 := abs_sub_le (z i) (y i) (x i)
  have h8 : (c + |k| * (M + 2)) * u i = c * u i + |k| * (M + 2) * u i := by ring
  linarith

theorem Apr.rnd {x y : ι → ℝ} (h : Apr x y) : Apr x (fun i => (Sit.R i).rnd (y i)) :=
  h.more 1 (fun i _ => by rw [one_mul]; exact (acc i).rnd (y i))

theorem Apr.add {x y x' y' : ι → ℝ} (h : Apr x y) (h' : Apr x' y') : Apr (fun i => x i + x' i) (fun i => y i + y' i) := by
  have hb := h; have hb' := h'
  obtain ⟨M, _, _, _, _, _, hM⟩ := hb
  obtain ⟨M', _, _, _, _, _, hM'⟩ := hb'
  refine Apr.lip2 (fun a b => a + b) (fun _ _ => True) 1 1 (M + M') one_pos h h' (fun _ => trivial) (fun i => (abs_add_le _ _).trans (add_le_add (hM i).1 (hM' i).1)) ?_
  intro a b a' b' _ _ _
  rw [one_mul, show a' + b' - (a + b) = (a' - a) + (b' - b) by ring]
  exact abs_add_le _ _

theorem Apr.neg {x y : ι → ℝ} (h : Apr x y) : Apr (fun i => -x i) (fun i => -y i) := by
  obtain ⟨M, c, r, hM, hc, hr, h⟩ := h
  refine ⟨M, c, r, hM, hc, hr, fun i => ⟨by rw [abs_neg]; exact (h i).1, fun hu => ?_⟩⟩
  rw [show -y i - -x i = -(y i - x i) by ring, abs_neg]; exact (h i).2 hu

theorem Apr.sub {x y x' y' : ι → ℝ} (h : Apr x y) (h' : Apr x' y') : Apr (fun i => x i - x' i) (fun i => y i - y' i) := by
  simpa only [sub_eq_add_neg] using h.add h'.neg

theorem Apr.mul {x y x' y' : ι → ℝ} (h : Apr x y) (h' : Apr x' y') : Apr (fun i => x i * x' i) (fun i => y i * y' i) := by
  have hb := h; have hb' := h'
  obtain ⟨M, _, _, m0, _, _, hM⟩ := hb
  obtain ⟨M', _, _, m0', _, _, hM'⟩ := hb'
  refine Apr.lip2 (fun a b => a * b) (fun a b => |a| ≤ M ∧ |b| ≤ M') (M + M' + 1) 1 (M * M') one_pos h h' (fun i => ⟨(hM i).1, (hM' i).1⟩)
    (fun i => by rw [abs_mul]; exact mul_le_mul (hM i).1 (hM' i).1 (abs_nonneg _) m0) ?_
  intro a b a' b' hab h1 h2
  have e : a' * b' - a * b = (a' - a) * b' + a * (b' - b) := by ring
  rw [e]
  refine (abs_add_le _ _).trans ?_
  rw [abs_mul, abs_mul]
  have hb : |b'| ≤ M' + 1 := by have := abs_sub_abs_le_abs_sub b' b; linarith [hab.2]
  have q1 := mul_le_mul_of_nonneg_left hb (abs_nonneg (a' - a))
  have q2 := mul_le_mul_of_nonneg_right hab.1 (abs_nonneg (b' - b))
  have q3 := mul_nonneg m0 (abs_nonneg (a' - a))
  have q4 := mul_nonneg (by linarith : 0 ≤ M' + 1) (abs_nonneg (b' - b))
  have e2 : (M + M' + 1) * (|a' - a| + |b' - b|) = |a' - a| * (M' + 1) + M * |b' - b| + M * |a' - a| + (M' + 1) * |b' - b| := by ring
  linarith

theorem Apr.inv {x y : ι → ℝ} (h : Apr x y) (m : ℝ) (hm : 0 < m) (hx : ∀ i, m ≤ |x i|) : Apr (fun i => (x i)⁻¹) (fun i => (y i)⁻¹) := by
  refine Apr.lip (fun a => a⁻¹) (fun a => m ≤ |a|) (2 / m ^ 2) (m / 2) m⁻¹ (by linarith) h hx (fun i => by rw [abs_inv]; exact inv_anti₀ hm (hx i)) ?_
  intro a a' ha hd
  have ha' : m / 2 ≤ |a'| := by have := abs_sub_abs_le_abs_sub a a'; rw [abs_sub_comm] at this; linarith
  have n1 : a ≠ 0 := abs_pos.1 (by linarith)
  have n2 : a' ≠ 0 := abs_pos.1 (by linarith)
  have e : a'⁻¹ - a⁻¹ = (a - a') / (a' * a) := by field_simp
  rw [e, abs_div, abs_mul, abs_sub_comm, div_le_iff₀ (by positivity)]
  have q : m / 2 * m ≤ |a'| * |a| := mul_le_mul ha' ha hm.le (by linarith)
  have q2 : (1 : ℝ) ≤ 2 / m ^ 2 * (|a'| * |a|) := by
    rw [div_mul_eq_mul_div, le_div_iff₀ (by positivity)]; nlinarith
  have := mul_le_mul_of_nonneg_left q2 (abs_nonneg (a' - a))
  linarith

theorem Apr.div {x y x' y' : ι → ℝ} (h : Apr x y) (h' : Apr x' y') (m : ℝ) (hm : 0 < m) (hx : ∀ i, m ≤ |x' i|) : Apr (fun i => x i / x' i) (fun i => y i / y' i) := by
  simpa only [div_eq_mul_inv] using h.mul (h'.inv m hm hx)

theorem Apr.sqrt {x y : ι → ℝ} (h : Apr x y) (m : ℝ) (hm : 0 < m) (hx : ∀ i, m ≤ x i) : Apr (fun i => Real.sqrt (x i)) (fun i => Real.sqrt (y i)) := by
  have hb := h
  obtain ⟨M, _, _, m0, _, _, hM⟩ := hb
  refine Apr.lip Real.sqrt (fun a => m ≤ a) (1 / Real.sqrt m) (m / 2) (Real.sqrt M) (by linarith) h hx
    (fun i => by rw [abs_of_nonneg (Real.sqrt_nonneg _)]; exact Real.sqrt_le_sqrt ((le_abs_self _).trans (hM i).1)) ?_
  intro a a' ha hd
  have p := Real.sqrt_pos.2 hm
  have ha' : 0 ≤ a' := by have := abs_le.1 hd; linarith
  have s1 := Real.mul_self_sqrt ha'
  have s2 := Real.mul_self_sqrt (hm.le.trans ha)
  have s3 := Real.sqrt_le_sqrt ha
  have s4 := Real.sqrt_nonneg a'
  have e : a' - a = (Real.sqrt a' - Real.sqrt a) * (Real.sqrt a' + Real.sqrt a) := by linear_combination -s1 + s2
  rw [div_mul_eq_mul_div, one_mul, le_div_iff₀ p]
  conv_rhs => rw [e, abs_mul]
  refine mul_le_mul_of_nonneg_left ?_ (abs_nonneg _)
  rw [abs_of_nonneg (by linarith)]; linarith

theorem Apr.sinr {x y : ι → ℝ} (h : Apr x y) : Apr (fun i => Real.sin (x i)) (fun i => Real.sin (y i)) :=
  Apr.lip Real.sin (fun _ => True) 1 1 1 one_pos h (fun _ => trivial) (fun i => Real.abs_sin_le_one _) (fun a a' _ _ => by
    rw [one_mul]; exact Real.abs_sin_sub_sin_le a' a)

theorem Apr.cosr {x y : ι → ℝ} (h : Apr x y) : Apr (fun i => Real.cos (x i)) (fun i => Real.cos (y i)) :=
  Apr.lip Real.cos (fun _ => True) 1 1 1 one_pos h (fun _ => trivial) (fun i => Real.abs_cos_le_one _) (fun a a' _ _ => by
    rw [one_mul]; exact Real.abs_cos_sub_cos_le a' a)

theorem Apr.tanr {x y : ι → ℝ} (h : Apr x y) (m : ℝ) (hm : 0 < m) (hx : ∀ i, m ≤ |Real.cos (x i)|) : Apr (fun i => Real.tan (x i)) (fun i => Real.tan (y i)) := by
  simpa only [Real.tan_eq_sin_div_cos] using h.sinr.div h.cosr m hm hx

theorem arctan_le (x : ℝ) : |Real.arctan x| ≤ 2 := by
  have h1 := Real.arctan_lt_pi_div_two x
  have h2 := Real.neg_pi_div_two_lt_arctan x
  have h3 := Real.pi_lt_four
  rw [abs_le]; constructor <;> linarith

theorem Apr.atanr {x y : ι → ℝ} (h : Apr x y) : Apr (fun i => Real.arctan (x i)) (fun i => Real.arctan (y i)) :=
  Apr.lip Real.arctan (fun _ => True) 1 1 2 one_pos h (fun _ => trivial) (fun i => arctan_le _) (fun a a' _ _ => by
    rw [one_mul]
    have := Convex.norm_image_sub_le_of_norm_deriv_le (f := Real.arctan) (s := Set.univ) (C := 1) (x := a) (y := a')
      (fun x _ => Real.differentiableAt_arctan x) (fun x _ => by
        rw [Real.deriv_arctan, Real.norm_eq_abs, abs_of_pos (by positivity), div_le_one (by positivity)]
        linarith [sq_nonneg x]) convex_univ trivial trivial
    simpa only [Real.norm_eq_abs, one_mul] using this)

theorem Apr.powr {x y x' y' : ι → ℝ} (h : Apr x y) (h' : Apr x' y') (hx : ∀ i, 1 / 2 ≤ x i) : Apr (fun i => x i ^ x' i) (fun i => y i ^ y' i) := by
  have hb := h
  obtain ⟨M, c, r, m0, hc, hr, hM⟩ := hb
  -- logarithm, product, exponential
  have hl : Apr (fun i => Real.log (x i)) (fun i => Real.log (y i)) := by
    refine Apr.lip Real.log (fun a => 1 / 2 ≤ a) 4 (1 / 4) (M + 2) (by norm_num) h hx (fun i => ?_) ?_
    · have p : 0 < x i := by linarith [hx i]
      have q1 := Real.log_le_sub_one_of_pos p
      have q2 := Real.one_sub_inv_le_log_of_pos p
      have q3 : (x i)⁻¹ ≤ 2 := by rw [inv_le_comm₀ p (by norm_num)]; linarith [hx i]
      have q4 := (le_abs_self _).trans (hM i).1
      rw [abs_le]; constructor <;> linarith
    · intro a a' ha hd
      have h1 := abs_le.1 hd
      have p : 0 < a := by linarith
      have p' : 0 < a' := by linarith
      have e : Real.log a' - Real.log a = Real.log (a' / a) := (Real.log_div p'.ne' p.ne').symm
      have q1 := Real.log_le_sub_one_of_pos (div_pos p' p)
      have q2 := Real.one_sub_inv_le_log_of_pos (div_pos p' p)
      rw [inv_div] at q2
      have e1 : a' / a - 1 = (a' - a) / a := by field_simp
      have e2 : 1 - a / a' = (a' - a) / a' := by field_simp
      rw [e1] at q1
      rw [e2] at q2
      have k : ∀ b : ℝ, 1 / 4 ≤ b → |(a' - a) / b| ≤ 4 * |a' - a| := by
        intro b hb
        rw [abs_div, abs_of_pos (by linarith : 0 < b), div_le_iff₀ (by linarith)]
        have := mul_le_mul_of_nonneg_left hb (abs_nonneg (a' - a))
        linarith
      have k1 := abs_le.1 (k a (by linarith))
      have k2 := abs_le.1 (k a' (by linarith))
      rw [e, abs_le]; constructor <;> linarith
  have hp := hl.mul h'
  have hpb := hp
  obtain ⟨N, c2, r2, n0, hc2, hr2, hN⟩ := hpb
  have he : Apr (fun i => Real.exp (Real.log (x i) * x' i)) (fun i => Real.exp (Real.log (y i) * y' i)) := by
    refine Apr.lip Real.exp (fun a => |a| ≤ N) (Real.exp (N + 1)) 1 (Real.exp N) one_pos hp (fun i => (hN i).1)
      (fun i => by rw [abs_of_pos (Real.exp_pos _)]; exact Real.exp_le_exp.2 ((le_abs_self _).trans (hN i).1)) ?_
    intro a a' ha hd
    have q1 := abs_le.1 ha
    have q2 := abs_le.1 hd
    have k1 := Real.add_one_le_exp (a' - a)
    have k2 := Real.add_one_le_exp (a - a')
    rw [Real.exp_sub, le_div_iff₀ (Real.exp_pos _)] at k1 k2
    have m1 : Real.exp a ≤ Real.exp (N + 1) := Real.exp_le_exp.2 (by linarith)
    have m2 : Real.exp a' ≤ Real.exp (N + 1) := Real.exp_le_exp.2 (by linarith)
    have j1 := mul_le_mul_of_nonneg_right m1 (abs_nonneg (a' - a))
    have j2 := mul_le_mul_of_nonneg_right m2 (abs_nonneg (a' - a))
    have i1 := mul_le_mul_of_nonneg_left (neg_abs_le (a' - a)) (Real.exp_pos a).le
    have i2 := mul_le_mul_of_nonneg_left (le_abs_self (a' - a)) (Real.exp_pos a').le
    rw [abs_le]; constructor <;> linarith
  obtain ⟨N1, c3, r3, n1, hc3, hr3, h3⟩ := he
  refine ⟨N1, c3, min r3 (min r (1 / (4 * (c + 1)))), n1, hc3, lt_min hr3 (lt_min hr (by positivity)), fun i => ?_⟩
  have p : 0 < x i := by linarith [hx i]
  refine ⟨?_, fun hu => ?_⟩
  · dsimp only; rw [Real.rpow_def_of_pos p]; exact (h3 i).1
  · have u1 := (hM i).2 (hu.trans ((min_le_right _ _).trans (min_le_left _ _)))
    have u2 := hu.trans ((min_le_right _ _).trans (min_le_right _ _))
    rw [le_div_iff₀ (by positivity)] at u2
    have e : u i * (4 * (c + 1)) = 4 * (c * u i) + 4 * u i := by ring
    have p' : 0 < y i := by have := abs_le.1 u1; have := u_nonneg i; linarith [hx i]
    dsimp only; rw [Real.rpow_def_of_pos p, Real.rpow_def_of_pos p']; exact (h3 i).2 (hu.trans (min_le_left _ _))

/-! Computed numbers. -/
theorem Ap.add {x y : ι → ℝ} {X Y : (i : ι) → RR (Sit.R i)} (h : Ap x X) (h' : Ap y Y) : Ap (fun i => x i + y i) (fun i => X i + Y i) := (Apr.add h h').rnd
theorem Ap.sub {x y : ι → ℝ} {X Y : (i : ι) → RR (Sit.R i)} (h : Ap x X) (h' : Ap y Y) : Ap (fun i => x i - y i) (fun i => X i - Y i) := (Apr.sub h h').rnd
theorem Ap.mul {x y : ι → ℝ} {X Y : (i : ι) → RR (Sit.R i)} (h : Ap x X) (h' : Ap y Y) : Ap (fun i => x i * y i) (fun i => X i * Y i) := (Apr.mul h h').rnd
theorem Ap.neg {x : ι → ℝ} {X : (i : ι) → RR (Sit.R i)} (h : Ap x X) : Ap (fun i => -x i) (fun i => -X i) := Apr.neg h
theorem Ap.div {x y : ι → ℝ} {X Y : (i : ι) → RR (Sit.R i)} (m : ℝ) (hm : 0 < m) (hx : ∀ i, m ≤ |y i|) (h : Ap x X) (h' : Ap y Y) :
    Ap (fun i => x i / y i) (fun i => X i / Y i) := (Apr.div h h' m hm hx).rnd
theorem Ap.lit (q : ℚ) : Ap (fun _ : ι => (Fl.lit q : ℝ)) (fun _ => Fl.lit q) := (Apr.const (ι := ι) (q : ℝ)).rnd
theorem Ap.pi : Ap (fun _ : ι => (Fl.pi : ℝ)) (fun _ => Fl.pi) := (Apr.const (ι := ι) Real.pi).rnd
theorem Ap.zero : Ap (fun _ : ι => (0 : ℝ)) (fun _ => 0) := Apr.const (ι := ι) 0
theorem Ap.one : Ap (fun _ : ι => (1 : ℝ)) (fun _ => 1) := Apr.const (ι := ι) 1
theorem Ap.sin {x : ι → ℝ} {X : (i : ι) → RR (Sit.R i)} (h : Ap x X) : Ap (fun i => (Fl.sin (x i) : ℝ)) (fun i => Fl.sin (X i)) :=
  (Apr.sinr h).more 1 (fun i _ => by
    have := (acc i).sin (X i).v
    have := mul_nonneg (u_nonneg i) (abs_nonneg (Real.sin (X i).v))
    have e : 1 * u i * (|Real.sin (X i).v| + 1) = u i * |Real.sin (X i).v| + u i := by ring
    show |(R i).sin (X i).v - Real.sin (X i).v| ≤ _
    linarith)
theorem Ap.cos {x : ι → ℝ} {X : (i : ι) → RR (Sit.R i)} (h : Ap x X) : Ap (fun i => (Fl.cos (x i) : ℝ)) (fun i => Fl.cos (X i)) :=
  (Apr.cosr h).more 1 (fun i _ => by
    have := (acc i).cos (X i).v
    have := mul_nonneg (u_nonneg i) (abs_nonneg (Real.cos (X i).v))
    have e : 1 * u i * (|Real.cos (X i).v| + 1) = u i * |Real.cos (X i).v| + u i := by ring
    show |(R i).cos (X i).v - Real.cos (X i).v| ≤ _
    linarith)
theorem Ap.tan {x : ι → ℝ} {X : (i : ι) → RR (Sit.R i)} (m : ℝ) (hm : 0 < m) (hx : ∀ i, m ≤ |Real.cos (x i)|) (h : Ap x X) :
    Ap (fun i => (Fl.tan (x i) : ℝ)) (fun i => Fl.tan (X i)) :=
  (Apr.tanr h m hm hx).more 1 (fun i _ => by rw [one_mul]; exact (acc i).tan _)
theorem Ap.atan {x : ι → ℝ} {X : (i : ι) → RR (Sit.R i)} (h : Ap x X) : Ap (fun i => (Fl.atan (x i) : ℝ)) (fun i => Fl.atan (X i)) :=
  (Apr.atanr h).more 1 (fun i _ => by rw [one_mul]; exact (acc i).atan _)
theorem Ap.sqrt {x : ι → ℝ} {X : (i : ι) → RR (Sit.R i)} (m : ℝ) (hm : 0 < m) (hx : ∀ i, m ≤ x i) (h : Ap x X) :
    Ap (fun i => (Fl.sqrt (x i) : ℝ)) (fun i => Fl.sqrt (X i)) := (Apr.sqrt h m hm hx).rnd
theorem Ap.bound {x : ι → ℝ} {X : (i : ι) → RR (Sit.R i)} (h : Ap x X) : ∃ M, ∀ i, |x i| ≤ M := by
  obtain ⟨M, c, r, _, _, _, h⟩ := h; exact ⟨M, fun i => (h i).1⟩

/-- What holds of the exact value with some room holds of the computed one for small units. -/
theorem Apr.when {x y z w : ι → ℝ} (h : Apr z w) (hx : Apr x y) (m : ℝ) (hm : 0 < m) (w' : ι → ℝ) (hw : ∀ i, |y i - x i| ≤ m → w' i = w i) : Apr z w' := by
  obtain ⟨M, c, r, hM, hc, hr, h⟩ := h
  obtain ⟨M', c', r', hM', hc', hr', h'⟩ := hx
  refine ⟨M, c, min r (min r' (m / (c' + 1))), hM, hc, lt_min hr (lt_min hr' (by positivity)), fun i => ⟨(h i).1, fun hu => ?_⟩⟩
  have h1 := (h' i).2 (hu.trans ((min_le_right _ _).trans (min_le_left _ _)))
  have h2 := hu.trans ((min_le_right _ _).trans (min_le_right _ _))
  rw [le_div_iff₀ (by positivity)] at h2
  have e : u i * (c' + 1) = c' * u i + u i := by ring
  rw [hw i (by have := u_nonneg i; linarith)]
  exact (h i).2 (hu.trans (min_le_left _ _))

theorem Ap.pow {x y : ι → ℝ} {X Y : (i : ι) → RR (Sit.R i)} (hx : ∀ i, 1 / 2 ≤ x i) (h : Ap x X) (h' : Ap y Y) :
    Ap (fun i => (Fl.pow (x i) (y i) : ℝ)) (fun i => Fl.pow (X i) (Y i)) := by
  have h1 : Apr (fun i => x i ^ y i) (fun i => if 0 < (X i).v then (R i).pow (X i).v (Y i).v else (X i).v ^ (Y i).v) := (Apr.powr h h' hx).more 1 (fun i _ => by
    have := mul_nonneg (u_nonneg i) (by positivity : 0 ≤ |(X i).v ^ (Y i).v| + 1)
    rw [one_mul]
    split_ifs with hp
    · exact (acc i).pow _ _ hp
    · rw [sub_self, abs_zero]; exact this)
  refine Apr.when h1 h (1 / 4) (by norm_num) _ (fun i hi => ?_)
  have := abs_le.1 hi
  rw [if_pos (by linarith [hx i])]; rfl

theorem Ap.atan2 {x y : ι → ℝ} {X Y : (i : ι) → RR (Sit.R i)} (m : ℝ) (hm : 0 < m) (hx : ∀ i, m ≤ x i) (h : Ap x X) (h' : Ap y Y) :
    Ap (fun i => (Fl.atan2 (y i) (x i) : ℝ)) (fun i => Fl.atan2 (Y i) (X i)) := by
  have e : ∀ a b : ℝ, 0 < a → Complex.arg ⟨a, b⟩ = Real.arctan (b / a) := by
    intro a b ha
    have h1 : |Complex.arg ⟨a, b⟩| < Real.pi / 2 := Complex.abs_arg_lt_pi_div_two_iff.2 (.inl ha)
    have h2 := Complex.tan_arg ⟨a, b⟩
    have h3 := abs_lt.1 h1
    rw [← Real.arctan_tan (by linarith [h3.1]) h3.2, h2]
  have h0 : Apr (fun i => Real.arctan (y i / x i)) (fun i => Real.arctan ((Y i).v / (X i).v)) :=
    Apr.atanr (Apr.div h' h m hm (fun i => (hx i).trans (le_abs_self _)))
  have h1 : Apr (fun i => Real.arctan (y i / x i)) (fun i => if 0 < (X i).v then (R i).atan2 (Y i).v (X i).v else Real.arctan ((Y i).v / (X i).v)) := h0.more 1 (fun i _ => by
    have := mul_nonneg (u_nonneg i) (by positivity : 0 ≤ |Real.arctan ((Y i).v / (X i).v)| + 1)
    rw [one_mul]
    split_ifs with hp
    · rw [← e _ _ hp]; exact (acc i).atan2 _ _ hp
    · rw [sub_self, abs_zero]; exact this)
  have h2 : Apr (fun i => Real.arctan (y i / x i)) (fun i => (Fl.atan2 (Y i) (X i) : RR (R i)).v) := by
    refine Apr.when h1 h (m / 2) (by linarith) _ (fun i hi => ?_)
    have := abs_le.1 hi
    rw [if_pos (by linarith [hx i])]; rfl
  have h3 : (fun i => (Fl.atan2 (y i) (x i) : ℝ)) = fun i => Real.arctan (y i / x i) := by
    funext i; exact e _ _ (by linarith [hx i])
  unfold Ap
  rw [h3]; exact h2

/-- Vectors, matrices and quaternions, component by component. -/
def ApV {n : ℕ} (v : ι → Fin n → ℝ) (V : (i : ι) → Fin n → RR (Sit.R i)) : Prop := ∀ j, Ap (fun i => v i j) (fun i => V i j)
def ApM {m n : ℕ} (v : ι → Matrix (Fin m) (Fin n) ℝ) (V : (i : ι) → Matrix (Fin m) (Fin n) (RR (Sit.R i))) : Prop := ∀ j k, Ap (fun i => v i j k) (fun i => V i j k)
structure ApQ (q : ι → Quat ℝ) (Q : (i : ι) → Quat (RR (Sit.R i))) : Prop where
  w : Ap (fun i => (q i).w) (fun i => (Q i).w)
  x : Ap (fun i => (q i).x) (fun i => (Q i).x)
  y : Ap (fun i => (q i).y) (fun i => (Q i).y)
  z : Ap (fun i => (q i).z) (fun i => (Q i).z)

theorem ApV.v3 {a b c : ι → ℝ} {A B C : (i : ι) → RR (Sit.R i)} (ha : Ap a A) (hb : Ap b B) (hc : Ap c C) : ApV (fun i => v3 (a i) (b i) (c i)) (fun i => v3 (A i) (B i) (C i)) := by
  intro j; fin_cases j
  · exact ha
  · exact hb
  · exact hc

variable {n m k : ℕ}
theorem ApV.add {v w : ι → Fin n → ℝ} {V W : (i : ι) → Fin n → RR (Sit.R i)} (h : ApV v V) (h' : ApV w W) : ApV (fun i => v i + w i) (fun i => V i + W i) := fun j => (h j).add (h' j)
theorem ApV.sub {v w : ι → Fin n → ℝ} {V W : (i : ι) → Fin n → RR (Sit.R i)} (h : ApV v V) (h' : ApV w W) : ApV (fun i => v i - w i) (fun i => V i - W i) := fun j => (h j).sub (h' j)
theorem ApV.vs {v : ι → Fin n → ℝ} {V : (i : ι) → Fin n → RR (Sit.R i)} {c : ι → ℝ} {C : (i : ι) → RR (Sit.R i)} (h : ApV v V) (hc : Ap c C) :
    ApV (fun i => vs (v i) (c i)) (fun i => vs (V i) (C i)) := fun j => (h j).mul hc
theorem ApV.sv {v : ι → Fin n → ℝ} {V : (i : ι) → Fin n → RR (Sit.R i)} {c : ι → ℝ} {C : (i : ι) → RR (Sit.R i)} (hc : Ap c C) (h : ApV v V) :
    ApV (fun i => sv (c i) (v i)) (fun i => sv (C i) (V i)) := fun j => hc.mul (h j)
/-- Division of a vector by a number literal. -/
theorem ApV.vd {v : ι → Fin n → ℝ} {V : (i : ι) → Fin n → RR (Sit.R i)} (q : ℚ) (hq : q ≠ 0) (h : ApV v V) :
    ApV (fun i => vd (v i) (Fl.lit q)) (fun i => vd (V i) (Fl.lit q)) :=
  fun j => Ap.div |(q : ℝ)| (abs_pos.2 (by exact_mod_cast hq)) (fun _ => le_refl _) (h j) (Ap.lit q)
theorem Ap.divLit {x : ι → ℝ} {X : (i : ι) → RR (Sit.R i)} (q : ℚ) (hq : q ≠ 0) (h : Ap x X) : Ap (fun i => x i / Fl.lit q) (fun i => X i / Fl.lit q) :=
  Ap.div |(q : ℝ)| (abs_pos.2 (by exact_mod_cast hq)) (fun _ => le_refl _) h (Ap.lit q)
theorem ApV.cross {v w : ι → V3 ℝ} {V W : (i : ι) → V3 (RR (Sit.R i))} (h : ApV v V) (h' : ApV w W) : ApV (fun i => cross (v i) (w i)) (fun i => cross (V i) (W i)) :=
  ApV.v3 (((h 1).mul (h' 2)).sub ((h 2).mul (h' 1))) (((h 2).mul (h' 0)).sub ((h 0).mul (h' 2))) (((h 0).mul (h' 1)).sub ((h 1).mul (h' 0)))

theorem Ap.foldl {n : ℕ} : ∀ (f : ι → Fin n → ℝ) (F : (i : ι) → Fin n → RR (Sit.R i)) (a : ι → ℝ) (A : (i : ι) → RR (Sit.R i)), ApV f F → Ap a A →
    Ap (fun i => (List.ofFn (f i)).foldl (· + ·) (a i)) (fun i => (List.ofFn (F i)).foldl (· + ·) (A i)) := by
  induction n with
  | zero => intro f F a A _ ha; simpa using ha
  | succ n ih =>
    intro f F a A hf ha
    simp only [List.ofFn_succ, List.foldl_cons]
    exact ih (fun i j => f i j.succ) (fun i j => F i j.succ) _ _ (fun j => hf j.succ) (ha.add (hf 0))
theorem Ap.sumF {f : ι → Fin n → ℝ} {F : (i : ι) → Fin n → RR (Sit.R i)} (h : ApV f F) : Ap (fun i => sumF (f i)) (fun i => sumF (F i)) :=
  Ap.foldl f F _ _ h Ap.zero
theorem ApV.mvec {A : ι → Matrix (Fin m) (Fin n) ℝ} {AA : (i : ι) → Matrix (Fin m) (Fin n) (RR (Sit.R i))} {v : ι → Fin n → ℝ} {V : (i : ι) → Fin n → RR (Sit.R i)}
    (h : ApM A AA) (h' : ApV v V) : ApV (fun i => mvec (A i) (v i)) (fun i => mvec (AA i) (V i)) := fun j => Ap.sumF (fun l => (h j l).mul (h' l))
theorem ApM.mmul {A : ι → Matrix (Fin m) (Fin n) ℝ} {AA : (i : ι) → Matrix (Fin m) (Fin n) (RR (Sit.R i))} {B : ι → Matrix (Fin n) (Fin k) ℝ}
    {BB : (i : ι) → Matrix (Fin n) (Fin k) (RR (Sit.R i))} (h : ApM A AA) (h' : ApM B BB) : ApM (fun i => mmul (A i) (B i)) (fun i => mmul (AA i) (BB i)) :=
  fun j l => Ap.sumF (fun p => (h j p).mul (h' p l))
theorem ApM.sub {A B : ι → Matrix (Fin m) (Fin n) ℝ} {AA BB : (i : ι) → Matrix (Fin m) (Fin n) (RR (Sit.R i))} (h : ApM A AA) (h' : ApM B BB) :
    ApM (fun i => A i - B i) (fun i => AA i - BB i) := fun j l => (h j l).sub (h' j l)
theorem ApM.sm {A : ι → Matrix (Fin m) (Fin n) ℝ} {AA : (i : ι) → Matrix (Fin m) (Fin n) (RR (Sit.R i))} {c : ι → ℝ} {C : (i : ι) → RR (Sit.R i)} (hc : Ap c C) (h : ApM A AA) :
    ApM (fun i => sm (c i) (A i)) (fun i => sm (C i) (AA i)) := fun j l => hc.mul (h j l)
theorem ApM.eye (n : ℕ) : ApM (fun _ : ι => (eyeM n : Matrix (Fin n) (Fin n) ℝ)) (fun _ => eyeM n) := fun j l => by
  unfold eyeM
  dsimp only
  split_ifs
  · exact Ap.one
  · exact Ap.zero
theorem ApM.diag {v : ι → Fin n → ℝ} {V : (i : ι) → Fin n → RR (Sit.R i)} (h : ApV v V) : ApM (fun i => diagM (v i)) (fun i => diagM (V i)) := fun j l => by
  unfold diagM
  dsimp only
  split_ifs
  · exact h j
  · exact Ap.zero
theorem ApM.skew {v : ι → V3 ℝ} {V : (i : ι) → V3 (RR (Sit.R i))} (h : ApV v V) : ApM (fun i => Convert.skew (v i)) (fun i => Convert.skew (V i)) := fun j l => by
  fin_cases j <;> fin_cases l
  · exact Ap.zero
  · exact (h 2).neg
  · exact h 1
  · exact h 2
  · exact Ap.zero
  · exact (h 0).neg
  · exact (h 1).neg
  · exact h 0
  · exact Ap.zero
theorem ApQ.mul {p q : ι → Quat ℝ} {P Q : (i : ι) → Quat (RR (Sit.R i))} (h : ApQ p P) (h' : ApQ q Q) : ApQ (fun i => (p i).mul (q i)) (fun i => (P i).mul (Q i)) :=
  ⟨(((h.w.mul h'.w).sub (h.x.mul h'.x)).sub (h.y.mul h'.y)).sub (h.z.mul h'.z), (((h.w.mul h'.x).add (h.x.mul h'.w)).add (h.y.mul h'.z)).sub (h.z.mul h'.y),
   (((h.w.mul h'.y).add (h.y.mul h'.w)).add (h.z.mul h'.x)).sub (h.x.mul h'.z), (((h.w.mul h'.z).add (h.z.mul h'.w)).add (h.x.mul h'.y)).sub (h.y.mul h'.x)⟩
theorem ApQ.conj {p : ι → Quat ℝ} {P : (i : ι) → Quat (RR (Sit.R i))} (h : ApQ p P) : ApQ (fun i => (p i).conj) (fun i => (P i).conj) := ⟨h.w, h.x.neg, h.y.neg, h.z.neg⟩
theorem Ap.nsq {p : ι → Quat ℝ} {P : (i : ι) → Quat (RR (Sit.R i))} (h : ApQ p P) : Ap (fun i => (p i).nsq) (fun i => (P i).nsq) :=
  (((h.x.mul h.x).add (h.y.mul h.y)).add (h.z.mul h.z)).add (h.w.mul h.w)
theorem ApQ.normalized {p : ι → Quat ℝ} {P : (i : ι) → Quat (RR (Sit.R i))} (d : ℝ) (hd : 0 < d) (hp : ∀ i, d ≤ (p i).nsq) (h : ApQ p P) :
    ApQ (fun i => (p i).normalized) (fun i => (P i).normalized) := by
  have hs := Ap.sqrt d hd hp (Ap.nsq h)
  have e : ∀ i, (p i).normalized = ⟨(p i).w / Fl.sqrt (p i).nsq, (p i).x / Fl.sqrt (p i).nsq, (p i).y / Fl.sqrt (p i).nsq, (p i).z / Fl.sqrt (p i).nsq⟩ := by
    intro i
    unfold Quat.normalized
    rw [if_pos]
    exact decide_eq_true (by linarith [hp i] : (0 : ℝ) < (p i).nsq)
  have hm : ∀ i, Real.sqrt d ≤ |(Fl.sqrt (p i).nsq : ℝ)| := fun i => (Real.sqrt_le_sqrt (hp i)).trans (le_abs_self _)
  have e' : ∀ i, |((P i).nsq).v - (p i).nsq| ≤ d / 2 → (P i).normalized = ⟨(P i).w / Fl.sqrt (P i).nsq, (P i).x / Fl.sqrt (P i).nsq, (P i).y / Fl.sqrt (P i).nsq, (P i).z / Fl.sqrt (P i).nsq⟩ := by
    intro i hi
    have := abs_le.1 hi
    unfold Quat.normalized
    rw [if_pos]
    exact decide_eq_true (by show (0 : ℝ) < ((P i).nsq).v; linarith [hp i])
  have sd := Real.sqrt_pos.2 hd
  have n := Ap.nsq h
  refine ⟨?_, ?_, ?_, ?_⟩ <;> simp only [e]
  · exact Apr.when (Ap.div _ sd hm h.w hs) n (d / 2) (by linarith) _ (fun i hi => by dsimp only; rw [e' i hi])
  · exact Apr.when (Ap.div _ sd hm h.x hs) n (d / 2) (by linarith) _ (fun i hi => by dsimp only; rw [e' i hi])
  · exact Apr.when (Ap.div _ sd hm h.y hs) n (d / 2) (by linarith) _ (fun i hi => by dsimp only; rw [e' i hi])
  · exact Apr.when (Ap.div _ sd hm h.z hs) n (d / 2) (by linarith) _ (fun i hi => by dsimp only; rw [e' i hi])
theorem ApM.toRot {p : ι → Quat ℝ} {P : (i : ι) → Quat (RR (Sit.R i))} (h : ApQ p P) : ApM (fun i => (p i).toRot) (fun i => (P i).toRot) := by
  have two := Ap.lit (ι := ι) 2
  have tx := two.mul h.x; have ty := two.mul h.y; have tz := two.mul h.z
  have o := Ap.one (ι := ι)
  intro j l
  fin_cases j <;> fin_cases l
  · exact o.sub ((ty.mul h.y).add (tz.mul h.z))
  · exact (ty.mul h.x).sub (tz.mul h.w)
  · exact (tz.mul h.x).add (ty.mul h.w)
  · exact (ty.mul h.x).add (tz.mul h.w)
  · exact o.sub ((tx.mul h.x).add (tz.mul h.z))
  · exact (tz.mul h.y).sub (tx.mul h.w)
  · exact (tz.mul h.x).sub (ty.mul h.w)
  · exact (tz.mul h.y).add (tx.mul h.w)
  · exact o.sub ((tx.mul h.x).add (ty.mul h.y))
end
end Verif
