import Verif.Lemmas.Rounding
/-! The rounded rotation-vector quaternion has about unit length, whatever the vector. -/
namespace Verif.Rnd
open Verif Verif.Spec Verif.Convert
variable {R : Rounding} {u : ℝ}

/-- The polynomials of the small-angle branch have about unit length. -/
theorem poly_unit (m : ℝ) (m0 : 0 ≤ m) (m1 : m ≤ 5 / 2) :
    |(1 - m / 2 * (1 - m / 12 * (1 - m / 30))) ^ 2 + m * (1 - m / 6 * (1 - m / 20 * (1 - m / 42))) ^ 2 - 1| ≤ 1 / 1000 := by
  have e : (1 - m / 2 * (1 - m / 12 * (1 - m / 30))) ^ 2 + m * (1 - m / 6 * (1 - m / 20 * (1 - m / 42))) ^ 2 =
      1 - m ^ 4 * (1 / 20160 - m / 50400 + m ^ 2 / 725760 - m ^ 3 / 25401600) := by ring
  rw [e]
  have q0 : 0 ≤ 1 / 20160 - m / 50400 + m ^ 2 / 725760 - m ^ 3 / 25401600 := by nlinarith [mul_nonneg m0 m0]
  have m4 : 0 ≤ m ^ 4 := by positivity
  have k1 : 0 ≤ 2 / 5 * m ^ 5 - m ^ 4 + 16 / 5 := by
    have : 2 / 5 * m ^ 5 - m ^ 4 + 16 / 5 = 2 / 5 * ((m - 2) ^ 2 * (m ^ 3 + 3 / 2 * m ^ 2 + 2 * m + 2)) := by ring
    rw [this]; positivity
  have k2 : m ^ 6 ≤ (5 / 2) ^ 6 := pow_le_pow_left₀ m0 m1 6
  have k3 : 0 ≤ m ^ 7 := by positivity
  have k4 : ((5 : ℝ) / 2) ^ 6 < 250 := by norm_num
  have k5 := mul_nonneg m4 q0
  rw [abs_le]
  constructor <;> nlinarith

/-- The computed squared length of a vector. -/
theorem mag_near (h : Accurate R u) (a b c : ℝ) :
    |R.rnd (R.rnd (R.rnd (a * a) + R.rnd (b * b)) + R.rnd (c * c)) - (a ^ 2 + b ^ 2 + c ^ 2)| ≤ 10 * u * (a ^ 2 + b ^ 2 + c ^ 2 + 1) := by
  have u0 := h.pos
  have u1 := h.small
  have one : ∀ x : ℝ, |R.rnd (x * x) - x ^ 2| ≤ u * (x ^ 2 + 1) := by
    intro x
    have := h.rnd (x * x)
    rw [abs_of_nonneg (mul_self_nonneg x)] at this
    rw [pow_two]; exact this
  have ha := abs_le.1 (one a)
  have hb := abs_le.1 (one b)
  have hc := abs_le.1 (one c)
  generalize R.rnd (a * a) = pa at *
  generalize R.rnd (b * b) = pb at *
  generalize R.rnd (c * c) = pc at *
  obtain ⟨A, hA⟩ : ∃ A, A = a ^ 2 := ⟨_, rfl⟩
  obtain ⟨B, hB⟩ : ∃ B, B = b ^ 2 := ⟨_, rfl⟩
  obtain ⟨C, hC⟩ : ∃ C, C = c ^ 2 := ⟨_, rfl⟩
  have A0 : 0 ≤ A := by rw [hA]; positivity
  have B0 : 0 ≤ B := by rw [hB]; positivity
  have C0 : 0 ≤ C := by rw [hC]; positivity
  rw [← hA] at ha
  rw [← hB] at hb
  rw [← hC] at hc
  rw [← hA, ← hB, ← hC]
  have uA : 0 ≤ u * A ∧ u * A ≤ A / 1000000 := ⟨by positivity, by nlinarith⟩
  have uB : 0 ≤ u * B ∧ u * B ≤ B / 1000000 := ⟨by positivity, by nlinarith⟩
  have uC : 0 ≤ u * C ∧ u * C ≤ C / 1000000 := ⟨by positivity, by nlinarith⟩
  have s1 := h.rnd (pa + pb)
  have b1 : |pa + pb| ≤ 2 * (A + B) + 1 := by rw [abs_le]; constructor <;> linarith [ha.1, ha.2, hb.1, hb.2]
  have s1' : |R.rnd (pa + pb) - (pa + pb)| ≤ u * (2 * (A + B) + 2) := s1.trans (mul_le_mul_of_nonneg_left (by linarith) u0)
  have s1' := abs_le.1 s1'
  generalize R.rnd (pa + pb) = pab at *
  have s2 := h.rnd (pab + pc)
  have b2 : |pab + pc| ≤ 2 * (A + B + C) + 1 := by
    rw [abs_le]; constructor <;> nlinarith [ha.1, ha.2, hb.1, hb.2, hc.1, hc.2, s1'.1, s1'.2]
  have s2' : |R.rnd (pab + pc) - (pab + pc)| ≤ u * (2 * (A + B + C) + 2) := s2.trans (mul_le_mul_of_nonneg_left (by linarith) u0)
  have s2' := abs_le.1 s2'
  generalize R.rnd (pab + pc) = S at *
  rw [abs_le]
  constructor <;> nlinarith [ha.1, ha.2, hb.1, hb.2, hc.1, hc.2, s1'.1, s1'.2, s2'.1, s2'.2]

/-- The series of the small-angle branch, computed. -/
theorem series_near (h : Accurate R u) {m' m a b c : ℝ} (hm : |m' - m| ≤ 60 * u) (m0 : 0 ≤ m) (m1 : m ≤ 5 / 2)
    (ha : 2 ≤ a) (hb : 12 ≤ b) (hc : 30 ≤ c) :
    |R.rnd (1 - R.rnd (R.rnd (m' / R.rnd a) * R.rnd (1 - R.rnd (R.rnd (m' / R.rnd b) * R.rnd (1 - R.rnd (m' / R.rnd c)))))) -
      (1 - m / a * (1 - m / b * (1 - m / c)))| ≤ 320 * u ∧ |1 - m / a * (1 - m / b * (1 - m / c))| ≤ 1 := by
  have mB : |m| ≤ 5 / 2 := by rw [abs_of_nonneg m0]; exact m1
  have dc := weaken h (near_div_lit h hm mB (by linarith : 2 ≤ c) (by norm_num)) (by norm_num : (60 + 3 * (5 / 2) + 2 : ℝ) ≤ 70)
  have db := weaken h (near_div_lit h hm mB (by linarith : 2 ≤ b) (by norm_num)) (by norm_num : (60 + 3 * (5 / 2) + 2 : ℝ) ≤ 70)
  have da := weaken h (near_div_lit h hm mB ha (by norm_num)) (by norm_num : (60 + 3 * (5 / 2) + 2 : ℝ) ≤ 70)
  have qc : 0 ≤ m / c ∧ m / c ≤ 1 := ⟨by positivity, by rw [div_le_one (by linarith)]; linarith⟩
  have qb : 0 ≤ m / b ∧ m / b ≤ 1 := ⟨by positivity, by rw [div_le_one (by linarith)]; linarith⟩
  have qa : 0 ≤ m / a ∧ m / a ≤ 5 / 4 := ⟨by positivity, by rw [div_le_iff₀ (by linarith)]; linarith⟩
  generalize m / c = mc at *
  generalize m / b = mb at *
  generalize m / a = ma at *
  have id1 : |(1 : ℝ) - 1| ≤ 0 * u := by simp
  have e1 := near_sub h id1 dc (B := 1) (by rw [abs_le]; constructor <;> linarith) (by norm_num)
  have p1 : 0 ≤ 1 - mc ∧ 1 - mc ≤ 1 := ⟨by linarith [qc.2], by linarith [qc.1]⟩
  have e2 := near_mul h db e1 (B := 1) (B' := 1) (by rw [abs_le]; constructor <;> linarith) (by rw [abs_le]; constructor <;> linarith [p1.1, p1.2])
    (by norm_num) (by norm_num) (by norm_num) (by norm_num)
  have p2 : 0 ≤ mb * (1 - mc) ∧ mb * (1 - mc) ≤ 1 := ⟨mul_nonneg qb.1 p1.1, by nlinarith [p1.1, p1.2, qb.1, qb.2]⟩
  have e3 := near_sub h id1 e2 (B := 1) (by rw [abs_le]; constructor <;> linarith [p2.1, p2.2]) (by norm_num)
  have p3 : 0 ≤ 1 - mb * (1 - mc) ∧ 1 - mb * (1 - mc) ≤ 1 := ⟨by linarith [p2.2], by linarith [p2.1]⟩
  have e4 := near_mul h da e3 (B := 5 / 4) (B' := 1) (by rw [abs_le]; constructor <;> linarith) (by rw [abs_le]; constructor <;> linarith [p3.1, p3.2])
    (by norm_num) (by norm_num) (by norm_num) (by norm_num)
  have p4 : 0 ≤ ma * (1 - mb * (1 - mc)) ∧ ma * (1 - mb * (1 - mc)) ≤ 5 / 4 :=
    ⟨mul_nonneg qa.1 p3.1, by nlinarith [p3.1, p3.2, qa.1, qa.2]⟩
  have p5 : |1 - ma * (1 - mb * (1 - mc))| ≤ 1 := by rw [abs_le]; constructor <;> linarith [p4.1, p4.2]
  have e5 := near_sub h id1 e4 (B := 1) p5 (by norm_num)
  exact ⟨weaken h e5 (by norm_num), p5⟩

/-- The coefficients of the small-angle branch. -/
theorem small_rsq (h : Accurate R u) {S m' a b c : ℝ} (hS : S = a ^ 2 + b ^ 2 + c ^ 2) (S1 : S ≤ 991 / 100)
    (m1 : |m' - S * (1 / 4)| ≤ 60 * u) :
    |R.rnd (1 - R.rnd (R.rnd (m' / R.rnd 2) * R.rnd (1 - R.rnd (R.rnd (m' / R.rnd 12) * R.rnd (1 - R.rnd (m' / R.rnd 30)))))) ^ 2 +
      R.rnd (R.rnd (R.rnd (1 / 2) * R.rnd (1 - R.rnd (R.rnd (m' / R.rnd 6) * R.rnd (1 - R.rnd (R.rnd (m' / R.rnd 20) * R.rnd (1 - R.rnd (m' / R.rnd 42))))))) * a) ^ 2 +
      R.rnd (R.rnd (R.rnd (1 / 2) * R.rnd (1 - R.rnd (R.rnd (m' / R.rnd 6) * R.rnd (1 - R.rnd (R.rnd (m' / R.rnd 20) * R.rnd (1 - R.rnd (m' / R.rnd 42))))))) * b) ^ 2 +
      R.rnd (R.rnd (R.rnd (1 / 2) * R.rnd (1 - R.rnd (R.rnd (m' / R.rnd 6) * R.rnd (1 - R.rnd (R.rnd (m' / R.rnd 20) * R.rnd (1 - R.rnd (m' / R.rnd 42))))))) * c) ^ 2 - 1|
      ≤ 1 / 50 := by
  have u0 := h.pos
  have u1 := h.small
  obtain ⟨m, hm⟩ : ∃ m, m = S * (1 / 4) := ⟨_, rfl⟩
  have S0 : 0 ≤ S := by rw [hS]; positivity
  rw [← hm] at m1
  have ma : 0 ≤ m := by rw [hm]; linarith
  have mb : m ≤ 5 / 2 := by rw [hm]; linarith
  have cs := series_near h m1 ma mb (le_refl 2) (le_refl 12) (le_refl 30)
  have sn := series_near h m1 ma mb (by norm_num : (2:ℝ) ≤ 6) (by norm_num : (12:ℝ) ≤ 20) (by norm_num : (30:ℝ) ≤ 42)
  have pu := poly_unit m ma mb
  generalize R.rnd (1 - R.rnd (R.rnd (m' / R.rnd 2) * R.rnd (1 - R.rnd (R.rnd (m' / R.rnd 12) * R.rnd (1 - R.rnd (m' / R.rnd 30)))))) = C at *
  generalize R.rnd (1 - R.rnd (R.rnd (m' / R.rnd 6) * R.rnd (1 - R.rnd (R.rnd (m' / R.rnd 20) * R.rnd (1 - R.rnd (m' / R.rnd 42)))))) = N at *
  generalize 1 - m / 2 * (1 - m / 12 * (1 - m / 30)) = c0 at *
  generalize 1 - m / 6 * (1 - m / 20 * (1 - m / 42)) = n0 at *
  have h2 := lit_near h (1 / 2) (by norm_num)
  have hn := near_mul h h2 sn.1 (B := 1 / 2) (B' := 1) (by rw [abs_of_pos] <;> norm_num) sn.2 (by norm_num) (by norm_num) (by norm_num) (by norm_num)
  have hn := weaken h hn (l := 170) (by norm_num)
  have hnB : |1 / 2 * n0| ≤ 1 / 2 := by rw [abs_mul, abs_of_pos (by norm_num : (0:ℝ) < 1 / 2)]; linarith [sn.2]
  generalize R.rnd (R.rnd (1 / 2) * N) = K at *
  have cmp : ∀ x : ℝ, x ^ 2 ≤ S → |R.rnd (K * x) - 1 / 2 * n0 * x| ≤ 600 * u ∧ |1 / 2 * n0 * x| ≤ 2 := by
    intro x hx
    have xb : |x| ≤ 16 / 5 := abs_le_of_sq_le_sq (by norm_num; linarith) (by norm_num)
    have := near_mul h hn (x' := x) (y' := x) (k' := 0) (B' := 16 / 5) (by simp) hnB xb (by norm_num) (by norm_num) (by norm_num) (by norm_num)
    refine ⟨weaken h this (by norm_num), ?_⟩
    rw [abs_mul]
    exact (mul_le_mul hnB xb (abs_nonneg _) (by norm_num)).trans (by norm_num)
  have a2 := sq_nonneg a
  have b2 := sq_nonneg b
  have c2 := sq_nonneg c
  have ka := cmp a (by linarith)
  have kb := cmp b (by linarith)
  have kc := cmp c (by linarith)
  have r := sq4 (weaken h cs.1 (by norm_num : (320:ℝ) ≤ 600)) ka.1 kb.1 kc.1 (cs.2.trans (by norm_num : (1:ℝ) ≤ 2)) ka.2 kb.2 kc.2
  have e5 : c0 ^ 2 + (1 / 2 * n0 * a) ^ 2 + (1 / 2 * n0 * b) ^ 2 + (1 / 2 * n0 * c) ^ 2 = c0 ^ 2 + m * n0 ^ 2 := by
    rw [hm, hS]; ring
  rw [e5] at r
  have r' := abs_le.1 r
  have pu' := abs_le.1 pu
  have g : 8 * 2 * (600 * u) + 4 * (600 * u) ^ 2 ≤ 19 / 1000 := by
    have k1 : 600 * u ≤ 1 / 1000 := by linarith
    have k2 := pow_le_pow_left₀ (by linarith : 0 ≤ 600 * u) k1 2
    linarith
  rw [abs_le]
  constructor <;> linarith [r'.1, r'.2, pu'.1, pu'.2]

/-- The coefficients of the large-angle branch, for either sign of the vector. -/
theorem large_rsq (h : Accurate R u) {S S' a b c s co M : ℝ} (hS : S = a ^ 2 + b ^ 2 + c ^ 2) (S1 : 98 / 10 ≤ S')
    (hm : |S' - S| ≤ 10 * u * (S + 1)) (hM : M = R.rnd (Real.sqrt S')) (hs : |s ^ 2 + co ^ 2 - 1| ≤ 5 * u) :
    |co ^ 2 + R.rnd (R.rnd (a * s) / M) ^ 2 + R.rnd (R.rnd (b * s) / M) ^ 2 + R.rnd (R.rnd (c * s) / M) ^ 2 - 1| ≤ 1 / 50 := by
  have u0 := h.pos
  have u1 := h.small
  have S0 : 0 ≤ S := by rw [hS]; positivity
  have hm' := abs_le.1 hm
  have uS : 0 ≤ u * S ∧ u * S ≤ S / 1000000 := ⟨by positivity, by nlinarith⟩
  have S9 : 97 / 10 ≤ S := by linarith [hm'.1, hm'.2]
  have r0 := Real.sqrt_nonneg S'
  have r2 : Real.sqrt S' ^ 2 = S' := Real.sq_sqrt (by linarith)
  have r3 : 3 ≤ Real.sqrt S' := Real.le_sqrt_of_sq_le (by norm_num; linarith)
  have t := h.rnd (Real.sqrt S')
  rw [← hM, abs_of_nonneg r0] at t
  generalize Real.sqrt S' = r at *
  have ur : 0 ≤ u * r ∧ u * r ≤ r / 1000000 := ⟨by positivity, by nlinarith⟩
  have t' := abs_le.1 t
  have Mr : |M - r| ≤ r / 100000 := by rw [abs_le]; constructor <;> linarith [t'.1, t'.2]
  have Mr' := abs_le.1 Mr
  have M0 : 0 < M := by linarith
  have M2 : 2 ≤ M := by linarith
  -- the squared computed length and the exact one
  have SS : |S' - S| ≤ S / 10000 := hm.trans (by linarith)
  have SS' := abs_le.1 SS
  have rat : |S / M ^ 2 - 1| ≤ 1 / 1000 := by
    have mp : 0 < M ^ 2 := by positivity
    have lo : (99999 / 100000 * r) ^ 2 ≤ M ^ 2 := pow_le_pow_left₀ (by positivity) (by linarith) 2
    have hi : M ^ 2 ≤ (100001 / 100000 * r) ^ 2 := pow_le_pow_left₀ M0.le (by linarith) 2
    rw [mul_pow, r2] at lo hi
    have e : S / M ^ 2 - 1 = (S - M ^ 2) / M ^ 2 := by field_simp
    rw [e, abs_div, abs_of_pos mp, div_le_iff₀ mp, abs_le]
    constructor <;> linarith
  have hs' := abs_le.1 hs
  have s1 : |s| ≤ 101 / 100 := abs_le_of_sq_le_sq (by norm_num; linarith [sq_nonneg co, hs'.2]) (by norm_num)
  have cmp : ∀ x : ℝ, x ^ 2 ≤ S → |R.rnd (R.rnd (x * s) / M) - x * s / M| ≤ 1 / 10000 ∧ |x * s / M| ≤ 2 := by
    intro x hx
    have xM : |x| ≤ 11 / 10 * M := by
      refine abs_le_of_sq_le_sq ?_ (by positivity)
      have rr := abs_le.1 rat
      have : S ≤ 1001 / 1000 * M ^ 2 := by
        have := (div_le_iff₀ (by positivity : 0 < M ^ 2)).1 (by linarith [rr.2] : S / M ^ 2 ≤ 1001 / 1000)
        exact this
      have := sq_nonneg M
      rw [mul_pow]
      linarith
    have xs : |x * s| ≤ 3 / 2 * M := by
      rw [abs_mul]
      exact (mul_le_mul xM s1 (abs_nonneg _) (by positivity)).trans (by linarith)
    have q2 : |x * s / M| ≤ 3 / 2 := by rw [abs_div, abs_of_pos M0, div_le_iff₀ M0]; exact xs
    have p := h.rnd (x * s)
    have q1 : |R.rnd (x * s) / M - x * s / M| ≤ 3 * u := by
      rw [← sub_div, abs_div, abs_of_pos M0, div_le_iff₀ M0]
      refine p.trans ?_
      have := mul_le_mul_of_nonneg_left (by linarith : |x * s| + 1 ≤ 3 * M) u0
      linarith
    have f := near h q1 q2 (by norm_num)
    exact ⟨f.trans (by linarith), q2.trans (by norm_num)⟩
  have a2 := sq_nonneg a
  have b2 := sq_nonneg b
  have c2 := sq_nonneg c
  have ka := cmp a (by linarith)
  have kb := cmp b (by linarith)
  have kc := cmp c (by linarith)
  have co1 : |co| ≤ 2 := abs_le_of_sq_le_sq (by linarith [sq_nonneg s, hs'.2]) (by norm_num)
  have r5 := sq4 (x1 := co) (y1 := co) (by simp) ka.1 kb.1 kc.1 co1 ka.2 kb.2 kc.2
  have e5 : co ^ 2 + (a * s / M) ^ 2 + (b * s / M) ^ 2 + (c * s / M) ^ 2 = (s ^ 2 + co ^ 2) + s ^ 2 * (S / M ^ 2 - 1) := by
    rw [hS]; field_simp; ring
  rw [e5] at r5
  have r6 := abs_le.1 r5
  have s2 : s ^ 2 ≤ 11 / 10 := by linarith [sq_nonneg co, hs'.2]
  have r7 : |s ^ 2 * (S / M ^ 2 - 1)| ≤ 11 / 10 * (1 / 1000) := by
    rw [abs_mul, abs_of_nonneg (sq_nonneg s)]
    exact mul_le_mul s2 rat (abs_nonneg _) (by norm_num)
  have r7 := abs_le.1 r7
  rw [abs_le]
  constructor <;> linarith [r6.1, r6.2, r7.1, r7.2, hs'.1, hs'.2]

/-- Computed sine and cosine. -/
theorem sincos (h : Accurate R u) (x : ℝ) : |R.sin x ^ 2 + R.cos x ^ 2 - 1| ≤ 5 * u := by
  have u0 := h.pos
  have u1 := h.small
  have a := h.sin x
  have b := h.cos x
  have a1 := Real.abs_sin_le_one x
  have b1 := Real.abs_cos_le_one x
  have key : ∀ p q : ℝ, |p - q| ≤ u → |q| ≤ 1 → |p ^ 2 - q ^ 2| ≤ 5 / 2 * u := by
    intro p q hp hq
    have e : p ^ 2 - q ^ 2 = (p - q) * (p - q + 2 * q) := by ring
    have hq2 : |2 * q| ≤ 2 := by rw [abs_mul]; norm_num; linarith
    rw [e, abs_mul, mul_comm (5 / 2)]
    exact mul_le_mul hp ((abs_add_le _ _).trans (by linarith)) (abs_nonneg _) u0
  have k1 := abs_le.1 (key _ _ a a1)
  have k2 := abs_le.1 (key _ _ b b1)
  have k3 := Real.sin_sq_add_cos_sq x
  rw [abs_le]
  constructor <;> linarith [k1.1, k1.2, k2.1, k2.2]

/-- The computed `π * π`. -/
theorem pi_sq (h : Accurate R u) : 98 / 10 ≤ R.rnd (R.rnd Real.pi * R.rnd Real.pi) ∧ R.rnd (R.rnd Real.pi * R.rnd Real.pi) ≤ 99 / 10 := by
  have u0 := h.pos
  have u1 := h.small
  have pi1 := Real.pi_gt_d4
  have pi2 := Real.pi_lt_d4
  have a := near0 h (x := Real.pi) (B := 4) (by rw [abs_of_pos Real.pi_pos]; linarith)
  have a' := abs_le.1 a
  generalize R.rnd Real.pi = p at *
  have p1 : 314 / 100 ≤ p := by linarith [a'.1]
  have p2 : p ≤ 3142 / 1000 := by linarith [a'.2]
  have pp : 98596 / 10000 ≤ p * p ∧ p * p ≤ 98722 / 10000 := ⟨by nlinarith, by nlinarith⟩
  have b := abs_le.1 (near0 h (x := p * p) (B := 10) (by rw [abs_of_nonneg (by linarith)]; linarith))
  constructor <;> linarith [b.1, b.2]

/-- The quaternion computed from a rotation vector has about unit length, whatever the vector. -/
theorem rv_rsq (h : Accurate R u) (v : V3 (RR R)) : |rsq (rvToQuat v) - 1| ≤ 1 / 50 := by
  have u0 := h.pos
  have u1 := h.small
  obtain ⟨S, hS⟩ : ∃ S, S = (v 0).v ^ 2 + (v 1).v ^ 2 + (v 2).v ^ 2 := ⟨_, rfl⟩
  have S0 : 0 ≤ S := by rw [hS]; positivity
  have M := mag_near h (v 0).v (v 1).v (v 2).v
  rw [← hS] at M
  have P := pi_sq h
  have M' := abs_le.1 M
  have uS : 0 ≤ u * S ∧ u * S ≤ S / 1000000 := ⟨by positivity, by nlinarith⟩
  unfold rvToQuat
  dsimp only
  by_cases c : Fl.lt (v 0 * v 0 + v 1 * v 1 + v 2 * v 2) (Fl.pi * Fl.pi : RR R) = true
  · rw [if_pos c]
    have c := (lt_iff _ _).1 c
    simp only [v_add, v_mul, v_pi] at c
    have e4 : R.rnd (((1 / 4 : ℚ) : ℝ)) = R.rnd (1 / 4) := by norm_num
    have e2 : R.rnd (((1 / 2 : ℚ) : ℝ)) = R.rnd (1 / 2) := by norm_num
    simp only [rsq, v_sub, v_div, v_one, v_mul, v_add, v_lit, e4, e2, Rat.cast_ofNat]
    generalize R.rnd (R.rnd (R.rnd ((v 0).v * (v 0).v) + R.rnd ((v 1).v * (v 1).v)) + R.rnd ((v 2).v * (v 2).v)) = S' at *
    have S1 : S ≤ 991 / 100 := by linarith [M'.1, P.2]
    have mS : |S' - S| ≤ 110 * u := M.trans (by nlinarith)
    have q4 := lit_near h (1 / 4) (by norm_num)
    have m0 := near_mul h mS q4 (B := 10) (B' := 1 / 4) (by rw [abs_of_nonneg S0]; linarith) (by rw [abs_of_pos] <;> norm_num)
      (by norm_num) (by norm_num) (by norm_num) (by norm_num)
    exact small_rsq h hS S1 (weaken h m0 (l := 60) (by norm_num))
  · rw [if_neg c]
    have c : ¬ _ := fun k => c ((lt_iff _ _).2 k)
    simp only [v_add, v_mul, v_pi, not_lt] at c
    have sc := sincos h (Fl.sqrt (v 0 * v 0 + v 1 * v 1 + v 2 * v 2) / Fl.lit 2 : RR R).v
    split_ifs
    · have hS' : S = (-(v 0).v) ^ 2 + (-(v 1).v) ^ 2 + (-(v 2).v) ^ 2 := by rw [hS]; ring
      exact large_rsq h hS' (by linarith [P.1]) M rfl (by rw [← neg_sq (R.cos _)] at sc; exact sc)
    · exact large_rsq h hS (by linarith [P.1]) M rfl sc
end Verif.Rnd
