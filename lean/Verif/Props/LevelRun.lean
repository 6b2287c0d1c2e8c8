import Verif.Props.Level
/-! C136 over many samples: a device at rest, its body axes such that the specific force is along the third axis held, is levelled. -/
namespace Verif.Props
open Verif Verif.Spec Verif.Convert Matrix

/-- The plane in which the filter moves: `e` is the axis of the tilt error, `c` and `s` its cosine and sine, `x` what was integrated. -/
structure Planar (a : Ahrs ℝ) (f e : V3 ℝ) (b dt c s x : ℝ) : Prop where
  rot : holdsRot a
  ts : a.ts = dt
  kp : a.Kp = 2 * b
  ki : a.Ki = b * b
  one : cosTo e e = 1
  perp : cosTo f e = 0
  axis : thirdAxis a = fun i => c * f i + s * cross f e i
  int : a.exyzInt = fun i => b * x * e i

theorem planar_cross (f e : V3 ℝ) (c s : ℝ) (hf : cosTo f f = 1) (he : cosTo f e = 0) :
    cross (fun i => c * f i + s * cross f e i) f = fun i => s * e i := by
  unfold cosTo at hf he
  funext i
  fin_cases i <;> simp [cross, v3]
  · linear_combination (s * e 0) * hf - s * f 0 * he
  · linear_combination (s * e 1) * hf - s * f 1 * he
  · linear_combination (s * e 2) * hf - s * f 2 * he

/-- Turning a vector of the plane about its normal. -/
theorem planar_turn (f e : V3 ℝ) (c s cs w : ℝ) (hf : cosTo f f = 1) (he : cosTo e e = 1) (hfe : cosTo f e = 0) (j : Fin 3) :
    let r : V3 ℝ := fun i => c * f i + s * cross f e i
    let δ : Quat ℝ := ⟨cs, -w * e 0, -w * e 1, -w * e 2⟩
    r 0 * rotH δ 0 j + r 1 * rotH δ 1 j + r 2 * rotH δ 2 j =
      (c * (cs ^ 2 - w ^ 2) + s * (2 * cs * w)) * f j + (s * (cs ^ 2 - w ^ 2) - c * (2 * cs * w)) * cross f e j := by
  intro r δ
  unfold cosTo at hf he hfe
  fin_cases j <;> simp [r, δ, rotH, cross, v3]
  · linear_combination (-w ^ 2 * (c * f 0 + s * (f 1 * e 2 - f 2 * e 1)) + 2 * cs * w * s * f 0) * he + (2 * w ^ 2 * c * e 0 - 2 * cs * w * s * e 0) * hfe
  · linear_combination (-w ^ 2 * (c * f 1 + s * (f 2 * e 0 - f 0 * e 2)) + 2 * cs * w * s * f 1) * he + (2 * w ^ 2 * c * e 1 - 2 * cs * w * s * e 1) * hfe
  · linear_combination (-w ^ 2 * (c * f 2 + s * (f 0 * e 1 - f 1 * e 0)) + 2 * cs * w * s * f 2) * he + (2 * w ^ 2 * c * e 2 - 2 * cs * w * s * e 2) * hfe

/-- The two numbers of a small computed rotation. -/
theorem small_series (d : ℝ) (hd : |d| ≤ 1 / 10) (t : ℝ) (ht : t = |d| / 2) :
    let cs := csP t
    let w := 1 / 2 * snP t * d
    ∃ p κ, 0 ≤ p ∧ p ≤ 51 / 100 * d ^ 2 ∧ 99 / 100 ≤ κ ∧ κ ≤ 101 / 100 ∧ 0 < cs ^ 2 + w ^ 2 ∧ (1 - p) ^ 2 + (κ * d) ^ 2 = 1 ∧
      (cs ^ 2 - w ^ 2) / (cs ^ 2 + w ^ 2) = 1 - p ∧ 2 * cs * w / (cs ^ 2 + w ^ 2) = κ * d := by
  intro cs w
  have ht0 : 0 ≤ t := by rw [ht]; positivity
  have ht1 : t ≤ 1 / 20 := by rw [ht]; linarith
  have hd2 : d ^ 2 = 4 * t ^ 2 := by rw [ht, div_pow, sq_abs]; ring
  have q2 : 0 ≤ t ^ 2 := by positivity
  have p2 : t ^ 2 ≤ 1 / 400 := by nlinarith
  have e4 : t ^ 4 = t ^ 2 * t ^ 2 := by ring
  have e6 : t ^ 6 = t ^ 2 * t ^ 2 * t ^ 2 := by ring
  obtain ⟨m, hm⟩ : ∃ m, m = t ^ 2 := ⟨_, rfl⟩
  obtain ⟨u, hu⟩ : ∃ u, u = snP t := ⟨_, rfl⟩
  have hu0 : 999 / 1000 ≤ u := by rw [hu]; unfold snP; rw [e4, e6, ← hm]; rw [← hm] at q2 p2; nlinarith [mul_nonneg q2 q2]
  have hu1 : u ≤ 1 := by rw [hu]; unfold snP; rw [e4, e6, ← hm]; rw [← hm] at q2 p2; nlinarith [mul_nonneg q2 q2, mul_nonneg q2 (mul_nonneg q2 q2)]
  have hc0 : 998 / 1000 ≤ cs := by show _ ≤ csP t; unfold csP; rw [e4, e6, ← hm]; rw [← hm] at q2 p2; nlinarith [mul_nonneg q2 q2]
  have hc1 : cs ≤ 1 := by show csP t ≤ 1; unfold csP; rw [e4, e6, ← hm]; rw [← hm] at q2 p2; nlinarith [mul_nonneg q2 q2, mul_nonneg q2 (mul_nonneg q2 q2)]
  have hw : w = 1 / 2 * u * d := by rw [hu]
  have hw2 : w ^ 2 = u ^ 2 * t ^ 2 := by rw [hw, mul_pow, mul_pow, hd2]; ring
  clear_value cs w
  have hw3 : 0 ≤ w ^ 2 := by positivity
  have hw4 : w ^ 2 ≤ 1 / 400 := by rw [hw2]; nlinarith
  obtain ⟨N, hN⟩ : ∃ N, N = cs ^ 2 + w ^ 2 := ⟨_, rfl⟩
  have hN0 : 995 / 1000 ≤ N := by rw [hN]; nlinarith
  have hN1 : N ≤ 1003 / 1000 := by rw [hN]; nlinarith
  have hNp : 0 < N := by linarith
  have hf1 : (cs ^ 2 - w ^ 2) / (cs ^ 2 + w ^ 2) = 1 - 2 * w ^ 2 / N := by rw [← hN]; field_simp; rw [hN]; ring
  have hf2 : 2 * cs * w / (cs ^ 2 + w ^ 2) = cs * u / N * d := by rw [← hN, hw]; field_simp
  refine ⟨2 * w ^ 2 / N, cs * u / N, by positivity, ?_, ?_, ?_, by rw [← hN]; exact hNp, ?_, hf1, hf2⟩
  · rw [div_le_iff₀ hNp, hw2, hd2]; nlinarith [mul_nonneg q2 (by nlinarith : 0 ≤ 1 - u ^ 2)]
  · rw [le_div_iff₀ hNp]; nlinarith
  · rw [div_le_iff₀ hNp]; nlinarith
  · rw [← hf1, ← hf2, ← hN, div_pow, div_pow, ← add_div, div_eq_one_iff_eq (by positivity), hN]; ring

/-- One sample in the plane: the numbers change like a damped pendulum. -/
theorem planar_step (a : Ahrs ℝ) (f e vm : V3 ℝ) (b dt c s x h y d : ℝ) (P : Planar a f e b dt c s x) (hf : cosTo f f = 1) (hacc : a.acc0 vm = f)
    (hh : h = b * dt) (hy : y = x + h * s) (hd : d = h * (2 * s + y)) (hd1 : |d| ≤ 1 / 10) :
    ∃ p κ, 0 ≤ p ∧ p ≤ 51 / 100 * d ^ 2 ∧ 99 / 100 ≤ κ ∧ κ ≤ 101 / 100 ∧ (1 - p) ^ 2 + (κ * d) ^ 2 = 1 ∧
      ((∀ i, |b * y * e i| ≤ a.ebMax i) → Planar (a.update zero3 vm) f e b dt (c * (1 - p) + s * (κ * d)) (s * (1 - p) - c * (κ * d)) y) := by
  obtain ⟨⟨hq, hC⟩, hts, hKp, hKi, h1, hfe, hax, hint⟩ := P
  have herr : a.err vm = fun i => s * e i := by
    rw [← planar_cross f e c s hf hfe, ← hax]
    unfold Ahrs.err
    rw [hacc]
    funext i
    fin_cases i <;> simp [cross, thirdAxis, zero3, v3]
  have hI : a.exyzInt + vs (a.err vm) (a.Ki * a.ts) = fun i => b * y * e i := by
    rw [herr, hint, hKi, hts, hy, hh]
    funext i
    simp only [Pi.add_apply, vs]; ring
  obtain ⟨θ, hθ⟩ : ∃ θ : V3 ℝ, θ = fun i => -d * e i := ⟨_, rfl⟩
  have hth : (zero3 : V3 ℝ) - vs (sv a.Kp (a.err vm) + (a.exyzInt + vs (a.err vm) (a.Ki * a.ts))) a.ts = θ := by
    rw [hI, herr, hKp, hts, hθ, hd, hh]
    funext i
    simp only [Pi.sub_apply, Pi.add_apply, vs, sv, zero3]
    fin_cases i <;> simp [v3] <;> ring
  have hl : len θ = |d| := by
    have : len θ ^ 2 = |d| ^ 2 := by
      rw [len_sq, hθ, sq_abs]
      unfold cosTo at h1
      linear_combination d ^ 2 * h1
    exact (sq_eq_sq₀ (len_nonneg θ) (abs_nonneg d)).1 this
  have hrv := rv_small θ (by rw [hl]; linarith [Real.pi_gt_three])
  obtain ⟨p, κ, a1, a2, a3, a4, hN, a5, hp, hκ⟩ := small_series d hd1 (len θ / 2) (by rw [hl])
  obtain ⟨cs, hcs⟩ : ∃ cs, cs = csP (len θ / 2) := ⟨_, rfl⟩
  obtain ⟨w, hw⟩ : ∃ w, w = 1 / 2 * snP (len θ / 2) * d := ⟨_, rfl⟩
  rw [← hcs, ← hw] at hN hp hκ
  have hδ : rvToQuat θ = ⟨cs, -w * e 0, -w * e 1, -w * e 2⟩ := by
    rw [hrv, ← hcs, hw, hθ]
    simp only [Quat.mk.injEq, true_and]
    refine ⟨?_, ?_, ?_⟩ <;> ring
  have hqs : qsq (rvToQuat θ) = cs ^ 2 + w ^ 2 := by
    rw [hδ]; unfold cosTo at h1; simp only [qsq]; linear_combination w ^ 2 * h1
  have hq' : (a.update zero3 vm).qnb = (a.qnb.mul (rvToQuat θ)).normalized := by rw [← hth]; rfl
  refine ⟨p, κ, a1, a2, a3, a4, a5, fun hcl => ⟨⟨?_, rfl⟩, hts, hKp, hKi, h1, hfe, ?_, ?_⟩⟩
  · rw [hq']; exact qsq_normalized _ (by rw [qsq_mul, hq, one_mul, hqs]; exact hN)
  · funext j
    have ht := planar_turn f e c s cs w hf h1 hfe j
    dsimp only at ht
    rw [← hδ] at ht
    show quatToDcm (a.update zero3 vm).qnb 2 j = _
    rw [hq', rotH_normalized _ (by rw [qsq_mul, hq, one_mul, hqs]; exact hN), rotH_mul, qsq_mul, hq, one_mul, Matrix.mul_apply, Fin.sum_univ_three, ← toRot_eq _ hq]
    have hr : ∀ i, a.qnb.toRot 2 i = c * f i + s * cross f e i := by
      intro i
      have := congrFun hax i
      unfold thirdAxis at this
      rw [hC] at this
      exact this
    rw [hr, hr, hr, ht, hqs, add_div, ← hp, ← hκ]
    field_simp
  · funext i
    show Ahrs.clamp ((a.exyzInt + vs (a.err vm) (a.Ki * a.ts)) i) (a.ebMax i) = _
    rw [hI]
    have := abs_le.1 (hcl i)
    unfold Ahrs.clamp
    rw [if_neg (by rw [lt_real]; linarith), if_neg (by rw [lt_real]; linarith)]

theorem unit_le (c s : ℝ) (h : c ^ 2 + s ^ 2 = 1) : c ≤ 1 := by nlinarith [sq_nonneg s]

/-- The energy of the tilt error and of what was integrated. -/
noncomputable def energy (c s x : ℝ) : ℝ := (1 - c) + x ^ 2 / 2 + s * x / 2

theorem energy_bounds (c s x : ℝ) (h : c ^ 2 + s ^ 2 = 1) (hc : c ≤ 1) : (1 - c) / 2 + x ^ 2 / 4 ≤ energy c s x := by
  unfold energy
  have : s ^ 2 ≤ 2 * (1 - c) := by nlinarith
  nlinarith [sq_nonneg (s + x)]

theorem energy_form (c s y κ : ℝ) (hc0 : 67 / 100 ≤ c) (hc1 : c ≤ 1) (k0 : 99 / 100 ≤ κ) (k1 : κ ≤ 101 / 100) :
    -(2 * κ - 1 / 2) * s ^ 2 + (1 - κ - c * κ) * (s * y) - c * κ / 2 * y ^ 2 + (13 / 100 * s ^ 2 + 4 / 100 * y ^ 2) ≤ -(18 / 100) * (s ^ 2 + y ^ 2) := by
  obtain ⟨m, hm⟩ : ∃ m, m = c * κ := ⟨_, rfl⟩
  have m0 : 663 / 1000 ≤ m := by rw [hm]; nlinarith
  have m1 : m ≤ 101 / 100 := by rw [hm]; nlinarith
  rw [← hm]
  clear hm hc0 hc1
  obtain ⟨B, hB⟩ : ∃ B, B = 1 - κ - m := ⟨_, rfl⟩
  have B0 : -(m + 1 / 100) ≤ B := by rw [hB]; linarith
  have B1 : B ≤ 0 := by rw [hB]; linarith
  have B4 : B ^ 2 ≤ (m + 1 / 100) ^ 2 := by nlinarith
  have B2 : B ^ 2 ≤ 46 / 10 * (m / 2 - 22 / 100) := by nlinarith [mul_nonneg (sub_nonneg.2 m0) (sub_nonneg.2 m1)]
  have B3 := mul_le_mul_of_nonneg_right B2 (sq_nonneg y)
  have k2 := mul_nonneg (by linarith : 0 ≤ κ - 99 / 100) (sq_nonneg s)
  rw [← hB]
  linarith [sq_nonneg (115 / 100 * s - B * y / 2), sq_nonneg s, (by ring : (115 / 100 * s - B * y / 2) ^ 2 = 115 / 100 * (115 / 100 * s ^ 2 - B * (s * y)) + B ^ 2 * y ^ 2 / 4)]

theorem energy_above (c s x h y : ℝ) (hcs : c ^ 2 + s ^ 2 = 1) (hc0 : 67 / 100 ≤ c) (hc1 : c ≤ 1) (h0 : 0 < h) (h1 : h ≤ 2146 / 100000) (hy : y = x + h * s) :
    energy c s x ≤ 9 / 10 * (s ^ 2 + y ^ 2) := by
  have t1 : 1 - c ≤ 6 / 10 * s ^ 2 := by nlinarith
  have t2 : s * x / 2 ≤ 2 / 10 * s ^ 2 + 3125 / 10000 * x ^ 2 := by nlinarith [sq_nonneg (4 * s - 5 * x)]
  have t3 : x ^ 2 ≤ 105 / 100 * y ^ 2 + 21 * (h ^ 2 * s ^ 2) := by
    have : x = y - h * s := by rw [hy]; ring
    rw [this]
    have := sq_nonneg (y + 20 * (h * s))
    nlinarith
  have t5 : h ^ 2 ≤ 1 / 2000 := by nlinarith
  have t4 : h ^ 2 * s ^ 2 ≤ 1 / 2000 * s ^ 2 := mul_le_mul_of_nonneg_right t5 (sq_nonneg s)
  unfold energy
  linarith [sq_nonneg s, sq_nonneg y]

/-- One sample takes a share of the energy away. -/
theorem energy_step (c s x h y d p κ : ℝ) (hcs : c ^ 2 + s ^ 2 = 1) (hc0 : 67 / 100 ≤ c) (hc1 : c ≤ 1) (h0 : 0 < h) (h1 : h ≤ 2146 / 100000) (hx : |x| ≤ 82 / 100)
    (hy : y = x + h * s) (hd : d = h * (2 * s + y)) (p0 : 0 ≤ p) (p1 : p ≤ 51 / 100 * d ^ 2) (k0 : 99 / 100 ≤ κ) (k1 : κ ≤ 101 / 100) :
    energy (c * (1 - p) + s * (κ * d)) (s * (1 - p) - c * (κ * d)) y ≤ (1 - h / 5) * energy c s x := by
  have hs2 : s ^ 2 ≤ 56 / 100 := by nlinarith
  have hs1 : |s| ≤ 75 / 100 := abs_le_of_sq_le_sq (by nlinarith) (by norm_num)
  have hxs := abs_le.1 hx
  have hss := abs_le.1 hs1
  have hyb : |y| ≤ 84 / 100 := by rw [hy, abs_le]; constructor <;> nlinarith
  have hsy : |s * y| ≤ 63 / 100 := by rw [abs_mul]; nlinarith [abs_nonneg s, abs_nonneg y]
  have hsy' := abs_le.1 hsy
  -- the change
  have e1 : energy (c * (1 - p) + s * (κ * d)) (s * (1 - p) - c * (κ * d)) y - energy c s x =
      h * (-(2 * κ - 1 / 2) * s ^ 2 + (1 - κ - c * κ) * (s * y) - c * κ / 2 * y ^ 2) + p * (c - s * y / 2) - h ^ 2 * s ^ 2 / 2 := by
    have hx' : x = y - h * s := by rw [hy]; ring
    unfold energy; rw [hx', hd]; ring
  have b1 : p * (c - s * y / 2) ≤ h * (13 / 100 * s ^ 2 + 4 / 100 * y ^ 2) := by
    have t1 : p * (c - s * y / 2) ≤ p * (132 / 100) := mul_le_mul_of_nonneg_left (by linarith) p0
    have t2 : d ^ 2 ≤ h * (h * (8 * s ^ 2 + 2 * y ^ 2)) := by rw [hd]; nlinarith [sq_nonneg (2 * s - y), sq_nonneg h, mul_nonneg (sq_nonneg h) (sq_nonneg (2 * s - y))]
    have t3 : h * (8 * s ^ 2 + 2 * y ^ 2) ≤ 2146 / 100000 * (8 * s ^ 2 + 2 * y ^ 2) := mul_le_mul_of_nonneg_right h1 (by positivity)
    have t4 := mul_le_mul_of_nonneg_left t3 h0.le
    nlinarith [mul_nonneg h0.le (sq_nonneg s), mul_nonneg h0.le (sq_nonneg y)]
  have b2 := energy_form c s y κ hc0 hc1 k0 k1
  have b3 := energy_above c s x h y hcs hc0 hc1 h0 h1 hy
  have b4 := mul_le_mul_of_nonneg_left b2 h0.le
  have b5 := mul_le_mul_of_nonneg_left b3 h0.le
  have b6 : 0 ≤ h ^ 2 * s ^ 2 / 2 := by positivity
  nlinarith

theorem energy_region (c s x h y d : ℝ) (hcs : c ^ 2 + s ^ 2 = 1) (hE : energy c s x ≤ 165 / 1000) (h0 : 0 < h) (h1 : h ≤ 2146 / 100000)
    (hy : y = x + h * s) (hd : d = h * (2 * s + y)) : 67 / 100 ≤ c ∧ c ≤ 1 ∧ |x| ≤ 82 / 100 ∧ |d| ≤ 1 / 10 := by
  have hc1 : c ≤ 1 := unit_le c s hcs
  have hlow := energy_bounds c s x hcs hc1
  have hx0 := sq_nonneg x
  have hx7 : x ^ 2 ≤ 66 / 100 := by linarith
  have hx : |x| ≤ 82 / 100 := abs_le_of_sq_le_sq (hx7.trans (by norm_num)) (by norm_num)
  have hc0 : 67 / 100 ≤ c := by linarith
  have hs1 : |s| ≤ 1 := abs_le_of_sq_le_sq (by nlinarith) (by norm_num)
  have hhs : |h * s| ≤ 1 / 10 := by rw [abs_mul, abs_of_pos h0]; nlinarith [abs_nonneg s]
  have hyb : |y| ≤ 92 / 100 := by rw [hy]; exact (abs_add_le _ _).trans (by linarith)
  refine ⟨hc0, hc1, hx, ?_⟩
  have h3 : |2 * s + y| ≤ 3 := (abs_add_le _ _).trans (by rw [abs_mul, abs_two]; linarith)
  rw [hd, abs_mul, abs_of_pos h0]
  nlinarith [abs_nonneg (2 * s + y)]

theorem energy_less (c s x h : ℝ) (hcs : c ^ 2 + s ^ 2 = 1) (hE : energy c s x ≤ 165 / 1000) (h0 : 0 < h) : (1 - h / 5) * energy c s x ≤ 165 / 1000 := by
  have hc1 : c ≤ 1 := unit_le c s hcs
  have hlow := energy_bounds c s x hcs hc1
  have hE0 : 0 ≤ energy c s x := by linarith [sq_nonneg x]
  linarith [mul_nonneg h0.le hE0]

theorem energy_clamp (c s y : ℝ) (hcs : c ^ 2 + s ^ 2 = 1) (hE : energy c s y ≤ 165 / 1000) (e : V3 ℝ) (h1 : cosTo e e = 1) (i : Fin 3) :
    |2146 / 100000 * y * e i| ≤ deg := by
  have hc1 : c ≤ 1 := unit_le c s hcs
  have hlow := energy_bounds c s y hcs hc1
  have hy7 : y ^ 2 ≤ 66 / 100 := by linarith
  have hy8 : |y| ≤ 8125 / 10000 := abs_le_of_sq_le_sq (hy7.trans (by norm_num)) (by norm_num)
  have hdeg : (deg : ℝ) = Real.pi / 180 := by simp [deg, pi_real, lit_real]
  have he1 : |e i| ≤ 1 := by
    unfold cosTo at h1
    refine abs_le_of_sq_le_sq ?_ (by norm_num)
    fin_cases i
    · show e 0 ^ 2 ≤ _; nlinarith [sq_nonneg (e 1), sq_nonneg (e 2)]
    · show e 1 ^ 2 ≤ _; nlinarith [sq_nonneg (e 0), sq_nonneg (e 2)]
    · show e 2 ^ 2 ≤ _; nlinarith [sq_nonneg (e 0), sq_nonneg (e 1)]
  rw [hdeg, abs_mul, abs_mul, abs_of_pos (by norm_num)]
  have := Real.pi_gt_d2
  have h2 : |y| * |e i| ≤ 8125 / 10000 * 1 := mul_le_mul hy8 he1 (abs_nonneg _) (by norm_num)
  rw [mul_assoc]
  linarith

/-- `k` samples at rest: stamps and sizes of the specific force. -/
noncomputable def atRest (a : Ahrs ℝ) (f : V3 ℝ) (ms : List (ℝ × ℝ)) : Ahrs ℝ := ms.foldl (fun a m => a.updateImu (unturned m.1 m.2 f)) a

theorem planar_run (f e : V3 ℝ) (hf : cosTo f f = 1) (b dt : ℝ) (hb : b = 2146 / 100000) (h0 : 0 < dt) (h1 : dt ≤ 1) (ms : List (ℝ × ℝ)) :
    (∀ m ∈ ms, dt / 2 < m.2) → ∀ (a : Ahrs ℝ) (c s x : ℝ), Planar a f e b dt c s x → c ^ 2 + s ^ 2 = 1 → energy c s x ≤ 165 / 1000 →
      (∀ i, a.ebMax i = deg) → ∃ c' s' x', Planar (atRest a f ms) f e b dt c' s' x' ∧ c' ^ 2 + s' ^ 2 = 1 ∧
        energy c' s' x' ≤ (1 - b * dt / 5) ^ ms.length * energy c s x := by
  induction ms with
  | nil => intro _ a c s x P hcs hE hm; exact ⟨c, s, x, P, hcs, by simp⟩
  | cons m ms ih =>
    intro hms a c s x P hcs hE hm
    obtain ⟨h, hh⟩ : ∃ h, h = b * dt := ⟨_, rfl⟩
    have hh0 : 0 < h := by rw [hh, hb]; positivity
    have hh1 : h ≤ 2146 / 100000 := by rw [hh, hb]; linarith
    obtain ⟨y, hy⟩ : ∃ y, y = x + h * s := ⟨_, rfl⟩
    obtain ⟨d, hd⟩ : ∃ d, d = h * (2 * s + y) := ⟨_, rfl⟩
    obtain ⟨hc0, hc1, hx, hd1⟩ := energy_region c s x h y d hcs hE hh0 hh1 hy hd
    have hms0 := hms m List.mem_cons_self
    have hacc : a.acc0 (forceSample m.2 f) = f := acc0_unit a m.2 f hf (by rw [P.ts]; exact h0) (by rw [P.ts]; exact hms0)
    obtain ⟨p, κ, p0, p1, k0, k1, hu, hP⟩ := planar_step a f e (forceSample m.2 f) b dt c s x h y d P hf hacc hh hy hd hd1
    have hstep := energy_step c s x h y d p κ hcs hc0 hc1 hh0 hh1 hx hy hd p0 p1 k0 k1
    obtain ⟨c', hc'⟩ : ∃ c', c' = c * (1 - p) + s * (κ * d) := ⟨_, rfl⟩
    obtain ⟨s', hs''⟩ : ∃ s', s' = s * (1 - p) - c * (κ * d) := ⟨_, rfl⟩
    have hcs' : c' ^ 2 + s' ^ 2 = 1 := by
      rw [hc', hs'']; linear_combination (c ^ 2 + s ^ 2) * hu + hcs
    rw [← hc', ← hs''] at hstep hP
    have hE' : energy c' s' y ≤ 165 / 1000 := hstep.trans (energy_less c s x h hcs hE hh0)
    have hcl : ∀ i, |b * y * e i| ≤ a.ebMax i := by
      intro i
      rw [hm i, hb]
      exact energy_clamp c' s' y hcs' hE' e P.one i
    obtain ⟨c2, s2, x2, P2, hcs2, hE2⟩ := ih (fun m' hm' => hms m' (List.mem_cons_of_mem _ hm')) (a.updateImu (unturned m.1 m.2 f)) c' s' y (hP hcl) hcs' hE' hm
    refine ⟨c2, s2, x2, P2, hcs2, hE2.trans ?_⟩
    rw [List.length_cons, pow_succ, mul_assoc, ← hh]
    exact mul_le_mul_of_nonneg_left hstep (pow_nonneg (sub_nonneg.2 (by linarith)) _)

theorem planar_cos (a : Ahrs ℝ) (f e : V3 ℝ) (b dt c s x : ℝ) (P : Planar a f e b dt c s x) (hf : cosTo f f = 1) : cosTo (thirdAxis a) f = c := by
  rw [P.axis]
  unfold cosTo at *
  simp [cross, v3]
  linear_combination c * hf

/-- Every start is in a plane. -/
theorem planar_start (dt : ℝ) (e0 f : V3 ℝ) (hf : cosTo f f = 1) (hc : 17 / 20 ≤ cosTo (thirdAxis ((Ahrs.new dt).setAttiEuler e0)) f) :
    ∃ e c s, Planar ((Ahrs.new dt).setAttiEuler e0) f e (2146 / 100000) dt c s 0 ∧ c ^ 2 + s ^ 2 = 1 := by
  obtain ⟨a, ha⟩ : ∃ a, a = (Ahrs.new dt).setAttiEuler e0 := ⟨_, rfl⟩
  have hrot : holdsRot a := by rw [ha]; exact ⟨qsq_euler e0, rfl⟩
  have hlit : (Fl.f32 (Fl.f32 (Fl.lit (2146 / 1000)) / Fl.lit 100) : ℝ) = 2146 / 100000 := by
    simp only [lit_real, f32_real]; norm_num
  have hKp : a.Kp = 2 * (2146 / 100000) := by
    rw [ha]
    show (Fl.lit 2 : ℝ) * Fl.f32 (Fl.f32 (Fl.lit (2146 / 1000)) / Fl.lit 100) = _
    rw [hlit, lit_real]; norm_num
  have hKi : a.Ki = (2146 / 100000) * (2146 / 100000) := by
    rw [ha]
    show (Fl.f32 (Fl.f32 (Fl.lit (2146 / 1000)) / Fl.lit 100) : ℝ) * Fl.f32 (Fl.f32 (Fl.lit (2146 / 1000)) / Fl.lit 100) = _
    rw [hlit]
  have hts : a.ts = dt := by rw [ha]; rfl
  have hint : a.exyzInt = zero3 := by rw [ha]; rfl
  rw [← ha] at hc ⊢
  clear ha
  have hR := toRot_isRot a.qnb hrot.1
  have rows : ∀ i j : Fin 3, a.Cnb i 0 * a.Cnb j 0 + a.Cnb i 1 * a.Cnb j 1 + a.Cnb i 2 * a.Cnb j 2 = if i = j then 1 else 0 := by
    intro i j
    have := congrFun (congrFun hR.1 i) j
    rw [Matrix.mul_apply, Fin.sum_univ_three] at this
    simp only [Matrix.transpose_apply] at this
    rw [hrot.2, ← Matrix.one_apply]
    exact this
  obtain ⟨r, hr⟩ : ∃ r, r = thirdAxis a := ⟨_, rfl⟩
  have hrr : cosTo r r = 1 := by rw [hr]; have := rows 2 2; simpa [cosTo, thirdAxis] using this
  obtain ⟨c, hcd⟩ : ∃ c, c = cosTo r f := ⟨_, rfl⟩
  rw [← hr, ← hcd] at hc
  have hX : cross r f 0 ^ 2 + cross r f 1 ^ 2 + cross r f 2 ^ 2 = 1 - c ^ 2 := by
    have h1 : cross r f 0 ^ 2 + cross r f 1 ^ 2 + cross r f 2 ^ 2 = cosTo r r * cosTo f f - cosTo r f ^ 2 := by
      simp [cross, cosTo, v3]; ring
    rw [h1, hrr, hf, ← hcd]; ring
  have hs0 : 0 ≤ 1 - c ^ 2 := by rw [← hX]; positivity
  obtain ⟨s, hs⟩ : ∃ s, s = Real.sqrt (1 - c ^ 2) := ⟨_, rfl⟩
  have hs2 : s ^ 2 = 1 - c ^ 2 := by rw [hs]; exact Real.sq_sqrt hs0
  rcases eq_or_ne s 0 with h0 | h0
  · have hc1 : c = 1 := by rw [h0] at hs2; nlinarith
    have hrf : r = f := by
      have h1 : (r 0 - f 0) ^ 2 + (r 1 - f 1) ^ 2 + (r 2 - f 2) ^ 2 = 0 := by
        unfold cosTo at hrr hf hcd
        linear_combination hrr + hf + 2 * hcd - 2 * hc1
      have q0 := sq_nonneg (r 0 - f 0); have q1 := sq_nonneg (r 1 - f 1); have q2 := sq_nonneg (r 2 - f 2)
      funext i
      fin_cases i
      · show r 0 = f 0; exact sub_eq_zero.1 (pow_eq_zero_iff two_ne_zero |>.1 (by linarith : (r 0 - f 0) ^ 2 = 0))
      · show r 1 = f 1; exact sub_eq_zero.1 (pow_eq_zero_iff two_ne_zero |>.1 (by linarith : (r 1 - f 1) ^ 2 = 0))
      · show r 2 = f 2; exact sub_eq_zero.1 (pow_eq_zero_iff two_ne_zero |>.1 (by linarith : (r 2 - f 2) ^ 2 = 0))
    refine ⟨fun j => a.Cnb 0 j, 1, 0, ⟨hrot, hts, hKp, hKi, ?_, ?_, ?_, ?_⟩, by norm_num⟩
    · have := rows 0 0; simpa [cosTo] using this
    · rw [← hrf, hr]; have := rows 2 0; simpa [cosTo, thirdAxis] using this
    · rw [← hr, hrf]; funext i; simp
    · rw [hint]; funext i; fin_cases i <;> simp [zero3, v3]
  · refine ⟨fun i => cross r f i / s, c, s, ⟨hrot, hts, hKp, hKi, ?_, ?_, ?_, ?_⟩, by rw [hs2]; ring⟩
    · unfold cosTo
      field_simp
      rw [hs2, ← hX]; 
    · unfold cosTo
      simp [cross, v3]; field_simp; ring
    · rw [← hr]
      unfold cosTo at hrr hf hcd
      funext i
      have : ∀ X Y Z W : ℝ, s * (X * (Y / s) - Z * (W / s)) = X * Y - Z * W := by intros; field_simp
      fin_cases i <;> simp [cross, v3, this]
      · linear_combination (-(r 0)) * hf - f 0 * hcd
      · linear_combination (-(r 1)) * hf - f 1 * hcd
      · linear_combination (-(r 2)) * hf - f 2 * hcd
    · rw [hint]; funext i; fin_cases i <;> simp [zero3, v3]

/-- C136, many samples: as long as a device does not turn and the specific force keeps one direction, whatever its size above half a metre per
second squared, an attitude whose third axis is within 31 degrees of that direction is levelled: what is left of the error shrinks geometrically,
by the share `0.0043 dt` of each sample at least. -/
theorem C136_levels_to_the_force_partial (dt : ℝ) (h0 : 0 < dt) (h1 : dt ≤ 1) (e f : V3 ℝ) (hf : cosTo f f = 1)
    (hc : 17 / 20 ≤ cosTo (thirdAxis ((Ahrs.new dt).setAttiEuler e)) f) (ms : List (ℝ × ℝ)) (hms : ∀ m ∈ ms, dt / 2 < m.2) :
    1 - cosTo (thirdAxis (atRest ((Ahrs.new dt).setAttiEuler e) f ms)) f ≤
      2 * (1 - 2146 / 500000 * dt) ^ ms.length * (1 - cosTo (thirdAxis ((Ahrs.new dt).setAttiEuler e)) f) := by
  obtain ⟨u, c, s, P, hcs⟩ := planar_start dt e f hf hc
  have h2 := planar_cos _ _ _ _ _ _ _ _ P hf
  rw [h2] at hc ⊢
  have hE : energy c s 0 = 1 - c := by unfold energy; ring
  obtain ⟨c', s', x', P', hcs', hE'⟩ := planar_run f u hf _ dt rfl h0 h1 ms hms _ c s 0 P hcs (by rw [hE]; linarith) (fun i => by
    show vs (v3 1 1 1) deg i = (deg : ℝ)
    fin_cases i <;> simp [vs, v3])
  rw [planar_cos _ _ _ _ _ _ _ _ P' hf]
  have hlow := energy_bounds c' s' x' hcs' (unit_le c' s' hcs')
  rw [hE] at hE'
  have e3 : (1 - 2146 / 100000 * dt / 5) = (1 - 2146 / 500000 * dt) := by ring
  rw [e3] at hE'
  nlinarith [sq_nonneg x']

/-- C136: so the third axis held tends to the direction of the specific force. -/
theorem C136_limit (dt : ℝ) (h0 : 0 < dt) (h1 : dt ≤ 1) (e f : V3 ℝ) (hf : cosTo f f = 1)
    (hc : 17 / 20 ≤ cosTo (thirdAxis ((Ahrs.new dt).setAttiEuler e)) f) (t n : ℕ → ℝ) (hn : ∀ k, dt / 2 < n k) :
    Filter.Tendsto (fun k => cosTo (thirdAxis (atRest ((Ahrs.new dt).setAttiEuler e) f ((List.range k).map fun j => (t j, n j)))) f) Filter.atTop (nhds 1) := by
  obtain ⟨C, hC⟩ : ∃ C, C = 1 - cosTo (thirdAxis ((Ahrs.new dt).setAttiEuler e)) f := ⟨_, rfl⟩
  have hup : ∀ k, 1 - cosTo (thirdAxis (atRest ((Ahrs.new dt).setAttiEuler e) f ((List.range k).map fun j => (t j, n j)))) f ≤ 2 * (1 - 2146 / 500000 * dt) ^ k * C := by
    intro k
    have := C136_levels_to_the_force_partial dt h0 h1 e f hf hc ((List.range k).map fun j => (t j, n j)) (by
      intro m hm
      obtain ⟨j, -, rfl⟩ := List.mem_map.1 hm
      exact hn j)
    rw [List.length_map, List.length_range, ← hC] at this
    exact this
  have hle : ∀ k, cosTo (thirdAxis (atRest ((Ahrs.new dt).setAttiEuler e) f ((List.range k).map fun j => (t j, n j)))) f ≤ 1 := by
    intro k
    obtain ⟨u, c, s, P, hcs⟩ := planar_start dt e f hf hc
    have h2 := planar_cos _ _ _ _ _ _ _ _ P hf
    rw [h2] at hc
    have hE : energy c s 0 = 1 - c := by unfold energy; ring
    obtain ⟨c', s', x', P', hcs', -⟩ := planar_run f u hf _ dt rfl h0 h1 ((List.range k).map fun j => (t j, n j)) (by
      intro m hm
      obtain ⟨j, -, rfl⟩ := List.mem_map.1 hm
      exact hn j) _ c s 0 P hcs (by rw [hE]; linarith) (fun i => by
      show vs (v3 1 1 1) deg i = (deg : ℝ)
      fin_cases i <;> simp [vs, v3])
    rw [planar_cos _ _ _ _ _ _ _ _ P' hf]
    exact unit_le c' s' hcs'
  have hpow : Filter.Tendsto (fun k : ℕ => 1 - 2 * (1 - 2146 / 500000 * dt) ^ k * C) Filter.atTop (nhds (1 - 2 * 0 * C)) :=
    tendsto_const_nhds.sub (((tendsto_pow_atTop_nhds_zero_of_lt_one (by linarith) (by linarith)).const_mul 2).mul_const C)
  rw [mul_zero, zero_mul, sub_zero] at hpow
  exact tendsto_of_tendsto_of_tendsto_of_le_of_le hpow tendsto_const_nhds (fun k => by linarith [hup k]) hle

/-- C136, the violation over many samples: a front-right-down device at rest (its specific force opposite to its down axis) whose attitude
is held within 31 degrees of upside down is driven to exactly upside down. -/
theorem C136_settles_upside_down (dt : ℝ) (h0 : 0 < dt) (h1 : dt ≤ 1) (e down : V3 ℝ) (hd : cosTo down down = 1)
    (hc : cosTo (thirdAxis ((Ahrs.new dt).setAttiEuler e)) down ≤ -(17 / 20)) (t g : ℕ → ℝ) (hg : ∀ k, 1 / 2 < g k) :
    Filter.Tendsto (fun k => cosTo (thirdAxis (atRest ((Ahrs.new dt).setAttiEuler e) (fun j => -down j) ((List.range k).map fun j => (t j, g j * dt)))) down)
      Filter.atTop (nhds (-1)) := by
  have hneg : ∀ u : V3 ℝ, cosTo u (fun j => -down j) = -cosTo u down := by intro u; unfold cosTo; ring
  have hd' : cosTo (fun j => -down j) (fun j => -down j) = 1 := by rw [← hd]; unfold cosTo; ring
  have := (C136_limit dt h0 h1 e (fun j => -down j) hd' (by rw [hneg]; linarith) t (fun k => g k * dt) (fun k => by nlinarith [hg k])).neg
  refine this.congr fun k => ?_
  rw [hneg, neg_neg]

/-- A device held about 18 degrees from the direction of the force meets the hypotheses, and one on its back those of the violation. -/
example : 17 / 20 ≤ cosTo (thirdAxis ((Ahrs.new (1 / 100)).setAttiEuler (v3 (Real.pi / 10) 0 0))) (v3 0 0 1) ∧
    cosTo (thirdAxis ((Ahrs.new (1 / 100)).setAttiEuler (v3 (Real.pi + Real.pi / 10) 0 0))) (v3 0 0 1) ≤ -(17 / 20) := by
  have h : ∀ x, cosTo (thirdAxis ((Ahrs.new (1 / 100)).setAttiEuler (v3 x 0 0))) (v3 0 0 1) = Real.cos x := by
    intro x
    show cosTo (fun j => quatToDcm (eulerToQuat (v3 x 0 0)) 2 j) _ = _
    rw [(C39_euler_quaternion_agrees _).2, eulerToDcm_eq]
    simp [cosTo, Rx, Ry, Rz, v3, Matrix.mul_apply, Fin.sum_univ_three]
  have hc : 17 / 20 ≤ Real.cos (Real.pi / 10) := by
    have := Real.one_sub_sq_div_two_le_cos (x := Real.pi / 10)
    have := Real.pi_lt_d2
    nlinarith [Real.pi_gt_three]
  rw [h, h, add_comm, Real.cos_add_pi]
  exact ⟨hc, by linarith⟩
end Verif.Props
