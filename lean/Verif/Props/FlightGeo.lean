import Verif.Props.FlightTruth
/-! Small turns to second order; latitude and longitude near a position quaternion. -/
namespace Verif.Props
open Verif Verif.Spec Verif.Convert Matrix
open scoped Quaternion

theorem turn_near_small (v : V3 ℝ) (hv : len v ≤ 1) : ‖toH (rvToQuat v).normalized - toH (rotQuat v)‖ ≤ seriesError v := by
  obtain ⟨σ, hσ, h⟩ := turn_near v
  rcases hσ with rfl | rfl
  · rwa [one_smul] at h
  · exfalso
    have hl := len_nonneg v
    have hq := rv_pos v
    have hrv := rv_small v (by linarith [Real.pi_gt_three])
    have hse : seriesError v ≤ 1 / 14000000 := by
      unfold seriesError
      exact div_le_div_of_nonneg_right (pow_le_one₀ hl hv) (by norm_num)
    have hre : 0 ≤ (toH (rvToQuat v).normalized).re := by
      rw [toH_normalized _ hq, hrv]
      simp only [Quaternion.re_smul, toH_re, smul_eq_mul]
      refine mul_nonneg (by positivity) ?_
      unfold csP
      have h1 : len v / 2 ≤ 1 := by linarith
      have h2 : 0 ≤ len v / 2 := by linarith
      generalize len v / 2 = m at *
      have h3 : m ^ 2 ≤ 1 := pow_le_one₀ h2 h1
      have h4 : m ^ 6 ≤ 1 := pow_le_one₀ h2 h1
      have h5 : 0 ≤ m ^ 4 := by positivity
      linarith
    have hcos : 1 / 2 ≤ (toH (rotQuat v)).re := by
      have := Real.one_sub_sq_div_two_le_cos (x := len v / 2)
      show 1 / 2 ≤ Real.cos (len v / 2)
      nlinarith
    have hb : |(toH (rvToQuat v).normalized - (-1 : ℝ) • toH (rotQuat v)).re| ≤ ‖toH (rvToQuat v).normalized - (-1 : ℝ) • toH (rotQuat v)‖ := by
      refine abs_le_of_sq_le_sq ?_ (norm_nonneg _)
      rw [sq ‖_‖, ← Quaternion.normSq_eq_norm_mul_self, Quaternion.normSq_def']
      nlinarith [sq_nonneg (toH (rvToQuat v).normalized - (-1 : ℝ) • toH (rotQuat v)).imI, sq_nonneg (toH (rvToQuat v).normalized - (-1 : ℝ) • toH (rotQuat v)).imJ,
        sq_nonneg (toH (rvToQuat v).normalized - (-1 : ℝ) • toH (rotQuat v)).imK]
    have := le_abs_self (toH (rvToQuat v).normalized - (-1 : ℝ) • toH (rotQuat v)).re
    have e : (toH (rvToQuat v).normalized - (-1 : ℝ) • toH (rotQuat v)).re = (toH (rvToQuat v).normalized).re + (toH (rotQuat v)).re := by simp
    linarith

/-- A computed turn to second order. -/
theorem turn_two (v : V3 ℝ) (hv : len v ≤ 1) : ‖toH (rvToQuat v).normalized - 1 - (1 / 2 : ℝ) • pureH v‖ ≤ len v ^ 2 := by
  have h := turn_near_small v hv
  have hl := len_nonneg v
  have hse : seriesError v ≤ len v ^ 2 / 4 := by
    unfold seriesError
    have : len v ^ 9 ≤ len v ^ 2 := pow_le_pow_of_le_one hl hv (by norm_num)
    have := sq_nonneg (len v)
    linarith
  have e : toH (rvToQuat v).normalized - 1 - (1 / 2 : ℝ) • pureH v = (toH (rvToQuat v).normalized - toH (rotQuat v)) +
      ((Real.cos (len v / 2) - 1) • (1 : ℍ[ℝ]) + (Real.sin (len v / 2) / len v - 1 / 2) • pureH v) := by
    rw [rotQuat_pure, sub_smul, sub_smul, one_smul]; abel
  rw [e]
  refine (norm_add_le _ _).trans ?_
  have n1 := norm_add_le ((Real.cos (len v / 2) - 1) • (1 : ℍ[ℝ])) ((Real.sin (len v / 2) / len v - 1 / 2) • pureH v)
  rw [norm_smul, norm_smul, pureH_norm, norm_one, mul_one, Real.norm_eq_abs, Real.norm_eq_abs] at n1
  have c1 := Real.one_sub_sq_div_two_le_cos (x := len v / 2)
  have c2 := Real.cos_le_one (len v / 2)
  have c3 : |Real.cos (len v / 2) - 1| ≤ len v ^ 2 / 8 := by rw [abs_le]; constructor <;> nlinarith
  have c4 : |Real.sin (len v / 2) / len v - 1 / 2| * len v ≤ len v ^ 2 / 4 := by
    rcases eq_or_ne (len v) 0 with h0 | h0
    · rw [h0]; simp
    · have hp : 0 < len v := lt_of_le_of_ne hl (Ne.symm h0)
      have e1 : |Real.sin (len v / 2) / len v - 1 / 2| * len v = |Real.sin (len v / 2) - len v / 2| := by
        rw [← abs_of_pos hp, ← abs_mul, abs_of_pos hp]
        congr 1; field_simp
      rw [e1]
      have s1 := Real.sin_le (x := len v / 2) (by linarith)
      have s2 := Real.sin_gt_sub_cube (x := len v / 2) (by linarith)
      rw [abs_le]
      have : (len v / 2) ^ 3 / 6 ≤ len v ^ 2 / 4 := by
        have : len v ^ 3 ≤ len v ^ 2 := pow_le_pow_of_le_one hl hv (by norm_num)
        rw [div_pow]; nlinarith [sq_nonneg (len v), pow_nonneg hl 3]
      constructor <;> nlinarith [sq_nonneg (len v)]
  linarith [sq_nonneg (len v)]

theorem turn_one (v : V3 ℝ) (hv : len v ≤ 1) : ‖toH (rvToQuat v).normalized - 1‖ ≤ 2 * len v := by
  have h := turn_two v hv
  have hl := len_nonneg v
  have e : toH (rvToQuat v).normalized - 1 = (toH (rvToQuat v).normalized - 1 - (1 / 2 : ℝ) • pureH v) + (1 / 2 : ℝ) • pureH v := by abel
  rw [e]
  refine (norm_add_le _ _).trans ?_
  rw [norm_smul, pureH_norm, Real.norm_of_nonneg (by norm_num)]
  nlinarith

theorem arctan_lip (x y : ℝ) : |Real.arctan x - Real.arctan y| ≤ |x - y| := by
  have h := Convex.norm_image_sub_le_of_norm_hasDerivWithin_le (f := Real.arctan) (f' := fun x => 1 / (1 + x ^ 2)) (C := 1) (s := Set.univ) (x := y) (y := x)
    (fun u _ => (Real.hasDerivAt_arctan u).hasDerivWithinAt) (fun u _ => by
      rw [Real.norm_eq_abs, abs_of_nonneg (by positivity), div_le_one (by positivity)]; nlinarith [sq_nonneg u]) convex_univ (Set.mem_univ _) (Set.mem_univ _)
  rwa [one_mul] at h

theorem arg_right (w z : ℝ) (hw : 0 < w) : Complex.arg ⟨w, z⟩ = Real.arctan (z / w) := by
  have h1 : |Complex.arg ⟨w, z⟩| < Real.pi / 2 := Complex.abs_arg_lt_pi_div_two_iff.2 (.inl hw)
  have h2 := Complex.tan_arg ⟨w, z⟩
  dsimp only at h2
  rw [← h2, Real.arctan_tan (by linarith [(abs_lt.1 h1).1]) (abs_lt.1 h1).2]

theorem quot_lip (w w' y y' d w0 : ℝ) (h0 : 0 < w0) (hw' : w0 ≤ w') (hw : w0 / 2 ≤ w) (hw1 : w' ≤ 1) (hy : |y'| ≤ 1) (h1 : |w - w'| ≤ d) (h2 : |y - y'| ≤ d) :
    |y / w - y' / w'| ≤ 4 / w0 ^ 2 * d := by
  have p : 0 < w := by linarith
  have p' : 0 < w' := by linarith
  have hd : 0 ≤ d := (abs_nonneg _).trans h1
  have e : y / w - y' / w' = ((y - y') * w' - y' * (w - w')) / (w * w') := by field_simp; ring
  rw [e, abs_div, abs_of_pos (mul_pos p p'), div_le_iff₀ (mul_pos p p')]
  have n : |(y - y') * w' - y' * (w - w')| ≤ 2 * d := by
    refine (abs_sub _ _).trans ?_
    rw [abs_mul, abs_mul, abs_of_pos p']
    have := mul_le_mul h2 hw1 p'.le hd
    have := mul_le_mul hy h1 (abs_nonneg _) (by norm_num)
    linarith
  have m : w0 ^ 2 / 2 ≤ w * w' := by nlinarith [mul_le_mul hw hw' h0.le p.le]
  have : 2 * d = 4 / w0 ^ 2 * d * (w0 ^ 2 / 2) := by field_simp; ring
  refine n.trans ?_
  rw [this]
  exact mul_le_mul_of_nonneg_left m (by positivity)

theorem re_le (a : ℍ[ℝ]) : |a.re| ≤ ‖a‖ ∧ |a.imJ| ≤ ‖a‖ ∧ |a.imK| ≤ ‖a‖ := by
  have h : ‖a‖ ^ 2 = a.re ^ 2 + a.imI ^ 2 + a.imJ ^ 2 + a.imK ^ 2 := by rw [sq, ← Quaternion.normSq_eq_norm_mul_self, Quaternion.normSq_def']
  have := sq_nonneg a.re; have := sq_nonneg a.imI; have := sq_nonneg a.imJ; have := sq_nonneg a.imK
  exact ⟨abs_le_of_sq_le_sq (by linarith) (norm_nonneg _), abs_le_of_sq_le_sq (by linarith) (norm_nonneg _), abs_le_of_sq_le_sq (by linarith) (norm_nonneg _)⟩

/-- Latitude and longitude of a quaternion near that of a place away from the poles and the 180 degree meridian. -/
theorem lla_near (Λ μ : ℝ) (hΛ : Λ < Real.pi / 2) (hμ : μ < Real.pi) : ∃ L ρ : ℝ, 0 < ρ ∧ ∀ (l o : ℝ) (q : Quat ℝ), |l| ≤ Λ → |o| ≤ μ → ‖toH q - toH (llaToQne ⟨l, o⟩)‖ ≤ ρ →
    |(qneToLla q).lat - l| ≤ L * ‖toH q - toH (llaToQne ⟨l, o⟩)‖ ∧ |(qneToLla q).lon - o| ≤ L * ‖toH q - toH (llaToQne ⟨l, o⟩)‖ := by
  by_cases hn : 0 ≤ Λ ∧ 0 ≤ μ
  swap
  · refine ⟨0, 1, one_pos, ?_⟩
    intro l o q h1 h2
    exact absurd ⟨(abs_nonneg _).trans h1, (abs_nonneg _).trans h2⟩ hn
  obtain ⟨hΛ0, hμ0⟩ := hn
  have hpi := Real.pi_pos
  obtain ⟨w0, hw0⟩ : ∃ w0, w0 = Real.cos (Real.pi / 4 + Λ / 2) * Real.cos (μ / 2) := ⟨_, rfl⟩
  have c1 : 0 < Real.cos (Real.pi / 4 + Λ / 2) := Real.cos_pos_of_mem_Ioo ⟨by linarith, by linarith⟩
  have c2 : 0 < Real.cos (μ / 2) := Real.cos_pos_of_mem_Ioo ⟨by linarith, by linarith⟩
  have pw : 0 < w0 := by rw [hw0]; exact mul_pos c1 c2
  refine ⟨2 * (4 / w0 ^ 2), w0 / 2, by linarith, ?_⟩
  intro l o q h1 h2 h3
  have al := abs_le.1 h1
  have ao := abs_le.1 h2
  have rt := C41_lat_lon_round_trip ⟨l, o⟩ ⟨by dsimp only; linarith [al.1], by dsimp only; linarith [al.2]⟩ ⟨by dsimp only; linarith [ao.1], by dsimp only; linarith [ao.2]⟩
  have hwp : w0 ≤ (llaToQne (⟨l, o⟩ : LatLon ℝ)).w := by
    have e : (llaToQne (⟨l, o⟩ : LatLon ℝ)).w = Real.cos (-(1 / 4) * Real.pi - 1 / 2 * l) * Real.cos (1 / 2 * o) := by
      simp [llaToQne, lit_real, pi_real, cos_real]
    rw [e, hw0]
    have k1 : Real.cos (Real.pi / 4 + Λ / 2) ≤ Real.cos (-(1 / 4) * Real.pi - 1 / 2 * l) := by
      rw [← Real.cos_abs (-(1 / 4) * Real.pi - 1 / 2 * l)]
      refine Real.cos_le_cos_of_nonneg_of_le_pi (abs_nonneg _) (by linarith) ?_
      rw [abs_le]; constructor <;> linarith [al.1, al.2]
    have k2 : Real.cos (μ / 2) ≤ Real.cos (1 / 2 * o) := by
      rw [← Real.cos_abs (1 / 2 * o)]
      refine Real.cos_le_cos_of_nonneg_of_le_pi (abs_nonneg _) (by linarith) ?_
      rw [abs_le]; constructor <;> linarith [ao.1, ao.2]
    exact mul_le_mul k1 k2 c2.le (c1.le.trans k1)
  have hun := toH_norm _ (C41_position_quaternion ⟨l, o⟩).1
  have hp := re_le (toH (llaToQne (⟨l, o⟩ : LatLon ℝ)))
  rw [hun] at hp
  have hd := re_le (toH q - toH (llaToQne ⟨l, o⟩))
  simp only [Quaternion.re_sub, Quaternion.imJ_sub, Quaternion.imK_sub, toH_re, toH_j, toH_k] at hp hd
  have hw : w0 / 2 ≤ q.w := by have := (abs_le.1 (hd.1.trans h3)).1; linarith
  have e1 : ∀ p : Quat ℝ, 0 < p.w → qneToLla p = ⟨-(1 / 2) * Real.pi - 2 * Real.arctan (p.y / p.w), 2 * Real.arctan (p.z / p.w)⟩ := by
    intro p hp
    simp only [qneToLla, lit_real, pi_real, atan_real, atan2_real]
    rw [arg_right _ _ hp]; norm_num
  have rl : l = (qneToLla (llaToQne (⟨l, o⟩ : LatLon ℝ))).lat := by rw [rt]
  have ro : o = (qneToLla (llaToQne (⟨l, o⟩ : LatLon ℝ))).lon := by rw [rt]
  have k1 := quot_lip q.w _ q.y _ _ w0 pw hwp hw (le_of_abs_le hp.1) hp.2.1 hd.1 hd.2.1
  have k2 := quot_lip q.w _ q.z _ _ w0 pw hwp hw (le_of_abs_le hp.1) hp.2.2 hd.1 hd.2.2
  have m1 := (arctan_lip _ _).trans k1
  have m2 := (arctan_lip _ _).trans k2
  rw [e1 _ (by linarith)] at rl ro
  rw [e1 q (by linarith)]
  dsimp only at rl ro ⊢
  constructor
  · have e : -(1 / 2) * Real.pi - 2 * Real.arctan (q.y / q.w) - l = -(2 * (Real.arctan (q.y / q.w) -
        Real.arctan ((llaToQne (⟨l, o⟩ : LatLon ℝ)).y / (llaToQne (⟨l, o⟩ : LatLon ℝ)).w))) := by linarith
    rw [e, abs_neg, abs_mul, abs_of_pos (by norm_num : (0 : ℝ) < 2)]
    linarith
  · have e : 2 * Real.arctan (q.z / q.w) - o = 2 * (Real.arctan (q.z / q.w) -
        Real.arctan ((llaToQne (⟨l, o⟩ : LatLon ℝ)).z / (llaToQne (⟨l, o⟩ : LatLon ℝ)).w)) := by linarith
    rw [e, abs_mul, abs_of_pos (by norm_num : (0 : ℝ) < 2)]
    linarith
end Verif.Props
