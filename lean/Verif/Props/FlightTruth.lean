import Verif.Props.FlightLip
import Verif.Spec.TrueFlight
/-! One interval of a true flight, expanded. -/
namespace Verif.Props
open Verif Verif.Spec Verif.Convert Matrix
open scoped Quaternion

theorem growH (f f' : ℝ → ℍ[ℝ]) (a b M : ℝ) (hab : a ≤ b) (h : ∀ u, a ≤ u → u ≤ b → HasDerivAt f (f' u) u) (hb : ∀ u, a ≤ u → u ≤ b → ‖f' u‖ ≤ M) :
    ‖f b - f a‖ ≤ M * (b - a) :=
  norm_image_sub_le_of_norm_deriv_le_segment' (fun x hx => (h x hx.1 hx.2).hasDerivWithinAt) (fun x hx => hb x hx.1 hx.2.le) b ⟨hab, le_refl b⟩
theorem growR (f f' : ℝ → ℝ) (a b M : ℝ) (hab : a ≤ b) (h : ∀ u, a ≤ u → u ≤ b → HasDerivAt f (f' u) u) (hb : ∀ u, a ≤ u → u ≤ b → |f' u| ≤ M) :
    |f b - f a| ≤ M * (b - a) :=
  norm_image_sub_le_of_norm_deriv_le_segment' (fun x hx => (h x hx.1 hx.2).hasDerivWithinAt) (fun x hx => hb x hx.1 hx.2.le) b ⟨hab, le_refl b⟩
theorem growV (f f' : ℝ → V3 ℝ) (a b M : ℝ) (hab : a ≤ b) (h : ∀ u, a ≤ u → u ≤ b → ∀ i, HasDerivAt (fun u => f u i) (f' u i) u)
    (hb : ∀ u, a ≤ u → u ≤ b → len (f' u) ≤ M) : len (f b - f a) ≤ M * (b - a) := by
  have hd : ∀ t, a ≤ t → t ≤ b → HasDerivAt (fun u => pureH (f u)) (pureH (f' t)) t := by
    intro t h1 h2
    have e : ∀ x : V3 ℝ, pureH x = x 0 • (⟨0, 1, 0, 0⟩ : ℍ[ℝ]) + x 1 • (⟨0, 0, 1, 0⟩ : ℍ[ℝ]) + x 2 • (⟨0, 0, 0, 1⟩ : ℍ[ℝ]) := by
      intro x; ext <;> simp [pureH]
    simp only [e]
    exact (((h t h1 h2 0).smul_const _).add ((h t h1 h2 1).smul_const _)).add ((h t h1 h2 2).smul_const _)
  rw [← pureH_norm, pureH_sub']
  exact growH (fun u => pureH (f u)) (fun u => pureH (f' u)) a b M hab hd (fun u h1 h2 => by rw [pureH_norm]; exact hb u h1 h2)

theorem mv_deriv (A : ℝ → M3 ℝ) (A' : M3 ℝ) (x : V3 ℝ) (t : ℝ) (h : ∀ i j, HasDerivAt (fun u => A u i j) (A' i j) t) (i : Fin 3) :
    HasDerivAt (fun u => (A u *ᵥ x) i) ((A' *ᵥ x) i) t := by
  have e : (fun u => (A u *ᵥ x) i) = fun u => A u i 0 * x 0 + A u i 1 * x 1 + A u i 2 * x 2 := by
    funext u; simp [mulVec, dotProduct, Fin.sum_univ_three]
  rw [e]
  exact ((((h i 0).mul_const _).add ((h i 1).mul_const _)).add ((h i 2).mul_const _)).congr_deriv (by simp [mulVec, dotProduct, Fin.sum_univ_three])

theorem mv_const_deriv (A : M3 ℝ) (x : ℝ → V3 ℝ) (x' : V3 ℝ) (t : ℝ) (h : ∀ i, HasDerivAt (fun u => x u i) (x' i) t) (i : Fin 3) :
    HasDerivAt (fun u => (A *ᵥ x u) i) ((A *ᵥ x') i) t := by
  have e : (fun u => (A *ᵥ x u) i) = fun u => A i 0 * x u 0 + A i 1 * x u 1 + A i 2 * x u 2 := by
    funext u; simp [mulVec, dotProduct, Fin.sum_univ_three]
  rw [e]
  exact ((((h 0).const_mul _).add ((h 1).const_mul _)).add ((h 2).const_mul _)).congr_deriv (by simp [mulVec, dotProduct, Fin.sum_univ_three])

theorem xpl_deriv (x : ℝ → V3 ℝ) (x' y : V3 ℝ) (t : ℝ) (h : ∀ i, HasDerivAt (fun u => x u i) (x' i) t) (i : Fin 3) :
    HasDerivAt (fun u => xp (x u) y i) (xp x' y i) t := by
  fin_cases i
  · exact ((h 1).mul_const _).sub ((h 2).mul_const _)
  · exact ((h 2).mul_const _).sub ((h 0).mul_const _)
  · exact ((h 0).mul_const _).sub ((h 1).mul_const _)

theorem quat_deriv (a b c d : ℝ → ℝ) (a' b' c' d' t : ℝ) (h1 : HasDerivAt a a' t) (h2 : HasDerivAt b b' t) (h3 : HasDerivAt c c' t) (h4 : HasDerivAt d d' t) :
    HasDerivAt (fun u => toH ⟨a u, b u, c u, d u⟩) (toH ⟨a', b', c', d'⟩) t := by
  have e : ∀ x y z w : ℝ, toH ⟨x, y, z, w⟩ = x • toH ⟨1, 0, 0, 0⟩ + y • toH ⟨0, 1, 0, 0⟩ + z • toH ⟨0, 0, 1, 0⟩ + w • toH ⟨0, 0, 0, 1⟩ := by
    intro x y z w; ext <;> simp
  simp only [e a' b' c' d', fun u => e (a u) (b u) (c u) (d u)]
  exact (((h1.smul_const _).add (h2.smul_const _)).add (h3.smul_const _)).add (h4.smul_const _)

/-- One constant for everything. -/
structure Bounds (B : Limits) (K : ℝ) : Prop where
  one : 1 ≤ K
  lip : RatesLip ((B.lat + Real.pi / 2) / 2) (B.speed + 1) (B.height + 1) K
  speed : B.speed + 1 ≤ K
  rate1 : B.rate + 1 ≤ K
  force1 : B.force + 1 ≤ K

theorem Bounds.rate {B : Limits} {K : ℝ} (b : Bounds B K) : B.rate ≤ K := by linarith [b.rate1]
theorem Bounds.force {B : Limits} {K : ℝ} (b : Bounds B K) : B.force ≤ K := by linarith [b.force1]

theorem place_alg (s c σ γ W l o : ℝ) (h : s ^ 2 + c ^ 2 = 1) :
    toH ⟨-s * -(1 / 2 * l) * γ + c * (-σ * (1 / 2 * o)), -(c * -(1 / 2 * l)) * σ + -s * (γ * (1 / 2 * o)), c * -(1 / 2 * l) * γ + s * (-σ * (1 / 2 * o)),
      -s * -(1 / 2 * l) * σ + c * (γ * (1 / 2 * o))⟩ =
    (1 / 2 : ℝ) • (toH ⟨c * γ, -s * σ, s * γ, c * σ⟩ * pureH ![W * -(2 * s * c) + o * -(2 * s * c), -l, -(W * (s ^ 2 - c ^ 2)) - o * (s ^ 2 - c ^ 2)]) -
      (1 / 2 : ℝ) • (pureH ![0, 0, W] * toH ⟨c * γ, -s * σ, s * γ, c * σ⟩) := by
  have e1 : ∀ a b c : ℝ, pureH ![a, b, c] = toH ⟨0, a, b, c⟩ := fun a b c => rfl
  rw [e1, e1, ← toH_mul, ← toH_mul]
  ext <;> simp only [Quat.mul, toH_re, toH_i, toH_j, toH_k, Quaternion.re_sub, Quaternion.imI_sub, Quaternion.imJ_sub, Quaternion.imK_sub, Quaternion.re_smul, Quaternion.imI_smul, Quaternion.imJ_smul, Quaternion.imK_smul, smul_eq_mul]
  · linear_combination (1 / 2 * c * σ * (W + o)) * h
  · linear_combination (1 / 2 * s * γ * (W + o)) * h
  · linear_combination (1 / 2 * s * σ * (W + o)) * h
  · linear_combination (-(1 / 2) * c * γ * (W + o)) * h

/-- The position quaternion of a flight. -/
noncomputable def placeH (lat lon : ℝ → ℝ) (t : ℝ) : ℍ[ℝ] := toH (llaToQne ⟨lat t, lon t⟩)

theorem placeH_norm (lat lon : ℝ → ℝ) (t : ℝ) : ‖placeH lat lon t‖ = 1 := toH_norm _ (C41_position_quaternion _).1

theorem placeH_deriv (lat lon h : ℝ → ℝ) (v : ℝ → V3 ℝ) (t : ℝ) (hc : Real.cos (lat t) ≠ 0) (hN : rN (lat t) + h t ≠ 0)
    (h1 : HasDerivAt lat (posRate (v t) (lat t) (h t) 0) t) (h2 : HasDerivAt lon (posRate (v t) (lat t) (h t) 1) t) :
    HasDerivAt (placeH lat lon) ((1 / 2 : ℝ) • (placeH lat lon t * pureH (frameRate (lat t) (v t) (h t))) -
      (1 / 2 : ℝ) • (pureH ![0, 0, earthW] * placeH lat lon t)) t := by
  obtain ⟨l', hl'⟩ : ∃ l', l' = posRate (v t) (lat t) (h t) 0 := ⟨_, rfl⟩
  obtain ⟨o', ho'⟩ : ∃ o', o' = posRate (v t) (lat t) (h t) 1 := ⟨_, rfl⟩
  have hfr : frameRate (lat t) (v t) (h t) = ![earthW * Real.cos (lat t) + o' * Real.cos (lat t), -l', -(earthW * Real.sin (lat t)) - o' * Real.sin (lat t)] := by
    rw [hl', ho']
    unfold frameRate
    ext i; fin_cases i <;> simp [earthRate, transportRate, posRate, Real.tan_eq_sin_div_cos]
    · field_simp
    · ring
    · field_simp; ring
  rw [← hl'] at h1
  rw [← ho'] at h2
  rw [hfr]
  have d1 : HasDerivAt (fun u => -(1 / 4) * Real.pi - 1 / 2 * lat u) (-(1 / 2 * l')) t := ((h1.const_mul (1 / 2)).const_sub _)
  have d2 : HasDerivAt (fun u => 1 / 2 * lon u) (1 / 2 * o') t := h2.const_mul (1 / 2)
  have e : placeH lat lon = fun u => toH ⟨Real.cos (-(1 / 4) * Real.pi - 1 / 2 * lat u) * Real.cos (1 / 2 * lon u),
      -(Real.sin (-(1 / 4) * Real.pi - 1 / 2 * lat u)) * Real.sin (1 / 2 * lon u),
      Real.sin (-(1 / 4) * Real.pi - 1 / 2 * lat u) * Real.cos (1 / 2 * lon u),
      Real.cos (-(1 / 4) * Real.pi - 1 / 2 * lat u) * Real.sin (1 / 2 * lon u)⟩ := by
    funext u
    unfold placeH
    ext <;> simp [llaToQne, lit_real, pi_real, sin_real, cos_real]
  have hcl : Real.cos (lat t) = -(2 * Real.sin (-(1 / 4) * Real.pi - 1 / 2 * lat t) * Real.cos (-(1 / 4) * Real.pi - 1 / 2 * lat t)) := by
    rw [← Real.sin_two_mul, ← Real.sin_neg, ← Real.cos_sub_pi_div_two]; congr 1; ring
  have hsl : Real.sin (lat t) = Real.sin (-(1 / 4) * Real.pi - 1 / 2 * lat t) ^ 2 - Real.cos (-(1 / 4) * Real.pi - 1 / 2 * lat t) ^ 2 := by
    have h3 : Real.sin (lat t) = -Real.cos (2 * (-(1 / 4) * Real.pi - 1 / 2 * lat t)) := by
      have : 2 * (-(1 / 4) * Real.pi - 1 / 2 * lat t) = -(lat t + Real.pi / 2) := by ring
      rw [this, Real.cos_neg, Real.cos_add_pi_div_two, neg_neg]
    rw [h3, Real.cos_two_mul]
    linear_combination -Real.sin_sq_add_cos_sq (-(1 / 4) * Real.pi - 1 / 2 * lat t)
  have d := quat_deriv _ _ _ _ _ _ _ _ t (d1.cos.mul d2.cos) (d1.sin.neg.mul d2.sin) (d1.sin.mul d2.cos) (d1.cos.mul d2.sin)
  rw [e]
  refine HasDerivAt.congr_deriv d ?_
  dsimp only
  rw [hcl, hsl]
  exact place_alg _ _ _ _ _ _ _ (Real.sin_sq_add_cos_sq (-(1 / 4) * Real.pi - 1 / 2 * lat t))

variable {B : Limits} {K T : ℝ} {lat lon h : ℝ → ℝ} {v : ℝ → V3 ℝ} {C : ℝ → M3 ℝ} {w θ f α : ℝ → V3 ℝ}

/-- The rate of the frame along a flight. -/
noncomputable def trueFrame (lat h : ℝ → ℝ) (v : ℝ → V3 ℝ) (t : ℝ) : V3 ℝ := frameRate (lat t) (v t) (h t)
noncomputable def trueFall (lat h : ℝ → ℝ) (v : ℝ → V3 ℝ) (t : ℝ) : V3 ℝ := fallRate (lat t) (v t) (h t) (v t)

theorem limits_pos (F : TrueFlight B T lat lon h v C w θ f α) (t : ℝ) (h0 : 0 ≤ t) (h1 : t ≤ T) : 0 ≤ B.lat ∧ 0 ≤ B.lon ∧ 0 ≤ B.height ∧ 0 ≤ B.speed ∧ 0 ≤ B.rate ∧ 0 ≤ B.force :=
  ⟨(abs_nonneg _).trans (F.lat_le t h0 h1), (abs_nonneg _).trans (F.lon_le t h0 h1), (abs_nonneg _).trans (F.height_le t h0 h1), (len_nonneg _).trans (F.speed_le t h0 h1),
    (len_nonneg _).trans (F.rate_le t h0 h1), (len_nonneg _).trans (F.force_le t h0 h1)⟩

theorem true_box (F : TrueFlight B T lat lon h v C w θ f α) (hs : B.Sane) (t : ℝ) (h0 : 0 ≤ t) (h1 : t ≤ T) :
    |lat t| ≤ (B.lat + Real.pi / 2) / 2 ∧ len (v t) ≤ B.speed + 1 ∧ |h t| ≤ B.height + 1 :=
  ⟨by have := F.lat_le t h0 h1; have := hs.lat; linarith, by have := F.speed_le t h0 h1; linarith, by have := F.height_le t h0 h1; linarith⟩

theorem frame_true (F : TrueFlight B T lat lon h v C w θ f α) (hs : B.Sane) (k : Bounds B K) (t : ℝ) (h0 : 0 ≤ t) (h1 : t ≤ T) : len (trueFrame lat h v t) ≤ K := by
  obtain ⟨b1, b2, b3⟩ := true_box F hs t h0 h1
  exact k.lip.frame_le _ _ _ b1 b2 b3
theorem fall_true (F : TrueFlight B T lat lon h v C w θ f α) (hs : B.Sane) (k : Bounds B K) (t : ℝ) (h0 : 0 ≤ t) (h1 : t ≤ T) : len (trueFall lat h v t) ≤ K := by
  obtain ⟨b1, b2, b3⟩ := true_box F hs t h0 h1
  exact k.lip.fall_le _ _ _ _ b1 b2 b3 b2

theorem true_radius (F : TrueFlight B T lat lon h v C w θ f α) (hs : B.Sane) (t : ℝ) (h0 : 0 ≤ t) (h1 : t ≤ T) : Real.cos (lat t) ≠ 0 ∧ rN (lat t) + h t ≠ 0 := by
  have a := abs_le.1 (F.lat_le t h0 h1)
  have b := abs_le.1 (F.height_le t h0 h1)
  have := hs.lat; have := hs.height
  refine ⟨(Real.cos_pos_of_mem_Ioo ⟨by linarith [a.1], by linarith [a.2]⟩).ne', ?_⟩
  obtain ⟨-, -, r1, r2, -, -, -⟩ := C44_radii (lat t)
  have hM : 6335000 ≤ rM (lat t) := by rw [← rM_eq]; unfold wgsA wgsE2 at r1; norm_num at r1; linarith
  rw [← rM_eq] at hM
  rw [← rN_eq]
  intro e
  linarith [b.1]

/-- Moving slowly. -/
structure TrueLip (K T : ℝ) (lat lon h : ℝ → ℝ) (v : ℝ → V3 ℝ) (C : ℝ → M3 ℝ) (θ α : ℝ → V3 ℝ) : Prop where
  latitude : ∀ a b, 0 ≤ a → a ≤ b → b ≤ T → |lat b - lat a| ≤ K * (b - a)
  height : ∀ a b, 0 ≤ a → a ≤ b → b ≤ T → |h b - h a| ≤ K * (b - a)
  vel : ∀ a b, 0 ≤ a → a ≤ b → b ≤ T → len (v b - v a) ≤ 2 * K * (b - a)
  att : ∀ a b, 0 ≤ a → a ≤ b → b ≤ T → ∀ x, len (C b *ᵥ x - C a *ᵥ x) ≤ 2 * K * len x * (b - a)
  place : ∀ a b, 0 ≤ a → a ≤ b → b ≤ T → ‖placeH lat lon b - placeH lat lon a‖ ≤ K * (b - a)
  angle : ∀ a b, 0 ≤ a → a ≤ b → b ≤ T → len (θ b - θ a) ≤ K * (b - a)
  impulse : ∀ a b, 0 ≤ a → a ≤ b → b ≤ T → len (α b - α a) ≤ K * (b - a)

theorem vel_rate (C : M3 ℝ) (f v : V3 ℝ) (l z : ℝ) : velRate C f v l z (normalGravity l z) = C *ᵥ f + fallRate l v z v := by
  unfold velRate fallRate; rw [add_sub_assoc]
theorem att_rate (C : M3 ℝ) (w v x : V3 ℝ) (l z : ℝ) : attRate C w v l z *ᵥ x = C *ᵥ xp w x - xp (frameRate l v z) (C *ᵥ x) := by
  unfold attRate frameRate; rw [sub_mulVec, ← mulVec_mulVec, ← mulVec_mulVec, xm_mulVec, xm_mulVec]

theorem earthW_small : 0 < earthW ∧ earthW ≤ 1 := by unfold earthW; constructor <;> norm_num

theorem true_lip (F : TrueFlight B T lat lon h v C w θ f α) (hs : B.Sane) (k : Bounds B K) : TrueLip K T lat lon h v C θ α := by
  have hK := k.one
  refine ⟨?_, ?_, ?_, ?_, ?_, ?_, ?_⟩
  · intro a b ha hab hb
    refine growR _ _ a b K hab (fun u h1 h2 => F.lat_eq u (by linarith) (by linarith)) (fun u h1 h2 => ?_)
    obtain ⟨b1, b2, b3⟩ := true_box F hs u (by linarith) (by linarith)
    exact k.lip.lat_le _ _ _ b1 b2 b3
  · intro a b ha hab hb
    refine growR _ _ a b K hab (fun u h1 h2 => F.height_eq u (by linarith) (by linarith)) (fun u h1 h2 => ?_)
    have := F.speed_le u (by linarith) (by linarith)
    have := comp_le_len (v u) 2
    have e : posRate (v u) (lat u) (h u) 2 = -(v u 2) := by simp [posRate]
    rw [e, abs_neg]
    linarith [k.speed]
  · intro a b ha hab hb
    refine growV v (fun u => velRate (C u) (f u) (v u) (lat u) (h u) (normalGravity (lat u) (h u))) a b (2 * K) hab
      (fun u h1 h2 => F.vel_eq u (by linarith) (by linarith)) (fun u h1 h2 => ?_)
    rw [vel_rate]
    have h3 := fall_true F hs k u (by linarith) (by linarith)
    have h4 := F.force_le u (by linarith) (by linarith)
    have h5 := len_isRot _ (F.rot u (by linarith) (by linarith)) (f u)
    have h6 := len_add_le (C u *ᵥ f u) (trueFall lat h v u)
    unfold trueFall at h3 h6
    linarith [k.force]
  · intro a b ha hab hb x
    refine growV (fun u => C u *ᵥ x) (fun u => attRate (C u) (w u) (v u) (lat u) (h u) *ᵥ x) a b (2 * K * len x) hab
      (fun u h1 h2 i => mv_deriv C _ x u (F.att_eq u (by linarith) (by linarith)) i) (fun u h1 h2 => ?_)
    rw [att_rate]
    have h3 := frame_true F hs k u (by linarith) (by linarith)
    have h4 := (F.rate_le u (by linarith) (by linarith)).trans k.rate
    have h5 := len_isRot _ (F.rot u (by linarith) (by linarith))
    have h6 := len_sub_le (C u *ᵥ xp (w u) x) (xp (frameRate (lat u) (v u) (h u)) (C u *ᵥ x))
    rw [h5] at h6
    have h7 := len_xp_le (w u) x
    have h8 := len_xp_le (frameRate (lat u) (v u) (h u)) (C u *ᵥ x)
    rw [h5] at h8
    have hx := len_nonneg x
    have h9 := mul_le_mul_of_nonneg_right h4 hx
    have h10 := mul_le_mul_of_nonneg_right h3 hx
    unfold trueFrame at h10
    linarith
  · intro a b ha hab hb
    refine growH (placeH lat lon) _ a b K hab (fun u h1 h2 => by
      obtain ⟨r1, r2⟩ := true_radius F hs u (by linarith) (by linarith)
      exact placeH_deriv lat lon h v u r1 r2 (F.lat_eq u (by linarith) (by linarith)) (F.lon_eq u (by linarith) (by linarith))) (fun u h1 h2 => ?_)
    refine (norm_sub_le _ _).trans ?_
    have h3 := frame_true F hs k u (by linarith) (by linarith)
    rw [norm_smul, norm_smul, norm_mul, norm_mul, placeH_norm, pureH_norm, pureH_norm, len_axis, abs_of_pos earthW_small.1, Real.norm_of_nonneg (by norm_num)]
    unfold trueFrame at h3
    linarith [earthW_small.2]
  · intro a b ha hab hb
    exact growV θ w a b K hab (fun u h1 h2 => F.angle u (by linarith) (by linarith)) (fun u h1 h2 => (F.rate_le u (by linarith) (by linarith)).trans k.rate)
  · intro a b ha hab hb
    exact growV α f a b K hab (fun u h1 h2 => F.impulse u (by linarith) (by linarith)) (fun u h1 h2 => (F.force_le u (by linarith) (by linarith)).trans k.force)

theorem frame_moves (F : TrueFlight B T lat lon h v C w θ f α) (hs : B.Sane) (k : Bounds B K) (a b : ℝ) (ha : 0 ≤ a) (hab : a ≤ b) (hb : b ≤ T) :
    len (trueFrame lat h v b - trueFrame lat h v a) ≤ 4 * K ^ 2 * (b - a) := by
  have L := true_lip F hs k
  obtain ⟨b1, b2, b3⟩ := true_box F hs a ha (by linarith)
  obtain ⟨c1, c2, c3⟩ := true_box F hs b (by linarith) hb
  refine (k.lip.frame_lip _ _ _ _ _ _ c1 b1 c2 b2 c3 b3).trans ?_
  have l1 := L.latitude a b ha hab hb; have l2 := L.vel a b ha hab hb; have l3 := L.height a b ha hab hb
  have := mul_le_mul_of_nonneg_left (add_le_add (add_le_add l1 l2) l3) k.lip.nonneg
  refine this.trans (le_of_eq ?_)
  ring
theorem fall_moves (F : TrueFlight B T lat lon h v C w θ f α) (hs : B.Sane) (k : Bounds B K) (a b : ℝ) (ha : 0 ≤ a) (hab : a ≤ b) (hb : b ≤ T) :
    len (trueFall lat h v b - trueFall lat h v a) ≤ 6 * K ^ 2 * (b - a) := by
  have L := true_lip F hs k
  obtain ⟨b1, b2, b3⟩ := true_box F hs a ha (by linarith)
  obtain ⟨c1, c2, c3⟩ := true_box F hs b (by linarith) hb
  refine (k.lip.fall_lip _ _ _ _ _ _ _ _ c1 b1 c2 b2 c3 b3 c2 b2).trans ?_
  have l1 := L.latitude a b ha hab hb; have l2 := L.vel a b ha hab hb; have l3 := L.height a b ha hab hb
  have := mul_le_mul_of_nonneg_left (add_le_add (add_le_add (add_le_add l1 l2) l3) l2) k.lip.nonneg
  refine this.trans (le_of_eq ?_)
  ring

/-- One interval of the truth. -/
structure TrueStep (K dt t : ℝ) (lat lon h : ℝ → ℝ) (v : ℝ → V3 ℝ) (C : ℝ → M3 ℝ) (θ α : ℝ → V3 ℝ) : Prop where
  vel : len (v (t + dt) - v t - C t *ᵥ (α (t + dt) - α t) - dt • trueFall lat h v t) ≤ 8 * K ^ 2 * dt ^ 2
  heightStep : |h (t + dt) - h t + dt * v t 2| ≤ 8 * K ^ 2 * dt ^ 2
  att : ∀ x, len (C (t + dt) *ᵥ x - C t *ᵥ x - C t *ᵥ xp (θ (t + dt) - θ t) x + dt • xp (trueFrame lat h v t) (C t *ᵥ x)) ≤ 8 * K ^ 2 * dt ^ 2 * len x
  place : ‖placeH lat lon (t + dt) - placeH lat lon t - (dt / 2) • (placeH lat lon t * pureH (trueFrame lat h v t)) + (dt / 2) • (pureH ![0, 0, earthW] * placeH lat lon t)‖ ≤ 8 * K ^ 2 * dt ^ 2

theorem true_step (F : TrueFlight B T lat lon h v C w θ f α) (hs : B.Sane) (k : Bounds B K) (t dt : ℝ) (ht : 0 ≤ t) (hd : 0 ≤ dt) (hT : t + dt ≤ T) :
    TrueStep K dt t lat lon h v C θ α := by
  have hK := k.one
  have hK2 : K ≤ K ^ 2 := by nlinarith
  have L := true_lip F hs k
  refine ⟨?_, ?_, ?_, ?_⟩
  · have g := growV (fun u => v u - C t *ᵥ (α u) - u • trueFall lat h v t) (fun u => velRate (C u) (f u) (v u) (lat u) (h u) (normalGravity (lat u) (h u)) - C t *ᵥ f u - trueFall lat h v t)
      t (t + dt) (8 * K ^ 2 * dt) (by linarith)
      (fun u h1 h2 i => by
        have d1 := F.vel_eq u (by linarith) (by linarith) i
        have d2 := mv_const_deriv (C t) α _ u (F.impulse u (by linarith) (by linarith)) i
        have d3 : HasDerivAt (fun u => u * trueFall lat h v t i) (1 * trueFall lat h v t i) u := (hasDerivAt_id u).mul_const _
        exact ((d1.sub d2).sub d3).congr_deriv (by simp))
      (fun u h1 h2 => by
        rw [vel_rate]
        have e : C u *ᵥ f u + fallRate (lat u) (v u) (h u) (v u) - C t *ᵥ f u - trueFall lat h v t = (C u *ᵥ f u - C t *ᵥ f u) + (trueFall lat h v u - trueFall lat h v t) := by
          unfold trueFall; abel
        rw [e]
        refine (len_add_le _ _).trans ?_
        have q1 := L.att t u ht h1 (by linarith) (f u)
        have q2 := fall_moves F hs k t u ht h1 (by linarith)
        have q3 := (F.force_le u (by linarith) (by linarith)).trans k.force
        have hu : u - t ≤ dt := by linarith
        have q4 : 2 * K * len (f u) * (u - t) ≤ 2 * K * K * dt := mul_le_mul (mul_le_mul_of_nonneg_left q3 (by linarith)) hu (by linarith) (by positivity)
        have q5 : 6 * K ^ 2 * (u - t) ≤ 6 * K ^ 2 * dt := mul_le_mul_of_nonneg_left hu (by positivity)
        nlinarith)
    have e : v (t + dt) - v t - C t *ᵥ (α (t + dt) - α t) - dt • trueFall lat h v t =
        (v (t + dt) - C t *ᵥ (α (t + dt)) - (t + dt) • trueFall lat h v t) - (v t - C t *ᵥ (α t) - t • trueFall lat h v t) := by
      rw [mulVec_sub, add_smul]; abel
    rw [e]
    refine g.trans (le_of_eq ?_)
    ring
  · have g := growR (fun u => h u + u * v t 2) (fun u => posRate (v u) (lat u) (h u) 2 + 1 * v t 2) t (t + dt) (2 * K * dt) (by linarith)
      (fun u h1 h2 => (F.height_eq u (by linarith) (by linarith)).add ((hasDerivAt_id u).mul_const _))
      (fun u h1 h2 => by
        have e : posRate (v u) (lat u) (h u) 2 + 1 * v t 2 = -((v u - v t) 2) := by simp [posRate]; ring
        rw [e, abs_neg]
        refine (comp_le_len _ 2).trans ((L.vel t u ht h1 (by linarith)).trans ?_)
        exact mul_le_mul_of_nonneg_left (by linarith) (by positivity))
    have e : h (t + dt) - h t + dt * v t 2 = (h (t + dt) + (t + dt) * v t 2) - (h t + t * v t 2) := by ring
    rw [e]
    refine g.trans ?_
    have : 2 * K * dt * (t + dt - t) = 2 * K * dt ^ 2 := by ring
    rw [this]
    have : K * dt ^ 2 ≤ K ^ 2 * dt ^ 2 := mul_le_mul_of_nonneg_right hK2 (sq_nonneg dt)
    nlinarith
  · intro x
    have hx := len_nonneg x
    have g := growV (fun u => C u *ᵥ x - C t *ᵥ xp (θ u) x + u • xp (trueFrame lat h v t) (C t *ᵥ x))
      (fun u => attRate (C u) (w u) (v u) (lat u) (h u) *ᵥ x - C t *ᵥ xp (w u) x + xp (trueFrame lat h v t) (C t *ᵥ x))
      t (t + dt) (8 * K ^ 2 * dt * len x) (by linarith)
      (fun u h1 h2 i => by
        have d1 := mv_deriv C _ x u (F.att_eq u (by linarith) (by linarith)) i
        have d2 := mv_const_deriv (C t) (fun u => xp (θ u) x) _ u (fun i => xpl_deriv θ _ x u (F.angle u (by linarith) (by linarith)) i) i
        have d3 : HasDerivAt (fun u => u * xp (trueFrame lat h v t) (C t *ᵥ x) i) (1 * xp (trueFrame lat h v t) (C t *ᵥ x) i) u := (hasDerivAt_id u).mul_const _
        exact ((d1.sub d2).add d3).congr_deriv (by simp))
      (fun u h1 h2 => by
        rw [att_rate]
        have e : C u *ᵥ xp (w u) x - xp (frameRate (lat u) (v u) (h u)) (C u *ᵥ x) - C t *ᵥ xp (w u) x + xp (trueFrame lat h v t) (C t *ᵥ x) =
            (C u *ᵥ xp (w u) x - C t *ᵥ xp (w u) x) - (xp (trueFrame lat h v u - trueFrame lat h v t) (C u *ᵥ x) + xp (trueFrame lat h v t) (C u *ᵥ x - C t *ᵥ x)) := by
          rw [xp_sub_left, xp_sub_right]; unfold trueFrame; abel
        rw [e]
        refine (len_sub_le _ _).trans ?_
        have q1 := L.att t u ht h1 (by linarith) (xp (w u) x)
        have q2 := frame_moves F hs k t u ht h1 (by linarith)
        have q3 := (F.rate_le u (by linarith) (by linarith)).trans k.rate
        have q4 := L.att t u ht h1 (by linarith) x
        have q5 := frame_true F hs k t ht (by linarith)
        have q6 := (len_xp_le (w u) x).trans (mul_le_mul_of_nonneg_right q3 hx)
        have q7 := len_xp_le (trueFrame lat h v u - trueFrame lat h v t) (C u *ᵥ x)
        rw [len_isRot _ (F.rot u (by linarith) (by linarith))] at q7
        have q8 := (len_xp_le (trueFrame lat h v t) (C u *ᵥ x - C t *ᵥ x)).trans (mul_le_mul q5 q4 (len_nonneg _) (by linarith))
        have q9 := len_add_le (xp (trueFrame lat h v u - trueFrame lat h v t) (C u *ᵥ x)) (xp (trueFrame lat h v t) (C u *ᵥ x - C t *ᵥ x))
        have hu : u - t ≤ dt := by linarith
        have hu0 : 0 ≤ u - t := by linarith
        have r1 : 2 * K * len (xp (w u) x) * (u - t) ≤ 2 * K * (K * len x) * (u - t) := mul_le_mul_of_nonneg_right (mul_le_mul_of_nonneg_left q6 (by linarith)) hu0
        have r2 := mul_le_mul_of_nonneg_right q2 hx
        have r3 : K ^ 2 * len x * (u - t) ≤ K ^ 2 * len x * dt := mul_le_mul_of_nonneg_left hu (by positivity)
        nlinarith)
    have e : C (t + dt) *ᵥ x - C t *ᵥ x - C t *ᵥ xp (θ (t + dt) - θ t) x + dt • xp (trueFrame lat h v t) (C t *ᵥ x) =
        (C (t + dt) *ᵥ x - C t *ᵥ xp (θ (t + dt)) x + (t + dt) • xp (trueFrame lat h v t) (C t *ᵥ x)) - (C t *ᵥ x - C t *ᵥ xp (θ t) x + t • xp (trueFrame lat h v t) (C t *ᵥ x)) := by
      rw [xp_sub_left, mulVec_sub, add_smul]; abel
    rw [e]
    refine g.trans (le_of_eq ?_)
    ring
  · have g := growH (fun u => placeH lat lon u - u • ((1 / 2 : ℝ) • (placeH lat lon t * pureH (trueFrame lat h v t)) - (1 / 2 : ℝ) • (pureH ![0, 0, earthW] * placeH lat lon t)))
      (fun u => ((1 / 2 : ℝ) • (placeH lat lon u * pureH (trueFrame lat h v u)) - (1 / 2 : ℝ) • (pureH ![0, 0, earthW] * placeH lat lon u)) -
        (1 : ℝ) • ((1 / 2 : ℝ) • (placeH lat lon t * pureH (trueFrame lat h v t)) - (1 / 2 : ℝ) • (pureH ![0, 0, earthW] * placeH lat lon t)))
      t (t + dt) (8 * K ^ 2 * dt) (by linarith)
      (fun u h1 h2 => by
        obtain ⟨r1, r2⟩ := true_radius F hs u (by linarith) (by linarith)
        have d1 := placeH_deriv lat lon h v u r1 r2 (F.lat_eq u (by linarith) (by linarith)) (F.lon_eq u (by linarith) (by linarith))
        exact d1.sub ((hasDerivAt_id u).smul_const _))
      (fun u h1 h2 => by
        have q1 := L.place t u ht h1 (by linarith)
        have q2 := frame_moves F hs k t u ht h1 (by linarith)
        have q5 := frame_true F hs k t ht (by linarith)
        rw [← pureH_norm] at q2 q5
        have hp := placeH_norm lat lon u
        have e : ((1 / 2 : ℝ) • (placeH lat lon u * pureH (trueFrame lat h v u)) - (1 / 2 : ℝ) • (pureH ![0, 0, earthW] * placeH lat lon u)) -
          (1 : ℝ) • ((1 / 2 : ℝ) • (placeH lat lon t * pureH (trueFrame lat h v t)) - (1 / 2 : ℝ) • (pureH ![0, 0, earthW] * placeH lat lon t)) =
          (1 / 2 : ℝ) • (placeH lat lon u * pureH (trueFrame lat h v u - trueFrame lat h v t) + (placeH lat lon u - placeH lat lon t) * pureH (trueFrame lat h v t) -
            pureH ![0, 0, earthW] * (placeH lat lon u - placeH lat lon t)) := by
          rw [pureH_sub', mul_sub, sub_mul, mul_sub, one_smul, ← smul_sub, ← smul_sub, ← smul_sub]; congr 1; abel
        rw [e, norm_smul, Real.norm_of_nonneg (by norm_num)]
        have n1 := norm_sub_le (placeH lat lon u * pureH (trueFrame lat h v u - trueFrame lat h v t) + (placeH lat lon u - placeH lat lon t) * pureH (trueFrame lat h v t))
          (pureH ![0, 0, earthW] * (placeH lat lon u - placeH lat lon t))
        have n2 := norm_add_le (placeH lat lon u * pureH (trueFrame lat h v u - trueFrame lat h v t)) ((placeH lat lon u - placeH lat lon t) * pureH (trueFrame lat h v t))
        rw [norm_mul, norm_mul, hp] at n2
        rw [norm_mul (pureH ![0, 0, earthW]), pureH_norm ![0, 0, earthW], len_axis, abs_of_pos earthW_small.1] at n1
        have n0 := norm_nonneg (placeH lat lon u - placeH lat lon t)
        have n3 := mul_le_mul q1 q5 (norm_nonneg _) (mul_nonneg (by linarith) (by linarith : (0 : ℝ) ≤ u - t))
        have n4 := mul_le_mul_of_nonneg_right earthW_small.2 n0
        have hu : u - t ≤ dt := by linarith
        have r1 : K ^ 2 * (u - t) ≤ K ^ 2 * dt := mul_le_mul_of_nonneg_left hu (by positivity)
        have r2 : K * (u - t) ≤ K ^ 2 * (u - t) := mul_le_mul_of_nonneg_right hK2 (by linarith)
        have r3 : 0 ≤ K ^ 2 * dt := by positivity
        nlinarith)
    have e : placeH lat lon (t + dt) - placeH lat lon t - (dt / 2) • (placeH lat lon t * pureH (trueFrame lat h v t)) + (dt / 2) • (pureH ![0, 0, earthW] * placeH lat lon t) =
        (placeH lat lon (t + dt) - (t + dt) • ((1 / 2 : ℝ) • (placeH lat lon t * pureH (trueFrame lat h v t)) - (1 / 2 : ℝ) • (pureH ![0, 0, earthW] * placeH lat lon t))) -
        (placeH lat lon t - t • ((1 / 2 : ℝ) • (placeH lat lon t * pureH (trueFrame lat h v t)) - (1 / 2 : ℝ) • (pureH ![0, 0, earthW] * placeH lat lon t))) := by
      rw [add_smul, smul_sub dt, smul_smul, smul_smul]
      have : dt * (1 / 2) = dt / 2 := by ring
      rw [this]; abel
    rw [e]
    refine g.trans (le_of_eq ?_)
    ring
end Verif.Props
