import Verif.Props.CovC212
/-! C215: on a flight a fix never adds uncertainty and never inverts a singular matrix. -/
namespace Verif.Props
open Verif Verif.Spec Verif.Convert Matrix

/-- With a symmetric covariance that is not too far below zero an update inverts a positive definite matrix and adds nothing in any direction. -/
theorem drop_le {n p : ℕ} (k : Kf n ℝ) (H : Matrix (Fin p) (Fin n) ℝ) (z : Fin p → ℝ) (R : Matrix (Fin p) (Fin p) ℝ) {η ω b r : ℝ} (hη : 0 ≤ η) (hr : 0 < r)
    (h : Form k.P η ω) (hHt : Shrinks Hᵀ b) (hRs : Rᵀ = R) (hR : ∀ w : Fin p → ℝ, 2 * r * (w ⬝ᵥ w) ≤ w ⬝ᵥ R *ᵥ w) (hs : b ^ 2 * η ≤ r) :
    (∀ w : Fin p → ℝ, r * (w ⬝ᵥ w) ≤ w ⬝ᵥ (H * k.P * Hᵀ + R) *ᵥ w) ∧ ∀ x : Fin n → ℝ, x ⬝ᵥ (k.update H z R).P *ᵥ x ≤ x ⬝ᵥ k.P *ᵥ x := by
  set S := H * k.P * Hᵀ + R with hS
  have hSs : Sᵀ = S := by rw [hS]; simp only [transpose_add, transpose_mul, transpose_transpose, h.symm, hRs, Matrix.mul_assoc]
  have low : ∀ w : Fin p → ℝ, r * (w ⬝ᵥ w) ≤ w ⬝ᵥ S *ᵥ w := by
    intro w
    rw [hS, add_mulVec, dotProduct_add, dot_sandwich]
    have l1 := h.lower (Hᵀ *ᵥ w)
    have l2 := mul_le_mul_of_nonneg_left (hHt w) hη
    have l3 := mul_le_mul_of_nonneg_right hs (dot_self_nonneg w)
    have := hR w
    linarith [show η * (b ^ 2 * (w ⬝ᵥ w)) = b ^ 2 * η * (w ⬝ᵥ w) by ring]
  have hSp : S.PosDef := by
    rw [posDef_iff_dotProduct_mulVec]
    refine ⟨by rw [IsHermitian, conjTranspose_eq_transpose_of_trivial, hSs], fun {w} hw => ?_⟩
    rw [star_trivial]
    have q : 0 < w ⬝ᵥ w := by
      rcases (dot_self_nonneg w).eq_or_lt with q | q
      · exact absurd (dotProduct_self_eq_zero.1 q.symm) hw
      · exact q
    have := low w
    have := mul_pos hr q
    linarith
  have hdrop := update_drop k H z R h.symm hSs hSp.det_pos.ne'.isUnit
  rw [← hS] at hdrop
  refine ⟨low, fun x => ?_⟩
  have d : x ⬝ᵥ (k.P - (k.update H z R).P) *ᵥ x = ((k.P * Hᵀ * S⁻¹)ᵀ *ᵥ x) ⬝ᵥ S *ᵥ ((k.P * Hᵀ * S⁻¹)ᵀ *ᵥ x) := by rw [hdrop, dot_sandwich]
  rw [sub_mulVec, dotProduct_sub] at d
  have l1 := low ((k.P * Hᵀ * S⁻¹)ᵀ *ᵥ x)
  have l2 := mul_nonneg hr.le (dot_self_nonneg ((k.P * Hᵀ * S⁻¹)ᵀ *ᵥ x))
  linarith

set_option maxHeartbeats 3200000 in
/-- C215: under the hypotheses of C212, below a threshold that depends on the flight limits, the duration, the number of fixes and the bounds on the configuration, no usable fix makes any
reported standard deviation larger; and the matrix it inverts is positive definite, at least `σ²/2` in every direction, although the program's prediction can make the covariance indefinite. -/
theorem C215_fixes_never_add_uncertainty (B : Limits) (hB : B.Sane) (T l s q τ σ : ℝ) (hτ : 0 < τ) (hσ : 0 < σ) (N : ℕ) : ∃ r : ℝ, 0 < r ∧
    ∀ (lat lon h : ℝ → ℝ) (v : ℝ → V3 ℝ) (C : ℝ → M3 ℝ) (w θ f α : ℝ → V3 ℝ), TrueFlight B T lat lon h v C w θ f α →
    ∀ (junk : Junk ℝ) (d0 d : Dev ℝ) (o : Opt ℝ) (n : NavOutput ℝ), o.alignMode = 2 → noAids o → o.outputProjectEnable = 0 → 0 < o.dRate → len o.lbGnss ≤ l → SpreadsWithin s q τ o →
    (∀ i, |o.imuPara.gsIni i| ≤ 1) → (∀ i, |o.imuPara.asIni i| ≤ 1) → rgioeInit junk d0 (some o) (some n) = some (0, d) →
    ∀ (e δ ε dt x : ℝ), dt = 1 / o.dRate → x = e + δ + ε + dt → x ≤ r → 0 ≤ δ → 0 ≤ ε → ResultNear e n (lat 0) (lon 0) (h 0) (v 0) (C 0) →
    ∀ (cs : List (Call ℝ)) (g : ℝ), (∀ c ∈ cs, c.isInit = false) → imusOf cs ≠ [] → usableCount cs ≤ N → ReadsNear δ o.imuPara dt θ α 0 (imusOf cs) →
    (∀ a m b, cs = a ++ .gnss (some m) :: b → usable m.mode → imusOf a ≠ [] → ∀ t, t = (imusOf a).length * dt →
      FixWithin σ ε o.gnssStdScale m (antennaAt (lat t) (lon t) (h t) (C t) o.lbGnss)) →
    (imusOf cs).length * dt ≤ T → ∀ a m b, cs = a ++ .gnss (some m) :: b → usable m.mode → imusOf a ≠ [] →
      (∀ pva : NavOutput ℝ, ∃ q1 q2 : NavOutput ℝ, rgioeGetResult (runCalls a (g, d)).2 pva = (0, q1) ∧ rgioeGetResult (runCalls (a ++ [.gnss (some m)]) (g, d)).2 pva = (0, q2) ∧
        ∀ i, q2.posStd i ≤ q1.posStd i ∧ q2.vnStd i ≤ q1.vnStd i ∧ q2.attiStd i ≤ q1.attiStd i) ∧
      ∀ φ, φ = (runCalls a (g, d)).2.df → ∀ u : Fin 3 → ℝ,
        σ ^ 2 / 2 * (u ⬝ᵥ u) ≤ u ⬝ᵥ (φ.posH * φ.kf.P * φ.posHᵀ + Matrix.diagonal fun i => m.posStd i ^ 2 * o.gnssStdScale) *ᵥ u := by
  by_cases hV : 0 ≤ B.speed ∧ 0 ≤ l ∧ 0 ≤ T
  swap
  · refine ⟨1, one_pos, ?_⟩
    intro lat lon h v C w θ f α F junk d0 d o n _ _ _ hdr hl _ _ _ _ e δ ε dt x hdt _ _ _ _ _ cs g _ _ _ _ _ hT
    have hdt0 : 0 < dt := by rw [hdt]; exact one_div_pos.2 (by exact_mod_cast hdr)
    have : 0 ≤ ((imusOf cs).length : ℝ) * dt := by positivity
    exact absurd ⟨(limits_pos F 0 (le_refl 0) (by linarith)).2.2.2.1, (len_nonneg _).trans hl, this.trans hT⟩ hV
  obtain ⟨hV, l0, T0⟩ := hV
  obtain ⟨K, ρ, k⟩ := kit_exists B hB hV
  have hK := k.bounds.one
  obtain ⟨L, hL, hant⟩ := antenna_near k hB l
  obtain ⟨A, hA⟩ : ∃ A, A = 50 * K ^ 3 := ⟨_, rfl⟩
  have hA0 : 0 < A := by rw [hA]; positivity
  obtain ⟨c, hcd⟩ : ∃ c, c = 5 * K + 1 / τ := ⟨_, rfl⟩
  have τ0 : 0 ≤ 1 / τ := by positivity
  have c0 : 0 < c := by rw [hcd]; linarith
  have hc5 : 5 * K ≤ c := by linarith
  have hcτ : 1 / τ ≤ c := by linarith
  obtain ⟨Q, hQd⟩ : ∃ Q, Q = q ^ 2 + 2 * s ^ 2 / τ := ⟨_, rfl⟩
  have hQ0 : 0 ≤ Q := by rw [hQd]; positivity
  obtain ⟨D, hD⟩ : ∃ D, D = 45 * c := ⟨_, rfl⟩
  have D0 : 0 ≤ D := by rw [hD]; linarith
  obtain ⟨r', hr2⟩ : ∃ r', r' = σ ^ 2 / 2 := ⟨_, rfl⟩
  have hr0 : 0 < r' := by rw [hr2]; positivity
  obtain ⟨W, hWd⟩ : ∃ W, W = (s ^ 2 + 3 * Q * T) * Real.exp (D * T) + 2 := ⟨_, rfl⟩
  have W0 : 0 ≤ W := by rw [hWd]; have := Real.exp_pos (D * T); positivity
  obtain ⟨γ, hγ⟩ : ∃ γ, γ = W * (7 * (1 + l)) / r' := ⟨_, rfl⟩
  have γ0 : 0 ≤ γ := by rw [hγ]; positivity
  obtain ⟨Λ, hΛ⟩ : ∃ Λ, Λ = (1 + (7 * (1 + l)) ^ 2 * W / r') ^ 2 := ⟨_, rfl⟩
  have Λ1 : 1 ≤ Λ := by
    rw [hΛ]
    have : 0 ≤ (7 * (1 + l)) ^ 2 * W / r' := by positivity
    exact one_le_pow₀ (by linarith)
  obtain ⟨Z, hZ⟩ : ∃ Z, Z = T / 2 * (Q * (15 * c) ^ 2) * Real.exp (D * T) * Λ ^ N := ⟨_, rfl⟩
  have Z0 : 0 ≤ Z := by
    rw [hZ]
    have := Real.exp_pos (D * T)
    have : 0 ≤ Λ := by linarith
    positivity
  obtain ⟨M, hM⟩ : ∃ M, M = 1 + 20 * K ^ 2 * (γ / 1) * (L + 1) := ⟨_, rfl⟩
  have hM1 : 1 ≤ M := by
    rw [hM]
    have : 0 ≤ 20 * K ^ 2 * (γ / 1) * (L + 1) := by positivity
    linarith
  obtain ⟨G, hG⟩ : ∃ G, G = Real.exp (A * T) * M ^ N := ⟨_, rfl⟩
  have hG0 : 0 < G := by rw [hG]; have := Real.exp_pos (A * T); positivity
  have g1 : 0 < (Real.pi / 2 - B.lat) / 2 := by have := hB.lat; linarith
  have g2 : 0 < (Real.pi - B.lon) / 2 := by have := hB.lon; linarith
  refine ⟨min (min (min (min (1 / A) (ρ / (10 * K ^ 2 * G))) (min ((Real.pi / 2 - B.lat) / 2) ((Real.pi - B.lon) / 2))) (9 / (1000 * (K * G + 1))))
    (min (min 1 (1 / (15 * c))) (min (1 / (Z + 1)) (r' / ((7 * (1 + l)) ^ 2 * Z + 1)))),
    lt_min (lt_min (lt_min (lt_min (by positivity) (div_pos k.pos (by positivity))) (lt_min g1 g2)) (by positivity)) (lt_min (lt_min one_pos (by positivity)) (lt_min (by positivity) (by positivity))), ?_⟩
  intro lat lon h v C w θ f α F junk d0 d o n hm ha ho hdr hl S hgs has hi e δ ε dt x hdt hx hxr hδ hε hn cs g hc hs hN hr hfix hT a m b hab hu hia
  obtain ⟨t, ht⟩ : ∃ t : ℝ, t = (imusOf cs).length * dt := ⟨_, rfl⟩
  rw [← ht] at hT
  have y1 := ((hxr.trans (min_le_right _ _)).trans (min_le_left _ _)).trans (min_le_left _ _)
  have y2 := ((hxr.trans (min_le_right _ _)).trans (min_le_left _ _)).trans (min_le_right _ _)
  have y3 := ((hxr.trans (min_le_right _ _)).trans (min_le_right _ _)).trans (min_le_left _ _)
  have y4 := ((hxr.trans (min_le_right _ _)).trans (min_le_right _ _)).trans (min_le_right _ _)
  replace hxr := hxr.trans (min_le_left _ _)
  have r1 := ((hxr.trans (min_le_left _ _)).trans (min_le_left _ _)).trans (min_le_left _ _)
  have r2 := ((hxr.trans (min_le_left _ _)).trans (min_le_left _ _)).trans (min_le_right _ _)
  have r3 := ((hxr.trans (min_le_left _ _)).trans (min_le_right _ _)).trans (min_le_left _ _)
  have r4 := ((hxr.trans (min_le_left _ _)).trans (min_le_right _ _)).trans (min_le_right _ _)
  have r5 := hxr.trans (min_le_right _ _)
  clear hxr
  have hd : 0 < dt := by rw [hdt]; exact one_div_pos.2 (by exact_mod_cast hdr)
  have he0 : 0 ≤ e := (abs_nonneg _).trans hn.height
  have ht0 : 0 ≤ t := by rw [ht]; positivity
  have hx0 : 0 < x := by rw [hx]; linarith
  have hAd : A * dt ≤ 1 := by
    have : dt ≤ 1 / A := by linarith
    rw [le_div_iff₀ hA0] at this; linarith
  have hpow : (1 + A * dt) ^ (imusOf cs).length ≤ Real.exp (A * T) := by
    have h1 : 1 + A * dt ≤ Real.exp (A * dt) := by have := Real.add_one_le_exp (A * dt); linarith
    have h2 := pow_le_pow_left₀ (by have := mul_pos hA0 hd; linarith) h1 (imusOf cs).length
    rw [← Real.exp_nat_mul] at h2
    refine h2.trans (Real.exp_le_exp.2 ?_)
    rw [ht] at hT
    have := mul_le_mul_of_nonneg_left hT hA0.le
    linarith
  have hpw : x * (1 + A * dt) ^ (imusOf cs).length * M ^ usableCount cs ≤ x * G := by
    rw [hG, mul_assoc]
    refine mul_le_mul_of_nonneg_left ?_ hx0.le
    exact mul_le_mul hpow (pow_le_pow_right₀ hM1 hN) (by positivity) (Real.exp_pos _).le
  have hρ : 10 * K ^ 2 * (x * G) ≤ ρ := by
    rw [le_div_iff₀ (by positivity)] at r2; linarith
  obtain ⟨s0, hs0⟩ : ∃ s0, s0 = fstart g junk.df (makeNavEpoch n o) o := ⟨_, rfl⟩
  have H0 := held_start (o := o) (e := e) (δ := δ) hB hK F (ht0.trans hT) hd hδ g junk.df n hdt hn (by linarith) (by linarith)
  rw [← hs0] at H0
  have run : ∀ a b, cs = a ++ b → imusOf a ≠ [] → (runCalls a (g, d)).2.df = (filterAfter s0 a).2 := by
    intro a b hab hia
    have := (C126_given_start junk d0 d o n hm hi a (fun c hh => hc c (by rw [hab]; exact List.mem_append_left _ hh)) hia g _ rfl).1
    rw [← hs0] at this
    exact congrArg Prod.snd this
  have hdx : dt ≤ x := by linarith
  have hd1 : dt ≤ 1 := by linarith
  have hD1 : 15 * (c * dt) ≤ 1 := by
    have : dt ≤ 1 / (15 * c) := by linarith
    rw [le_div_iff₀ (by positivity)] at this; linarith
  have hZ1 : Z * dt ≤ 1 := by
    have : dt ≤ 1 / (Z + 1) := by linarith
    rw [le_div_iff₀ (by positivity)] at this; nlinarith
  have hZr : (7 * (1 + l)) ^ 2 * (Z * dt) ≤ r' := by
    have : dt ≤ r' / ((7 * (1 + l)) ^ 2 * Z + 1) := by linarith
    rw [le_div_iff₀ (by positivity)] at this; nlinarith
  have hnT : ((imusOf cs).length : ℝ) * dt ≤ T := by rw [← ht]; exact hT
  obtain ⟨ξ, hξ⟩ : ∃ ξ, ξ = dt / 2 * (Q * (15 * (c * dt)) ^ 2) := ⟨_, rfl⟩
  have hgD := grow_le D0 hd.le hnT
  have hdef := defect_le c0.le hd.le hd1 D0 hQ0 Λ1 hnT hN hξ hZ hgD
  have hW : (s ^ 2 + (imusOf cs).length * (3 * Q * dt)) * (1 + D * dt) ^ (imusOf cs).length + 2 * ((imusOf cs).length * ξ * (1 + D * dt) ^ (imusOf cs).length * Λ ^ usableCount cs) ≤ W := by
    have h1 : (imusOf cs).length * (3 * Q * dt) ≤ 3 * Q * T := by
      have := mul_le_mul_of_nonneg_left hnT (by positivity : 0 ≤ 3 * Q)
      linarith
    have h2 : (s ^ 2 + (imusOf cs).length * (3 * Q * dt)) * (1 + D * dt) ^ (imusOf cs).length ≤ (s ^ 2 + 3 * Q * T) * Real.exp (D * T) :=
      mul_le_mul (by linarith) hgD (by positivity) (by positivity)
    rw [hWd]; linarith
  have hb := (mul_le_mul_of_nonneg_left hdef (sq_nonneg (7 * (1 + l)))).trans hZr
  have h9 : 1 / |o.imuPara.gtCorr| ≤ c := (one_div_le_one_div_of_le hτ (S.gt.trans (le_abs_self _))).trans hcτ
  have h10 : 1 / |o.imuPara.atCorr| ≤ c := (one_div_le_one_div_of_le hτ (S.at'.trans (le_abs_self _))).trans hcτ
  have hQF := noise_form hτ S
  rw [← hQd] at hQF
  obtain ⟨E, β, hE0, hE, H, hC, -, P⟩ := cov_run k hV F ha hd hA hAd (N := (coastStart junk.df.ins n o).nav) (δ := δ) (o := o) hgs has hσ hL hε hM hl hr2 hγ hΛ hD hD1 hc5 h9 h10 hQ0 hξ hQF hx0.le
    (fun e t φ n1 n2 n3 n4 n5 n6 => by have := hant e dt t T lat lon h v C w θ f α φ F n1 n2 n3 n4 n5 (by rw [n6]; exact hl); rw [n6] at this; exact this)
    s0 (e + δ) (by linarith) (by linarith) H0 (by rw [hs0]; exact ⟨rfl, rfl, rfl⟩) (by rw [hs0]; exact initial_form S n g junk.df) cs hnT (le_trans (mul_le_mul_of_nonneg_left hpw (by positivity)) hρ) hW hb
    (reads_at junk.df.ins n cs hr) (fun a m b hab hu hia t ht => hfix a m b hab hu hia t ht) a (.gnss (some m) :: b) hab
  have la : (imusOf a).length ≤ (imusOf cs).length := by rw [hab, imus_cat, List.length_append]; omega
  have lu : usableCount a ≤ N := by
    refine le_trans ?_ hN
    rw [hab, usable_append]; omega
  have hnTa : ((imusOf a).length : ℝ) * dt ≤ T := by
    refine le_trans (mul_le_mul_of_nonneg_right ?_ hd.le) hnT
    exact_mod_cast la
  have hda := defect_le c0.le hd.le hd1 D0 hQ0 Λ1 hnTa lu hξ hZ (grow_le D0 hd.le hnTa)
  have hba := (mul_le_mul_of_nonneg_left hda (sq_nonneg (7 * (1 + l)))).trans hZr
  have e1 := run a _ hab hia
  have hia2 : imusOf (a ++ [.gnss (some m)]) ≠ [] := by rw [imus_cat]; intro hh; exact hia (List.append_eq_nil_iff.1 hh).1
  have rep1 := (C126_given_start junk d0 d o n hm hi a (fun c hh => hc c (by rw [hab]; exact List.mem_append_left _ hh)) hia g _ rfl).2
  have rep2 := (C126_given_start junk d0 d o n hm hi (a ++ [.gnss (some m)]) (fun c hh => hc c (by
    rw [hab]
    rcases List.mem_append.1 hh with h1 | h1
    · exact List.mem_append_left _ h1
    · exact List.mem_append_right _ (by rw [List.mem_singleton.1 h1]; exact List.mem_cons_self ..))) hia2 g _ rfl).2
  rw [← hs0] at rep1 rep2
  change Reports _ (filterAfter s0 a).2 at rep1
  change Reports _ (filterAfter s0 (a ++ [.gnss (some m)])).2 at rep2
  rw [after_gnss s0 a m hia] at rep2
  dsimp only at rep2
  rw [e1]
  clear hC
  generalize (filterAfter s0 a).2 = φ at rep1 rep2 H P e1
  obtain ⟨b1, b2⟩ := posH_form φ l (by rw [H.arm]; exact hl) (near_rot H.near)
  have hk := (gnss_kf φ m hu).1
  have hdev : ∀ i, σ ^ 2 ≤ m.posStd i ^ 2 * o.gnssStdScale := (hfix a m b hab hu hia _ rfl).dev
  have eR : (diagM fun i => m.posStd i * m.posStd i * φ.opt.gnssStdScale : M3 ℝ) = Matrix.diagonal fun i => m.posStd i ^ 2 * o.gnssStdScale := by
    rw [diagM_real, H.opt]; congr 1; funext i; ring
  have hR : ∀ x : Fin 3 → ℝ, 2 * r' * (x ⬝ᵥ x) ≤ x ⬝ᵥ (Matrix.diagonal fun i => m.posStd i ^ 2 * o.gnssStdScale) *ᵥ x := by
    intro x
    simp only [dotProduct, mulVec_diagonal, Finset.mul_sum]
    refine Finset.sum_le_sum fun i _ => ?_
    have := mul_le_mul_of_nonneg_right (hdev i) (mul_self_nonneg (x i))
    rw [hr2]
    nlinarith
  have e0 : 0 ≤ ((imusOf a).length : ℝ) * ξ * (1 + D * dt) ^ (imusOf a).length * Λ ^ usableCount a := by
    have : 0 ≤ Λ := by linarith
    have : 0 ≤ ξ := by rw [hξ]; positivity
    have : 0 ≤ 1 + D * dt := by positivity
    positivity
  obtain ⟨low, drop⟩ := drop_le φ.kf φ.posH (φ.posZ (v3 (m.lat * (Real.pi / 180)) (m.lon * (Real.pi / 180)) m.height)) (Matrix.diagonal fun i => m.posStd i ^ 2 * o.gnssStdScale) e0 hr0 P b2
    (diagonal_transpose _) hR hba
  rw [eR] at hk
  rw [← hk] at drop
  have ent : ∀ j : Fin 15, Real.sqrt ((φ.measureGnss m).kf.P j j) ≤ Real.sqrt (φ.kf.P j j) := by
    intro j
    have h1 := drop (Pi.single j 1)
    rw [mulVec_single_one, single_one_dotProduct, mulVec_single_one, single_one_dotProduct] at h1
    exact Real.sqrt_le_sqrt h1
  refine ⟨fun pva => ⟨φ.output, (φ.measureGnss m).output, rep1.result pva, rep2.result pva, fun i => ⟨ent _, ent _, ent _⟩⟩, ?_⟩
  intro φ' hφ u
  rw [hφ, ← hr2]
  exact low u

/-! The hypotheses are those of C212; the examples in `CovFile` meet them, with noisy sensors and uncertain start values. -/
end Verif.Props
