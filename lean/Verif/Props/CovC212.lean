import Verif.Props.CovRun
/-! C212: an instance of the C interface follows the true flight, with nothing assumed about its covariance. -/
namespace Verif.Props
open Verif Verif.Spec Verif.Convert Matrix

/-- What the defect of the covariance can grow to over a flight. -/
theorem defect_le {c dt D Q T Λ Z ξ : ℝ} {n k N : ℕ} (hc : 0 ≤ c) (hd : 0 ≤ dt) (hd1 : dt ≤ 1) (hD : 0 ≤ D) (hQ : 0 ≤ Q) (hΛ : 1 ≤ Λ) (hT : n * dt ≤ T) (hk : k ≤ N)
    (hξ : ξ = dt / 2 * (Q * (15 * (c * dt)) ^ 2)) (hZ : Z = T / 2 * (Q * (15 * c) ^ 2) * Real.exp (D * T) * Λ ^ N) (hpow : (1 + D * dt) ^ n ≤ Real.exp (D * T)) :
    n * ξ * (1 + D * dt) ^ n * Λ ^ k ≤ Z * dt := by
  have T0 : 0 ≤ T := le_trans (by positivity) hT
  have q0 : 0 ≤ Q * (15 * c) ^ 2 := by positivity
  have e : n * ξ = (n * dt) / 2 * (Q * (15 * c) ^ 2) * dt ^ 2 := by rw [hξ]; ring
  have d2 : dt ^ 2 ≤ dt := by nlinarith
  have d20 : 0 ≤ dt ^ 2 := sq_nonneg dt
  have h1 : n * ξ ≤ T / 2 * (Q * (15 * c) ^ 2) * dt := by
    rw [e]
    exact mul_le_mul (mul_le_mul_of_nonneg_right (by linarith) q0) d2 d20 (by positivity)
  have n0 : 0 ≤ T / 2 * (Q * (15 * c) ^ 2) * dt := by positivity
  have g0 : 0 ≤ 1 + D * dt := by positivity
  have Λ0 : 0 ≤ Λ := by linarith
  have h2 := mul_le_mul h1 hpow (by positivity) n0
  have h3 := mul_le_mul h2 (pow_le_pow_right₀ hΛ hk) (by positivity) (mul_nonneg n0 (Real.exp_pos _).le)
  refine h3.trans (le_of_eq ?_)
  rw [hZ]; ring

/-- Compound growth. -/
theorem grow_le {D dt T : ℝ} {n : ℕ} (hD : 0 ≤ D) (hd : 0 ≤ dt) (hT : n * dt ≤ T) : (1 + D * dt) ^ n ≤ Real.exp (D * T) := by
  have h1 : 1 + D * dt ≤ Real.exp (D * dt) := by have := Real.add_one_le_exp (D * dt); linarith
  have h2 := pow_le_pow_left₀ (by positivity) h1 n
  rw [← Real.exp_nat_mul] at h2
  refine h2.trans (Real.exp_le_exp.2 ?_)
  have := mul_le_mul_of_nonneg_left hT hD
  linarith

set_option maxHeartbeats 3200000 in
/-- C212: for every set of flight limits, duration, number of fixes, lever arm length, bounds on the deviations, random walks and correlation times of the configuration and bound `σ` on the scaled
deviations of the fixes there are a constant and a threshold such that an instance of the C interface started from values within `e` of the truth, fed with samples within `δ` of the true rates and
with usable fixes within `ε` of the true antenna, reports place, velocity and attitude within a constant times the start error plus the sensor error plus the fix error plus the sampling interval
of the truth at the time of the last sample, whatever the order of the calls and whatever the process noise. -/
theorem C212_filter_follows_the_flight (B : Limits) (hB : B.Sane) (T l s q τ σ : ℝ) (hτ : 0 < τ) (hσ : 0 < σ) (N : ℕ) : ∃ K r : ℝ, 0 < r ∧
    ∀ (lat lon h : ℝ → ℝ) (v : ℝ → V3 ℝ) (C : ℝ → M3 ℝ) (w θ f α : ℝ → V3 ℝ), TrueFlight B T lat lon h v C w θ f α →
    ∀ (junk : Junk ℝ) (d0 d : Dev ℝ) (o : Opt ℝ) (n : NavOutput ℝ), o.alignMode = 2 → noAids o → o.outputProjectEnable = 0 → 0 < o.dRate → len o.lbGnss ≤ l → SpreadsWithin s q τ o →
    (∀ i, |o.imuPara.gsIni i| ≤ 1) → (∀ i, |o.imuPara.asIni i| ≤ 1) → rgioeInit junk d0 (some o) (some n) = some (0, d) →
    ∀ (e δ ε dt x : ℝ), dt = 1 / o.dRate → x = e + δ + ε + dt → x ≤ r → 0 ≤ δ → 0 ≤ ε → ResultNear e n (lat 0) (lon 0) (h 0) (v 0) (C 0) →
    ∀ (cs : List (Call ℝ)) (g : ℝ), (∀ c ∈ cs, c.isInit = false) → imusOf cs ≠ [] → usableCount cs ≤ N → ReadsNear δ o.imuPara dt θ α 0 (imusOf cs) →
    (∀ a m b, cs = a ++ .gnss (some m) :: b → usable m.mode → imusOf a ≠ [] → ∀ t, t = (imusOf a).length * dt →
      FixWithin σ ε o.gnssStdScale m (antennaAt (lat t) (lon t) (h t) (C t) o.lbGnss)) →
    ∀ t : ℝ, t = (imusOf cs).length * dt → t ≤ T → ∀ pva : NavOutput ℝ, ∃ q : NavOutput ℝ, rgioeGetResult (runCalls cs (g, d)).2 pva = (0, q) ∧
      |inRad q.lat - lat t| ≤ K * x ∧ |inRad q.lon - lon t| ≤ K * x ∧ |q.height - h t| ≤ K * x ∧ len (q.vn - v t) ≤ K * x ∧
      (|C t 2 0| ≤ 99 / 100 → ResultNear (K * x) q (lat t) (lon t) (h t) (v t) (C t)) := by
  by_cases hV : 0 ≤ B.speed ∧ 0 ≤ l ∧ 0 ≤ T
  swap
  · refine ⟨0, 1, one_pos, ?_⟩
    intro lat lon h v C w θ f α F junk d0 d o n _ _ _ hdr hl _ _ _ _ e δ ε dt x hdt _ _ _ _ _ cs g _ _ _ _ _ t ht hT
    have hdt0 : 0 < dt := by rw [hdt]; exact one_div_pos.2 (by exact_mod_cast hdr)
    have : 0 ≤ t := by rw [ht]; positivity
    exact absurd ⟨(limits_pos F 0 (le_refl 0) (by linarith)).2.2.2.1, (len_nonneg _).trans hl, this.trans hT⟩ hV
  obtain ⟨hV, l0, T0⟩ := hV
  obtain ⟨K, ρ, k⟩ := kit_exists B hB hV
  have hK := k.bounds.one
  obtain ⟨L, hL, hant⟩ := antenna_near k hB l
  obtain ⟨A, hA⟩ : ∃ A, A = 50 * K ^ 3 := ⟨_, rfl⟩
  have hA0 : 0 < A := by rw [hA]; positivity
  obtain ⟨c, hcd⟩ : ∃ c, c = 5 * K + 1 / τ := ⟨_, rfl⟩
  have τ0 : 0 ≤ 1 / τ := by positivity
  have c0 : 0 < c := by rw [hcd]; linarith
  have hc5 : 5 * K ≤ c := by linarith
  have hcτ : 1 / τ ≤ c := by linarith
  obtain ⟨Q, hQd⟩ : ∃ Q, Q = q ^ 2 + 2 * s ^ 2 / τ := ⟨_, rfl⟩
  have hQ0 : 0 ≤ Q := by rw [hQd]; positivity
  obtain ⟨D, hD⟩ : ∃ D, D = 45 * c := ⟨_, rfl⟩
  have D0 : 0 ≤ D := by rw [hD]; linarith
  obtain ⟨r', hr2⟩ : ∃ r', r' = σ ^ 2 / 2 := ⟨_, rfl⟩
  have hr0 : 0 < r' := by rw [hr2]; positivity
  obtain ⟨W, hWd⟩ : ∃ W, W = (s ^ 2 + 3 * Q * T) * Real.exp (D * T) + 2 := ⟨_, rfl⟩
  have W0 : 0 ≤ W := by rw [hWd]; have := Real.exp_pos (D * T); positivity
  obtain ⟨γ, hγ⟩ : ∃ γ, γ = W * (7 * (1 + l)) / r' := ⟨_, rfl⟩
  have γ0 : 0 ≤ γ := by rw [hγ]; positivity
  obtain ⟨Λ, hΛ⟩ : ∃ Λ, Λ = (1 + (7 * (1 + l)) ^ 2 * W / r') ^ 2 := ⟨_, rfl⟩
  have Λ1 : 1 ≤ Λ := by
    rw [hΛ]
    have : 0 ≤ (7 * (1 + l)) ^ 2 * W / r' := by positivity
    exact one_le_pow₀ (by linarith)
  obtain ⟨Z, hZ⟩ : ∃ Z, Z = T / 2 * (Q * (15 * c) ^ 2) * Real.exp (D * T) * Λ ^ N := ⟨_, rfl⟩
  have Z0 : 0 ≤ Z := by
    rw [hZ]
    have := Real.exp_pos (D * T)
    have : 0 ≤ Λ := by linarith
    positivity
  obtain ⟨M, hM⟩ : ∃ M, M = 1 + 20 * K ^ 2 * (γ / 1) * (L + 1) := ⟨_, rfl⟩
  have hM1 : 1 ≤ M := by
    rw [hM]
    have : 0 ≤ 20 * K ^ 2 * (γ / 1) * (L + 1) := by positivity
    linarith
  obtain ⟨G, hG⟩ : ∃ G, G = Real.exp (A * T) * M ^ N := ⟨_, rfl⟩
  have hG0 : 0 < G := by rw [hG]; have := Real.exp_pos (A * T); positivity
  have g1 : 0 < (Real.pi / 2 - B.lat) / 2 := by have := hB.lat; linarith
  have g2 : 0 < (Real.pi - B.lon) / 2 := by have := hB.lon; linarith
  refine ⟨K * G, min (min (min (min (1 / A) (ρ / (10 * K ^ 2 * G))) (min ((Real.pi / 2 - B.lat) / 2) ((Real.pi - B.lon) / 2))) (9 / (1000 * (K * G + 1))))
    (min (min 1 (1 / (15 * c))) (min (1 / (Z + 1)) (r' / ((7 * (1 + l)) ^ 2 * Z + 1)))),
    lt_min (lt_min (lt_min (lt_min (by positivity) (div_pos k.pos (by positivity))) (lt_min g1 g2)) (by positivity)) (lt_min (lt_min one_pos (by positivity)) (lt_min (by positivity) (by positivity))), ?_⟩
  intro lat lon h v C w θ f α F junk d0 d o n hm ha ho hdr hl S hgs has hi e δ ε dt x hdt hx hxr hδ hε hn cs g hc hs hN hr hfix t ht hT pva
  have y1 := ((hxr.trans (min_le_right _ _)).trans (min_le_left _ _)).trans (min_le_left _ _)
  have y2 := ((hxr.trans (min_le_right _ _)).trans (min_le_left _ _)).trans (min_le_right _ _)
  have y3 := ((hxr.trans (min_le_right _ _)).trans (min_le_right _ _)).trans (min_le_left _ _)
  have y4 := ((hxr.trans (min_le_right _ _)).trans (min_le_right _ _)).trans (min_le_right _ _)
  replace hxr := hxr.trans (min_le_left _ _)
  have r1 := ((hxr.trans (min_le_left _ _)).trans (min_le_left _ _)).trans (min_le_left _ _)
  have r2 := ((hxr.trans (min_le_left _ _)).trans (min_le_left _ _)).trans (min_le_right _ _)
  have r3 := ((hxr.trans (min_le_left _ _)).trans (min_le_right _ _)).trans (min_le_left _ _)
  have r4 := ((hxr.trans (min_le_left _ _)).trans (min_le_right _ _)).trans (min_le_right _ _)
  have r5 := hxr.trans (min_le_right _ _)
  clear hxr
  have hd : 0 < dt := by rw [hdt]; exact one_div_pos.2 (by exact_mod_cast hdr)
  have he0 : 0 ≤ e := (abs_nonneg _).trans hn.height
  have ht0 : 0 ≤ t := by rw [ht]; positivity
  have hx0 : 0 < x := by rw [hx]; linarith
  have hAd : A * dt ≤ 1 := by
    have : dt ≤ 1 / A := by linarith
    rw [le_div_iff₀ hA0] at this; linarith
  have hpow : (1 + A * dt) ^ (imusOf cs).length ≤ Real.exp (A * T) := by
    have h1 : 1 + A * dt ≤ Real.exp (A * dt) := by have := Real.add_one_le_exp (A * dt); linarith
    have h2 := pow_le_pow_left₀ (by have := mul_pos hA0 hd; linarith) h1 (imusOf cs).length
    rw [← Real.exp_nat_mul] at h2
    refine h2.trans (Real.exp_le_exp.2 ?_)
    rw [ht] at hT
    have := mul_le_mul_of_nonneg_left hT hA0.le
    linarith
  have hpw : x * (1 + A * dt) ^ (imusOf cs).length * M ^ usableCount cs ≤ x * G := by
    rw [hG, mul_assoc]
    refine mul_le_mul_of_nonneg_left ?_ hx0.le
    exact mul_le_mul hpow (pow_le_pow_right₀ hM1 hN) (by positivity) (Real.exp_pos _).le
  have hρ : 10 * K ^ 2 * (x * G) ≤ ρ := by
    rw [le_div_iff₀ (by positivity)] at r2; linarith
  obtain ⟨s0, hs0⟩ : ∃ s0, s0 = fstart g junk.df (makeNavEpoch n o) o := ⟨_, rfl⟩
  have H0 := held_start (o := o) (e := e) (δ := δ) hB hK F (ht0.trans hT) hd hδ g junk.df n hdt hn (by linarith) (by linarith)
  rw [← hs0] at H0
  have run : ∀ a b, cs = a ++ b → imusOf a ≠ [] → (runCalls a (g, d)).2.df = (filterAfter s0 a).2 := by
    intro a b hab hia
    have := (C126_given_start junk d0 d o n hm hi a (fun c hh => hc c (by rw [hab]; exact List.mem_append_left _ hh)) hia g _ rfl).1
    rw [← hs0] at this
    exact congrArg Prod.snd this
  have hdx : dt ≤ x := by linarith
  have hd1 : dt ≤ 1 := by linarith
  have hD1 : 15 * (c * dt) ≤ 1 := by
    have : dt ≤ 1 / (15 * c) := by linarith
    rw [le_div_iff₀ (by positivity)] at this; linarith
  have hZ1 : Z * dt ≤ 1 := by
    have : dt ≤ 1 / (Z + 1) := by linarith
    rw [le_div_iff₀ (by positivity)] at this; nlinarith
  have hZr : (7 * (1 + l)) ^ 2 * (Z * dt) ≤ r' := by
    have : dt ≤ r' / ((7 * (1 + l)) ^ 2 * Z + 1) := by linarith
    rw [le_div_iff₀ (by positivity)] at this; nlinarith
  have hnT : ((imusOf cs).length : ℝ) * dt ≤ T := by rw [← ht]; exact hT
  obtain ⟨ξ, hξ⟩ : ∃ ξ, ξ = dt / 2 * (Q * (15 * (c * dt)) ^ 2) := ⟨_, rfl⟩
  have hgD := grow_le D0 hd.le hnT
  have hdef := defect_le c0.le hd.le hd1 D0 hQ0 Λ1 hnT hN hξ hZ hgD
  have hW : (s ^ 2 + (imusOf cs).length * (3 * Q * dt)) * (1 + D * dt) ^ (imusOf cs).length + 2 * ((imusOf cs).length * ξ * (1 + D * dt) ^ (imusOf cs).length * Λ ^ usableCount cs) ≤ W := by
    have h1 : (imusOf cs).length * (3 * Q * dt) ≤ 3 * Q * T := by
      have := mul_le_mul_of_nonneg_left hnT (by positivity : 0 ≤ 3 * Q)
      linarith
    have h2 : (s ^ 2 + (imusOf cs).length * (3 * Q * dt)) * (1 + D * dt) ^ (imusOf cs).length ≤ (s ^ 2 + 3 * Q * T) * Real.exp (D * T) :=
      mul_le_mul (by linarith) hgD (by positivity) (by positivity)
    rw [hWd]; linarith
  have hb := (mul_le_mul_of_nonneg_left hdef (sq_nonneg (7 * (1 + l)))).trans hZr
  have h9 : 1 / |o.imuPara.gtCorr| ≤ c := (one_div_le_one_div_of_le hτ (S.gt.trans (le_abs_self _))).trans hcτ
  have h10 : 1 / |o.imuPara.atCorr| ≤ c := (one_div_le_one_div_of_le hτ (S.at'.trans (le_abs_self _))).trans hcτ
  have hQF := noise_form hτ S
  rw [← hQd] at hQF
  obtain ⟨E, β, hE0, hE, H, hC, -, -⟩ := cov_run k hV F ha hd hA hAd (N := (coastStart junk.df.ins n o).nav) (δ := δ) (o := o) hgs has hσ hL hε hM hl hr2 hγ hΛ hD hD1 hc5 h9 h10 hQ0 hξ hQF hx0.le
    (fun e t φ n1 n2 n3 n4 n5 n6 => by have := hant e dt t T lat lon h v C w θ f α φ F n1 n2 n3 n4 n5 (by rw [n6]; exact hl); rw [n6] at this; exact this)
    s0 (e + δ) (by linarith) (by linarith) H0 (by rw [hs0]; exact ⟨rfl, rfl, rfl⟩) (by rw [hs0]; exact initial_form S n g junk.df) cs hnT (le_trans (mul_le_mul_of_nonneg_left hpw (by positivity)) hρ) hW hb
    (reads_at junk.df.ins n cs hr) (fun a m b hab hu hia t ht => hfix a m b hab hu hia t ht) cs [] (by simp)
  obtain ⟨-, rep⟩ := C126_given_start junk d0 d o n hm hi cs hc hs g _ rfl
  rw [← hs0] at rep
  change Reports _ (filterAfter s0 cs).2 at rep
  rw [← ht] at H
  have hatt := (hC hs).2
  clear hC
  generalize (filterAfter s0 cs).2 = φ at rep H hatt
  have hEx : E ≤ x * G := by
    have : 0 ≤ 20 * K ^ 2 * β := by have := H.pos; positivity
    linarith
  have hxG : 0 ≤ x * G := by positivity
  have hKx : x * G ≤ K * G * x := by have := mul_le_mul_of_nonneg_right hK hxG; linarith
  have hEρ : E ≤ ρ := by
    have h1 : 1 ≤ 10 * K ^ 2 := by nlinarith
    have := mul_le_mul_of_nonneg_right h1 hxG
    linarith
  have nr := H.near
  have ll := k.lla (lat t) (lon t) φ.ins.nav.Qne (F.lat_le t ht0 hT) (F.lon_le t ht0 hT) (nr.place.trans hEρ)
  rw [← nr.pos0, ← nr.pos1] at ll
  have hKq : K * ‖toH φ.ins.nav.Qne - toH (llaToQne ⟨lat t, lon t⟩)‖ ≤ K * G * x := by
    have := mul_le_mul_of_nonneg_left (nr.place.trans hEx) (by linarith : 0 ≤ K)
    refine le_trans this (le_of_eq ?_); ring
  refine ⟨φ.output, rep.result pva, ?_⟩
  have hpr : ¬ φ.opt.outputProjectEnable ≠ 0 := by rw [H.opt, ho]; simp
  obtain ⟨o1, o2, o3, o4, o5⟩ : φ.output.lat = φ.ins.nav.pos 0 / deg ∧ φ.output.lon = φ.ins.nav.pos 1 / deg ∧ φ.output.height = φ.ins.nav.pos 2 ∧ φ.output.vn = φ.ins.nav.vn ∧
      φ.output.atti = vd φ.ins.nav.atti deg := by
    unfold Fusion.output
    dsimp only
    rw [if_neg hpr, if_neg hpr]
    exact ⟨rfl, rfl, rfl, rfl, rfl⟩
  generalize φ.output = q at o1 o2 o3 o4 o5
  have b1 : |inRad q.lat - lat t| ≤ K * G * x := by rw [o1, rad_deg]; exact ll.1.trans hKq
  have b2 : |inRad q.lon - lon t| ≤ K * G * x := by rw [o2, rad_deg]; exact ll.2.trans hKq
  have b3 : |q.height - h t| ≤ K * G * x := by rw [o3]; exact nr.height.trans (hEx.trans hKx)
  have b4 : len (q.vn - v t) ≤ K * G * x := by rw [o4]; exact nr.vel.trans (hEx.trans hKx)
  refine ⟨b1, b2, b3, b4, fun hlk => ⟨b1, b2, b3, b4, ?_⟩⟩
  have k5 : ∀ y, len (φ.ins.nav.Cbn *ᵥ y - C t *ᵥ y) ≤ K * G * x * len y := fun y => (nr.att y).trans (mul_le_mul_of_nonneg_right (hEx.trans hKx) (len_nonneg y))
  have hlock : |φ.ins.nav.Cbn 2 0| < 999 / 1000 := by
    have c1 := entry_le _ _ _ k5
    have c2 : K * G * x < 9 / 1000 := by
      rw [le_div_iff₀ (by positivity)] at r5
      linarith
    have c6 := abs_sub_abs_le_abs_sub (φ.ins.nav.Cbn 2 0) (C t 2 0)
    linarith
  intro y
  rw [o5, rotOf_deg, hatt.2.2.2, C40_matrix_round_trip _ hatt.2.2.1 hlock]
  exact k5 y

end Verif.Props
