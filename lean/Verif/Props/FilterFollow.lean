import Verif.Props.FilterStep
/-! The filter, corrections and fixes included, stays near a true flight: one call, and a run of calls. -/
namespace Verif.Props
open Verif Verif.Spec Verif.Convert Matrix

/-- A filter whose state is within `e` of the truth, biases included, and whose outstanding correction is at most `β` in every component. -/
structure Held (K dt δ : ℝ) (N : NavEpoch ℝ) (o : Opt ℝ) (lat lon h : ℝ → ℝ) (v : ℝ → V3 ℝ) (C : ℝ → M3 ℝ) (t e β : ℝ) (φ : Fusion ℝ) : Prop where
  opt : φ.opt = o
  arm : φ.lbGnss = o.lbGnss
  gs : φ.ins.nav.gs = N.gs
  as : φ.ins.nav.as = N.as
  near : Near K e dt t φ.ins lat lon h v C
  gb : 2 * len (φ.ins.nav.gb - N.gb) + δ ≤ e
  ab : 2 * len (φ.ins.nav.ab - N.ab) + δ ≤ e
  pos : 0 ≤ β
  spread : φ.updateFlag = 0 → 0 < φ.updateIter → ∀ i, |φ.kfXd i| * (φ.updateIter : ℝ) ≤ β * (φ.monitor.maxIter : ℝ)
  fresh : φ.updateFlag ≠ 0 → ∀ i, |φ.kf.Xd i| ≤ β

variable {B : Limits} {K ρ e β δ E dt t T : ℝ} {N : NavEpoch ℝ} {o : Opt ℝ} {lat lon h : ℝ → ℝ} {v : ℝ → V3 ℝ} {C : ℝ → M3 ℝ} {w θ f α : ℝ → V3 ℝ} {φ : Fusion ℝ}

theorem held_take (H : Held K dt δ N o lat lon h v C t e β φ) : Held K dt δ N o lat lon h v C t e β φ.takeCorrection ∧ φ.takeCorrection.updateFlag = 0 := by
  unfold Fusion.takeCorrection
  split_ifs with h1
  · have h2 : φ.updateFlag ≠ 0 := by rintro h; rw [h] at h1; exact absurd h1 (by decide)
    refine ⟨⟨H.opt, H.arm, H.gs, H.as, H.near, H.gb, H.ab, H.pos, fun _ _ i => ?_, fun h => absurd rfl h⟩, rfl⟩
    show |φ.kf.Xd i| * (((φ.monitor.maxIter : Int)) : ℝ) ≤ β * (φ.monitor.maxIter : ℝ)
    rw [Int.cast_natCast]
    exact mul_le_mul_of_nonneg_right (H.fresh h2 i) (Nat.cast_nonneg _)
  · refine ⟨H, ?_⟩
    exact BitVec.eq_of_toNat_eq (by simpa using h1)

theorem held_apply (k : Kit B K ρ) (F : TrueFlight B T lat lon h v C w θ f α) (H : Held K dt δ N o lat lon h v C t e β φ) (hf : φ.updateFlag = 0) (ht : 0 ≤ t) (hT : t ≤ T)
    (he : 0 ≤ e) (hd : 0 < dt) (hE : 10 * K ^ 2 * (e + 20 * K ^ 2 * β + dt) ≤ ρ) (hst : 50 * K ^ 3 * dt ≤ 1) :
    ∃ e' β', 0 ≤ e' ∧ e' + 20 * K ^ 2 * β' ≤ e + 20 * K ^ 2 * β ∧ Held K dt δ N o lat lon h v C t e' β' φ.applyCorrection ∧ φ.applyCorrection.updateFlag = 0 := by
  have hK := k.bounds.one
  unfold Fusion.applyCorrection
  split_ifs with h1
  swap
  · exact ⟨e, β, he, le_refl _, H, hf⟩
  have hi : (1 : ℝ) ≤ (φ.updateIter : ℝ) := by exact_mod_cast h1
  have hi0 : (0 : ℝ) < (φ.updateIter : ℝ) := by linarith
  have hm : (1 : ℝ) ≤ (φ.monitor.maxIter : ℝ) := by rw [maxIter_le]; split_ifs <;> norm_num
  have hm0 : (0 : ℝ) < (φ.monitor.maxIter : ℝ) := by linarith
  obtain ⟨η, hη⟩ : ∃ η, η = β / (φ.updateIter : ℝ) := ⟨_, rfl⟩
  have hη0 : 0 ≤ η := by rw [hη]; exact div_nonneg H.pos hi0.le
  have hηβ : η ≤ β := by rw [hη]; exact div_le_self H.pos hi
  have hηi : η * (φ.updateIter : ℝ) = β := by rw [hη]; field_simp
  have hx : ∀ i, |(vd φ.kfXd (ofI φ.monitor.maxIter) : Fin 15 → ℝ) i| ≤ η := by
    intro i
    have e1 : (vd φ.kfXd (ofI φ.monitor.maxIter) : Fin 15 → ℝ) i = φ.kfXd i / (φ.monitor.maxIter : ℝ) := by
      show φ.kfXd i / ((((φ.monitor.maxIter : Int) : ℚ)) : ℝ) = _
      norm_num
    rw [e1, abs_div, abs_of_pos hm0, hη, div_le_div_iff₀ hm0 hi0]
    exact H.spread hf h1 i
  have hK2 : 1 ≤ K ^ 2 := by nlinarith
  have hβK : 0 ≤ K ^ 2 * β := mul_nonneg (by positivity) H.pos
  have hηK : K ^ 2 * η ≤ K ^ 2 * β := mul_le_mul_of_nonneg_left hηβ (by positivity)
  have hKη : K * η ≤ K ^ 2 * η := by
    have : K ^ 2 * η = K * (K * η) := by ring
    rw [this]
    have : 0 ≤ K * η := mul_nonneg (by linarith) hη0
    nlinarith
  have hρ1 := k.one
  have hsum : e + 20 * K ^ 2 * β + dt ≤ 10 * K ^ 2 * (e + 20 * K ^ 2 * β + dt) := by
    have : 0 ≤ e + 20 * K ^ 2 * β + dt := by linarith
    nlinarith
  have sm : Small K ρ e dt := by
    refine ⟨he, hd, ?_, hst⟩
    have : 10 * K ^ 2 * (e + dt) ≤ 10 * K ^ 2 * (e + 20 * K ^ 2 * β + dt) := mul_le_mul_of_nonneg_left (by linarith) (by positivity)
    linarith
  obtain ⟨n1, n2, n3, n4, n5⟩ := feed_near k F φ H.near sm ht hT _ η hx (by linarith)
  have tri : ∀ a b c : V3 ℝ, len (a - c) ≤ len (a - b) + len (b - c) := by
    intro a b c
    have : a - c = (a - b) + (b - c) := by abel
    rw [this]; exact len_add_le _ _
  have hηη : η ≤ K ^ 2 * η := by nlinarith
  refine ⟨e + 20 * K ^ 2 * η, β - η, by positivity, by linarith [show 20 * K ^ 2 * (β - η) = 20 * K ^ 2 * β - 20 * K ^ 2 * η by ring],
    ⟨H.opt, H.arm, n4.trans H.gs, n5.trans H.as, n1, ?_, ?_, by linarith, ?_, fun hh => absurd hf hh⟩, hf⟩
  · have := tri (φ.feedBack (vd φ.kfXd (ofI φ.monitor.maxIter))).ins.nav.gb φ.ins.nav.gb N.gb
    have := H.gb
    show 2 * len ((φ.feedBack (vd φ.kfXd (ofI φ.monitor.maxIter))).ins.nav.gb - N.gb) + δ ≤ _
    linarith
  · have := tri (φ.feedBack (vd φ.kfXd (ofI φ.monitor.maxIter))).ins.nav.ab φ.ins.nav.ab N.ab
    have := H.ab
    show 2 * len ((φ.feedBack (vd φ.kfXd (ofI φ.monitor.maxIter))).ins.nav.ab - N.ab) + δ ≤ _
    linarith
  · intro _ _ i
    show |φ.kfXd i| * (((φ.updateIter - 1 : Int)) : ℝ) ≤ (β - η) * (φ.monitor.maxIter : ℝ)
    push_cast
    have s := H.spread hf h1 i
    have : |φ.kfXd i| ≤ η * (φ.monitor.maxIter : ℝ) := by
      have := hx i
      have s2 : |φ.kfXd i| * (φ.updateIter : ℝ) ≤ (η * (φ.monitor.maxIter : ℝ)) * (φ.updateIter : ℝ) := by
        rw [mul_right_comm, hηi]; exact s
      exact le_of_mul_le_mul_right s2 hi0
    have e2 : (β - η) * (φ.monitor.maxIter : ℝ) = (η * (φ.monitor.maxIter : ℝ)) * ((φ.updateIter : ℝ) - 1) := by
      rw [← hηi]; ring
    rw [e2]
    exact mul_le_mul_of_nonneg_right this (by linarith)

theorem held_move {t' e' : ℝ} {ψ : Fusion ℝ} (H : Held K dt δ N o lat lon h v C t e β φ) (hf : φ.updateFlag = 0) (s : Ins ℝ) (j : NavInfo) (g1 : ψ.opt = φ.opt) (g2 : ψ.lbGnss = φ.lbGnss)
    (g3 : ψ.ins = reInfo s j) (g4 : ψ.updateFlag = φ.updateFlag) (g5 : ψ.updateIter = φ.updateIter) (g6 : ψ.kfXd = φ.kfXd) (g7 : ψ.monitor.maxIter = φ.monitor.maxIter)
    (s1 : s.nav.gs = φ.ins.nav.gs) (s2 : s.nav.as = φ.ins.nav.as) (s3 : s.nav.gb = φ.ins.nav.gb) (s4 : s.nav.ab = φ.ins.nav.ab) (he : e ≤ e')
    (st : Near K e' dt t' s lat lon h v C) : Held K dt δ N o lat lon h v C t' e' β ψ := by
  refine ⟨g1.trans H.opt, g2.trans H.arm, ?_, ?_, ?_, ?_, ?_, H.pos, ?_, fun hh => absurd (g4.trans hf) hh⟩
  · rw [g3]; exact s1.trans H.gs
  · rw [g3]; exact s2.trans H.as
  · rw [g3]
    exact ⟨st.unit, st.dcm, st.unitP, st.pos0, st.pos1, st.dt_eq, st.dvn, st.gyro, st.acce, st.place, st.vel, st.height, st.att⟩
  · rw [g3]
    show 2 * len (s.nav.gb - N.gb) + δ ≤ _
    rw [s3]; linarith [H.gb]
  · rw [g3]
    show 2 * len (s.nav.ab - N.ab) + δ ≤ _
    rw [s4]; linarith [H.ab]
  · rw [g4, g5, g6, g7]; exact H.spread

/-- The readings, freed of the biases the filter holds. -/
theorem reading_le {e1 : ℝ} (hd : 0 < dt) (s s' b b' m x : V3 ℝ) (hs : s = s') (hs1 : ∀ i, |s' i| ≤ 1) (h1 : len ((fun i => (1 - s' i) * (m i - b' i * dt)) - x) ≤ δ * dt)
    (h2 : 2 * len (b - b') + δ ≤ e1) : len ((fun i => (1 - s i) * (m i - b i * dt)) - x) ≤ dt * e1 := by
  subst hs
  have eq : (fun i => (1 - s i) * (m i - b i * dt)) - x = ((fun i => (1 - s i) * (m i - b' i * dt)) - x) + (-dt) • (fun i => (1 - s i) * (b i - b' i)) := by
    ext i; simp only [Pi.sub_apply, Pi.add_apply, Pi.smul_apply, smul_eq_mul]; ring
  have sc : len (fun i => (1 - s i) * (b i - b' i)) ≤ 2 * len (b - b') := by
    refine abs_le_of_sq_le_sq' ?_ (by have := len_nonneg (b - b'); linarith) |>.2
    rw [mul_pow, len_sq, len_sq]
    have q : ∀ i, ((1 - s i) * (b i - b' i)) ^ 2 ≤ 4 * (b i - b' i) ^ 2 := by
      intro i
      rw [mul_pow]
      obtain ⟨a1, a2⟩ := abs_le.1 (hs1 i)
      have : (1 - s i) ^ 2 ≤ 4 := by nlinarith
      exact mul_le_mul_of_nonneg_right this (sq_nonneg _)
    have := q 0; have := q 1; have := q 2
    simp only [Pi.sub_apply]
    linarith
  rw [eq]
  refine (len_add_le _ _).trans ?_
  rw [len_smul, abs_neg, abs_of_pos hd]
  have := mul_le_mul_of_nonneg_left sc hd.le
  have := mul_le_mul_of_nonneg_left h2 hd.le
  linarith

/-- What a sample does besides the mechanization. -/
theorem time_rest (ha : noAids φ.opt) (g : ℝ) (m : Imu ℝ) (c ψ : Fusion ℝ) (hc : c = φ.takeCorrection.applyCorrection) (hψ : ψ = (φ.timeUpdate g m).2) :
    ψ.opt = c.opt ∧ ψ.lbGnss = c.lbGnss ∧ (∃ j, ψ.ins = reInfo (c.ins.forwardImu g m).2 j) ∧ ψ.updateFlag = c.updateFlag ∧ ψ.updateIter = c.updateIter ∧ ψ.kfXd = c.kfXd ∧
    ψ.monitor.maxIter = c.monitor.maxIter := by
  have hco : c.opt = φ.opt := by
    rw [hc]; unfold Fusion.applyCorrection Fusion.takeCorrection; split_ifs <;> rfl
  have e2 : (φ.timeUpdate g m).2 = { (Fusion.propagate g φ.takeCorrection.applyCorrection m).2.zuptStage.nhcStage with
      monitor := (Fusion.propagate g φ.takeCorrection.applyCorrection m).2.zuptStage.nhcStage.monitor.onTimeUpdate } := rfl
  rw [← hψ, ← hc] at e2
  have e3 := coastq_stages (Fusion.propagate g c m).2 (by show noAids c.opt; rw [hco]; exact ha)
  rw [e3] at e2
  rw [e2]
  exact ⟨rfl, rfl, ⟨_, rfl⟩, rfl, rfl, rfl, rfl⟩

/-- One sample. -/
theorem held_time (k : Kit B K ρ) (F : TrueFlight B T lat lon h v C w θ f α) (ha : noAids o) (H : Held K dt δ N o lat lon h v C t e β φ) (ht : 0 ≤ t) (hT : t + dt ≤ T)
    (he : 0 ≤ e) (hd : 0 < dt) (hE : 10 * K ^ 2 * (e + 20 * K ^ 2 * β + dt) ≤ ρ) (hst : 50 * K ^ 3 * dt ≤ 1) (hgs : ∀ i, |N.gs i| ≤ 1) (has : ∀ i, |N.as i| ≤ 1) (g : ℝ) (m : Imu ℝ)
    (hg : len (increment N dt m.gyro - (θ (t + dt) - θ t)) ≤ δ * dt) (hac : len (forceIncrement N dt m.acce - (α (t + dt) - α t)) ≤ δ * dt) :
    ∃ e' β', 0 ≤ e' ∧ e' + 20 * K ^ 2 * β' + dt ≤ (e + 20 * K ^ 2 * β + dt) * (1 + 50 * K ^ 3 * dt) ∧
      Held K dt δ N o lat lon h v C (t + dt) e' β' (φ.timeUpdate g m).2 ∧
      (φ.timeUpdate g m).2.ins.nav.Cne = llaToCne ⟨(φ.timeUpdate g m).2.ins.nav.pos 0, (φ.timeUpdate g m).2.ins.nav.pos 1⟩ ∧ attitudeOk (φ.timeUpdate g m).2.ins.nav := by
  have hK := k.bounds.one
  obtain ⟨H1, f1⟩ := held_take H
  obtain ⟨e1, β1, he1, hle, H2, f2⟩ := held_apply k F H1 f1 ht (by linarith) he hd hE hst
  obtain ⟨c, hc⟩ : ∃ c, c = φ.takeCorrection.applyCorrection := ⟨_, rfl⟩
  obtain ⟨ψ, hψ⟩ : ∃ ψ, ψ = (φ.timeUpdate g m).2 := ⟨_, rfl⟩
  obtain ⟨r1, r2, ⟨j, r3⟩, r4, r5, r6, r7⟩ := time_rest (by rw [H.opt]; exact ha) g m c ψ hc hψ
  rw [← hc] at H2 f2
  rw [← hψ]
  clear hc hψ H1 f1 H
  have hs1 : 10 * K ^ 2 * (e1 + dt) ≤ ρ := by
    have : 0 ≤ K ^ 2 * β1 := mul_nonneg (by positivity) H2.pos
    have : 10 * K ^ 2 * (e1 + dt) ≤ 10 * K ^ 2 * (e + 20 * K ^ 2 * β + dt) := mul_le_mul_of_nonneg_left (by linarith) (by positivity)
    linarith
  have hdt := H2.near.dt_eq
  have st := near_step k F H2.near ⟨he1, hd, hs1, hst⟩ ht hT g m
    (by unfold increment at hg ⊢; rw [hdt]; exact reading_le hd _ _ _ _ _ _ H2.gs hgs hg H2.gb)
    (by unfold forceIncrement at hac ⊢; rw [hdt]; exact reading_le hd _ _ _ _ _ _ H2.as has hac H2.ab)
  have ok := (forwardImu_ok g c.ins m (by rw [H2.near.unit]; exact one_pos) (by rw [H2.near.unitP]; exact one_pos))
  have grow0 : 0 ≤ 50 * K ^ 3 * dt := by positivity
  have gr : 0 ≤ 50 * K ^ 3 * dt * (e1 + dt) := mul_nonneg grow0 (by linarith)
  have q1 : (c.ins.forwardImu g m).2.nav.gs = c.ins.nav.gs := rfl
  have q2 : (c.ins.forwardImu g m).2.nav.as = c.ins.nav.as := rfl
  have q3 : (c.ins.forwardImu g m).2.nav.gb = c.ins.nav.gb := rfl
  have q4 : (c.ins.forwardImu g m).2.nav.ab = c.ins.nav.ab := rfl
  generalize (c.ins.forwardImu g m).2 = s at st ok r3 q1 q2 q3 q4
  refine ⟨e1 + 50 * K ^ 3 * dt * (e1 + dt), β1, by linarith, ?_, held_move H2 f2 s j r1 r2 r3 r4 r5 r6 r7 q1 q2 q3 q4 (by linarith) st, ?_⟩
  · have p1 : 0 ≤ K ^ 2 * β1 := mul_nonneg (by positivity) H2.pos
    have p2 : e1 + dt ≤ e + 20 * K ^ 2 * β + dt := by linarith
    have := mul_le_mul_of_nonneg_left p2 grow0
    have e5 : (e + 20 * K ^ 2 * β + dt) * (1 + 50 * K ^ 3 * dt) = e + 20 * K ^ 2 * β + dt + 50 * K ^ 3 * dt * (e + 20 * K ^ 2 * β + dt) := by ring
    rw [e5]
    linarith
  · rw [r3]
    exact ⟨ok.2.2.2.1, ok.1⟩

/-- A fix along a true flight, met by a filter with covariance `P`: it is within `ε` of the true antenna `a`, its variances, scaled as configured, are at least `σ²`, and
the covariance is valid with variances of at most `p²`. -/
structure FixGood (σ ε p scale : ℝ) (P : Matrix (Fin 15) (Fin 15) ℝ) (m : Gnss ℝ) (a : V3 ℝ) : Prop where
  near : len (a - fixPlace m) ≤ ε
  dev : ∀ i, σ ^ 2 ≤ m.posStd i ^ 2 * scale
  valid : validCov P
  var : ∀ i, P i i ≤ p ^ 2

/-- What a usable fix leaves alone. -/
theorem gnss_rest (φ : Fusion ℝ) (m : Gnss ℝ) (hu : usable m.mode) : (φ.measureGnss m).opt = φ.opt ∧ (φ.measureGnss m).lbGnss = φ.lbGnss ∧
    (∃ j, (φ.measureGnss m).ins = reInfo φ.ins j) ∧ (φ.measureGnss m).updateFlag ≠ 0 := by
  unfold Fusion.measureGnss
  rw [if_pos ((gnssCheck_iff m).2 hu)]
  exact ⟨rfl, rfl, ⟨_, rfl⟩, flag_set _⟩

theorem gnss_unused (φ : Fusion ℝ) (m : Gnss ℝ) (hu : ¬ usable m.mode) : ∃ j, φ.measureGnss m = { φ with ins := reInfo φ.ins j } := by
  unfold Fusion.measureGnss
  rw [if_neg (by rw [gnssCheck_iff]; exact hu)]
  exact ⟨_, rfl⟩

/-- One usable fix. -/
theorem held_fix {σ ε p L : ℝ} (m : Gnss ℝ) (hu : usable m.mode) (H : Held K dt δ N o lat lon h v C t e β φ) (he : 0 ≤ e) (hσ : 0 < σ) (hp : 0 ≤ p) (hL : 0 ≤ L) (hC : isRot φ.ins.nav.Cne)
    (ha : len (antenna φ - antennaAt (lat t) (lon t) (h t) (C t) o.lbGnss) ≤ L * e)
    (G : FixGood σ ε p o.gnssStdScale φ.kf.P m (antennaAt (lat t) (lon t) (h t) (C t) o.lbGnss)) :
    Held K dt δ N o lat lon h v C t e (p / σ * (L * e + ε)) (φ.measureGnss m) := by
  obtain ⟨g1, g2, ⟨j, g3⟩, g4⟩ := gnss_rest φ m hu
  have hε : 0 ≤ ε := (len_nonneg _).trans G.near
  have hD : len (antenna φ - fixXyz m) ≤ L * e + ε := by
    rw [fixPlace_eq]
    have e1 : antenna φ - fixPlace m = (antenna φ - antennaAt (lat t) (lon t) (h t) (C t) o.lbGnss) + (antennaAt (lat t) (lon t) (h t) (C t) o.lbGnss - fixPlace m) := by abel
    rw [e1]
    refine (len_add_le _ _).trans ?_
    linarith [G.near]
  have hD0 := len_nonneg (antenna φ - fixXyz m)
  have hLe : 0 ≤ L * e + ε := hD0.trans hD
  have hx : ∀ i, |(φ.measureGnss m).kf.Xd i| ≤ p / σ * (L * e + ε) := by
    intro i
    have q := C209_fix φ m hu G.valid hC σ hσ (by rw [H.opt]; exact G.dev) i
    have hR : validCov (diagM fun i => m.posStd i * m.posStd i * φ.opt.gnssStdScale : M3 ℝ) := by
      rw [validCov_iff, diagM_real]
      refine Matrix.PosSemidef.diagonal fun i => ?_
      have := G.dev i
      have : 0 < σ ^ 2 := by positivity
      show 0 ≤ m.posStd i * m.posStd i * φ.opt.gnssStdScale
      rw [H.opt]
      nlinarith
    have hP' : validCov (φ.measureGnss m).kf.P := by
      rw [(gnss_kf φ m hu).1]; exact (C24_update_valid φ.kf _ _ _ G.valid hR).1
    have d2 : 0 ≤ (φ.measureGnss m).kf.P i i := ((validCov_iff _).1 hP').diag_nonneg
    have d1 := G.var i
    rw [div_mul_eq_mul_div, le_div_iff₀ hσ]
    refine (abs_le_of_sq_le_sq' (a := |(φ.measureGnss m).kf.Xd i| * σ) ?_ (mul_nonneg hp hLe)).2
    rw [mul_pow, mul_pow, sq_abs]
    have q2 : len (antenna φ - fixXyz m) ^ 2 ≤ (L * e + ε) ^ 2 := pow_le_pow_left₀ hD0 hD 2
    have q3 : (φ.kf.P i i - (φ.measureGnss m).kf.P i i) * len (antenna φ - fixXyz m) ^ 2 ≤ p ^ 2 * len (antenna φ - fixXyz m) ^ 2 :=
      mul_le_mul_of_nonneg_right (by linarith) (sq_nonneg _)
    have q4 := mul_le_mul_of_nonneg_left q2 (sq_nonneg p)
    linarith
  have st := H.near
  refine ⟨g1.trans H.opt, g2.trans H.arm, ?_, ?_, ?_, ?_, ?_, mul_nonneg (div_nonneg hp hσ.le) hLe, fun hh => absurd hh g4, fun _ => hx⟩
  · rw [g3]; exact H.gs
  · rw [g3]; exact H.as
  · rw [g3]
    exact ⟨st.unit, st.dcm, st.unitP, st.pos0, st.pos1, st.dt_eq, st.dvn, st.gyro, st.acce, st.place, st.vel, st.height, st.att⟩
  · rw [g3]; exact H.gb
  · rw [g3]; exact H.ab

theorem held_unused (m : Gnss ℝ) (hu : ¬ usable m.mode) (H : Held K dt δ N o lat lon h v C t e β φ) : Held K dt δ N o lat lon h v C t e β (φ.measureGnss m) := by
  obtain ⟨j, hj⟩ := gnss_unused φ m hu
  rw [hj]
  have st := H.near
  exact ⟨H.opt, H.arm, H.gs, H.as, ⟨st.unit, st.dcm, st.unitP, st.pos0, st.pos1, st.dt_eq, st.dvn, st.gyro, st.acce, st.place, st.vel, st.height, st.att⟩, H.gb, H.ab, H.pos, H.spread, H.fresh⟩
end Verif.Props
