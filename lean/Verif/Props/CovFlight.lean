import Verif.Spec.CovFlight
import Verif.Props.PhiBound
import Verif.Props.FilterFlight
/-! The covariance of the filter along a true flight: bounded, and valid up to a term of second order in the sampling interval. -/
namespace Verif.Props
open Verif Verif.Spec Verif.Convert Matrix

theorem Form.mono {n : ℕ} {P : Matrix (Fin n) (Fin n) ℝ} {η ω η' ω' : ℝ} (h : Form P η ω) (h1 : η ≤ η') (h2 : ω ≤ ω') : Form P η' ω' :=
  ⟨h.symm, fun x => by have := h.lower x; have := mul_le_mul_of_nonneg_right h1 (dot_self_nonneg x); linarith,
    fun x => (h.upper x).trans (mul_le_mul_of_nonneg_right h2 (dot_self_nonneg x))⟩

theorem form_diag {n : ℕ} (d : Fin n → ℝ) (q : ℝ) (h : ∀ i, 0 ≤ d i ∧ d i ≤ q) : Form (Matrix.diagonal d) 0 q := by
  refine ⟨diagonal_transpose d, fun x => ?_, fun x => ?_⟩
  · rw [zero_mul, neg_zero]
    simp only [dotProduct, mulVec_diagonal]
    refine Finset.sum_nonneg fun i _ => ?_
    have := mul_nonneg (h i).1 (mul_self_nonneg (x i)); linarith
  · simp only [dotProduct, mulVec_diagonal, Finset.mul_sum]
    refine Finset.sum_le_sum fun i _ => ?_
    have := mul_le_mul_of_nonneg_right (h i).2 (mul_self_nonneg (x i)); linarith

theorem sq_le_of_abs {x s : ℝ} (h : |x| ≤ s) : x ^ 2 ≤ s ^ 2 := by
  rw [← sq_abs]; exact pow_le_pow_left₀ (abs_nonneg x) h 2

/-- The process noise of the options. -/
theorem noise_form {s q τ : ℝ} {o : Opt ℝ} (hτ : 0 < τ) (S : SpreadsWithin s q τ o) : Form (Fusion.initQ0 o) 0 (q ^ 2 + 2 * s ^ 2 / τ) := by
  unfold Fusion.initQ0
  rw [diagM_real]
  have q0 : 0 ≤ q ^ 2 := sq_nonneg q
  have s0 : 0 ≤ 2 * s ^ 2 / τ := by positivity
  have mark : ∀ x c : ℝ, |x| ≤ s → τ ≤ c → 0 ≤ 2 * x * x / c ∧ 2 * x * x / c ≤ q ^ 2 + 2 * s ^ 2 / τ := by
    intro x c hx hc
    have c0 : 0 < c := by linarith
    have x2 := sq_le_of_abs hx
    have x0 := sq_nonneg x
    have e : 2 * x * x = 2 * x ^ 2 := by ring
    rw [e]
    refine ⟨by positivity, ?_⟩
    have : 2 * x ^ 2 / c ≤ 2 * s ^ 2 / τ := div_le_div₀ (by positivity) (by linarith) hτ hc
    linarith
  refine form_diag _ _ fun i => ?_
  have w : ∀ x : ℝ, |x| ≤ q → 0 ≤ x * x ∧ x * x ≤ q ^ 2 + 2 * s ^ 2 / τ := by
    intro x hx
    have := sq_le_of_abs hx
    exact ⟨mul_self_nonneg x, by rw [← pow_two]; linarith⟩
  split_ifs
  · exact ⟨le_refl 0, by linarith⟩
  · exact w _ S.vrw
  · exact w _ S.arw
  · have := mark _ _ (S.gb ⟨i.val - 9, by omega⟩) S.gt
    have e : (Fl.lit 2 : ℝ) = 2 := by simp
    rw [e]; exact this
  · have := mark _ _ (S.ab ⟨i.val - 12, by omega⟩) S.at'
    have e : (Fl.lit 2 : ℝ) = 2 := by simp
    rw [e]; exact this

/-- The initial covariance of the options. -/
theorem initial_form {s q τ : ℝ} {o : Opt ℝ} (S : SpreadsWithin s q τ o) (n : NavOutput ℝ) (g : ℝ) (junk : Fusion ℝ) : Form (fstart g junk (makeNavEpoch n o) o).2.kf.P 0 (s ^ 2) := by
  have s0 : 0 ≤ s := (abs_nonneg _).trans (S.pos 0)
  have e : (fstart g junk (makeNavEpoch n o) o).2.kf.P = Fusion.initStd (makeNavEpoch n o) o * Fusion.initStd (makeNavEpoch n o) o := mmul_real _ _
  have d : ∀ (x : V3 ℝ) (r : ℕ) (i j : Fin 15) (hi : r ≤ i.val ∧ i.val < r + 3 ∧ r ≤ j.val ∧ j.val < r + 3), (∀ a, |x a| ≤ s) →
      (i ≠ j → (diagM x : M3 ℝ) ⟨i.val - r, by omega⟩ ⟨j.val - r, by omega⟩ = 0) ∧ |(diagM x : M3 ℝ) ⟨i.val - r, by omega⟩ ⟨j.val - r, by omega⟩| ≤ s := by
    intro x r i j hi hx
    constructor
    · intro ne
      simp only [diagM, Fin.ext_iff]
      rw [if_neg]
      intro hh; exact ne (Fin.ext (by omega))
    · simp only [diagM]; split_ifs
      · exact hx _
      · rw [abs_zero]; exact s0
  have ent : ∀ i j, (i ≠ j → Fusion.initStd (makeNavEpoch n o) o i j = 0) ∧ |Fusion.initStd (makeNavEpoch n o) o i j| ≤ s := by
    intro i j
    unfold Fusion.initStd
    refine setBlock_ind (fun x => (i ≠ j → x = 0) ∧ |x| ≤ s) _ 12 12 _ i j (fun a => d _ 12 i j a S.ab) fun _ => ?_
    refine setBlock_ind (fun x => (i ≠ j → x = 0) ∧ |x| ≤ s) _ 9 9 _ i j (fun a => d _ 9 i j a S.gb) fun _ => ?_
    refine setBlock_ind (fun x => (i ≠ j → x = 0) ∧ |x| ≤ s) _ 6 6 _ i j (fun a => d _ 6 i j a S.atti) fun _ => ?_
    refine setBlock_ind (fun x => (i ≠ j → x = 0) ∧ |x| ≤ s) _ 3 3 _ i j (fun a => d _ 3 i j a S.vel) fun _ => ?_
    refine setBlock_ind (fun x => (i ≠ j → x = 0) ∧ |x| ≤ s) _ 0 0 _ i j (fun a => d _ 0 i j a S.pos) fun _ => ?_
    exact ⟨fun _ => rfl, by rw [abs_zero]; exact s0⟩
  have hd : Fusion.initStd (makeNavEpoch n o) o = Matrix.diagonal fun i => Fusion.initStd (makeNavEpoch n o) o i i := by
    ext i j
    rw [Matrix.diagonal_apply]
    split_ifs with hij
    · rw [hij]
    · exact (ent i j).1 hij
  rw [e, hd, diagonal_mul_diagonal]
  refine form_diag _ _ fun i => ⟨mul_self_nonneg _, ?_⟩
  rw [← pow_two]
  exact sq_le_of_abs (ent i i).2

variable {B : Limits} {K ρ e β δ E dt t T : ℝ} {N : NavEpoch ℝ} {o : Opt ℝ} {lat lon h : ℝ → ℝ} {v : ℝ → V3 ℝ} {C : ℝ → M3 ℝ} {w θ f α : ℝ → V3 ℝ} {φ : Fusion ℝ}

/-- What a sample does to the covariance. -/
theorem time_cov (ha : noAids φ.opt) (g : ℝ) (m : Imu ℝ) (c : Fusion ℝ) (hc : c = φ.takeCorrection.applyCorrection) :
    ∃ f2 : Fusion ℝ, f2.ins = (c.ins.forwardImu g m).2 ∧ f2.opt = c.opt ∧ f2.Q0 = c.Q0 ∧
      (φ.timeUpdate g m).2.kf = c.kf.predict (f2.transferMatrix (c.ins.forwardImu g m).1) (f2.stepQ (f2.transferMatrix (c.ins.forwardImu g m).1)) := by
  have hco : c.opt = φ.opt := by
    rw [hc]; unfold Fusion.applyCorrection Fusion.takeCorrection; split_ifs <;> rfl
  have e2 : (φ.timeUpdate g m).2 = { (Fusion.propagate g φ.takeCorrection.applyCorrection m).2.zuptStage.nhcStage with
      monitor := (Fusion.propagate g φ.takeCorrection.applyCorrection m).2.zuptStage.nhcStage.monitor.onTimeUpdate } := rfl
  rw [← hc] at e2
  have e3 := coastq_stages (Fusion.propagate g c m).2 (by show noAids c.opt; rw [hco]; exact ha)
  rw [e3] at e2
  rw [e2]
  exact ⟨{ c with smooth := c.smooth.update m, ins := (c.ins.forwardImu g m).2 }, rfl, rfl, rfl, rfl⟩

/-- One sample. -/
theorem cov_time {c Q η ω : ℝ} (k : Kit B K ρ) (hV : 0 ≤ B.speed) (F : TrueFlight B T lat lon h v C w θ f α) (ha : noAids o) (H : Held K dt δ N o lat lon h v C t e β φ) (ht : 0 ≤ t) (hT : t + dt ≤ T)
    (he : 0 ≤ e) (hd : 0 < dt) (hE : 10 * K ^ 2 * (e + 20 * K ^ 2 * β + dt) ≤ ρ) (hst : 50 * K ^ 3 * dt ≤ 1) (hgs : ∀ i, |N.gs i| ≤ 1) (has : ∀ i, |N.as i| ≤ 1) (g : ℝ) (m : Imu ℝ)
    (hg : len (increment N dt m.gyro - (θ (t + dt) - θ t)) ≤ δ * dt) (hac : len (forceIncrement N dt m.acce - (α (t + dt) - α t)) ≤ δ * dt)
    (X : Fixed o φ) (hc : 5 * K ≤ c) (h9 : 1 / |o.imuPara.gtCorr| ≤ c) (h10 : 1 / |o.imuPara.atCorr| ≤ c) (hη : 0 ≤ η) (hω : 0 ≤ ω) (hQ0 : 0 ≤ Q) (hQ : Form (Fusion.initQ0 o) 0 Q) (P : Form φ.kf.P η ω) :
    Form (φ.timeUpdate g m).2.kf.P ((1 + 15 * (c * dt)) ^ 2 * η + dt / 2 * (Q * (15 * (c * dt)) ^ 2)) ((1 + 15 * (c * dt)) ^ 2 * ω + dt / 2 * (Q * (1 + (1 + 15 * (c * dt)) ^ 2))) := by
  have hK := k.bounds.one
  obtain ⟨H1, f1⟩ := held_take H
  obtain ⟨e1, β1, he1, hle, H2, f2⟩ := held_apply k F H1 f1 ht (by linarith) he hd hE hst
  obtain ⟨X2, XP⟩ := fixed_correct φ X
  obtain ⟨c', hc'⟩ : ∃ c', c' = φ.takeCorrection.applyCorrection := ⟨_, rfl⟩
  obtain ⟨f3, g1, g2, g3, g4⟩ := time_cov (by rw [H.opt]; exact ha) g m c' hc'
  rw [← hc'] at H2 X2 XP
  have hs1 : 10 * K ^ 2 * (e1 + dt) ≤ ρ := by
    have : 0 ≤ K ^ 2 * β1 := mul_nonneg (by positivity) H2.pos
    have : 10 * K ^ 2 * (e1 + dt) ≤ 10 * K ^ 2 * (e + 20 * K ^ 2 * β + dt) := mul_le_mul_of_nonneg_left (by linarith) (by positivity)
    linarith
  have hdt := H2.near.dt_eq
  have hop : f3.opt = o := g2.trans H2.opt
  have ent := phi_near k hV F H2.near ⟨he1, hd, hs1, hst⟩ ht hT g m
    (by unfold increment at hg ⊢; rw [hdt]; exact reading_le hd _ _ _ _ _ _ H2.gs hgs hg H2.gb)
    (by unfold forceIncrement at hac ⊢; rw [hdt]; exact reading_le hd _ _ _ _ _ _ H2.as has hac H2.ab)
    f3 g1 c hc (by rw [hop]; exact h9) (by rw [hop]; exact h10)
  have d3 : f3.ins.dt = dt := by rw [g1]; exact hdt
  have q3 : f3.Q0 = Fusion.initQ0 o := g3.trans X2.q
  rw [g4]
  have hsQ : f3.stepQ (f3.transferMatrix (c'.ins.forwardImu g m).1) =
      (dt / 2) • (f3.transferMatrix (c'.ins.forwardImu g m).1 * Fusion.initQ0 o + Fusion.initQ0 o * (f3.transferMatrix (c'.ins.forwardImu g m).1)ᵀ) := by
    unfold Fusion.stepQ
    rw [mmul_real, mmul_real, q3, d3]
    ext i j
    simp only [ms, sm, Matrix.smul_apply, smul_eq_mul]
    have e5 : (Fl.lit (1 / 2) : ℝ) = 1 / 2 := by rw [lit_real]; push_cast; ring
    rw [e5]; ring
  rw [hsQ]
  obtain ⟨A, hA⟩ : ∃ A, A = f3.transferMatrix (c'.ins.forwardImu g m).1 - 1 := ⟨_, rfl⟩
  have e1A : f3.transferMatrix (c'.ins.forwardImu g m).1 = 1 + A := by rw [hA]; abel
  have eA : ∀ i j, |Aᵀ i j| ≤ c * dt := by
    intro i j; rw [hA]; exact ent j i
  rw [e1A]
  have c0 : 0 ≤ c := by linarith
  refine form_predict c'.kf A _ (by positivity) hd.le hη hω hQ0 ?_ (by rw [XP]; exact P) hQ
  have := shrinks_sq (M := Aᵀ) 15 (by norm_num) eA
  exact_mod_cast this

theorem posH_form (φ : Fusion ℝ) (l : ℝ) (hl : len φ.lbGnss ≤ l) (hC : ∀ x, len (φ.ins.nav.Cbn *ᵥ x) = len x) : Shrinks φ.posH (7 * (1 + l)) ∧ Shrinks φ.posHᵀ (7 * (1 + l)) := by
  have l0 : 0 ≤ l := (len_nonneg _).trans hl
  have ent : ∀ i j, |φ.posH i j| ≤ 1 + l := by
    intro i j
    unfold Fusion.posH
    refine setBlock_ind (fun x => |x| ≤ 1 + l) _ 0 6 _ i j (fun a => ?_) fun _ => setBlock_ind (fun x => |x| ≤ 1 + l) _ 0 0 _ i j (fun a => ?_) fun _ => ?_
    · refine (skew_le _ _ _).trans ?_
      rw [mvec_real, hC]; linarith
    · simp only [eyeM]; split_ifs <;> simp <;> linarith
    · simp; linarith
  constructor
  · have := shrinks_sq (M := φ.posH) 7 (by norm_num) ent
    exact_mod_cast this
  · have := shrinks_sq (M := φ.posHᵀ) 7 (by norm_num) (fun i j => ent j i)
    exact_mod_cast this

/-- One usable fix. -/
theorem cov_fix {σ ε L l r W η ω : ℝ} (m : Gnss ℝ) (hu : usable m.mode) (H : Held K dt δ N o lat lon h v C t e β φ) (he : 0 ≤ e) (hσ : 0 < σ) (hL : 0 ≤ L) (hl : len o.lbGnss ≤ l) (hC : isRot φ.ins.nav.Cne)
    (ha : len (antenna φ - antennaAt (lat t) (lon t) (h t) (C t) o.lbGnss) ≤ L * e)
    (G : FixWithin σ ε o.gnssStdScale m (antennaAt (lat t) (lon t) (h t) (C t) o.lbGnss))
    (P : Form φ.kf.P η ω) (hη : 0 ≤ η) (hω : 0 ≤ ω) (hr : r = σ ^ 2 / 2) (hs : (7 * (1 + l)) ^ 2 * η ≤ r) (hW : ω + 2 * η ≤ W) :
    Held K dt δ N o lat lon h v C t e (W * (7 * (1 + l)) / r / 1 * (L * e + ε)) (φ.measureGnss m) ∧
      Form (φ.measureGnss m).kf.P ((1 + (7 * (1 + l)) ^ 2 * W / r) ^ 2 * η) ω := by
  obtain ⟨g1, g2, ⟨j, g3⟩, g4⟩ := gnss_rest φ m hu
  have l0 : 0 ≤ l := (len_nonneg _).trans hl
  have hr0 : 0 < r := by rw [hr]; positivity
  have hW0 : 0 ≤ W := by linarith
  have hε : 0 ≤ ε := (len_nonneg _).trans G.near
  have hD : len (antenna φ - fixXyz m) ≤ L * e + ε := by
    rw [fixPlace_eq]
    have e1 : antenna φ - fixPlace m = (antenna φ - antennaAt (lat t) (lon t) (h t) (C t) o.lbGnss) + (antennaAt (lat t) (lon t) (h t) (C t) o.lbGnss - fixPlace m) := by abel
    rw [e1]
    refine (len_add_le _ _).trans ?_
    linarith [G.near]
  have hD0 := len_nonneg (antenna φ - fixXyz m)
  have hLe : 0 ≤ L * e + ε := hD0.trans hD
  obtain ⟨b1, b2⟩ := posH_form φ l (by rw [H.arm]; exact hl) (near_rot H.near)
  have hk := (gnss_kf φ m hu).1
  have hR : ∀ x : Fin 3 → ℝ, 2 * r * (x ⬝ᵥ x) ≤ x ⬝ᵥ (diagM fun i => m.posStd i * m.posStd i * φ.opt.gnssStdScale : M3 ℝ) *ᵥ x := by
    intro x
    rw [diagM_real]
    simp only [dotProduct, mulVec_diagonal, Finset.mul_sum]
    refine Finset.sum_le_sum fun i _ => ?_
    have := mul_le_mul_of_nonneg_right (G.dev i) (mul_self_nonneg (x i))
    rw [hr, H.opt]
    nlinarith
  have U := form_update φ.kf φ.posH (φ.posZ (v3 (m.lat * (Real.pi / 180)) (m.lon * (Real.pi / 180)) m.height)) _ hη hω hr0 (by positivity : 0 ≤ 7 * (1 + l)) P b1 b2
    (by rw [diagM_real, diagonal_transpose]) hR hs hW
  rw [← hk] at U
  obtain ⟨U1, U2⟩ := U
  have hz := posZ_len φ (v3 (m.lat * (Real.pi / 180)) (m.lon * (Real.pi / 180)) m.height) hC
  rw [← len_dot, hz] at U2
  have hγ : 0 ≤ W * (7 * (1 + l)) / r := by positivity
  have hx : ∀ i, |(φ.measureGnss m).kf.Xd i| ≤ W * (7 * (1 + l)) / r / 1 * (L * e + ε) := by
    intro i
    rw [div_one]
    refine (abs_le_of_sq_le_sq' (a := |(φ.measureGnss m).kf.Xd i|) ?_ (mul_nonneg hγ hLe)).2
    rw [sq_abs, mul_pow]
    have q1 : (φ.measureGnss m).kf.Xd i ^ 2 ≤ (φ.measureGnss m).kf.Xd ⬝ᵥ (φ.measureGnss m).kf.Xd := by
      rw [pow_two]
      exact Finset.single_le_sum (f := fun i => (φ.measureGnss m).kf.Xd i * (φ.measureGnss m).kf.Xd i) (fun i _ => mul_self_nonneg _) (Finset.mem_univ i)
    refine (q1.trans U2).trans ?_
    exact mul_le_mul_of_nonneg_left (pow_le_pow_left₀ hD0 hD 2) (sq_nonneg _)
  have st := H.near
  refine ⟨⟨g1.trans H.opt, g2.trans H.arm, ?_, ?_, ?_, ?_, ?_, mul_nonneg (by rw [div_one]; exact hγ) hLe, fun hh => absurd hh g4, fun _ => hx⟩, U1⟩
  · rw [g3]; exact H.gs
  · rw [g3]; exact H.as
  · rw [g3]
    exact ⟨st.unit, st.dcm, st.unitP, st.pos0, st.pos1, st.dt_eq, st.dvn, st.gyro, st.acce, st.place, st.vel, st.height, st.att⟩
  · rw [g3]; exact H.gb
  · rw [g3]; exact H.ab
end Verif.Props
