import Verif.Props.Rigid
import Verif.Props.Strapdown
import Verif.Props.Rest
import Verif.Spec.Turning
import Mathlib.Analysis.Quaternion
/-! C194: over any number of samples the attitude is the exact composition of the single turns. -/
namespace Verif.Props
open Verif Verif.Spec Verif.Convert Matrix
open scoped Quaternion

/-- The quaternion in Mathlib's algebra. -/
def toH (q : Quat ℝ) : ℍ[ℝ] := ⟨q.w, q.x, q.y, q.z⟩

@[simp] theorem toH_re (q : Quat ℝ) : (toH q).re = q.w := rfl
@[simp] theorem toH_i (q : Quat ℝ) : (toH q).imI = q.x := rfl
@[simp] theorem toH_j (q : Quat ℝ) : (toH q).imJ = q.y := rfl
@[simp] theorem toH_k (q : Quat ℝ) : (toH q).imK = q.z := rfl
theorem toH_mul (p q : Quat ℝ) : toH (p.mul q) = toH p * toH q := by
  ext <;> simp [Quat.mul] <;> ring
theorem toH_conj (p : Quat ℝ) : toH p.conj = star (toH p) := by
  ext <;> simp [Quat.conj]
theorem toH_norm_sq (p : Quat ℝ) : ‖toH p‖ ^ 2 = qsq p := by
  rw [sq, ← Quaternion.normSq_eq_norm_mul_self, Quaternion.normSq_def']; rfl
theorem toH_norm (p : Quat ℝ) (h : qsq p = 1) : ‖toH p‖ = 1 := by
  have := toH_norm_sq p
  rw [h] at this
  have h0 := norm_nonneg (toH p)
  nlinarith
theorem toH_normalized (p : Quat ℝ) (h : 0 < qsq p) : toH p.normalized = ‖toH p‖⁻¹ • toH p := by
  have hn : p.nsq = qsq p := nsq_eq p
  have hs : ‖toH p‖ = Real.sqrt (qsq p) := by rw [← toH_norm_sq, Real.sqrt_sq (norm_nonneg _)]
  unfold Quat.normalized
  rw [if_pos (by rw [lt_real, hn]; exact h), hs]
  ext <;> simp [hn, div_eq_inv_mul]
theorem normalized_mul (p q : Quat ℝ) (hp : 0 < qsq p) (hq : 0 < qsq q) :
    toH (p.mul q).normalized = toH p.normalized * toH q.normalized := by
  rw [toH_normalized _ (by rw [qsq_mul]; positivity), toH_normalized _ hp, toH_normalized _ hq, toH_mul, norm_mul, mul_inv,
    smul_mul_smul_comm]

theorem cos_le (d k : ℝ) (h : 0 ≤ d) (hdk : d ^ 2 + k ^ 2 = 1) : 2 - 2 * d ≤ 2 * k ^ 2 := by
  have hd2 : d ≤ 1 := by nlinarith [sq_nonneg k]
  nlinarith

/-- The plane geometry of one truncated turn. -/
theorem series_plane (t : ℝ) (h0 : 0 ≤ t) (h : t ≤ 1.5708) (ρ : ℝ) (hρ : 0 < ρ) (hρ2 : ρ ^ 2 = csP t ^ 2 + (t * snP t) ^ 2) :
    (csP t / ρ - Real.cos t) ^ 2 + (t * snP t / ρ - Real.sin t) ^ 2 ≤ (t ^ 9 / 28000) ^ 2 := by
  obtain ⟨c1, c2⟩ := cs_err t h0 h
  obtain ⟨s1, s2⟩ := sn_err t h0 h
  obtain ⟨n1, n2⟩ := norm_small t h0 h
  have k1 : Real.cos t - csP t ≤ t ^ 8 / 40320 := by
    have := Taylor.cos8 t h0; unfold csP; linarith
  have k2 : Real.sin t - t * snP t ≤ t ^ 9 / 362880 := by
    have := Taylor.sin9 t h0; unfold snP; linarith
  have hst : Real.sin t ≤ t := Real.sin_le h0
  have hc1 : Real.cos t ≤ 1 := Real.cos_le_one t
  have hs1 : Real.sin t ≤ 1 := Real.sin_le_one t
  have hs0 : 0 ≤ Real.sin t := Real.sin_nonneg_of_nonneg_of_le_pi h0 (by have := Real.pi_gt_d4; norm_num at *; linarith)
  have hc0 : -(1 / 1000) ≤ Real.cos t := by
    rcases le_total t (Real.pi / 2) with hp | hp
    · have := Real.cos_nonneg_of_neg_pi_div_two_le_of_le (by linarith [Real.pi_pos]) hp; linarith
    · have h5 : Real.cos t = -Real.sin (t - Real.pi / 2) := by rw [Real.sin_sub, Real.cos_pi_div_two, Real.sin_pi_div_two]; ring
      have h6 : Real.sin (t - Real.pi / 2) ≤ t - Real.pi / 2 := Real.sin_le (by linarith)
      have := Real.pi_gt_d4
      norm_num at *
      linarith
  have hsc := Real.sin_sq_add_cos_sq t
  have hy : 0 ≤ t * snP t := by
    have t2 : t ^ 2 ≤ 1.5708 ^ 2 := pow_le_pow_left₀ h0 h 2
    have t6 : t ^ 6 ≤ 1.5708 ^ 6 := pow_le_pow_left₀ h0 h 6
    have t4 : 0 ≤ t ^ 4 := by positivity
    have : 0 ≤ snP t := by
      unfold snP; norm_num at t2 t6; linarith
    positivity
  generalize Real.cos t = c at *
  generalize Real.sin t = s at *
  generalize csP t = x at *
  generalize t * snP t = y at *
  have hyt : y ≤ t := by linarith
  have hx : -(2 / 1000) ≤ x := by linarith
  have hx1 : x ≤ 1 := by linarith
  have t8 : 0 ≤ t ^ 8 := by positivity
  have t9 : 0 ≤ t ^ 9 := by positivity
  have e9 : t ^ 9 = t ^ 8 * t := by ring
  -- sine of the angle between
  have hk : (c * y - s * x) = (c - x) * y - (s - y) * x := by ring
  have a1 : (c - x) * y ≤ t ^ 9 / 40320 := by
    have : (c - x) * y ≤ t ^ 8 / 40320 * t := mul_le_mul k1 hyt hy (by positivity)
    linarith
  have a2 : 0 ≤ (c - x) * y := mul_nonneg c1 hy
  have a3 : (s - y) * x ≤ t ^ 9 / 362880 := by nlinarith
  have a4 : -(t ^ 9 / 362880 * (2 / 1000)) ≤ (s - y) * x := by nlinarith
  have hb : (c * y - s * x) ^ 2 ≤ (t ^ 9 / 40300) ^ 2 := by
    apply sq_le_sq'
    · rw [hk]; linarith
    · rw [hk]; linarith
  -- cosine of the angle between
  have hd0 : 0 ≤ x * c + y * s := by
    have : x * c + y * s = x ^ 2 + y ^ 2 + x * (c - x) + y * (s - y) := by ring
    have h7 : -(2 / 1000) ≤ x * (c - x) := by nlinarith
    have h8 : 0 ≤ y * (s - y) := mul_nonneg hy s1
    linarith
  have hlag : (x * c + y * s) ^ 2 + (c * y - s * x) ^ 2 = ρ ^ 2 := by
    rw [hρ2]; linear_combination (x ^ 2 + y ^ 2) * hsc
  obtain ⟨d, hd⟩ : ∃ d, d = (x * c + y * s) / ρ := ⟨_, rfl⟩
  obtain ⟨k, hkk⟩ : ∃ k, k = (c * y - s * x) / ρ := ⟨_, rfl⟩
  have hd1 : 0 ≤ d := by rw [hd]; positivity
  have hdk : d ^ 2 + k ^ 2 = 1 := by
    rw [hd, hkk, div_pow, div_pow, ← add_div, hlag, div_self (by positivity)]
  have hdist : (x / ρ - c) ^ 2 + (y / ρ - s) ^ 2 = 2 - 2 * d := by
    have : (x / ρ - c) ^ 2 + (y / ρ - s) ^ 2 = (x ^ 2 + y ^ 2) / ρ ^ 2 - 2 * d + (s ^ 2 + c ^ 2) := by
      rw [hd]; field_simp; ring
    rw [this, ← hρ2, div_self (by positivity), hsc]; ring
  have hk2 : k ^ 2 ≤ (t ^ 9 / 40300) ^ 2 / (1 - 1 / 1000) := by
    have n3 : (0 : ℝ) < 1 - 1 / 1000 := by norm_num
    rw [hkk, div_pow, hρ2, div_le_div_iff₀ (by linarith) n3]
    exact mul_le_mul hb n2.le n3.le (sq_nonneg _)
  rw [hdist]
  have : 2 - 2 * d ≤ 2 * k ^ 2 := cos_le d k hd1 hdk
  generalize t ^ 9 = T at hk2 ⊢
  have h9 : (T / 40300) ^ 2 / (1 - 1 / 1000) = T ^ 2 * (1000 / (999 * 40300 ^ 2)) := by ring
  have h10 : (T / 28000) ^ 2 = T ^ 2 * (1 / 28000 ^ 2) := by ring
  rw [h10]
  rw [h9] at hk2
  have hT := sq_nonneg T
  have hc : (1000 / (999 * 40300 ^ 2) : ℝ) ≤ 1 / 28000 ^ 2 / 2 := by norm_num
  have := mul_le_mul_of_nonneg_left hc hT
  linarith

/-- One turn: the normalised quaternion of the code is, up to its sign, the exact one to within the series error. -/
theorem turn_near (v : V3 ℝ) : ∃ σ : ℝ, (σ = 1 ∨ σ = -1) ∧ ‖toH (rvToQuat v).normalized - σ • toH (rotQuat v)‖ ≤ seriesError v := by
  have hl0 := len_nonneg v
  rcases lt_or_ge (len v) Real.pi with h | h
  · refine ⟨1, .inl rfl, ?_⟩
    have hq := rv_pos v
    have ht0 : 0 ≤ len v / 2 := by linarith
    have hrv := rv_small v h
    obtain ⟨ρ, hρ⟩ : ∃ ρ, ρ = ‖toH (rvToQuat v)‖ := ⟨_, rfl⟩
    have hρ2 : ρ ^ 2 = csP (len v / 2) ^ 2 + (len v / 2 * snP (len v / 2)) ^ 2 := by
      rw [hρ, toH_norm_sq, hrv]; unfold qsq; dsimp only
      linear_combination (-(1 / 4 * snP (len v / 2) ^ 2)) * len_sq v
    have hρ0 : 0 < ρ := by
      have : 0 < ρ ^ 2 := by rw [hρ, toH_norm_sq]; exact hq
      have h0 : 0 ≤ ρ := by rw [hρ]; exact norm_nonneg _
      nlinarith
    have hp := series_plane _ ht0 (half_lt v h) ρ hρ0 hρ2
    have hsq : ‖toH (rvToQuat v).normalized - (1 : ℝ) • toH (rotQuat v)‖ ^ 2 =
        (csP (len v / 2) / ρ - Real.cos (len v / 2)) ^ 2 + (len v / 2 * snP (len v / 2) / ρ - Real.sin (len v / 2)) ^ 2 := by
      rw [toH_normalized _ hq, ← hρ, sq, ← Quaternion.normSq_eq_norm_mul_self, Quaternion.normSq_def', hrv]
      simp [rotQuat]
      rcases eq_or_ne (len v) 0 with h0 | h0
      · have h2 := len_sq v
        rw [h0] at h2
        have v0 : v 0 = 0 := by nlinarith [sq_nonneg (v 0), sq_nonneg (v 1), sq_nonneg (v 2)]
        have v1 : v 1 = 0 := by nlinarith [sq_nonneg (v 0), sq_nonneg (v 1), sq_nonneg (v 2)]
        have v2 : v 2 = 0 := by nlinarith [sq_nonneg (v 0), sq_nonneg (v 1), sq_nonneg (v 2)]
        simp [h0, v0, v1, v2]
        ring
      · have hl := len_sq v
        generalize Real.sin (len v / 2) = s
        generalize Real.cos (len v / 2) = c
        generalize snP (len v / 2) = sn
        generalize csP (len v / 2) = cs
        generalize len v = L at *
        field_simp
        linear_combination (-(sn * L - 2 * ρ * s) ^ 2) * hl
    have hr : seriesError v = len v ^ 9 / 14000000 := rfl
    have h1 : (len v / 2) ^ 9 / 28000 ≤ seriesError v := by
      rw [hr]; have : 0 ≤ len v ^ 9 := by positivity
      rw [div_pow]; norm_num; linarith
    have h2 : 0 ≤ seriesError v := by rw [hr]; positivity
    refine abs_le_of_sq_le_sq' ?_ h2 |>.2
    rw [hsq]
    refine hp.trans (pow_le_pow_left₀ (by positivity) h1 2)
  · have h2 : 0 ≤ seriesError v := by unfold seriesError; positivity
    obtain ⟨q1, -, q2⟩ := (C43_rotation_vector v).2.2.2 h
    have hn : (rvToQuat v).normalized = rvToQuat v := normalized_unit _ q1
    rw [hn]
    rcases q2 with q2 | q2
    · exact ⟨1, .inl rfl, by rw [q2, one_smul, sub_self, norm_zero]; exact h2⟩
    · refine ⟨-1, .inr rfl, ?_⟩
      have : toH (rvToQuat v) = (-1 : ℝ) • toH (rotQuat v) := by rw [q2]; ext <;> simp
      rw [this, sub_self, norm_zero]; exact h2

theorem near_mul (a b a' b' : ℍ[ℝ]) (hb : ‖b‖ = 1) (ha : ‖a'‖ = 1) : ‖a * b - a' * b'‖ ≤ ‖a - a'‖ + ‖b - b'‖ := by
  have : a * b - a' * b' = (a - a') * b + a' * (b - b') := by noncomm_ring
  rw [this]
  refine (norm_add_le _ _).trans ?_
  rw [norm_mul, norm_mul, hb, ha, mul_one, one_mul]

theorem sign_norm (σ : ℝ) (h : σ = 1 ∨ σ = -1) (a : ℍ[ℝ]) : ‖σ • a‖ = ‖a‖ := by
  rcases h with h | h <;> simp [h]

theorem vel_mid (g : ℝ) (s : Ins ℝ) (a w : V3 ℝ) (i : Fin 3) :
    (s.velocityUpdate g a w).vnMid i = (s.nav.vn i + (s.velocityUpdate g a w).nav.vn i) / 2 := by
  unfold Ins.velocityUpdate
  simp only [Pi.add_apply, vd, lit_real]
  push_cast
  ring

theorem zeta_eq (A : NavEpoch ℝ) (V : Ins ℝ) (hp : V.nav.pos = A.pos) (hv : ∀ i, V.vnMid i = (A.vn i + V.nav.vn i) / 2) :
    vs (V.positionUpdate.omegaIeN + V.positionUpdate.omegaEnN) V.positionUpdate.dt = navFrameTurn V.dt A V.positionUpdate.nav := by
  have hv' : V.vnMid = fun j => (A.vn j + V.positionUpdate.nav.vn j) / 2 := funext hv
  have h1 : V.positionUpdate.omegaIeN = earthRate (V.positionUpdate.posMid 0) := ie_eq _
  have h2 : V.positionUpdate.omegaEnN = transportRate V.vnMid (V.positionUpdate.posMid 0) (V.positionUpdate.posMid 2) := en_eq _ _
  have h3 : V.positionUpdate.posMid 0 = V.positionUpdate.nav.pos 0 + (V.positionUpdate.nav.pos 0 - A.pos 0) / 2 := by
    rw [← hp]
    show V.positionUpdate.nav.pos 0 + Fl.lit (1 / 2) * (V.positionUpdate.nav.pos 0 - V.nav.pos 0) = _
    rw [lit_real]; push_cast; ring
  have h4 : V.positionUpdate.posMid 2 = (A.pos 2 + V.positionUpdate.nav.pos 2) / 2 := by
    rw [← hp]
    show Fl.lit (1 / 2) * (V.positionUpdate.nav.pos 2 + V.nav.pos 2) = _
    rw [lit_real]; push_cast; ring
  have h5 : V.positionUpdate.dt = V.dt := rfl
  funext i
  rw [h1, h2, hv', h3, h4, h5]
  rfl

theorem turn_compensated (s : Ins ℝ) (m : Imu ℝ) : Ins.compensate s.dt m.gyro s.nav.gb s.nav.gs = increment s.nav s.dt m.gyro := by
  ext i
  simp only [Ins.compensate, mvec_real, eyeM_real, diagM_real]
  rw [Matrix.sub_mulVec, Matrix.one_mulVec, Pi.sub_apply, Matrix.mulVec_diagonal]
  simp only [vs, Pi.sub_apply, increment]
  ring

/-- One sample: the attitude quaternion turns, nearly, by the exact turns of frame and body. -/
theorem step_near (g : ℝ) (s : Ins ℝ) (m : Imu ℝ) (hq : qsq s.nav.Qbn = 1) (f b : V3 ℝ)
    (hf : f = navFrameTurn s.dt s.nav (s.forwardImu g m).2.nav) (hb : b = bodyTurn s.gyroPre (increment s.nav s.dt m.gyro)) (E : ℍ[ℝ]) (hE : ‖E‖ = 1)
    (σ : ℝ) (hσ : σ = 1 ∨ σ = -1) :
    ∃ τ : ℝ, (τ = 1 ∨ τ = -1) ∧ ‖toH (s.forwardImu g m).2.nav.Qbn - τ • (star (toH (rotQuat f)) * E * toH (rotQuat b))‖
      ≤ ‖toH s.nav.Qbn - σ • E‖ + (seriesError f + seriesError b) := by
  have hcur := turn_compensated s m
  have hrv : gyroToRv (increment s.nav s.dt m.gyro) s.gyroPre = b := by
    rw [hb]; funext i; simp only [gyroToRv, Pi.add_apply, vd, bodyTurn, lit_real, cross_eq]; norm_num
  have hstep : ∃ ζ, ζ = f ∧ (s.forwardImu g m).2.nav.Qbn =
      (((rvToQuat ζ).conj.mul s.nav.Qbn).mul (rvToQuat (gyroToRv (Ins.compensate s.dt m.gyro s.nav.gb s.nav.gs) s.gyroPre))).normalized := by
    refine ⟨_, ?_, rfl⟩
    rw [hf]
    have hv := vel_mid s.extrapolate.1 s.extrapolate.2 (Ins.compensate s.dt m.acce s.nav.ab s.nav.as)
        (Ins.compensate s.dt m.gyro s.nav.gb s.nav.gs)
    exact zeta_eq s.nav _ rfl hv
  obtain ⟨ζ, hζ, hstep⟩ := hstep
  rw [hcur, hrv, hζ] at hstep
  rw [hstep]
  obtain ⟨α, hα, nα⟩ := turn_near f
  obtain ⟨β, hβ, nβ⟩ := turn_near b
  have pf := rv_pos f
  have pb := rv_pos b
  have pq : 0 < qsq s.nav.Qbn := by rw [hq]; norm_num
  rw [normalized_mul _ _ (by rw [qsq_mul, qsq_conj]; positivity) pb, normalized_mul _ _ (by rw [qsq_conj]; exact pf) pq, normalized_unit _ hq]
  have hconj : toH (rvToQuat f).conj.normalized = star (toH (rvToQuat f).normalized) := by
    rw [toH_normalized _ (by rw [qsq_conj]; exact pf), toH_normalized _ pf, toH_conj, norm_star]
    simp
  rw [hconj]
  have h1 : ‖star (toH (rvToQuat f).normalized) - α • star (toH (rotQuat f))‖ ≤ seriesError f := by
    have : star (toH (rvToQuat f).normalized) - α • star (toH (rotQuat f)) = star (toH (rvToQuat f).normalized - α • toH (rotQuat f)) := by simp
    rw [this, norm_star]; exact nα
  have u1 : ‖toH (rvToQuat b).normalized‖ = 1 := toH_norm _ (qsq_normalized _ pb)
  have u2 : ‖α • star (toH (rotQuat f))‖ = 1 := by rw [sign_norm α hα, norm_star, toH_norm _ (qsq_rotQuat f)]
  have u3 : ‖σ • E‖ = 1 := by rw [sign_norm σ hσ, hE]
  have u4 : ‖toH s.nav.Qbn‖ = 1 := toH_norm _ hq
  refine ⟨α * σ * β, ?_, ?_⟩
  · rcases hα with h | h <;> rcases hσ with h' | h' <;> rcases hβ with h'' | h'' <;> simp [h, h', h'']
  · have e : (α * σ * β) • (star (toH (rotQuat f)) * E * toH (rotQuat b)) = (α • star (toH (rotQuat f))) * (σ • E) * (β • toH (rotQuat b)) := by
      rw [smul_mul_smul_comm, smul_mul_smul_comm]
    rw [e]
    refine (near_mul _ _ _ _ u1 (by rw [norm_mul, u2, u3, one_mul])).trans ?_
    have := near_mul (star (toH (rvToQuat f).normalized)) (toH s.nav.Qbn) _ (σ • E) u4 u2
    linarith

/-- The exact turns in quaternions. -/
noncomputable def turnedH (ts : List Turn) (E : ℍ[ℝ]) : ℍ[ℝ] :=
  ts.foldl (fun E t => star (toH (rotQuat t.frame)) * E * toH (rotQuat t.body)) E

theorem flight_near (ms : List (Imu ℝ)) : ∀ (g : ℝ) (s : Ins ℝ) (hq : qsq s.nav.Qbn = 1) (E : ℍ[ℝ]) (hE : ‖E‖ = 1) (σ : ℝ) (hσ : σ = 1 ∨ σ = -1),
    qsq (flight g s ms).2.nav.Qbn = 1 ∧
    ∃ τ : ℝ, (τ = 1 ∨ τ = -1) ∧ ‖toH (flight g s ms).2.nav.Qbn - τ • turnedH (flightTurns g s s.gyroPre ms) E‖
      ≤ ‖toH s.nav.Qbn - σ • E‖ + ((flightTurns g s s.gyroPre ms).map fun t => seriesError t.frame + seriesError t.body).sum := by
  induction ms with
  | nil => intro g s hq E hE σ hσ; exact ⟨hq, σ, hσ, by simp [flight, flightTurns, turnedH]⟩
  | cons m ms ih =>
    intro g s hq E hE σ hσ
    obtain ⟨τ, hτ, hn⟩ := step_near g s m hq _ _ rfl rfl E hE σ hσ
    have hu : qsq (s.forwardImu g m).2.nav.Qbn = 1 := by
      show qsq (Quat.normalized _) = 1
      apply qsq_normalized
      rw [qsq_mul, qsq_mul, qsq_conj]
      have h1 := rv_pos
      have h2 : 0 < qsq s.nav.Qbn := by rw [hq]; norm_num
      exact mul_pos (mul_pos (h1 _) h2) (h1 _)
    have hcur : (s.forwardImu g m).2.gyroPre = increment s.nav s.dt m.gyro := turn_compensated s m
    have hE' : ‖star (toH (rotQuat (navFrameTurn s.dt s.nav (s.forwardImu g m).2.nav))) * E * toH (rotQuat (bodyTurn s.gyroPre (increment s.nav s.dt m.gyro)))‖ = 1 := by
      rw [norm_mul, norm_mul, norm_star, toH_norm _ (qsq_rotQuat _), toH_norm _ (qsq_rotQuat _), hE]; norm_num
    obtain ⟨h1, τ', hτ', h2⟩ := ih (s.forwardImu g m).1 (s.forwardImu g m).2 hu _ hE' τ hτ
    rw [hcur] at h2
    refine ⟨h1, τ', hτ', ?_⟩
    rw [flightTurns, List.map_cons, List.sum_cons]
    refine h2.trans ?_
    linarith

/-- Rodrigues' matrix is the matrix of the exact quaternion. -/
theorem turnM_eq (v : V3 ℝ) : turnM v = rotH (rotQuat v) := by
  rcases eq_or_ne (len v) 0 with h0 | h0
  · have h2 := len_sq v
    rw [h0] at h2
    unfold turnM
    ext i j
    fin_cases i <;> fin_cases j <;> simp [rotH, rotQuat, h0]
  · have hl2 := len_sq v
    obtain ⟨t, ht⟩ : ∃ t, t = len v / 2 := ⟨_, rfl⟩
    have hL : len v = 2 * t := by rw [ht]; ring
    have ht0 : t ≠ 0 := by rw [ht]; positivity
    rw [hL] at hl2
    unfold rotQuat turnM
    rw [hL, Real.sin_two_mul, Real.cos_two_mul]
    have hsc := Real.sin_sq_add_cos_sq t
    rw [show 2 * t / 2 = t by ring]
    generalize Real.sin t = s at hsc ⊢
    generalize Real.cos t = c at hsc ⊢
    have hs2 : 1 - (2 * c ^ 2 - 1) = 2 * s ^ 2 := by linear_combination (-2 : ℝ) * hsc
    rw [hs2]
    ext i j
    fin_cases i <;> fin_cases j <;>
      simp [xm, rotH] <;> field_simp <;>
      first
      | ring1
      | linear_combination (-4 * t ^ 2) * hsc + s ^ 2 * hl2

/-- The quaternion of Mathlib back as a plain one. -/
def ofH (a : ℍ[ℝ]) : Quat ℝ := ⟨a.re, a.imI, a.imJ, a.imK⟩
theorem toH_ofH (a : ℍ[ℝ]) : toH (ofH a) = a := rfl
theorem ofH_mul (a b : ℍ[ℝ]) : ofH (a * b) = (ofH a).mul (ofH b) := by
  simp only [ofH, Quat.mul, Quat.mk.injEq, Quaternion.re_mul, Quaternion.imI_mul, Quaternion.imJ_mul, Quaternion.imK_mul]
  refine ⟨?_, ?_, ?_, ?_⟩ <;> first | trivial | ring1
theorem ofH_star (p : Quat ℝ) : ofH (star (toH p)) = p.conj := by rw [← toH_conj]; rfl
theorem rotH_conj (q : Quat ℝ) : rotH q.conj = (rotH q)ᵀ := by
  ext i j; fin_cases i <;> fin_cases j <;> simp [rotH, Quat.conj] <;> ring

theorem turned_matrix (ts : List Turn) : ∀ E : ℍ[ℝ], rotH (ofH (turnedH ts E)) = ts.foldl (fun C t => t.applyTo C) (rotH (ofH E)) := by
  induction ts with
  | nil => intro E; rfl
  | cons t ts ih =>
    intro E
    have h : rotH (ofH (star (toH (rotQuat t.frame)) * E * toH (rotQuat t.body))) = t.applyTo (rotH (ofH E)) := by
      rw [ofH_mul, ofH_mul, rotH_mul, rotH_mul, ofH_star, rotH_conj]
      unfold Turn.applyTo
      rw [turnM_eq, turnM_eq]
      rfl
    rw [List.foldl_cons, ← h, ← ih]
    rfl

/-- A vector as a quaternion without scalar part. -/
def pureH (x : V3 ℝ) : ℍ[ℝ] := toH ⟨0, x 0, x 1, x 2⟩
theorem pureH_norm (x : V3 ℝ) : ‖pureH x‖ = len x := by
  have h1 : ‖pureH x‖ ^ 2 = len x ^ 2 := by rw [pureH, toH_norm_sq, len_sq, qsq]; ring
  exact (pow_left_inj₀ (norm_nonneg _) (len_nonneg _) two_ne_zero).1 h1
theorem pureH_act (q : Quat ℝ) (x : V3 ℝ) : pureH (rotH q *ᵥ x) = toH q * pureH x * star (toH q) := by
  rw [← toH_conj, pureH, pureH, ← toH_mul, ← toH_mul]
  congr 1
  simp only [Quat.mul, Quat.conj, rotH, mulVec, dotProduct, Fin.sum_univ_three, Quat.mk.injEq]
  refine ⟨?_, ?_, ?_, ?_⟩ <;> simp <;> ring
theorem pureH_sub (x y : V3 ℝ) : pureH (fun i => x i - y i) = pureH x - pureH y := by
  ext <;> simp [pureH]

theorem act_near (p e : ℍ[ℝ]) (x : ℍ[ℝ]) (hp : ‖p‖ = 1) (he : ‖e‖ = 1) (τ : ℝ) (hτ : τ = 1 ∨ τ = -1) :
    ‖p * x * star p - e * x * star e‖ ≤ 2 * ‖p - τ • e‖ * ‖x‖ := by
  have h1 : e * x * star e = (τ • e) * x * star (τ • e) := by rcases hτ with h | h <;> simp [h]
  have h2 : p * x * star p - (τ • e) * x * star (τ • e) = (p - τ • e) * x * star p + (τ • e) * x * star (p - τ • e) := by
    rw [star_sub]; noncomm_ring
  rw [h1, h2]
  refine (norm_add_le _ _).trans ?_
  rw [norm_mul, norm_mul, norm_mul, norm_mul, norm_star, norm_star, hp, sign_norm τ hτ, he]
  linarith

/-- C194: after any number of samples the attitude matrix turns every vector to within twice the sum of the series errors of where the exact
composition of all the turns of body and navigation frame takes it; nothing else is lost, whatever the samples. -/
theorem C194_attitude_is_composition (g : ℝ) (s : Ins ℝ) (hq : qsq s.nav.Qbn = 1) (hC : s.nav.Cbn = quatToDcm s.nav.Qbn) (ms : List (Imu ℝ)) (x : V3 ℝ) :
    len (fun i => ((flight g s ms).2.nav.Cbn *ᵥ x) i - ((flightTurns g s s.gyroPre ms).foldl (fun C t => t.applyTo C) s.nav.Cbn *ᵥ x) i)
      ≤ 2 * ((flightTurns g s s.gyroPre ms).map fun t => seriesError t.frame + seriesError t.body).sum * len x := by
  obtain ⟨hu, τ, hτ, hn⟩ := flight_near ms g s hq (toH s.nav.Qbn) (toH_norm _ hq) 1 (.inl rfl)
  have hCN : (flight g s ms).2.nav.Cbn = rotH (flight g s ms).2.nav.Qbn := by
    have : (flight g s ms).2.nav.Cbn = quatToDcm (flight g s ms).2.nav.Qbn := by
      rcases List.eq_nil_or_concat ms with rfl | ⟨ms', m, rfl⟩
      · exact hC
      · simp only [flight, List.concat_eq_append, List.foldl_append, List.foldl_cons, List.foldl_nil]; rfl
    rw [this]
    exact toRot_eq _ hu
  have hE : (flightTurns g s s.gyroPre ms).foldl (fun C t => t.applyTo C) s.nav.Cbn = rotH (ofH (turnedH (flightTurns g s s.gyroPre ms) (toH s.nav.Qbn))) := by
    rw [turned_matrix, hC]
    congr 1
    exact toRot_eq _ hq
  have hEn : ‖turnedH (flightTurns g s s.gyroPre ms) (toH s.nav.Qbn)‖ = 1 := by
    have : ∀ (ts : List Turn) (E : ℍ[ℝ]), ‖E‖ = 1 → ‖turnedH ts E‖ = 1 := by
      intro ts
      induction ts with
      | nil => intro E h; exact h
      | cons t ts ih =>
        intro E h
        apply ih
        rw [norm_mul, norm_mul, norm_star, toH_norm _ (qsq_rotQuat _), toH_norm _ (qsq_rotQuat _), h]; norm_num
    exact this _ _ (toH_norm _ hq)
  rw [hCN, hE, ← pureH_norm, pureH_sub, pureH_act, pureH_act, toH_ofH, ← pureH_norm]
  refine (act_near _ _ _ (toH_norm _ hu) hEn τ hτ).trans ?_
  simp only [one_smul, sub_self, norm_zero, zero_add] at hn
  have := norm_nonneg (pureH x)
  gcongr

/-- C194 in numbers: as long as neither body nor frame turns by more than a fiftieth of a radian in one interval, the computed direction of any
unit vector is off by less than 1.5e-22 per sample. -/
theorem C194_small_turns (g : ℝ) (s : Ins ℝ) (hq : qsq s.nav.Qbn = 1) (hC : s.nav.Cbn = quatToDcm s.nav.Qbn) (ms : List (Imu ℝ))
    (h : ∀ t ∈ flightTurns g s s.gyroPre ms, len t.frame ≤ 1 / 50 ∧ len t.body ≤ 1 / 50) (x : V3 ℝ) (hx : len x = 1) :
    len (fun i => ((flight g s ms).2.nav.Cbn *ᵥ x) i - ((flightTurns g s s.gyroPre ms).foldl (fun C t => t.applyTo C) s.nav.Cbn *ᵥ x) i)
      ≤ ms.length * (15 / 10 ^ 23) := by
  refine (C194_attitude_is_composition g s hq hC ms x).trans ?_
  rw [hx, mul_one]
  have hlen : ∀ (ms : List (Imu ℝ)) g (s : Ins ℝ) p, (flightTurns g s p ms).length = ms.length := by
    intro ms
    induction ms with
    | nil => intros; rfl
    | cons m ms ih => intro g s p; simp only [flightTurns, List.length_cons, ih]
  rw [← hlen ms g s s.gyroPre]
  generalize flightTurns g s s.gyroPre ms = ts at h
  induction ts with
  | nil => simp
  | cons t ts ih =>
    have h1 := h t (by simp)
    have h2 := ih fun t' ht' => h t' (by simp [ht'])
    have b : ∀ v : V3 ℝ, len v ≤ 1 / 50 → seriesError v ≤ 37 / 10 ^ 24 := by
      intro v hv
      have : len v ^ 9 ≤ (1 / 50) ^ 9 := pow_le_pow_left₀ (len_nonneg v) hv 9
      unfold seriesError
      norm_num at this ⊢
      linarith
    have b1 := b _ h1.1
    have b2 := b _ h1.2
    rw [List.map_cons, List.sum_cons, List.length_cons]
    push_cast
    have e : ((15 : ℝ) / 10 ^ 23) = 150 / 10 ^ 24 := by norm_num
    rw [e] at h2 ⊢
    linarith

/-- The hypotheses are met: a parked vehicle (there is one, C125) and its first sample; both turns are the rotation of the earth over an
interval of a hundredth of a second, which is not zero. -/
example (g : ℝ) (s : Ins ℝ) (m : Imu ℝ) (h : Parked s.nav) (hd : s.dt = 1 / 100) (hpre : s.accePre = 0 ∧ s.gyroPre = 0)
    (hr : Reads s m (restAcce s.nav.Cbn (s.nav.pos 0) s.dt (Earth.gravity (s.nav.pos 0) (s.nav.pos 2))) (restGyro s.nav.Cbn (s.nav.pos 0) s.dt)) :
    (qsq s.nav.Qbn = 1 ∧ s.nav.Cbn = quatToDcm s.nav.Qbn) ∧ ∀ t ∈ flightTurns g s s.gyroPre [m], 0 < len t.frame ∧ len t.frame ≤ 1 / 50 ∧
      0 < len t.body ∧ len t.body ≤ 1 / 50 := by
  refine ⟨⟨h.con.unit, h.con.dcm⟩, ?_⟩
  intro t ht
  obtain ⟨-, ⟨k, hn⟩, -⟩ := step_rest g s m h _ _ rfl rfl hr (.inl hpre)
  simp only [flightTurns, List.mem_singleton] at ht
  have hl := len_earthTurn (s.nav.pos 0) (1 / 100)
  have hw : (0 : ℝ) < |(1 / 100 : ℝ)| * earthW ∧ |(1 / 100 : ℝ)| * earthW ≤ 1 / 50 := by
    rw [abs_of_pos (by norm_num)]; unfold earthW; constructor <;> norm_num
  have hf : t.frame = earthTurn (s.nav.pos 0) (1 / 100) := by
    rw [ht, hn, hd]
    funext i
    have hz : transportRate (fun j => (s.nav.vn j + s.nav.vn j) / 2) (s.nav.pos 0 + (s.nav.pos 0 - s.nav.pos 0) / 2) ((s.nav.pos 2 + s.nav.pos 2) / 2) = 0 := by
      rw [h.vn]; funext i; fin_cases i <;> simp [transportRate]
    unfold navFrameTurn
    dsimp only
    rw [hz]
    simp only [earthTurn, Pi.zero_apply, Pi.smul_apply, smul_eq_mul, sub_self, zero_div, add_zero]
    ring
  have hb : len t.body = len (earthTurn (s.nav.pos 0) (1 / 100)) := by
    have hi : increment s.nav s.dt m.gyro = restGyro s.nav.Cbn (s.nav.pos 0) s.dt := funext hr.gyro
    have : t.body = restGyro s.nav.Cbn (s.nav.pos 0) (1 / 100) := by
      rw [ht, hi, hpre.2, hd]
      funext i
      simp only [bodyTurn, xp_zero, Pi.zero_apply, zero_div, add_zero]
    rw [this, restGyro, rest_cbn _ h.con, len_inv _ h.con.unit]
  rw [hf, hb, hl]
  exact ⟨hw.1, hw.2, hw.1, hw.2⟩
end Verif.Props
