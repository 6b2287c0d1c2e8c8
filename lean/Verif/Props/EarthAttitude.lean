import Verif.Props.Turning
import Verif.Spec.EarthAttitude
/-! C196: the attitude relative to the earth is what the gyroscopes say. -/
namespace Verif.Props
open Verif Verif.Spec Verif.Convert Matrix
open scoped Quaternion

theorem chord (α β c : ℝ) (h1 : -1 ≤ c) (h2 : c ≤ 1) :
    2 - 2 * (Real.cos α * Real.cos β + Real.sin α * Real.sin β * c) ≤ α ^ 2 + β ^ 2 - 2 * α * β * c := by
  have a := Real.one_sub_sq_div_two_le_cos (x := α - β)
  have b := Real.one_sub_sq_div_two_le_cos (x := α + β)
  rw [Real.cos_sub] at a
  rw [Real.cos_add] at b
  generalize Real.cos α * Real.cos β = p at *
  generalize Real.sin α * Real.sin β = q at *
  have a' := mul_le_mul_of_nonneg_left a (by linarith : 0 ≤ 1 + c)
  have b' := mul_le_mul_of_nonneg_left b (by linarith : 0 ≤ 1 - c)
  nlinarith

/-- Two rotation vectors: their quaternions differ by at most half the difference of the vectors. -/
theorem rotQuat_lip (a b : V3 ℝ) : ‖toH (rotQuat a) - toH (rotQuat b)‖ ≤ len (fun i => a i - b i) / 2 := by
  have ha := len_sq a
  have hb := len_sq b
  have hd := len_sq fun i => a i - b i
  have hd0 := len_nonneg fun i => a i - b i
  have pa := qsq_rotQuat a
  have pb := qsq_rotQuat b
  obtain ⟨d, hdd⟩ : ∃ d, d = a 0 * b 0 + a 1 * b 1 + a 2 * b 2 := ⟨_, rfl⟩
  have hla := len_nonneg a
  have hlb := len_nonneg b
  have hcs : |d| ≤ len a * len b := by
    refine abs_le_of_sq_le_sq ?_ (mul_nonneg hla hlb)
    rw [mul_pow, ha, hb, hdd]
    nlinarith [sq_nonneg (a 0 * b 1 - a 1 * b 0), sq_nonneg (a 0 * b 2 - a 2 * b 0), sq_nonneg (a 1 * b 2 - a 2 * b 1)]
  have hcs' := abs_le.1 hcs
  obtain ⟨c, c1, c2, hc, hs⟩ : ∃ c, -1 ≤ c ∧ c ≤ 1 ∧ d = len a * len b * c ∧
      Real.sin (len a / 2) / len a * (Real.sin (len b / 2) / len b) * d = Real.sin (len a / 2) * Real.sin (len b / 2) * c := by
    rcases eq_or_ne (len a) 0 with h0 | h0
    · refine ⟨0, by norm_num, by norm_num, ?_, ?_⟩
      · rw [h0, zero_mul] at hcs'; rw [h0]; linarith [hcs'.1, hcs'.2]
      · simp [h0]
    rcases eq_or_ne (len b) 0 with h1 | h1
    · refine ⟨0, by norm_num, by norm_num, ?_, ?_⟩
      · rw [h1, mul_zero] at hcs'; rw [h1]; linarith [hcs'.1, hcs'.2]
      · simp [h1]
    have hp : 0 < len a * len b := mul_pos (lt_of_le_of_ne hla (Ne.symm h0)) (lt_of_le_of_ne hlb (Ne.symm h1))
    refine ⟨d / (len a * len b), ?_, ?_, ?_, ?_⟩
    · rw [le_div_iff₀ hp]; linarith [hcs'.1]
    · rw [div_le_iff₀ hp]; linarith [hcs'.2]
    · field_simp
    · field_simp
  have k := chord (len a / 2) (len b / 2) c c1 c2
  have e : toH (rotQuat a) - toH (rotQuat b) =
      toH ⟨(rotQuat a).w - (rotQuat b).w, (rotQuat a).x - (rotQuat b).x, (rotQuat a).y - (rotQuat b).y, (rotQuat a).z - (rotQuat b).z⟩ := by ext <;> simp
  refine (abs_le_of_sq_le_sq' ?_ (by linarith)).2
  rw [div_pow, hd, e, toH_norm_sq]
  unfold qsq at pa pb ⊢
  dsimp only at pa pb ⊢
  have hin : (rotQuat a).w * (rotQuat b).w + (rotQuat a).x * (rotQuat b).x + (rotQuat a).y * (rotQuat b).y + (rotQuat a).z * (rotQuat b).z =
      Real.cos (len a / 2) * Real.cos (len b / 2) + Real.sin (len a / 2) * Real.sin (len b / 2) * c := by
    rw [← hs, hdd]; unfold rotQuat; dsimp only; ring
  have h5 : (a 0 - b 0) ^ 2 + (a 1 - b 1) ^ 2 + (a 2 - b 2) ^ 2 = len a ^ 2 + len b ^ 2 - 2 * (len a * len b * c) := by
    rw [ha, hb, ← hc, hdd]; ring
  rw [h5]
  generalize rotQuat a = p at *
  generalize rotQuat b = q at *
  nlinarith

theorem place_eq (s : Ins ℝ) (V : Ins ℝ) (hp : V.posMid = s.extrapolate.2.posMid) (hv : ∀ i, V.vnMid i = (s.nav.vn i + V.nav.vn i) / 2)
    (hi : V.omegaIeN = Earth.omegaIeN (s.extrapolate.2.posMid 0)) (he : V.omegaEnN = Earth.omegaEnN V.vnMid V.posMid) (hd : V.dt = s.dt) (n : NavEpoch ℝ)
    (hn : n.vn = V.nav.vn) : vs (V.omegaIeN + V.omegaEnN) V.dt = placeTurn s n := by
  rw [hi, he, hd, hp, ie_eq, en_eq, funext hv]
  funext i
  unfold placeTurn
  rw [hn]
  rfl

/-- One sample: the product of position and attitude quaternion turns, nearly, by the exact turns of earth and body. -/
theorem earth_step (g : ℝ) (s : Ins ℝ) (m : Imu ℝ) (hq : qsq s.nav.Qbn = 1) (hn : qsq s.nav.Qne = 1) (b : V3 ℝ)
    (hb : b = bodyTurn s.gyroPre (increment s.nav s.dt m.gyro)) (E : ℍ[ℝ]) (hE : ‖E‖ = 1) (σ : ℝ) (hσ : σ = 1 ∨ σ = -1) :
    (qsq (s.forwardImu g m).2.nav.Qbn = 1 ∧ qsq (s.forwardImu g m).2.nav.Qne = 1) ∧ ∃ τ : ℝ, (τ = 1 ∨ τ = -1) ∧
    ‖toH (s.forwardImu g m).2.nav.Qne * toH (s.forwardImu g m).2.nav.Qbn - τ • (star (toH (rotQuat (earthAxisTurn s.dt))) * E * toH (rotQuat b))‖
      ≤ ‖toH s.nav.Qne * toH s.nav.Qbn - σ • E‖ +
        (seriesError (earthAxisTurn s.dt) + seriesError (placeTurn s (s.forwardImu g m).2.nav) + seriesError (navFrameTurn s.dt s.nav (s.forwardImu g m).2.nav) +
          seriesError b + len (fun i => placeTurn s (s.forwardImu g m).2.nav i - navFrameTurn s.dt s.nav (s.forwardImu g m).2.nav i) / 2) := by
  have hcur := turn_compensated s m
  have hrv : gyroToRv (increment s.nav s.dt m.gyro) s.gyroPre = b := by
    rw [hb]; funext i; simp only [gyroToRv, Pi.add_apply, vd, bodyTurn, lit_real, cross_eq]; norm_num
  obtain ⟨f, hf⟩ : ∃ f, f = navFrameTurn s.dt s.nav (s.forwardImu g m).2.nav := ⟨_, rfl⟩
  obtain ⟨z, hz⟩ : ∃ z, z = placeTurn s (s.forwardImu g m).2.nav := ⟨_, rfl⟩
  obtain ⟨e, he⟩ : ∃ e, e = earthAxisTurn s.dt := ⟨_, rfl⟩
  have hvm := vel_mid s.extrapolate.1 s.extrapolate.2 (Ins.compensate s.dt m.acce s.nav.ab s.nav.as) (Ins.compensate s.dt m.gyro s.nav.gb s.nav.gs)
  have hstep : ∃ ζ, ζ = f ∧ (s.forwardImu g m).2.nav.Qbn =
      (((rvToQuat ζ).conj.mul s.nav.Qbn).mul (rvToQuat (gyroToRv (Ins.compensate s.dt m.gyro s.nav.gb s.nav.gs) s.gyroPre))).normalized := by
    refine ⟨_, ?_, rfl⟩
    rw [hf]
    exact zeta_eq s.nav _ rfl hvm
  obtain ⟨ζ, hζ, hstep⟩ := hstep
  rw [hcur, hrv, hζ] at hstep
  have hplace : ∃ ζ ε, ζ = z ∧ ε = e ∧ (s.forwardImu g m).2.nav.Qne = (((rvToQuat ε).conj.mul s.nav.Qne).mul (rvToQuat ζ)).normalized := by
    refine ⟨_, _, ?_, ?_, rfl⟩
    · rw [hz]
      exact place_eq s (Ins.velocityUpdate s.extrapolate.1 s.extrapolate.2 (Ins.compensate s.dt m.acce s.nav.ab s.nav.as)
        (Ins.compensate s.dt m.gyro s.nav.gb s.nav.gs)) rfl hvm rfl rfl rfl _ rfl
    · rw [he]
      show vs Earth.omegaIeE s.dt = _
      funext i
      fin_cases i <;> simp [vs, Earth.omegaIeE, v3, earthAxisTurn, Earth.omegaE, earthW]
      left; norm_num
  obtain ⟨ζ, ε, hζ, hε, hplace⟩ := hplace
  rw [hζ, hε] at hplace
  rw [← hf, ← hz, ← he, hstep, hplace]
  clear hstep hplace hf hz he hζ hε
  have pf := rv_pos f
  have pb := rv_pos b
  have pz := rv_pos z
  have pe := rv_pos e
  have pq : 0 < qsq s.nav.Qbn := by rw [hq]; norm_num
  have pn : 0 < qsq s.nav.Qne := by rw [hn]; norm_num
  refine ⟨⟨qsq_normalized _ (by rw [qsq_mul, qsq_mul, qsq_conj]; positivity), qsq_normalized _ (by rw [qsq_mul, qsq_mul, qsq_conj]; positivity)⟩, ?_⟩
  rw [normalized_mul _ _ (by rw [qsq_mul, qsq_conj]; positivity) pb, normalized_mul _ _ (by rw [qsq_conj]; exact pf) pq, normalized_unit _ hq,
    normalized_mul _ _ (by rw [qsq_mul, qsq_conj]; positivity) pz, normalized_mul _ _ (by rw [qsq_conj]; exact pe) pn, normalized_unit _ hn]
  have hconj : ∀ f : V3 ℝ, toH (rvToQuat f).conj.normalized = star (toH (rvToQuat f).normalized) := by
    intro f
    rw [toH_normalized _ (by rw [qsq_conj]; exact rv_pos f), toH_normalized _ (rv_pos f), toH_conj, norm_star]
    simp
  rw [hconj, hconj]
  obtain ⟨α, hα, nα⟩ := turn_near f
  obtain ⟨β, hβ, nβ⟩ := turn_near b
  obtain ⟨γ, hγ, nγ⟩ := turn_near z
  obtain ⟨δ, hδ, nδ⟩ := turn_near e
  have lip := rotQuat_lip z f
  have un : ∀ v : V3 ℝ, ‖toH (rvToQuat v).normalized‖ = 1 := fun v => toH_norm _ (qsq_normalized _ (rv_pos v))
  have ur : ∀ v : V3 ℝ, ‖toH (rotQuat v)‖ = 1 := fun v => toH_norm _ (qsq_rotQuat v)
  have uf := un f; have ub := un b; have uz := un z; have ue := un e
  have vf := ur f; have vb := ur b; have vz := ur z; have ve := ur e
  have uq := toH_norm _ hq
  have uN := toH_norm _ hn
  generalize toH (rvToQuat f).normalized = F at *
  generalize toH (rvToQuat b).normalized = B at *
  generalize toH (rvToQuat z).normalized = Z at *
  generalize toH (rvToQuat e).normalized = D at *
  generalize toH (rotQuat f) = F' at *
  generalize toH (rotQuat b) = B' at *
  generalize toH (rotQuat z) = Z' at *
  generalize toH (rotQuat e) = D' at *
  generalize toH s.nav.Qbn = Q at *
  generalize toH s.nav.Qne = P at *
  have starn : ∀ (κ : ℝ) (X Y : ℍ[ℝ]), ‖star X - κ • star Y‖ = ‖X - κ • Y‖ := by
    intro κ X Y
    have : star X - κ • star Y = star (X - κ • Y) := by simp
    rw [this, norm_star]
  -- the two turns of the frame nearly cancel
  have mid : ‖Z * star F - (γ * α) • (1 : ℍ[ℝ])‖ ≤ seriesError z + seriesError f + len (fun i => z i - f i) / 2 := by
    have h1 := near_mul Z (star F) (γ • Z') (α • star F') (by rw [norm_star, uf]) (by rw [sign_norm γ hγ, vz])
    rw [starn] at h1
    have h2 : (γ • Z') * (α • star F') - (γ * α) • (1 : ℍ[ℝ]) = (γ * α) • ((Z' - F') * star F') := by
      have hF : F' * star F' = 1 := by
        rw [Quaternion.self_mul_star, Quaternion.normSq_eq_norm_mul_self, vf]; simp
      rw [smul_mul_smul_comm, ← smul_sub, sub_mul, hF]
    have hga : γ * α = 1 ∨ γ * α = -1 := by rcases hγ with h | h <;> rcases hα with h' | h' <;> simp [h, h']
    have h3 : ‖(γ • Z') * (α • star F') - (γ * α) • (1 : ℍ[ℝ])‖ = ‖Z' - F'‖ := by
      rw [h2, sign_norm _ hga, norm_mul, norm_star, vf, mul_one]
    have h4 : Z * star F - (γ * α) • (1 : ℍ[ℝ]) = (Z * star F - (γ • Z') * (α • star F')) + ((γ • Z') * (α • star F') - (γ * α) • (1 : ℍ[ℝ])) := by abel
    rw [h4]
    refine (norm_add_le _ _).trans ?_
    rw [h3]
    linarith
  have hga : γ * α = 1 ∨ γ * α = -1 := by rcases hγ with h | h <;> rcases hα with h' | h' <;> simp [h, h']
  refine ⟨γ * α * (δ * σ * β), ?_, ?_⟩
  · rcases hga with h0 | h0 <;> rcases hδ with h | h <;> rcases hσ with h' | h' <;> rcases hβ with h'' | h'' <;> simp [h0, h, h', h'']
  · have e1 : star D * P * Z * (star F * Q * B) = star D * P * (Z * star F) * (Q * B) := by noncomm_ring
    have e2 : star D * P * (Z * star F) * (Q * B) - (γ * α) • (star D * (P * Q) * B) = star D * P * (Z * star F - (γ * α) • (1 : ℍ[ℝ])) * (Q * B) := by
      rw [mul_sub, sub_mul, mul_smul_comm, mul_one, smul_mul_assoc]
      congr 2
      noncomm_ring
    have n2 : ‖star D * P * (Z * star F) * (Q * B) - (γ * α) • (star D * (P * Q) * B)‖ = ‖Z * star F - (γ * α) • (1 : ℍ[ℝ])‖ := by
      rw [e2, norm_mul, norm_mul, norm_mul, norm_mul, norm_star, ue, uN, uq, ub]; ring
    have e3 : (γ * α * (δ * σ * β)) • (star D' * E * B') = (γ * α) • ((δ • star D') * (σ • E) * (β • B')) := by
      rw [smul_mul_smul_comm, smul_mul_smul_comm, smul_smul]
    have n3 : ‖(γ * α) • (star D * (P * Q) * B) - (γ * α) • ((δ • star D') * (σ • E) * (β • B'))‖ ≤ seriesError e + ‖P * Q - σ • E‖ + seriesError b := by
      rw [← smul_sub, sign_norm _ hga]
      have ud : ‖δ • star D'‖ = 1 := by rw [sign_norm δ hδ, norm_star, ve]
      refine (near_mul _ _ _ _ ub (by rw [norm_mul, ud, sign_norm σ hσ, hE, one_mul])).trans ?_
      have h1 := near_mul (star D) (P * Q) (δ • star D') (σ • E) (by rw [norm_mul, uN, uq, one_mul]) ud
      rw [starn] at h1
      linarith
    have e4 : star D * P * Z * (star F * Q * B) - (γ * α * (δ * σ * β)) • (star D' * E * B') =
        (star D * P * (Z * star F) * (Q * B) - (γ * α) • (star D * (P * Q) * B)) +
        ((γ * α) • (star D * (P * Q) * B) - (γ * α) • ((δ • star D') * (σ • E) * (β • B'))) := by rw [e1, e3]; abel
    rw [e4]
    refine (norm_add_le _ _).trans ?_
    rw [n2]
    linarith

/-- The exact turns in quaternions. -/
noncomputable def overEarthH (e : V3 ℝ) (bs : List (V3 ℝ)) (E : ℍ[ℝ]) : ℍ[ℝ] := bs.foldl (fun E b => star (toH (rotQuat e)) * E * toH (rotQuat b)) E

theorem overEarthH_norm (e : V3 ℝ) (bs : List (V3 ℝ)) : ∀ E : ℍ[ℝ], ‖E‖ = 1 → ‖overEarthH e bs E‖ = 1 := by
  induction bs with
  | nil => intro E h; exact h
  | cons b bs ih =>
    intro E h
    apply ih
    rw [norm_mul, norm_mul, norm_star, toH_norm _ (qsq_rotQuat _), toH_norm _ (qsq_rotQuat _), h]; norm_num

theorem overEarth_matrix (dt : ℝ) (bs : List (V3 ℝ)) : ∀ E : ℍ[ℝ], rotH (ofH (overEarthH (earthAxisTurn dt) bs E)) = overEarth dt bs (rotH (ofH E)) := by
  induction bs with
  | nil => intro E; rfl
  | cons b bs ih =>
    intro E
    have h : rotH (ofH (star (toH (rotQuat (earthAxisTurn dt))) * E * toH (rotQuat b))) = (turnM (earthAxisTurn dt))ᵀ * rotH (ofH E) * turnM b := by
      rw [ofH_mul, ofH_mul, rotH_mul, rotH_mul, ofH_star, rotH_conj, turnM_eq, turnM_eq]
      rfl
    unfold overEarth overEarthH at *
    rw [List.foldl_cons, List.foldl_cons, ih, h]

theorem earth_flight (ms : List (Imu ℝ)) : ∀ (g : ℝ) (s : Ins ℝ) (hq : qsq s.nav.Qbn = 1) (hn : qsq s.nav.Qne = 1) (n : NavEpoch ℝ)
    (hb : n.gb = s.nav.gb) (hs : n.gs = s.nav.gs) (E : ℍ[ℝ]) (hE : ‖E‖ = 1) (σ : ℝ) (hσ : σ = 1 ∨ σ = -1),
    (qsq (flight g s ms).2.nav.Qbn = 1 ∧ qsq (flight g s ms).2.nav.Qne = 1) ∧
    ∃ τ : ℝ, (τ = 1 ∨ τ = -1) ∧ ‖toH (flight g s ms).2.nav.Qne * toH (flight g s ms).2.nav.Qbn -
        τ • overEarthH (earthAxisTurn s.dt) (bodyTurns n s.dt s.gyroPre (ms.map fun m => m.gyro)) E‖
      ≤ ‖toH s.nav.Qne * toH s.nav.Qbn - σ • E‖ + ((fourSeries g s s.gyroPre ms).sum + (frameMismatch g s ms).sum / 2) := by
  induction ms with
  | nil => intro g s hq hn n hb hs E hE σ hσ; exact ⟨⟨hq, hn⟩, σ, hσ, by simp [flight, fourSeries, frameMismatch, overEarthH, bodyTurns]⟩
  | cons m ms ih =>
    intro g s hq hn n hb hs E hE σ hσ
    have hinc : increment n s.dt m.gyro = increment s.nav s.dt m.gyro := by unfold increment; rw [hb, hs]
    obtain ⟨⟨hq', hn'⟩, τ, hτ, hnear⟩ := earth_step g s m hq hn _ rfl E hE σ hσ
    have hcur : (s.forwardImu g m).2.gyroPre = increment s.nav s.dt m.gyro := turn_compensated s m
    have hdt : (s.forwardImu g m).2.dt = s.dt := rfl
    have hE' : ‖star (toH (rotQuat (earthAxisTurn s.dt))) * E * toH (rotQuat (bodyTurn s.gyroPre (increment s.nav s.dt m.gyro)))‖ = 1 := by
      rw [norm_mul, norm_mul, norm_star, toH_norm _ (qsq_rotQuat _), toH_norm _ (qsq_rotQuat _), hE]; norm_num
    obtain ⟨h1, τ', hτ', h2⟩ := ih (s.forwardImu g m).1 (s.forwardImu g m).2 hq' hn' n hb hs _ hE' τ hτ
    rw [hcur, hdt] at h2
    refine ⟨h1, τ', hτ', ?_⟩
    rw [List.map_cons, bodyTurns, fourSeries, frameMismatch, List.sum_cons, List.sum_cons, hinc]
    refine h2.trans ?_
    linarith

/-- C196: after any number of samples without a correction, the attitude of the device relative to the earth is the one the gyroscopes alone
give, the earth turning below, up to the truncation errors of the turns and the difference between the turn of the frame that moves the position
and the one taken out of the attitude. Accelerometers, gravity and velocity enter in no other way. -/
theorem C196_earth_attitude (g : ℝ) (s : Ins ℝ) (hq : qsq s.nav.Qbn = 1) (hn : qsq s.nav.Qne = 1) (ms : List (Imu ℝ)) (x : V3 ℝ) :
    len (fun i => ((((flight g s ms).2.nav.Qne.toRot * (flight g s ms).2.nav.Qbn.toRot : M3 ℝ)) *ᵥ x) i -
        (overEarth s.dt (bodyTurns s.nav s.dt s.gyroPre (ms.map fun m => m.gyro)) (s.nav.Qne.toRot * s.nav.Qbn.toRot) *ᵥ x) i)
      ≤ (2 * (fourSeries g s s.gyroPre ms).sum + (frameMismatch g s ms).sum) * len x := by
  have hE : ‖toH s.nav.Qne * toH s.nav.Qbn‖ = 1 := by rw [norm_mul, toH_norm _ hq, toH_norm _ hn, one_mul]
  obtain ⟨⟨u1, u2⟩, τ, hτ, hnear⟩ := earth_flight ms g s hq hn s.nav rfl rfl _ hE 1 (.inl rfl)
  have toM : ∀ p q : Quat ℝ, qsq p = 1 → qsq q = 1 → p.toRot * q.toRot = rotH (ofH (toH p * toH q)) := by
    intro p q hp hq
    rw [toRot_eq _ hp, toRot_eq _ hq, ofH_mul, ← rotH_mul]; rfl
  rw [toM _ _ u2 u1, toM _ _ hn hq, ← overEarth_matrix]
  have hEn := overEarthH_norm (earthAxisTurn s.dt) (bodyTurns s.nav s.dt s.gyroPre (ms.map fun m => m.gyro)) _ hE
  have hN : ‖toH (flight g s ms).2.nav.Qne * toH (flight g s ms).2.nav.Qbn‖ = 1 := by rw [norm_mul, toH_norm _ u1, toH_norm _ u2, one_mul]
  rw [← pureH_norm, pureH_sub, pureH_act, pureH_act, toH_ofH, toH_ofH, ← pureH_norm]
  refine (act_near _ _ _ hN hEn τ hτ).trans ?_
  simp only [one_smul, sub_self, norm_zero, zero_add] at hnear
  have := norm_nonneg (pureH x)
  refine mul_le_mul_of_nonneg_right ?_ this
  linarith

/-- C196: two runs with the same start, sensor corrections and gyroscope readings, whatever their accelerometers read, their velocities and
places are and gravity was, end with the same attitude relative to the earth up to the same kind of errors. -/
theorem C196_same_gyroscopes (g g' : ℝ) (s s' : Ins ℝ) (hq : qsq s.nav.Qbn = 1) (hn : qsq s.nav.Qne = 1) (hQ : s'.nav.Qbn = s.nav.Qbn) (hN : s'.nav.Qne = s.nav.Qne)
    (hb : s'.nav.gb = s.nav.gb) (hs : s'.nav.gs = s.nav.gs) (hd : s'.dt = s.dt) (hp : s'.gyroPre = s.gyroPre) (ms ms' : List (Imu ℝ))
    (hm : (ms'.map fun m => m.gyro) = ms.map fun m => m.gyro) (x : V3 ℝ) :
    len (fun i => (((flight g s ms).2.nav.Qne.toRot * (flight g s ms).2.nav.Qbn.toRot : M3 ℝ) *ᵥ x) i -
        (((flight g' s' ms').2.nav.Qne.toRot * (flight g' s' ms').2.nav.Qbn.toRot : M3 ℝ) *ᵥ x) i)
      ≤ (2 * (fourSeries g s s.gyroPre ms).sum + (frameMismatch g s ms).sum + (2 * (fourSeries g' s' s'.gyroPre ms').sum + (frameMismatch g' s' ms').sum)) * len x := by
  have h1 := C196_earth_attitude g s hq hn ms x
  have h2 := C196_earth_attitude g' s' (by rw [hQ]; exact hq) (by rw [hN]; exact hn) ms' x
  have hbt : ∀ (ws : List (V3 ℝ)) (p : V3 ℝ), bodyTurns s'.nav s.dt p ws = bodyTurns s.nav s.dt p ws := by
    intro ws
    induction ws with
    | nil => intro p; rfl
    | cons w ws ih =>
      intro p
      have : increment s'.nav s.dt w = increment s.nav s.dt w := by unfold increment; rw [hb, hs]
      rw [bodyTurns, bodyTurns, this, ih]
  rw [hd, hm, hbt, hQ, hN, hp] at h2
  rw [hp]
  rw [← pureH_norm, pureH_sub] at h1 h2 ⊢
  generalize pureH (overEarth _ _ _ *ᵥ x) = c at *
  generalize pureH (((flight g s ms).2.nav.Qne.toRot * (flight g s ms).2.nav.Qbn.toRot : M3 ℝ) *ᵥ x) = a at *
  generalize pureH (((flight g' s' ms').2.nav.Qne.toRot * (flight g' s' ms').2.nav.Qbn.toRot : M3 ℝ) *ᵥ x) = b at *
  have e : a - b = (a - c) - (b - c) := by abel
  rw [e]
  refine (norm_sub_le _ _).trans ?_
  rw [add_mul]
  linarith

/-- The hypotheses are met by a parked vehicle (there is one, C125), where the two turns of the frame are the same and nothing is lost to the
difference; the turn of the earth is not zero. -/
example (g : ℝ) (s : Ins ℝ) (m : Imu ℝ) (h : Parked s.nav) (hd : s.dt = 1 / 100) (hpre : s.accePre = 0 ∧ s.gyroPre = 0)
    (hr : Reads s m (restAcce s.nav.Cbn (s.nav.pos 0) s.dt (Earth.gravity (s.nav.pos 0) (s.nav.pos 2))) (restGyro s.nav.Cbn (s.nav.pos 0) s.dt)) :
    (qsq s.nav.Qbn = 1 ∧ qsq s.nav.Qne = 1) ∧ frameMismatch g s [m] = [0] ∧ len (earthAxisTurn s.dt) = earthW / 100 := by
  refine ⟨⟨h.con.unit, by rw [h.con.qne]; exact (C41_position_quaternion _).1⟩, ?_, ?_⟩
  · obtain ⟨-, ⟨k, hn⟩, -⟩ := step_rest g s m h _ _ rfl rfl hr (.inl hpre)
    obtain ⟨-, e2, -⟩ := extrapolate_rest s h
    rw [frameMismatch, frameMismatch]
    have hz : (fun i => placeTurn s (s.forwardImu g m).2.nav i - navFrameTurn s.dt s.nav (s.forwardImu g m).2.nav i) = fun _ => 0 := by
      funext i
      unfold placeTurn navFrameTurn
      rw [e2, hn]
      dsimp only
      rw [sub_self, zero_div, add_zero, add_self_div_two, sub_self]
    rw [hz]
    simp [len]
  · rw [earthAxisTurn, len_axis, hd, abs_of_pos (by unfold earthW; norm_num)]
    ring
end Verif.Props
