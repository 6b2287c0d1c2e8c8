import Verif.Props.EarthAttitude
import Verif.Spec.PlaceMoves
/-! C197: between corrections the position moves no faster than the velocity says. -/
namespace Verif.Props
open Verif Verif.Spec Verif.Convert Matrix
open scoped Quaternion

theorem rotQuat_pure (v : V3 ℝ) : toH (rotQuat v) = (Real.cos (len v / 2) : ℝ) • (1 : ℍ[ℝ]) + (Real.sin (len v / 2) / len v) • pureH v := by
  ext <;> simp [rotQuat, pureH]

theorem pureH_comb (c : ℝ) (a b : V3 ℝ) : pureH (fun i => c * (a i + b i)) = c • (pureH a + pureH b) := by
  ext <;> simp [pureH] <;> ring

/-- A turn seen in other axes. -/
theorem rotQuat_seen (q : Quat ℝ) (hq : qsq q = 1) (v : V3 ℝ) : star (toH q) * toH (rotQuat v) * toH q = toH (rotQuat ((rotH q)ᵀ *ᵥ v)) := by
  have hn : ‖toH q‖ = 1 := toH_norm q hq
  have hqq : star (toH q) * toH q = 1 := by rw [Quaternion.star_mul_self, Quaternion.normSq_eq_norm_mul_self, hn]; simp
  have hp : pureH ((rotH q)ᵀ *ᵥ v) = star (toH q) * pureH v * toH q := by
    rw [← rotH_conj, pureH_act, toH_conj, star_star]
  have hl : len ((rotH q)ᵀ *ᵥ v) = len v := by
    rw [← pureH_norm, hp, norm_mul, norm_mul, norm_star, hn, pureH_norm]; ring
  rw [rotQuat_pure, rotQuat_pure, hl, hp]
  rw [mul_add, add_mul, mul_smul_comm, smul_mul_assoc, mul_one, hqq, mul_smul_comm, smul_mul_assoc]

/-- One sample: the position quaternion moves, up to sign, by half of the angle. -/
theorem place_step (g : ℝ) (s : Ins ℝ) (m : Imu ℝ) (hn : qsq s.nav.Qne = 1) (hd : 0 ≤ s.dt) :
    qsq (s.forwardImu g m).2.nav.Qne = 1 ∧ ∃ τ : ℝ, (τ = 1 ∨ τ = -1) ∧
    2 * ‖toH (s.forwardImu g m).2.nav.Qne - τ • toH s.nav.Qne‖ ≤
      s.dt * (len (transportRate (meanVelocity s m g) (s.extrapolate.2.posMid 0) (s.extrapolate.2.posMid 2)) +
        len (fun i => earthRate (s.extrapolate.2.posMid 0) i - earthSeen s.nav.Qne i)) +
      2 * (seriesError (earthAxisTurn s.dt) + seriesError (placeTurn s (s.forwardImu g m).2.nav)) := by
  obtain ⟨z, hz⟩ : ∃ z, z = placeTurn s (s.forwardImu g m).2.nav := ⟨_, rfl⟩
  obtain ⟨e, he⟩ : ∃ e, e = earthAxisTurn s.dt := ⟨_, rfl⟩
  obtain ⟨y, hy⟩ : ∃ y, y = (rotH s.nav.Qne)ᵀ *ᵥ e := ⟨_, rfl⟩
  have hvm := vel_mid s.extrapolate.1 s.extrapolate.2 (Ins.compensate s.dt m.acce s.nav.ab s.nav.as) (Ins.compensate s.dt m.gyro s.nav.gb s.nav.gs)
  have hplace : ∃ ζ ε, ζ = z ∧ ε = e ∧ (s.forwardImu g m).2.nav.Qne = (((rvToQuat ε).conj.mul s.nav.Qne).mul (rvToQuat ζ)).normalized := by
    refine ⟨_, _, ?_, ?_, rfl⟩
    · rw [hz]
      exact place_eq s (Ins.velocityUpdate s.extrapolate.1 s.extrapolate.2 (Ins.compensate s.dt m.acce s.nav.ab s.nav.as)
        (Ins.compensate s.dt m.gyro s.nav.gb s.nav.gs)) rfl hvm rfl rfl rfl _ rfl
    · rw [he]
      show vs Earth.omegaIeE s.dt = _
      funext i
      fin_cases i <;> simp [vs, Earth.omegaIeE, v3, earthAxisTurn, Earth.omegaE, earthW]
      left; norm_num
  obtain ⟨ζ, ε, hζ, hε, hplace⟩ := hplace
  rw [hζ, hε] at hplace
  -- the two turns differ by transport and the error of the earth rate
  have hdiff : len (fun i => z i - y i) ≤ s.dt * (len (transportRate (meanVelocity s m g) (s.extrapolate.2.posMid 0) (s.extrapolate.2.posMid 2)) +
        len (fun i => earthRate (s.extrapolate.2.posMid 0) i - earthSeen s.nav.Qne i)) := by
    have hyi : ∀ i, y i = earthSeen s.nav.Qne i * s.dt := by
      intro i
      rw [hy, he]
      unfold earthSeen
      rw [toRot_eq _ hn]
      simp [mulVec, dotProduct, Fin.sum_univ_three, earthAxisTurn]
      ring
    have hzi : (fun i => z i - y i) = fun i => s.dt * (transportRate (meanVelocity s m g) (s.extrapolate.2.posMid 0) (s.extrapolate.2.posMid 2) i +
        (earthRate (s.extrapolate.2.posMid 0) i - earthSeen s.nav.Qne i)) := by
      funext i
      rw [hyi, hz]
      show (_ + _) * s.dt - _ = _
      show (earthRate (s.extrapolate.2.posMid 0) i + transportRate (meanVelocity s m g) (s.extrapolate.2.posMid 0) (s.extrapolate.2.posMid 2) i) * s.dt - _ = _
      ring
    rw [hzi, ← pureH_norm]
    rw [pureH_comb s.dt _ (fun i => earthRate (s.extrapolate.2.posMid 0) i - earthSeen s.nav.Qne i), norm_smul, Real.norm_of_nonneg hd, ← pureH_norm, ← pureH_norm]
    exact mul_le_mul_of_nonneg_left (norm_add_le _ _) hd
  rw [← hz, ← he, hplace]
  have pz := rv_pos z
  have pe := rv_pos e
  have pn : 0 < qsq s.nav.Qne := by rw [hn]; norm_num
  refine ⟨qsq_normalized _ (by rw [qsq_mul, qsq_mul, qsq_conj]; positivity), ?_⟩
  rw [normalized_mul _ _ (by rw [qsq_mul, qsq_conj]; positivity) pz, normalized_mul _ _ (by rw [qsq_conj]; exact pe) pn, normalized_unit _ hn]
  have hconj : toH (rvToQuat e).conj.normalized = star (toH (rvToQuat e).normalized) := by
    rw [toH_normalized _ (by rw [qsq_conj]; exact pe), toH_normalized _ pe, toH_conj, norm_star]
    simp
  rw [hconj]
  obtain ⟨γ, hγ, nγ⟩ := turn_near z
  obtain ⟨δ, hδ, nδ⟩ := turn_near e
  have lip := rotQuat_lip z y
  have seen := rotQuat_seen s.nav.Qne hn e
  rw [← hy] at seen
  have ur : ∀ v : V3 ℝ, ‖toH (rotQuat v)‖ = 1 := fun v => toH_norm _ (qsq_rotQuat v)
  have uz := toH_norm _ (qsq_normalized _ pz)
  have ve := ur e
  have uN := toH_norm _ hn
  generalize toH (rvToQuat z).normalized = Z at *
  generalize toH (rvToQuat e).normalized = D at *
  generalize toH (rotQuat z) = Z' at *
  generalize toH (rotQuat e) = D' at *
  generalize toH (rotQuat y) = Y' at *
  generalize toH s.nav.Qne = P at *
  have hPP : P * star P = 1 := by rw [Quaternion.self_mul_star, Quaternion.normSq_eq_norm_mul_self, uN]; simp
  have hDD : star D' * D' = 1 := by rw [Quaternion.star_mul_self, Quaternion.normSq_eq_norm_mul_self, ve]; simp
  have hback : star D' * P * Y' = P := by
    rw [← seen]
    have : star D' * P * (star P * D' * P) = star D' * (P * star P) * D' * P := by noncomm_ring
    rw [this, hPP, mul_one, hDD, one_mul]
  have starn : ‖star D - δ • star D'‖ = ‖D - δ • D'‖ := by
    have : star D - δ • star D' = star (D - δ • D') := by simp
    rw [this, norm_star]
  refine ⟨δ * γ, by rcases hδ with h | h <;> rcases hγ with h' | h' <;> simp [h, h'], ?_⟩
  have k1 := near_mul (star D * P) Z ((δ • star D') * P) (γ • Z') uz (by rw [norm_mul, sign_norm δ hδ, norm_star, ve, uN, one_mul])
  have k2 : ‖star D * P - (δ • star D') * P‖ = ‖D - δ • D'‖ := by rw [← sub_mul, norm_mul, uN, mul_one, starn]
  have k3 : ((δ • star D') * P) * (γ • Z') - (δ * γ) • P = (δ * γ) • (star D' * P * (Z' - Y')) := by
    rw [smul_mul_assoc, smul_mul_smul_comm, mul_sub, hback, smul_sub]
  have k4 : ‖((δ • star D') * P) * (γ • Z') - (δ * γ) • P‖ = ‖Z' - Y'‖ := by
    rw [k3, sign_norm _ (by rcases hδ with h | h <;> rcases hγ with h' | h' <;> simp [h, h']), norm_mul, norm_mul, norm_star, ve, uN, one_mul, one_mul]
  have k5 : star D * P * Z - (δ * γ) • P = (star D * P * Z - (δ • star D') * P * (γ • Z')) + (((δ • star D') * P) * (γ • Z') - (δ * γ) • P) := by abel
  have k6 := norm_add_le (star D * P * Z - (δ • star D') * P * (γ • Z')) (((δ • star D') * P) * (γ • Z') - (δ * γ) • P)
  rw [← k5] at k6
  linarith

theorem place_flight (ms : List (Imu ℝ)) : ∀ (g : ℝ) (s : Ins ℝ) (hn : qsq s.nav.Qne = 1) (hd : 0 ≤ s.dt),
    qsq (flight g s ms).2.nav.Qne = 1 ∧ ∃ τ : ℝ, (τ = 1 ∨ τ = -1) ∧ 2 * ‖toH (flight g s ms).2.nav.Qne - τ • toH s.nav.Qne‖ ≤ (frameMoves g s ms).sum := by
  induction ms with
  | nil => intro g s hn hd; exact ⟨hn, 1, .inl rfl, by simp [flight, frameMoves]⟩
  | cons m ms ih =>
    intro g s hn hd
    obtain ⟨hn', τ, hτ, h1⟩ := place_step g s m hn hd
    obtain ⟨hn'', τ', hτ', h2⟩ := ih (s.forwardImu g m).1 (s.forwardImu g m).2 hn' hd
    refine ⟨hn'', τ' * τ, by rcases hτ with h | h <;> rcases hτ' with h' | h' <;> simp [h, h'], ?_⟩
    rw [frameMoves, List.sum_cons]
    have e : toH (flight g s (m :: ms)).2.nav.Qne - (τ' * τ) • toH s.nav.Qne =
        (toH (flight (s.forwardImu g m).1 (s.forwardImu g m).2 ms).2.nav.Qne - τ' • toH (s.forwardImu g m).2.nav.Qne) +
        τ' • (toH (s.forwardImu g m).2.nav.Qne - τ • toH s.nav.Qne) := by
      rw [smul_sub, smul_smul]; show toH (flight (s.forwardImu g m).1 (s.forwardImu g m).2 ms).2.nav.Qne - _ = _; abel
    have k := norm_add_le (toH (flight (s.forwardImu g m).1 (s.forwardImu g m).2 ms).2.nav.Qne - τ' • toH (s.forwardImu g m).2.nav.Qne)
      (τ' • (toH (s.forwardImu g m).2.nav.Qne - τ • toH s.nav.Qne))
    rw [← e, sign_norm τ' hτ'] at k
    linarith

/-- C197: over any number of samples without a correction, every axis of the local frame at the position kept, the vertical in particular, moves over
the earth by at most the sum over the samples of interval times transport rate at the mean velocity (plus the error of the earth rate used and the
truncation errors). -/
theorem C197_no_jump (g : ℝ) (s : Ins ℝ) (hn : qsq s.nav.Qne = 1) (hd : 0 ≤ s.dt) (ms : List (Imu ℝ)) (x : V3 ℝ) :
    len (fun i => ((flight g s ms).2.nav.Qne.toRot *ᵥ x) i - (s.nav.Qne.toRot *ᵥ x) i) ≤ (frameMoves g s ms).sum * len x := by
  obtain ⟨hn', τ, hτ, h⟩ := place_flight ms g s hn hd
  rw [toRot_eq _ hn', toRot_eq _ hn, ← pureH_norm, pureH_sub, pureH_act, pureH_act]
  refine (act_near _ _ _ (toH_norm _ hn') (toH_norm _ hn) τ hτ).trans ?_
  rw [pureH_norm]
  exact mul_le_mul_of_nonneg_right h (len_nonneg x)

/-- The transport rate above the ellipsoid is at most horizontal speed over the smallest radius of curvature, and the cosine of the latitude. -/
theorem transport_le (v : V3 ℝ) (lat h V k : ℝ) (hV : 0 ≤ V) (hv : v 0 ^ 2 + v 1 ^ 2 ≤ V ^ 2) (hk : 0 < k) (hc : k ≤ Real.cos lat) (hh : 0 ≤ h) :
    len (transportRate v lat h) ≤ V / (6335000 * k) := by
  have hc0 : 0 < Real.cos lat := by linarith
  obtain ⟨-, -, r1, r2, -, -, -⟩ := C44_radii lat
  have hM : 6335000 ≤ rM lat + h := by rw [← rM_eq]; unfold wgsA wgsE2 at r1; norm_num at r1; linarith
  have hN : 6335000 ≤ rN lat + h := by rw [← rN_eq]; rw [← rM_eq] at hM; linarith
  have hk1 : k ≤ 1 := hc.trans (Real.cos_le_one lat)
  refine (abs_le_of_sq_le_sq' ?_ (by positivity)).2
  rw [len_sq]
  have e : transportRate v lat h 0 ^ 2 + transportRate v lat h 1 ^ 2 + transportRate v lat h 2 ^ 2 =
      (v 1 / ((rN lat + h) * Real.cos lat)) ^ 2 + (v 0 / (rM lat + h)) ^ 2 := by
    have hs := Real.sin_sq_add_cos_sq lat
    simp [transportRate, Real.tan_eq_sin_div_cos]
    have : rN lat + h ≠ 0 := by linarith
    have hc1 := hc0.ne'
    field_simp
    linear_combination (v 1 ^ 2 * (rM lat + h) ^ 2) * hs
  rw [e]
  have a1 : (v 1 / ((rN lat + h) * Real.cos lat)) ^ 2 ≤ (v 1) ^ 2 / (6335000 * k) ^ 2 := by
    rw [div_pow]
    exact div_le_div_of_nonneg_left (sq_nonneg _) (by positivity) (pow_le_pow_left₀ (by positivity) (mul_le_mul hN hc hk.le (by linarith)) 2)
  have a2 : (v 0 / (rM lat + h)) ^ 2 ≤ (v 0) ^ 2 / (6335000 * k) ^ 2 := by
    rw [div_pow]
    exact div_le_div_of_nonneg_left (sq_nonneg _) (by positivity) (pow_le_pow_left₀ (by positivity) (by nlinarith) 2)
  have a3 : (v 1) ^ 2 / (6335000 * k) ^ 2 + (v 0) ^ 2 / (6335000 * k) ^ 2 ≤ (V / (6335000 * k)) ^ 2 := by
    rw [← add_div, div_pow]
    exact div_le_div_of_nonneg_right (by linarith) (by positivity)
  linarith

theorem earthRate_len (lat : ℝ) : len (earthRate lat) = earthW := by
  have h : len (earthRate lat) ^ 2 = earthW ^ 2 := by
    rw [len_sq]; simp [earthRate]; linear_combination earthW ^ 2 * Real.sin_sq_add_cos_sq lat
  exact (sq_eq_sq₀ (len_nonneg _) (by unfold earthW; norm_num)).1 h

/-- C197, in numbers: at horizontal speeds up to `V` the vertical moves by at most `V / 6335 km / cos lat` radians a second: the position cannot jump. -/
theorem C197_speed_limit (V k μ : ℝ) (hV : 0 ≤ V) (hk : 0 < k) (ms : List (Imu ℝ)) : ∀ (g : ℝ) (s : Ins ℝ) (hd : 0 ≤ s.dt), Calm V k μ g s ms →
    (frameMoves g s ms).sum ≤ ms.length * (s.dt * (V / (6335000 * k) + μ) +
      2 * ((earthW * s.dt) ^ 9 / 14000000 + ((earthW + V / (6335000 * k)) * s.dt) ^ 9 / 14000000)) := by
  induction ms with
  | nil => intro g s hd _; simp [frameMoves]
  | cons m ms ih =>
    intro g s hd hcalm
    obtain ⟨⟨h1, h2, h3, h4⟩, h5⟩ := hcalm
    have := ih (s.forwardImu g m).1 (s.forwardImu g m).2 hd h5
    have hdt : (s.forwardImu g m).2.dt = s.dt := rfl
    rw [hdt] at this
    rw [frameMoves, List.sum_cons, List.length_cons, Nat.cast_add, Nat.cast_one, add_mul, one_mul, add_comm]
    refine add_le_add this ?_
    have ht := transport_le (meanVelocity s m g) (s.extrapolate.2.posMid 0) (s.extrapolate.2.posMid 2) V k hV h1 hk h2 h3
    have hw : 0 < earthW := by unfold earthW; norm_num
    have s1 : seriesError (earthAxisTurn s.dt) = (earthW * s.dt) ^ 9 / 14000000 := by
      unfold seriesError
      rw [earthAxisTurn, len_axis, abs_of_nonneg (by positivity)]
    have s2 : seriesError (placeTurn s (s.forwardImu g m).2.nav) ≤ ((earthW + V / (6335000 * k)) * s.dt) ^ 9 / 14000000 := by
      unfold seriesError
      refine div_le_div_of_nonneg_right (pow_le_pow_left₀ (len_nonneg _) ?_ 9) (by norm_num)
      have e1 : pureH (placeTurn s (s.forwardImu g m).2.nav) = s.dt • (pureH (earthRate (s.extrapolate.2.posMid 0)) +
          pureH (transportRate (meanVelocity s m g) (s.extrapolate.2.posMid 0) (s.extrapolate.2.posMid 2))) := by
        rw [← pureH_comb]
        congr 1
        funext i
        show (_ + transportRate (meanVelocity s m g) _ _ i) * s.dt = _
        ring
      rw [← pureH_norm, e1, norm_smul, Real.norm_of_nonneg hd, mul_comm]
      refine mul_le_mul_of_nonneg_right ((norm_add_le _ _).trans ?_) hd
      rw [pureH_norm, pureH_norm, earthRate_len]
      linarith
    rw [s1]
    have := mul_le_mul_of_nonneg_left (add_le_add ht h4) hd
    linarith

/-- At a place read off exactly, the earth rate used by the program is the one seen from there. -/
theorem earthSeen_eq (ll : LatLon ℝ) : earthSeen (llaToQne ll) = earthRate ll.lat := by
  have h : (llaToQne ll).toRot = llaToCne ll := (C41_position_quaternion ll).2.1
  funext i
  unfold earthSeen
  rw [h]
  fin_cases i <;> simp [llaToCne, earthRate]

/-- The hypotheses are met by a parked vehicle (there is one, C125) at 45 degrees of latitude: speed 0, earth rate exact. -/
example (g : ℝ) (s : Ins ℝ) (m : Imu ℝ) (h : Parked s.nav) (hl : s.nav.pos 0 = Real.pi / 4) (hh : s.nav.pos 2 = 100) (hd : s.dt = 1 / 100)
    (hpre : s.accePre = 0 ∧ s.gyroPre = 0)
    (hr : Reads s m (restAcce s.nav.Cbn (s.nav.pos 0) s.dt (Earth.gravity (s.nav.pos 0) (s.nav.pos 2))) (restGyro s.nav.Cbn (s.nav.pos 0) s.dt)) :
    qsq s.nav.Qne = 1 ∧ 0 ≤ s.dt ∧ Calm 0 (1 / 2) 0 g s [m] := by
  obtain ⟨-, ⟨k, hn⟩, -⟩ := step_rest g s m h _ _ rfl rfl hr (.inl hpre)
  obtain ⟨-, e2, -⟩ := extrapolate_rest s h
  have hv : meanVelocity s m g = fun _ => 0 := by
    funext j
    unfold meanVelocity
    rw [hn]
    show (s.nav.vn j + s.nav.vn j) / 2 = 0
    rw [h.vn]; simp
  refine ⟨by rw [h.con.qne]; exact (C41_position_quaternion _).1, by rw [hd]; norm_num, ⟨⟨by rw [hv]; norm_num, ?_, ?_, ?_⟩, trivial⟩⟩
  · rw [e2, hl, Real.cos_pi_div_four]
    have : (1 : ℝ) ≤ Real.sqrt 2 := Real.one_le_sqrt.2 (by norm_num)
    linarith
  · rw [e2, hh]; norm_num
  · rw [e2, h.con.qne, earthSeen_eq]
    simp [len]
end Verif.Props
