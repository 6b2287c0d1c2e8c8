import Verif.Props.AlignOut
import Verif.Props.AttitudePhase
/-! The mounting yaw angle while the alignment waits for the vehicle to move (C123). -/
namespace Verif.Props
open Verif Verif.Spec Verif.Convert Matrix

/-- A history of samples and fixes in which every fix has a deviation and none is faster than the alignment asks for. -/
inductive waiting (o : Opt ℝ) : Gnss ℝ → List (Call ℝ) → Prop
  | nil (p : Gnss ℝ) : waiting o p []
  | sample (p : Gnss ℝ) (m : Imu ℝ) (cs : List (Call ℝ)) : waiting o p cs → waiting o p (.time (some m) :: cs)
  | fix (p f : Gnss ℝ) (cs : List (Call ℝ)) : ¬ moving o p f → f.posStd 0 ≠ 0 → waiting o f cs → waiting o p (.gnss (some f) :: cs)

theorem Rz_add (s t : ℝ) : Rz s * Rz t = Rz (s + t) := by
  ext i j
  fin_cases i <;> fin_cases j <;>
    simp [Rz, Matrix.mul_apply, Fin.sum_univ_three, Real.cos_add, Real.sin_add] <;> ring

theorem Rz_zero : Rz 0 = 1 := by
  ext i j; fin_cases i <;> fin_cases j <;> simp [Rz]

theorem slow_fix (a : Align ℝ) (f : Gnss ℝ) (h : ¬ moving a.option a.gnssPre f) :
    (a.yawStep f) = { a with vnPre := displacement a.gnssPre f } := by
  unfold Align.yawStep
  dsimp only
  rw [distance_eq, vnorm_len]
  rw [if_neg]
  simp only [Bool.and_eq_true, lt_real, f32_real, lit_real]
  intro h'
  exact h ⟨h'.1, by have := h'.2; push_cast at this; exact this⟩

/-- What waiting preserves. -/
structure Waiting (o : Opt ℝ) (p : Gnss ℝ) (C : M3 ℝ) (d : Dev ℝ) : Prop where
  st : d.status = 2
  level : d.am.level = true
  yaw : d.am.yaw = false
  opt : d.am.option = o
  pre : d.am.gnssPre = p
  std : p.posStd 0 ≠ 0
  cbn : d.am.nav.Cbn = C

theorem waiting_sample {o : Opt ℝ} {p : Gnss ℝ} {C : M3 ℝ} {d : Dev ℝ} (g : ℝ) (m : Imu ℝ) (h : Waiting o p C d) :
    ∃ g' d', (Call.exec (.time (some m)) (g, d)).1 = (g', d') ∧ Waiting o p C d' ∧
      d'.am.nav = { d.am.nav with gpst := m.gpst } := by
  have e : d.am.updateImu m = { d.am with smooth := d.am.smooth.update m, ahrs := (d.am.ahrs.updateImu m), nav := { d.am.nav with gpst := m.gpst } } := by
    unfold Align.updateImu
    dsimp only
    rw [if_pos h.level]
  refine ⟨g, { d with am := d.am.updateImu m }, ?_, ?_, ?_⟩
  · simp only [Call.exec]
    rw [att_time g d m h.st, if_neg]
    rw [e]; unfold Align.alignFinished; simp [h.yaw]
  · rw [e]
    exact ⟨h.st, h.level, h.yaw, h.opt, h.pre, h.std, h.cbn⟩
  · rw [e]

theorem waiting_fix {o : Opt ℝ} {p : Gnss ℝ} {C : M3 ℝ} {d : Dev ℝ} (g : ℝ) (f : Gnss ℝ) (h : Waiting o p C d)
    (hm : ¬ moving o p f) (hf : f.posStd 0 ≠ 0) :
    ∃ g' d', (Call.exec (.gnss (some f)) (g, d)).1 = (g', d') ∧ Waiting o f (C * Rz (o.angleBv 2)) d' ∧
      d'.am.nav.atti = dcmToEuler (C * Rz (o.angleBv 2)) := by
  have e := gnss_align g d f h.st (by rw [h.pre]; exact h.std)
  rw [slow_fix _ _ (by rw [h.opt, h.pre]; exact hm)] at e
  have hc : mmul d.am.nav.Cbn (eulerToDcm (v3 0 0 (d.am.option.angleBv 2))) = C * Rz (o.angleBv 2) := by
    rw [mmul_real, eulerToDcm_yaw, h.cbn, h.opt]
  refine ⟨(rgioeGnssupdate g d (some f)).2.1, (rgioeGnssupdate g d (some f)).2.2, rfl, ?_, ?_⟩
  · rw [e]
    exact ⟨h.st, h.level, h.yaw, h.opt, rfl, hf, hc⟩
  · rw [e]
    exact congrArg dcmToEuler hc

theorem waiting_run {o : Opt ℝ} (cs : List (Call ℝ)) : ∀ (p : Gnss ℝ) (C : M3 ℝ) (g : ℝ) (d : Dev ℝ), Waiting o p C d → waiting o p cs →
    Waiting o ((fixesOf cs).getLastD p) (C * Rz ((fixesOf cs).length * o.angleBv 2)) (runCalls cs (g, d)).2 ∧
    (fixesOf cs = [] → (runCalls cs (g, d)).2.am.nav.atti = d.am.nav.atti) ∧
    (fixesOf cs ≠ [] → (runCalls cs (g, d)).2.am.nav.atti = dcmToEuler (C * Rz ((fixesOf cs).length * o.angleBv 2))) := by
  induction cs with
  | nil =>
    intro p C g d h _
    refine ⟨?_, fun _ => rfl, fun hne => absurd rfl hne⟩
    simp only [fixesOf, List.length_nil, Nat.cast_zero, zero_mul, Rz_zero, Matrix.mul_one]
    exact h
  | cons c cs ih =>
    intro p C g d h hw
    cases hw with
    | sample _ m _ hw =>
      obtain ⟨g', d', e, h', hn⟩ := waiting_sample g m h
      simp only [runCalls, fixesOf, e]
      obtain ⟨i1, i2, i3⟩ := ih p C g' d' h' hw
      refine ⟨i1, fun hf => ?_, i3⟩
      rw [i2 hf, hn]
    | fix _ f _ hm hf hw =>
      obtain ⟨g', d', e, h', hn⟩ := waiting_fix g f h hm hf
      simp only [runCalls, fixesOf, e]
      obtain ⟨i1, i2, i3⟩ := ih f _ g' d' h' hw
      have hz : C * Rz (o.angleBv 2) * Rz ((fixesOf cs).length * o.angleBv 2) = C * Rz ((f :: fixesOf cs).length * o.angleBv 2) := by
        rw [Matrix.mul_assoc, Rz_add]
        congr 2
        push_cast [List.length_cons]
        ring
      rw [hz] at i1 i3
      refine ⟨by rw [List.getLastD_cons]; exact i1, fun hc => (List.cons_ne_nil _ _ hc).elim, fun _ => ?_⟩
      by_cases hl : fixesOf cs = []
      · rw [i2 hl, hn]
        simp [hl]
      · exact i3 hl

/-- C123: while the alignment waits for the vehicle to move, every fix turns the attitude by the mounting yaw angle
once more. After `n` fixes the reported roll, pitch and yaw are those of the levelled attitude turned by `n` times
that angle about the sensor's vertical axis. -/
theorem C123_mounting_accumulates (g : ℝ) (d : Dev ℝ) (cs : List (Call ℝ)) (hs : d.status = 2) (hl : d.am.level = true)
    (hy : d.am.yaw = false) (hp : d.am.gnssPre.posStd 0 ≠ 0) (hC : isRot d.am.nav.Cbn)
    (hw : waiting d.am.option d.am.gnssPre cs) (hne : fixesOf cs ≠ []) (C : M3 ℝ)
    (hCn : C = d.am.nav.Cbn * Rz ((fixesOf cs).length * d.am.option.angleBv 2)) (hlock : |C 2 0| < 999 / 1000)
    (p r : NavOutput ℝ) (hr : r = (rgioeGetResult (runCalls cs (g, d)).2 p).2) :
    rgioeGetStatus (runCalls cs (g, d)).2 = 2 ∧ Rz (rad (r.atti 2)) * Ry (rad (r.atti 1)) * Rx (rad (r.atti 0)) = C := by
  obtain ⟨w, -, ha⟩ := waiting_run cs d.am.gnssPre d.am.nav.Cbn g d ⟨hs, hl, hy, rfl, rfl, hp, rfl⟩ hw
  have ha := ha hne
  rw [← hCn] at ha
  have hR : isRot C := by rw [hCn]; exact isRot_mul hC (isRot_Rz _)
  have hst := w.st
  have hpi := Real.pi_ne_zero
  have hat : ∀ i, rad (r.atti i) = dcmToEuler C i := by
    intro i
    rw [hr, ← ha]
    unfold rgioeGetResult
    rw [hst]
    simp [ST_ALIGN, ST_ATTITUDE, ST_NAVIGATION, vd, deg, rad]
  refine ⟨hst, ?_⟩
  rw [hat, hat, hat, ← eulerToDcm_eq]
  exact C40_matrix_round_trip C hR hlock

/-- C123, the effect on pitch: a vehicle that is levelled at roll `φ` and pitch `θ` is reported with a pitch that
depends on how many fixes came in. -/
theorem C123_reported_pitch (g : ℝ) (d : Dev ℝ) (cs : List (Call ℝ)) (hs : d.status = 2) (hl : d.am.level = true)
    (hy : d.am.yaw = false) (hp : d.am.gnssPre.posStd 0 ≠ 0) (φ θ ψ : ℝ) (hC : d.am.nav.Cbn = Rz ψ * Ry θ * Rx φ)
    (hw : waiting d.am.option d.am.gnssPre cs) (hne : fixesOf cs ≠ []) (t : ℝ) (ht : t = (fixesOf cs).length * d.am.option.angleBv 2)
    (hlock : |Real.sin θ * Real.cos t - Real.cos θ * Real.sin φ * Real.sin t| < 999 / 1000)
    (p r : NavOutput ℝ) (hr : r = (rgioeGetResult (runCalls cs (g, d)).2 p).2) :
    Real.sin (rad (r.atti 1)) = Real.sin θ * Real.cos t - Real.cos θ * Real.sin φ * Real.sin t := by
  have e20 : (Rz ψ * Ry θ * Rx φ * Rz t) 2 0 = -(Real.sin θ * Real.cos t - Real.cos θ * Real.sin φ * Real.sin t) := by
    simp [Rz, Ry, Rx, Matrix.mul_apply, Fin.sum_univ_three]; ring
  obtain ⟨-, h⟩ := C123_mounting_accumulates g d cs hs hl hy hp (by rw [hC]; exact isRot_mul (isRot_mul (isRot_Rz _) (isRot_Ry _)) (isRot_Rx _)) hw hne
    (Rz ψ * Ry θ * Rx φ * Rz t) (by rw [hC, ht]) (by rw [e20, abs_neg]; exact hlock) p r hr
  have h20 := congrFun (congrFun h 2) 0
  rw [e20] at h20
  have : (Rz (rad (r.atti 2)) * Ry (rad (r.atti 1)) * Rx (rad (r.atti 0))) 2 0 = -Real.sin (rad (r.atti 1)) := by
    simp [Rz, Ry, Rx, Matrix.mul_apply, Fin.sum_univ_three]
  rw [this] at h20
  linarith

/-- C123, the effect on the start of navigation: the tilt accumulated while waiting is part of the attitude the filter
starts with. -/
theorem C123_starts_tilted (g g1 g2 : ℝ) (d : Dev ℝ) (cs : List (Call ℝ)) (hs : d.status = 2) (hl : d.am.level = true)
    (hy : d.am.yaw = false) (hp : d.am.gnssPre.posStd 0 ≠ 0) (hC : isRot d.am.nav.Cbn)
    (hw : waiting d.am.option d.am.gnssPre cs) (hne : fixesOf cs ≠ []) (C : M3 ℝ)
    (hCn : C = d.am.nav.Cbn * Rz ((fixesOf cs).length * d.am.option.angleBv 2)) (hlock : |C 2 0| < 999 / 1000)
    (f : Gnss ℝ) (m : Imu ℝ) (hm : moving d.am.option ((fixesOf cs).getLastD d.am.gnssPre) f)
    (hdt : f.gpst ≠ ((fixesOf cs).getLastD d.am.gnssPre).gpst) (n : NavEpoch ℝ)
    (hn : n = (rgioeTimeupdate g2 (rgioeGnssupdate g1 (runCalls cs (g, d)).2 (some f)).2.2 (some m)).2.2.df.ins.nav) :
    ∃ r q y, Rz y * Ry q * Rx r = C ∧ n.Cbn = Rz (Complex.arg ⟨n.vn 0, n.vn 1⟩) * Ry q * Rx r * Rz (d.am.option.angleBv 2) := by
  obtain ⟨w, -, ha⟩ := waiting_run cs d.am.gnssPre d.am.nav.Cbn g d ⟨hs, hl, hy, rfl, rfl, hp, rfl⟩ hw
  have ha := ha hne
  rw [← hCn] at ha
  have hR : isRot C := by rw [hCn]; exact isRot_mul hC (isRot_Rz _)
  obtain ⟨-, v2, -⟩ := C89_velocity g1 g2 (runCalls cs (g, d)).2 f m w.st w.level (by rw [w.pre]; exact w.std)
    (by rw [w.opt, w.pre]; exact hm) (by rw [w.pre]; exact hdt) n hn
  refine ⟨dcmToEuler C 0, dcmToEuler C 1, dcmToEuler C 2, ?_, ?_⟩
  · rw [← eulerToDcm_eq]
    exact C40_matrix_round_trip C hR hlock
  · rw [v2, ha, w.opt]

/-- C123, the part that holds: without a mounting yaw angle the fixes leave the reported attitude as levelled. -/
theorem C123_unmounted_partial (g : ℝ) (d : Dev ℝ) (cs : List (Call ℝ)) (hs : d.status = 2) (hl : d.am.level = true)
    (hy : d.am.yaw = false) (hp : d.am.gnssPre.posStd 0 ≠ 0) (hC : d.am.nav.Cbn = eulerToDcm d.am.nav.atti)
    (hw : waiting d.am.option d.am.gnssPre cs) (hmount : d.am.option.angleBv 2 = 0)
    (hroll : d.am.nav.atti 0 ∈ Set.Ioc (-Real.pi) Real.pi) (hyaw : d.am.nav.atti 2 ∈ Set.Ioc (-Real.pi) Real.pi)
    (hpitch : d.am.nav.atti 1 ∈ Set.Ioo (-(Real.pi / 2)) (Real.pi / 2)) (hlock : |Real.sin (d.am.nav.atti 1)| < 999 / 1000)
    (p : NavOutput ℝ) :
    (rgioeGetResult (runCalls cs (g, d)).2 p).2.atti = (rgioeGetResult d p).2.atti := by
  obtain ⟨w, h0, h1⟩ := waiting_run cs d.am.gnssPre d.am.nav.Cbn g d ⟨hs, hl, hy, rfl, rfl, hp, rfl⟩ hw
  have ha : (runCalls cs (g, d)).2.am.nav.atti = d.am.nav.atti := by
    by_cases hf : fixesOf cs = []
    · exact h0 hf
    · rw [h1 hf, hmount, mul_zero, Rz_zero, Matrix.mul_one, hC]
      exact C40_euler_round_trip _ hroll hyaw hpitch hlock
  have hst := w.st
  unfold rgioeGetResult
  rw [hst, hs, ha]
  rfl

/-- A device levelled at pitch 0.1 rad whose sensor is mounted backwards. -/
noncomputable def backwards : Dev ℝ :=
  { leveled with
    am := { leveled.am with
      option := { leveled.am.option with angleBv := v3 0 0 Real.pi }
      nav := { leveled.am.nav with atti := v3 0 (1 / 10) 0, Cbn := Rz 0 * Ry (1 / 10) * Rx 0 } } }

/-- C123, violated: standing still, one fix is enough to report the opposite pitch. -/
theorem C123_pitch_flips : ∃ (d : Dev ℝ) (f : Gnss ℝ) (g : ℝ) (p : NavOutput ℝ), d.status = 2 ∧ ¬ moving d.am.option d.am.gnssPre f ∧
    Real.sin (rad ((rgioeGetResult d p).2.atti 1)) = Real.sin (1 / 10) ∧
    Real.sin (rad ((rgioeGetResult (runCalls [.gnss (some f)] (g, d)).2 p).2.atti 1)) = -Real.sin (1 / 10) := by
  have hpi := Real.pi_ne_zero
  have hmv : ¬ moving backwards.am.option backwards.am.gnssPre (eqFix 0 1) := by
    have hd : displacement (eqFix 0 0) (eqFix 0 1) = ![0, 0, 0] := by rw [eq_displacement]; simp
    have : backwards.am.gnssPre = eqFix 0 0 := rfl
    have ht : backwards.am.option.alignVelThreshold = 0 := rfl
    unfold moving
    rw [this, hd, ht]
    simp [len]
  refine ⟨backwards, eqFix 0 1, 0, backwards.df.output, rfl, hmv, ?_, ?_⟩
  · have : rad ((rgioeGetResult backwards backwards.df.output).2.atti 1) = 1 / 10 := by
      unfold rgioeGetResult
      simp [ST_ALIGN, ST_ATTITUDE, ST_NAVIGATION, vd, deg, rad, backwards, leveled, v3]
      try field_simp
    rw [this]
  · have hlk : |Real.sin (1 / 10)| < 999 / 1000 := by
      have h1 := Real.sin_lt (show (0 : ℝ) < 1 / 10 by norm_num)
      have h2 := Real.sin_pos_of_pos_of_lt_pi (show (0 : ℝ) < 1 / 10 by norm_num) (by linarith [Real.pi_gt_three])
      rw [abs_of_pos h2]; linarith
    have := C123_reported_pitch 0 backwards [.gnss (some (eqFix 0 1))] rfl rfl rfl one_ne_zero 0 (1 / 10) 0 rfl
      (.fix _ _ _ hmv one_ne_zero (.nil _)) (List.cons_ne_nil _ _) Real.pi (by simp [fixesOf, backwards, v3])
      (by simpa using hlk) backwards.df.output _ rfl
    rw [this]
    simp

/-- The hypotheses of C123 are met: standing still with two fixes, then driving off. -/
example : waiting leveled.am.option leveled.am.gnssPre [.gnss (some (eqFix 0 1)), .time (some ⟨1, zero3, zero3⟩), .gnss (some (eqFix 0 2))] ∧
    fixesOf [Call.gnss (some (eqFix 0 1)), .time (some ⟨1, zero3, zero3⟩), .gnss (some (eqFix 0 2))] = [eqFix 0 1, eqFix 0 2] ∧
    moving leveled.am.option (eqFix 0 2) (eqFix 0.001 3) := by
  have hd : ∀ s t, displacement (eqFix 0 s) (eqFix 0 t) = ![0, 0, 0] := by intro s t; rw [eq_displacement]; simp
  have hst : ∀ s t, ¬ moving leveled.am.option (eqFix 0 s) (eqFix 0 t) := by
    intro s t
    have ht : leveled.am.option.alignVelThreshold = 0 := rfl
    unfold moving
    rw [hd, ht]
    simp [len]
  refine ⟨.fix _ _ _ (hst 0 1) one_ne_zero (.sample _ _ _ (.fix _ _ _ (hst 1 2) one_ne_zero (.nil _))), rfl, ?_⟩
  have h3 := Real.pi_gt_three
  have h4 := Real.pi_lt_four
  have ht : leveled.am.option.alignVelThreshold = 0 := rfl
  have hlen : len ![0, rad 0.001 * 6378137, 0] = rad 0.001 * 6378137 := by
    simp only [len, Matrix.cons_val_zero, Matrix.cons_val_one, Matrix.cons_val]
    rw [show (0 : ℝ) ^ 2 + (rad 0.001 * 6378137) ^ 2 + 0 ^ 2 = (rad 0.001 * 6378137) ^ 2 by ring, Real.sqrt_sq]
    unfold rad; positivity
  unfold moving
  rw [eq_displacement, ht, show (![0, (rad 0.001 - rad 0) * 6378137, 0] : V3 ℝ) = ![0, rad 0.001 * 6378137, 0] by simp [rad], hlen]
  unfold rad; constructor <;> nlinarith
end Verif.Props
