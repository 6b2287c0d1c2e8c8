import Verif.Props.Output
import Verif.Spec.Align
import Verif.Props.Perfect
import Verif.Props.Kalman
import Verif.Lemmas.Align
/-! What moving alignment hands to the filter: levelling (C87), position (C88), velocity and heading (C89), initial
uncertainty (C90), gyroscope bias (C91). -/
namespace Verif.Props
open Verif Verif.Spec Verif.Convert Matrix

/-! ## Levelling -/

theorem restForce_eq (γ φ θ ψ : ℝ) :
    restForce γ φ θ ψ = ![γ * Real.sin θ, -(γ * (Real.sin φ * Real.cos θ)), -(γ * (Real.cos φ * Real.cos θ))] := by
  ext i
  fin_cases i <;> simp [restForce, Rz, Ry, Rx, Matrix.mulVec, dotProduct, Fin.sum_univ_three, Matrix.mul_apply, vecHead, vecTail] <;> ring

theorem level_rest (γ φ θ ψ : ℝ) (hγ : 0 < γ) (hφ : φ ∈ Set.Ioo (-(Real.pi / 2)) (Real.pi / 2))
    (hθ : θ ∈ Set.Ioo (-(Real.pi / 2)) (Real.pi / 2)) :
    Align.levelAngles (restForce γ φ θ ψ) = (Real.arcsin (Real.sin φ * Real.cos θ), θ) := by
  have c1 := Real.cos_pos_of_mem_Ioo hφ
  have c2 := Real.cos_pos_of_mem_Ioo hθ
  have hsum : Real.sqrt ((γ * Real.sin θ) * (γ * Real.sin θ) + (-(γ * (Real.sin φ * Real.cos θ))) * (-(γ * (Real.sin φ * Real.cos θ))) +
      (-(γ * (Real.cos φ * Real.cos θ))) * (-(γ * (Real.cos φ * Real.cos θ)))) = γ := by
    have : (γ * Real.sin θ) * (γ * Real.sin θ) + (-(γ * (Real.sin φ * Real.cos θ))) * (-(γ * (Real.sin φ * Real.cos θ))) +
      (-(γ * (Real.cos φ * Real.cos θ))) * (-(γ * (Real.cos φ * Real.cos θ))) = γ ^ 2 := by
      linear_combination γ ^ 2 * Real.sin_sq_add_cos_sq θ + γ ^ 2 * Real.cos θ ^ 2 * Real.sin_sq_add_cos_sq φ
    rw [this, Real.sqrt_sq hγ.le]
  have hsq : sqNorm (restForce γ φ θ ψ) = (γ * Real.sin θ) * (γ * Real.sin θ) + (-(γ * (Real.sin φ * Real.cos θ))) * (-(γ * (Real.sin φ * Real.cos θ))) +
      (-(γ * (Real.cos φ * Real.cos θ))) * (-(γ * (Real.cos φ * Real.cos θ))) := by
    rw [sqNorm_real, restForce_eq, Fin.sum_univ_three]; rfl
  have hpos : 0 < sqNorm (restForce γ φ θ ψ) := by
    rw [hsq]
    have : 0 < γ * (Real.cos φ * Real.cos θ) := by positivity
    nlinarith [mul_self_nonneg (γ * Real.sin θ), mul_self_nonneg (γ * (Real.sin φ * Real.cos θ))]
  have hn : ∀ i, vnormalized (restForce γ φ θ ψ) i = restForce γ φ θ ψ i / γ := by
    intro i
    unfold vnormalized vnorm
    rw [if_pos ((lt_real _ _).2 hpos), sqrt_real, hsq, hsum]
    rfl
  have h2 : ¬ 0 < restForce γ φ θ ψ 2 / γ := by
    rw [restForce_eq]
    show ¬ 0 < -(γ * (Real.cos φ * Real.cos θ)) / γ
    rw [neg_div, mul_div_cancel_left₀ _ hγ.ne']
    have : 0 < Real.cos φ * Real.cos θ := by positivity
    linarith
  unfold Align.levelAngles
  simp only [lt_real, hn, asin_real]
  rw [if_neg h2, restForce_eq]
  show (Real.arcsin (-(γ * (Real.sin φ * Real.cos θ)) / γ) * -1, -Real.arcsin (γ * Real.sin θ / γ) * -1) = _
  rw [neg_div, mul_div_cancel_left₀ _ hγ.ne', mul_div_cancel_left₀ _ hγ.ne', Real.arcsin_neg,
    Real.arcsin_sin hθ.1.le hθ.2.le]
  simp

/-- C87: a vehicle at rest and upright. The IMU sample with which levelling succeeds leaves the exact pitch, but a
roll whose sine is `sin φ cos θ`. -/
theorem C87_levelling (g : ℝ) (d : Dev ℝ) (m : Imu ℝ) (hs : d.status = 1) (hl : d.am.level = false)
    (hst : (d.am.smooth.update m).isStatic = true) (γ φ θ ψ : ℝ) (hγ : 0 < γ)
    (hφ : φ ∈ Set.Ioo (-(Real.pi / 2)) (Real.pi / 2)) (hθ : θ ∈ Set.Ioo (-(Real.pi / 2)) (Real.pi / 2))
    (hf : Ins.compensate (1 / (d.am.option.dRate : ℝ)) (d.am.smooth.update m).ave.acce d.am.option.imuPara.abIni
      d.am.option.imuPara.asIni = restForce γ φ θ ψ)
    (d' : Dev ℝ) (hd : d' = (rgioeTimeupdate g d (some m)).2.2) (p r : NavOutput ℝ) (hr : (rgioeGetResult d' p).2 = r) :
    d'.status = 2 ∧ r.gpst = m.gpst ∧ rad (r.atti 1) = θ ∧
    Real.sin (rad (r.atti 0)) = Real.sin φ * Real.cos θ ∧ rad (r.atti 2) = d.am.nav.atti 2 := by
  have hpi := Real.pi_ne_zero
  have hlv := level_rest γ φ θ ψ hγ hφ hθ
  have hof : (1 / ofI d.am.option.dRate : ℝ) = 1 / (d.am.option.dRate : ℝ) := by simp [ofI]
  have ham : d.am.updateImu m = d'.am ∧ d'.status = 2 ∧ d'.am.nav.gpst = m.gpst ∧
      d'.am.nav.atti = v3 (Real.arcsin (Real.sin φ * Real.cos θ)) θ (d.am.nav.atti 2) := by
    have h1 : (d.am.updateImu m).nav.gpst = m.gpst ∧ (d.am.updateImu m).level = true ∧
        (d.am.updateImu m).nav.atti = v3 (Real.arcsin (Real.sin φ * Real.cos θ)) θ (d.am.nav.atti 2) := by
      unfold Align.updateImu
      simp only [hl, hst, Bool.not_true, Bool.false_eq_true, if_false, hof, hf, hlv]
      exact ⟨trivial, trivial, trivial⟩
    have h2 : d' = { d with am := d.am.updateImu m, status := if (d.am.updateImu m).levelFinished then ST_ATTITUDE else d.status } := by
      rw [hd]; unfold rgioeTimeupdate
      rw [hs]; rfl
    refine ⟨by rw [h2], ?_, by rw [h2]; exact h1.1, by rw [h2]; exact h1.2.2⟩
    rw [h2]
    show (if (d.am.updateImu m).level = true then ST_ATTITUDE else d.status) = 2
    rw [h1.2.1]; rfl
  obtain ⟨-, h2, h3, h4⟩ := ham
  have hres : r.gpst = d'.am.nav.gpst ∧ ∀ i, r.atti i = d'.am.nav.atti i / (Real.pi / 180) := by
    rw [← hr]
    unfold rgioeGetResult
    rw [h2]
    refine ⟨rfl, fun i => ?_⟩
    simp [ST_ALIGN, ST_ATTITUDE, ST_NAVIGATION, vd, deg]
  have hrad : ∀ i, rad (r.atti i) = d'.am.nav.atti i := fun i => by rw [hres.2 i, rad]; field_simp
  refine ⟨h2, by rw [hres.1, h3], by rw [hrad, h4]; rfl, ?_, by rw [hrad, h4]; rfl⟩
  rw [hrad, h4]
  show Real.sin (Real.arcsin _) = _
  have b1 := Real.abs_sin_le_one φ
  have b2 := Real.abs_cos_le_one θ
  have b3 : |Real.sin φ * Real.cos θ| ≤ 1 := by
    rw [abs_mul]; exact mul_le_one₀ b1 (abs_nonneg _) b2
  exact Real.sin_arcsin (abs_le.1 b3).1 (abs_le.1 b3).2

/-- C87, violated: the reported roll is the true one only if roll or pitch is zero. -/
theorem C87_roll_right_iff (φ θ x : ℝ) (hφ : φ ∈ Set.Ioo (-(Real.pi / 2)) (Real.pi / 2))
    (hθ : θ ∈ Set.Ioo (-(Real.pi / 2)) (Real.pi / 2)) (hx : x ∈ Set.Icc (-(Real.pi / 2)) (Real.pi / 2))
    (h : Real.sin x = Real.sin φ * Real.cos θ) : x = φ ↔ φ = 0 ∨ θ = 0 := by
  constructor
  · rintro rfl
    have h1 : Real.sin x * (1 - Real.cos θ) = 0 := by linarith
    rcases mul_eq_zero.1 h1 with h2 | h2
    · left
      by_contra hne
      rcases lt_or_gt_of_ne hne with h3 | h3
      · exact absurd h2 (Real.sin_neg_of_neg_of_neg_pi_lt h3 (by linarith [hφ.1, Real.pi_pos])).ne
      · exact absurd h2 (Real.sin_pos_of_pos_of_lt_pi h3 (by linarith [hφ.2, Real.pi_pos])).ne'
    · right
      have h3 : Real.cos θ = 1 := by linarith
      rwa [Real.cos_eq_one_iff_of_lt_of_lt (by linarith [hθ.1, Real.pi_pos]) (by linarith [hθ.2, Real.pi_pos])] at h3
  · intro h1
    have h2 : Real.sin x = Real.sin φ := by
      rcases h1 with rfl | rfl
      · simpa using h
      · simpa using h
    exact Real.injOn_sin hx ⟨hφ.1.le, hφ.2.le⟩ h2

/-- C87's hypotheses are met: at rest, a sample after which the detector says static, force of a level vehicle in
gravity 9.8. -/
example : ∃ (d : Dev ℝ) (m : Imu ℝ), d.status = 1 ∧ d.am.level = false ∧ (d.am.smooth.update m).isStatic = true ∧
    Ins.compensate (1 / (d.am.option.dRate : ℝ)) (d.am.smooth.update m).ave.acce d.am.option.imuPara.abIni
      d.am.option.imuPara.asIni = restForce 9.8 0 0 0 := by
  refine ⟨{ (Ex.zDev : Dev ℝ) with status := 1, am := { (Ex.zAlign : Align ℝ) with option := Ex.opt 0, smooth := { Smooth.new 1000 0 1 with staticCnt := 5 } } },
    ⟨0, zero3, ![0, 0, -9.8]⟩, rfl, rfl, ?_, ?_⟩
  · rw [smooth_static]
    have hw : (Smooth.new (1000 : ℝ) 0 1).staticWidth = 0 := rfl
    have : 0 < (({ Smooth.new (1000 : ℝ) 0 1 with staticCnt := 5 } : Smooth ℝ).update ⟨0, zero3, ![0, 0, -9.8]⟩).staticCnt := by
      rw [smooth_cnt]
      rw [if_neg]
      · decide
      · rw [lt_real, not_lt]
        unfold Smooth.getStd
        simp [Smooth.update, Smooth.new, Smooth.stepVar, Smooth.stepAve, Smooth.zeroImu, zero3, ofI]
        try norm_num
    simpa [hw] using this
  · ext i
    rw [restForce_eq, C69_compensation]
    fin_cases i <;> simp [Smooth.update, Smooth.new, Smooth.stepAve, Ex.opt, Fusion.zeroOpt, zero3, v3, ofI, Smooth.zeroImu]

/-! ## From the last fix to navigation -/

theorem distance_eq (a b : Gnss ℝ) : Earth.distance6 (b.lat * deg) (b.lon * deg) (a.lat * deg) (a.lon * deg) b.height a.height = displacement a b := by
  have hd : (deg : ℝ) = Real.pi / 180 := by simp [deg]
  have h2 : ∀ x y : ℝ, x / 2 + y / 2 = (x + y) / 2 := fun x y => by ring
  unfold Earth.distance6 Earth.dN3 Earth.dE4 displacement rad
  simp only [hd, rM_eq, rN_eq, lit_real, cos_real, Rat.cast_ofNat, h2]
  ext i; fin_cases i <;> simp [v3]
  ring

/-- The horizontal speed test of the alignment. -/
def moving (o : Opt ℝ) (a b : Gnss ℝ) : Prop := o.alignVelThreshold < len (displacement a b) ∧ len (displacement a b) < 1000

theorem vnorm_len (v : V3 ℝ) : vnorm v = len v := by
  unfold vnorm len
  rw [sqNorm_real, Fin.sum_univ_three, sqrt_real, sq, sq, sq]

theorem yaw_moving (a : Align ℝ) (fix : Gnss ℝ) (h : moving a.option a.gnssPre fix) (hdt : fix.gpst ≠ a.gnssPre.gpst) (v : V3 ℝ)
    (hv : v = (3 / 2 : ℝ) • displacement a.gnssPre fix - (1 / 2 : ℝ) • a.vnPre) :
    (a.yawStep fix).yaw = true ∧ (a.yawStep fix).level = a.level ∧ (a.yawStep fix).option = a.option ∧
    (a.yawStep fix).gnssPre = a.gnssPre ∧ (a.yawStep fix).vnPre = displacement a.gnssPre fix ∧
    (a.yawStep fix).nav.vn = v ∧ (a.yawStep fix).nav.velStd = (fun _ => 3 / 10) ∧
    (a.yawStep fix).nav.Cbn = eulerToDcm (v3 (a.nav.atti 0) (a.nav.atti 1) (Complex.arg ⟨v 0, v 1⟩)) := by
  have hdt' : fix.gpst - a.gnssPre.gpst ≠ 0 := sub_ne_zero.2 hdt
  have hvel : displacement a.gnssPre fix + vd (vs (vd (displacement a.gnssPre fix - a.vnPre) (fix.gpst - a.gnssPre.gpst)) (fix.gpst - a.gnssPre.gpst)) (Fl.lit 2) = v := by
    rw [hv]
    funext i
    simp only [Pi.add_apply, Pi.sub_apply, Pi.smul_apply, smul_eq_mul, vd, vs, lit_real]
    push_cast
    field_simp
    ring
  unfold Align.yawStep
  dsimp only
  rw [distance_eq, vnorm_len]
  have hc : (Fl.lt a.option.alignVelThreshold (Fl.f32 (len (displacement a.gnssPre fix))) &&
      Fl.lt (Fl.f32 (len (displacement a.gnssPre fix))) (Fl.lit 1000)) = true := by
    simp only [Bool.and_eq_true, lt_real, f32_real, lit_real]
    exact ⟨h.1, by push_cast; exact h.2⟩
  rw [if_pos hc, hvel]
  refine ⟨rfl, rfl, rfl, rfl, rfl, rfl, ?_, rfl⟩
  funext i; simp

theorem gnss_align (g : ℝ) (d : Dev ℝ) (fix : Gnss ℝ) (hs : d.status = 2) (hp : d.am.gnssPre.posStd 0 ≠ 0) :
    (rgioeGnssupdate g d (some fix)).2.2 = { d with am := (d.am.yawStep fix).fixStep fix } := by
  unfold rgioeGnssupdate
  dsimp only
  rw [if_neg (by rw [hs]; decide), if_pos (show d.status = ST_ALIGN ∨ d.status = ST_ATTITUDE from Or.inr hs)]
  unfold Align.updateGnss
  rw [if_neg (by rw [eq_real]; exact hp)]

/-- When both flags are set the next sample starts the filter from the alignment's epoch. -/
theorem align_start (g : ℝ) (d : Dev ℝ) (m : Imu ℝ) (hs : d.status = 2) (hl : d.am.level = true) (hy : d.am.yaw = true) :
    (rgioeTimeupdate g d (some m)).2.2.status = 3 ∧ (rgioeTimeupdate g d (some m)).2.2.df.opt = d.opt ∧
    (rgioeTimeupdate g d (some m)).2.2.df.ins.nav = { d.am.nav with gpst := m.gpst, kd := d.opt.odoScale } ∧
    (rgioeTimeupdate g d (some m)).2.2.df = (d.df.initFusion g { d.am.nav with gpst := m.gpst } d.opt).2 := by
  have h1 : (d.am.updateImu m).nav = { d.am.nav with gpst := m.gpst } ∧ (d.am.updateImu m).alignFinished = true := by
    unfold Align.updateImu Align.alignFinished
    simp [hl, hy]
  have h2 : (rgioeTimeupdate g d (some m)).2.2 =
      { d with am := d.am.updateImu m, df := (d.df.initFusion g (d.am.updateImu m).nav d.opt).2, status := ST_NAVIGATION } := by
    unfold rgioeTimeupdate
    dsimp only
    rw [if_neg (by rw [hs]; decide), if_neg (by rw [hs]; decide), if_pos (by rw [hs]; rfl), if_pos h1.2]
  rw [h2]
  refine ⟨rfl, rfl, ?_, ?_⟩
  · show { (d.am.updateImu m).nav with kd := d.opt.odoScale } = _
    rw [h1.1]
  · show (d.df.initFusion g (d.am.updateImu m).nav d.opt).2 = _
    rw [h1.1]

theorem eulerToDcm_yaw (t : ℝ) : eulerToDcm (v3 0 0 t) = Rz t := by
  rw [eulerToDcm_eq]
  have h1 : Ry ((v3 0 0 t : V3 ℝ) 1) = 1 := by
    show Ry 0 = 1
    ext i j; fin_cases i <;> fin_cases j <;> simp [Ry]
  have h0 : Rx ((v3 0 0 t : V3 ℝ) 0) = 1 := by
    show Rx 0 = 1
    ext i j; fin_cases i <;> fin_cases j <;> simp [Rx]
  rw [h1, h0, Matrix.mul_one, Matrix.mul_one]; rfl

/-- C88: a fix while levelled, then an IMU sample that starts navigation. The position of the filter is the fix
displaced by minus the lever arm, in metres north, east and up, where the lever arm is rotated by the attitude of the
filter with the mounting angle taken out. -/
theorem C88_position (g g1 : ℝ) (d : Dev ℝ) (fix : Gnss ℝ) (m : Imu ℝ) (hs : d.status = 2) (hl : d.am.level = true)
    (hp : d.am.gnssPre.posStd 0 ≠ 0) (ho : d.am.option = d.opt) (d1 d2 : Dev ℝ) (h1 : d1 = (rgioeGnssupdate g d (some fix)).2.2)
    (hy : d1.am.yaw = true) (h2 : d2 = (rgioeTimeupdate g1 d1 (some m)).2.2) (n : NavEpoch ℝ) (hn : n = d2.df.ins.nav)
    (hreg : Regular (rad fix.lat) fix.height) (l : V3 ℝ)
    (hlv : l = n.Cbn *ᵥ ((Rz (d.opt.angleBv 2))ᵀ *ᵥ d.opt.lbGnss)) :
    d2.status = 3 ∧ (rad fix.lat - n.pos 0) * (rM (rad fix.lat) + fix.height) = l 0 ∧
    (rad fix.lon - n.pos 1) * ((rN (rad fix.lat) + fix.height) * Real.cos (rad fix.lat)) = l 1 ∧
    n.pos 2 - fix.height = l 2 := by
  have e1 := gnss_align g d fix hs hp
  rw [e1] at h1
  have hopt : (d.am.yawStep fix).option = d.am.option := by
    unfold Align.yawStep; dsimp only; split_ifs <;> rfl
  have hlev : (d.am.yawStep fix).level = d.am.level := by
    unfold Align.yawStep; dsimp only; split_ifs <;> rfl
  obtain ⟨a1, -, a3, -⟩ := align_start g1 d1 m (by rw [h1]; exact hs) (by rw [h1]; show (d.am.yawStep fix).level = true; rw [hlev, hl]) hy
  rw [← h2] at a1 a3
  refine ⟨a1, ?_⟩
  have hm := hreg.m.ne'
  have hnn := hreg.n.ne'
  have hc := hreg.cos.ne'
  set C := (d.am.yawStep fix).nav.Cbn with hC
  have eC : n.Cbn = C * Rz (d.opt.angleBv 2) := by
    rw [hn, a3, h1]
    show mmul (d.am.yawStep fix).nav.Cbn (eulerToDcm (v3 0 0 ((d.am.yawStep fix).option.angleBv 2))) = _
    rw [mmul_real, eulerToDcm_yaw, hopt, ho]
  have el : l = C *ᵥ d.opt.lbGnss := by
    rw [hlv, eC, Matrix.mulVec_mulVec, Matrix.mul_assoc, (isRot_Rz _).1, Matrix.mul_one]
  have hd : (deg : ℝ) = Real.pi / 180 := by simp [deg]
  have epos : ∀ i, n.pos i = (![rad fix.lat, rad fix.lon, fix.height] : V3 ℝ) i -
      (![1 / (rM (rad fix.lat) + fix.height), 1 / ((rN (rad fix.lat) + fix.height) * Real.cos (rad fix.lat)), -1] : V3 ℝ) i * l i := by
    intro i
    rw [hn, a3, h1]
    show (v3 (fix.lat * deg) (fix.lon * deg) fix.height - mvec (diagM (v3 (1 / (Earth.RM (fix.lat * deg) + fix.height))
      (1 / ((Earth.RN (fix.lat * deg) + fix.height) * Fl.cos (fix.lat * deg))) (-1)))
      (mvec (d.am.yawStep fix).nav.Cbn (d.am.yawStep fix).option.lbGnss)) i = _
    rw [hopt, ho, mvec_real, mvec_real, diagM_real, ← hC, ← el, Pi.sub_apply, Matrix.mulVec_diagonal, rM_eq, rN_eq, hd]
    rfl
  rw [epos 0, epos 1, epos 2]
  simp only [Matrix.cons_val_zero, Matrix.cons_val_one, Matrix.cons_val]
  refine ⟨?_, ?_, by ring⟩
  · field_simp; ring
  · field_simp; ring

/-- C88: without a mounting yaw angle the antenna (filter position plus lever arm rotated by the filter's attitude)
is exactly at the fix. -/
theorem C88_antenna_at_fix_partial (g g1 : ℝ) (d : Dev ℝ) (fix : Gnss ℝ) (m : Imu ℝ) (hs : d.status = 2) (hl : d.am.level = true)
    (hp : d.am.gnssPre.posStd 0 ≠ 0) (ho : d.am.option = d.opt) (d1 d2 : Dev ℝ) (h1 : d1 = (rgioeGnssupdate g d (some fix)).2.2)
    (hy : d1.am.yaw = true) (h2 : d2 = (rgioeTimeupdate g1 d1 (some m)).2.2) (n : NavEpoch ℝ) (hn : n = d2.df.ins.nav)
    (hreg : Regular (rad fix.lat) fix.height) (hmount : d.opt.angleBv 2 = 0) (l : V3 ℝ) (hlv : l = n.Cbn *ᵥ d.opt.lbGnss) :
    (rad fix.lat - n.pos 0) * (rM (rad fix.lat) + fix.height) = l 0 ∧
    (rad fix.lon - n.pos 1) * ((rN (rad fix.lat) + fix.height) * Real.cos (rad fix.lat)) = l 1 ∧ n.pos 2 - fix.height = l 2 := by
  have h0 : Rz 0 = 1 := by ext i j; fin_cases i <;> fin_cases j <;> simp [Rz]
  exact (C88_position g g1 d fix m hs hl hp ho d1 d2 h1 hy h2 n hn hreg l
    (by rw [hlv, hmount, h0, Matrix.transpose_one, Matrix.one_mulVec])).2

/-- C88, violated: with a mounting yaw angle (not a multiple of a full turn) and a horizontal lever arm the antenna
is not at the fix. -/
theorem C88_mounting_misplaces (g g1 : ℝ) (d : Dev ℝ) (fix : Gnss ℝ) (m : Imu ℝ) (hs : d.status = 2) (hl : d.am.level = true)
    (hp : d.am.gnssPre.posStd 0 ≠ 0) (ho : d.am.option = d.opt) (d1 d2 : Dev ℝ) (h1 : d1 = (rgioeGnssupdate g d (some fix)).2.2)
    (hy : d1.am.yaw = true) (h2 : d2 = (rgioeTimeupdate g1 d1 (some m)).2.2) (n : NavEpoch ℝ) (hn : n = d2.df.ins.nav)
    (hreg : Regular (rad fix.lat) fix.height) (hrot : isRot n.Cbn) (hmount : Real.cos (d.opt.angleBv 2) ≠ 1)
    (hlb : d.opt.lbGnss 0 ≠ 0 ∨ d.opt.lbGnss 1 ≠ 0) (l : V3 ℝ) (hlv : l = n.Cbn *ᵥ d.opt.lbGnss) :
    ¬ ((rad fix.lat - n.pos 0) * (rM (rad fix.lat) + fix.height) = l 0 ∧
      (rad fix.lon - n.pos 1) * ((rN (rad fix.lat) + fix.height) * Real.cos (rad fix.lat)) = l 1 ∧ n.pos 2 - fix.height = l 2) := by
  rintro ⟨p0, p1, p2⟩
  obtain ⟨-, q0, q1, q2⟩ := C88_position g g1 d fix m hs hl hp ho d1 d2 h1 hy h2 n hn hreg _ rfl
  set t := d.opt.angleBv 2
  set b := d.opt.lbGnss
  have e : n.Cbn *ᵥ ((Rz t)ᵀ *ᵥ b) = n.Cbn *ᵥ b := by
    rw [← hlv]
    funext i
    fin_cases i
    · exact q0.symm.trans p0
    · exact q1.symm.trans p1
    · exact q2.symm.trans p2
  have e2 : (Rz t)ᵀ *ᵥ b = b := by
    have := congrArg (fun v => n.Cbnᵀ *ᵥ v) e
    simpa only [Matrix.mulVec_mulVec, ← Matrix.mul_assoc, hrot.2.1, Matrix.one_mul, Matrix.one_mulVec] using this
  have x0 := congrFun e2 0
  have x1 := congrFun e2 1
  simp [Rz, Matrix.mulVec, dotProduct, Fin.sum_univ_three, vecHead, vecTail] at x0 x1
  have hsc := Real.sin_sq_add_cos_sq t
  have k0 : b 0 ^ 2 + b 1 ^ 2 = Real.cos t * (b 0 ^ 2 + b 1 ^ 2) := by
    linear_combination (-b 0) * x0 - b 1 * x1
  have hpos : 0 < b 0 ^ 2 + b 1 ^ 2 := by
    rcases hlb with h | h
    · have := sq_pos_of_ne_zero h; positivity
    · have := sq_pos_of_ne_zero h; positivity
  apply hmount
  have : (1 - Real.cos t) * (b 0 ^ 2 + b 1 ^ 2) = 0 := by linarith
  rcases mul_eq_zero.1 this with h | h
  · linarith
  · exact absurd h hpos.ne'

/-! ## Velocity and heading -/

/-- C89: the velocity and attitude the filter starts with when the last fix passes the speed test: one and a half
times the last displacement minus half the previous one (north, east, *up*, metres, not divided by time); the attitude
is the levelled roll and pitch, the course of that velocity, and the mounting yaw. -/
theorem C89_velocity (g g1 : ℝ) (d : Dev ℝ) (fix : Gnss ℝ) (m : Imu ℝ) (hs : d.status = 2) (hl : d.am.level = true)
    (hp : d.am.gnssPre.posStd 0 ≠ 0) (hm : moving d.am.option d.am.gnssPre fix) (hdt : fix.gpst ≠ d.am.gnssPre.gpst)
    (n : NavEpoch ℝ) (hn : n = (rgioeTimeupdate g1 (rgioeGnssupdate g d (some fix)).2.2 (some m)).2.2.df.ins.nav) :
    n.vn = (3 / 2 : ℝ) • displacement d.am.gnssPre fix - (1 / 2 : ℝ) • d.am.vnPre ∧
    n.Cbn = Rz (Complex.arg ⟨n.vn 0, n.vn 1⟩) * Ry (d.am.nav.atti 1) * Rx (d.am.nav.atti 0) * Rz (d.am.option.angleBv 2) ∧
    n.gpst = m.gpst := by
  obtain ⟨y1, y2, y3, -, -, y6, -, y8⟩ := yaw_moving d.am fix hm hdt _ rfl
  have e1 := gnss_align g d fix hs hp
  rw [e1] at hn
  obtain ⟨a1, -, a3, -⟩ := align_start g1 { d with am := (d.am.yawStep fix).fixStep fix } m hs (by show (d.am.yawStep fix).level = true; rw [y2, hl])
    (by show (d.am.yawStep fix).yaw = true; exact y1)
  rw [a3] at hn
  have ev : n.vn = (3 / 2 : ℝ) • displacement d.am.gnssPre fix - (1 / 2 : ℝ) • d.am.vnPre := by rw [hn]; exact y6
  refine ⟨ev, ?_, by rw [hn]⟩
  rw [ev, hn]
  show mmul (d.am.yawStep fix).nav.Cbn (eulerToDcm (v3 0 0 ((d.am.yawStep fix).option.angleBv 2))) = _
  rw [mmul_real, eulerToDcm_yaw, y3, y8, eulerToDcm_eq]
  rfl

/-- C89: after a fix the alignment remembers the displacement it saw, so that the formula above can be chained. -/
theorem C89_remembers (g : ℝ) (d : Dev ℝ) (fix : Gnss ℝ) (hs : d.status = 2) (hp : d.am.gnssPre.posStd 0 ≠ 0) (d1 : Dev ℝ)
    (h1 : d1 = (rgioeGnssupdate g d (some fix)).2.2) :
    d1.am.vnPre = displacement d.am.gnssPre fix ∧ d1.am.gnssPre = fix ∧ d1.status = 2 ∧ d1.am.level = d.am.level ∧ d1.am.option = d.am.option := by
  rw [gnss_align g d fix hs hp] at h1
  rw [h1]
  refine ⟨?_, rfl, hs, ?_, ?_⟩
  · show (d.am.yawStep fix).vnPre = _
    unfold Align.yawStep
    dsimp only
    rw [distance_eq]
    split_ifs <;> rfl
  · show (d.am.yawStep fix).level = _
    unfold Align.yawStep
    dsimp only
    split_ifs <;> rfl
  · show (d.am.yawStep fix).option = _
    unfold Align.yawStep
    dsimp only
    split_ifs <;> rfl

/-- Three fixes of a uniform motion with velocity `V` (north, east, down), `dt` seconds apart. -/
def uniform (V : V3 ℝ) (dt : ℝ) (a b c : Gnss ℝ) : Prop :=
  b.gpst = a.gpst + dt ∧ c.gpst = b.gpst + dt ∧ displacement a b = dt • ![V 0, V 1, -V 2] ∧ displacement b c = dt • ![V 0, V 1, -V 2]

/-- C89, exactly: after three fixes of a uniform motion the filter starts with `dt` times the horizontal velocity and
minus `dt` times the vertical velocity; this is the true velocity only for fixes one second apart and level motion.
The heading is the course. -/
theorem C89_uniform_motion (g g1 g2 : ℝ) (d : Dev ℝ) (f1 f2 : Gnss ℝ) (m : Imu ℝ) (hs : d.status = 2) (hl : d.am.level = true)
    (hp : d.am.gnssPre.posStd 0 ≠ 0) (hp1 : f1.posStd 0 ≠ 0) (hm : moving d.am.option f1 f2)
    (V : V3 ℝ) (dt : ℝ) (hdt : 0 < dt) (hu : uniform V dt d.am.gnssPre f1 f2) (hh : 0 < V 0 ^ 2 + V 1 ^ 2)
    (n : NavEpoch ℝ)
    (hn : n = (rgioeTimeupdate g2 (rgioeGnssupdate g1 (rgioeGnssupdate g d (some f1)).2.2 (some f2)).2.2 (some m)).2.2.df.ins.nav) :
    n.vn = dt • ![V 0, V 1, -V 2] ∧
    (n.vn = V ↔ dt = 1 ∧ V 2 = 0) ∧
    (∃ ψ φ θ, Real.cos ψ * Real.sqrt (V 0 ^ 2 + V 1 ^ 2) = V 0 ∧ Real.sin ψ * Real.sqrt (V 0 ^ 2 + V 1 ^ 2) = V 1 ∧
      n.Cbn = Rz ψ * Ry θ * Rx φ * Rz (d.am.option.angleBv 2)) := by
  obtain ⟨t1, t2, u1, u2⟩ := hu
  obtain ⟨r1, r2, r3, r4, r5⟩ := C89_remembers g d f1 hs hp _ rfl
  set d1 := (rgioeGnssupdate g d (some f1)).2.2 with hd1
  obtain ⟨v1, v2, -⟩ := C89_velocity g1 g2 d1 f2 m r3 (by rw [r4, hl]) (by rw [r2]; exact hp1) (by rw [r2, r5]; exact hm)
    (by rw [r2, t2]; linarith) n hn
  have ev : n.vn = dt • ![V 0, V 1, -V 2] := by
    rw [v1, r1, r2, u1, u2, ← sub_smul]
    norm_num
  have hsq : 0 < Real.sqrt (V 0 ^ 2 + V 1 ^ 2) := Real.sqrt_pos.2 hh
  refine ⟨ev, ?_, Complex.arg ⟨n.vn 0, n.vn 1⟩, d1.am.nav.atti 0, d1.am.nav.atti 1, ?_, ?_, by rw [v2, r5]⟩
  · rw [ev]
    constructor
    · intro h
      have h0 := congrFun h 0
      have h1 := congrFun h 1
      have h2 := congrFun h 2
      simp at h0 h1 h2
      have hd1 : dt = 1 := by
        have h3 : (dt - 1) * (V 0 ^ 2 + V 1 ^ 2) = 0 := by linear_combination V 0 * h0 + V 1 * h1
        rcases mul_eq_zero.1 h3 with h3 | h3
        · linarith
        · exact absurd h3 hh.ne'
      refine ⟨hd1, ?_⟩
      rw [hd1] at h2
      linarith
    · rintro ⟨rfl, h2⟩
      ext i; fin_cases i <;> simp [h2]
  all_goals
    obtain ⟨c1, c2⟩ := polar_arg (n.vn 0) (n.vn 1) (dt * Real.sqrt (V 0 ^ 2 + V 1 ^ 2)) (by positivity) (by
      rw [ev, mul_pow, Real.sq_sqrt hh.le]; simp; ring)
  · rw [c1, ev]; simp; field_simp
  · rw [c2, ev]; simp; field_simp

/-! ## Initial uncertainty and biases -/

/-- C90: when the last fix passes the speed test, the reported position deviation is that of the fix, the velocity
deviation the sum of those of the two fixes, and the attitude deviation (radians) is 0.3 divided by the position
deviation of the fix. -/
theorem C90_deviations (g g1 : ℝ) (d : Dev ℝ) (fix : Gnss ℝ) (m : Imu ℝ) (hs : d.status = 2) (hl : d.am.level = true)
    (hp : d.am.gnssPre.posStd 0 ≠ 0) (hm : moving d.am.option d.am.gnssPre fix) (hdt : fix.gpst ≠ d.am.gnssPre.gpst)
    (hstd : ∀ i, 0 < fix.posStd i) (hstd' : ∀ i, 0 ≤ d.am.gnssPre.posStd i) (p r : NavOutput ℝ)
    (hr : r = (rgioeGetResult (rgioeTimeupdate g1 (rgioeGnssupdate g d (some fix)).2.2 (some m)).2.2 p).2) (i : Fin 3) :
    r.posStd i = fix.posStd i ∧ r.vnStd i = fix.posStd i + d.am.gnssPre.posStd i ∧ r.attiStd i = 0.3 / fix.posStd i := by
  obtain ⟨y1, y2, y3, y4, -, -, y7, -⟩ := yaw_moving d.am fix hm hdt _ rfl
  have e1 := gnss_align g d fix hs hp
  rw [e1] at hr
  obtain ⟨a1, -, -, a4⟩ := align_start g1 { d with am := (d.am.yawStep fix).fixStep fix } m hs (by show (d.am.yawStep fix).level = true; rw [y2, hl])
    (by show (d.am.yawStep fix).yaw = true; exact y1)
  rw [nav_result _ a1, a4] at hr
  obtain ⟨c, -⟩ := C68_initial_covariance g1 d.df { ((d.am.yawStep fix).fixStep fix).nav with gpst := m.gpst } d.opt
  obtain ⟨c1, c2, c3, -⟩ := c i
  unfold fstart at c1 c2 c3
  have hi := hstd i
  have hi' := hstd' i
  refine ⟨?_, ?_, ?_⟩
  · rw [hr]
    refine (congrArg Real.sqrt c1).trans ?_
    exact Real.sqrt_sq hi.le
  · rw [hr]
    refine (congrArg Real.sqrt c2).trans ?_
    show Real.sqrt ((fix.posStd i + (d.am.yawStep fix).gnssPre.posStd i) ^ 2) = _
    rw [y4]
    exact Real.sqrt_sq (by linarith)
  · rw [hr]
    refine (congrArg Real.sqrt c3).trans ?_
    show Real.sqrt (((d.am.yawStep fix).nav.velStd i / fix.posStd i) ^ 2) = _
    rw [y7, Real.sqrt_sq (by positivity)]
    norm_num

/-- C90, violated: of two otherwise equal last fixes, the less precise one makes the reported initial attitude
*more* precise. -/
theorem C90_worse_fix_better_attitude (g g1 : ℝ) (d : Dev ℝ) (fix fix' : Gnss ℝ) (m : Imu ℝ) (hs : d.status = 2) (hl : d.am.level = true)
    (hp : d.am.gnssPre.posStd 0 ≠ 0) (hm : moving d.am.option d.am.gnssPre fix) (hdt : fix.gpst ≠ d.am.gnssPre.gpst)
    (hstd : ∀ i, 0 < fix.posStd i) (hstd' : ∀ i, 0 ≤ d.am.gnssPre.posStd i) (s' : V3 ℝ) (hfix : fix' = { fix with posStd := s' })
    (i : Fin 3) (hworse : ∀ i, fix.posStd i < s' i) (p : NavOutput ℝ) :
    (rgioeGetResult (rgioeTimeupdate g1 (rgioeGnssupdate g d (some fix')).2.2 (some m)).2.2 p).2.attiStd i <
    (rgioeGetResult (rgioeTimeupdate g1 (rgioeGnssupdate g d (some fix)).2.2 (some m)).2.2 p).2.attiStd i := by
  have hi := hstd i
  have hw := hworse i
  rw [(C90_deviations g g1 d fix m hs hl hp hm hdt hstd hstd' p _ rfl i).2.2,
    (C90_deviations g g1 d fix' m hs hl hp (by rw [hfix]; exact hm) (by rw [hfix]; exact hdt)
      (fun k => by rw [hfix]; exact (hstd k).trans (hworse k)) hstd' p _ rfl i).2.2, hfix]
  show 0.3 / s' i < 0.3 / fix.posStd i
  gcongr

/-- C91: when navigation starts right after a fix, the filter uses the configured biases and scale factors. -/
theorem C91_configured_biases (g g1 : ℝ) (d : Dev ℝ) (fix : Gnss ℝ) (m : Imu ℝ) (hs : d.status = 2) (hl : d.am.level = true)
    (hp : d.am.gnssPre.posStd 0 ≠ 0) (ho : d.am.option = d.opt) (d1 d2 : Dev ℝ) (h1 : d1 = (rgioeGnssupdate g d (some fix)).2.2)
    (hy : d1.am.yaw = true) (h2 : d2 = (rgioeTimeupdate g1 d1 (some m)).2.2) (n : NavEpoch ℝ) (hn : n = d2.df.ins.nav) :
    n.gb = d.opt.imuPara.gbIni ∧ n.ab = d.opt.imuPara.abIni ∧ n.gs = d.opt.imuPara.gsIni ∧ n.as = d.opt.imuPara.asIni ∧
    n.kd = d.opt.odoScale ∧ n.info.gnssMode = BitVec.ofInt 16 fix.mode := by
  have e1 := gnss_align g d fix hs hp
  rw [e1] at h1
  have hopt : (d.am.yawStep fix).option = d.am.option := by
    unfold Align.yawStep; dsimp only; split_ifs <;> rfl
  have hlev : (d.am.yawStep fix).level = d.am.level := by
    unfold Align.yawStep; dsimp only; split_ifs <;> rfl
  obtain ⟨a1, -, a3, -⟩ := align_start g1 d1 m (by rw [h1]; exact hs) (by rw [h1]; show (d.am.yawStep fix).level = true; rw [hlev, hl]) hy
  rw [← h2] at a3
  rw [hn, a3, h1]
  have k : ∀ (F : Opt ℝ → V3 ℝ), F (d.am.yawStep fix).option = F d.opt := fun F => by rw [hopt, ho]
  exact ⟨k (·.imuPara.gbIni), k (·.imuPara.abIni), k (·.imuPara.gsIni), k (·.imuPara.asIni), rfl, rfl⟩

/-- C91, the other order: when levelling succeeds after the heading is known, the mean rotation rate at rest becomes
the gyroscope bias. -/
theorem C91_static_bias (g g1 : ℝ) (d : Dev ℝ) (m m' : Imu ℝ) (hs : d.status = 1) (hl : d.am.level = false)
    (hst : (d.am.smooth.update m).isStatic = true) (hy : d.am.yaw = true) (d1 d2 : Dev ℝ)
    (h1 : d1 = (rgioeTimeupdate g d (some m)).2.2) (h2 : d2 = (rgioeTimeupdate g1 d1 (some m')).2.2) :
    d2.status = 3 ∧ ∀ i, d2.df.ins.nav.gb i = (d.am.smooth.update m).ave.gyro i * d.am.option.dRate := by
  have hA : (d.am.updateImu m).level = true ∧ (d.am.updateImu m).yaw = d.am.yaw ∧
      (d.am.updateImu m).nav.gb = vs (d.am.smooth.update m).ave.gyro (ofI d.am.option.dRate) := by
    unfold Align.updateImu
    simp only [hl, hst, Bool.not_true, Bool.false_eq_true, if_false]
    exact ⟨trivial, trivial, trivial⟩
  have hd1 : d1 = { d with am := d.am.updateImu m, status := if (d.am.updateImu m).levelFinished then ST_ATTITUDE else d.status } := by
    rw [h1]; unfold rgioeTimeupdate
    rw [hs]; rfl
  have hs1 : d1.status = 2 := by
    rw [hd1]
    show (if (d.am.updateImu m).level = true then ST_ATTITUDE else d.status) = 2
    rw [hA.1]; rfl
  obtain ⟨a1, -, a3, -⟩ := align_start g1 d1 m' hs1 (by rw [hd1]; exact hA.1) (by rw [hd1]; exact hA.2.1.trans hy)
  rw [← h2] at a1 a3
  refine ⟨a1, fun i => ?_⟩
  rw [a3, hd1]
  show (d.am.updateImu m).nav.gb i = _
  rw [hA.2.2]
  simp [vs, ofI]

/-! ## The hypotheses can be met -/

/-- A fix on the equator. -/
noncomputable def eqFix (lon t : ℝ) : Gnss ℝ := { lat := 0, lon := lon, height := 0, posStd := fun _ => 1, gpst := t, mode := 4 }
/-- A levelled device that has seen one fix. -/
noncomputable def leveled : Dev ℝ :=
  { (Ex.zDev : Dev ℝ) with
    status := 2
    opt := { (Ex.opt 0 : Opt ℝ) with lbGnss := v3 1 0 0, angleBv := v3 0 0 1 }
    am := { (Ex.zAlign : Align ℝ) with level := true, gnssPre := eqFix 0 0, option := { (Ex.opt 0 : Opt ℝ) with lbGnss := v3 1 0 0, angleBv := v3 0 0 1 } } }

theorem eq_displacement (x y s t : ℝ) : displacement (eqFix x s) (eqFix y t) = ![0, (rad y - rad x) * 6378137, 0] := by
  ext i
  fin_cases i <;> simp [displacement, eqFix, rad, rN]

/-- Driving east on the equator, a thousandth of a degree per second, meets the hypotheses of C88 – C91. -/
example : leveled.status = 2 ∧ leveled.am.level = true ∧ leveled.am.gnssPre.posStd 0 ≠ 0 ∧ leveled.am.option = leveled.opt ∧
    moving leveled.am.option leveled.am.gnssPre (eqFix 0.001 1) ∧ moving leveled.am.option (eqFix 0.001 1) (eqFix 0.002 2) ∧
    uniform ![0, rad 0.001 * 6378137, 0] 1 leveled.am.gnssPre (eqFix 0.001 1) (eqFix 0.002 2) ∧
    Real.cos (leveled.opt.angleBv 2) ≠ 1 ∧ leveled.opt.lbGnss 0 ≠ 0 ∧ Regular (rad (eqFix 0.001 1).lat) (eqFix 0.001 1).height := by
  have h3 := Real.pi_gt_three
  have h4 := Real.pi_lt_four
  have hd1 : displacement (eqFix 0 0) (eqFix 0.001 1) = ![0, rad 0.001 * 6378137, 0] := by rw [eq_displacement]; simp [rad]
  have hd2 : displacement (eqFix 0.001 1) (eqFix 0.002 2) = ![0, rad 0.001 * 6378137, 0] := by
    rw [eq_displacement]; congr 1; ext i; fin_cases i <;> simp [rad]; ring
  have hlen : len ![0, rad 0.001 * 6378137, 0] = rad 0.001 * 6378137 := by
    simp only [len, Matrix.cons_val_zero, Matrix.cons_val_one, Matrix.cons_val]
    rw [show (0 : ℝ) ^ 2 + (rad 0.001 * 6378137) ^ 2 + 0 ^ 2 = (rad 0.001 * 6378137) ^ 2 by ring, Real.sqrt_sq]
    unfold rad; positivity
  have hr : 0 < rad 0.001 * 6378137 ∧ rad 0.001 * 6378137 < 1000 := by
    unfold rad; constructor <;> nlinarith
  have hthr : leveled.am.option.alignVelThreshold = 0 := rfl
  have hg : leveled.am.gnssPre = eqFix 0 0 := rfl
  refine ⟨rfl, rfl, one_ne_zero, rfl, ?_, ?_, ⟨?_, ?_, ?_, ?_⟩, ?_, one_ne_zero, ⟨?_, ?_⟩⟩
  · unfold moving; rw [hg, hd1, hlen, hthr]; exact hr
  · unfold moving; rw [hd2, hlen, hthr]; exact hr
  · simp [hg, eqFix]
  · simp [eqFix]; norm_num
  · rw [hg, hd1]; ext i; fin_cases i <;> simp
  · rw [hd2]; ext i; fin_cases i <;> simp
  · show Real.cos 1 ≠ 1
    rw [Ne, Real.cos_eq_one_iff_of_lt_of_lt (by linarith) (by linarith)]
    norm_num
  · constructor <;> simp [eqFix, rad] <;> linarith
  · simp [eqFix]; try norm_num
end Verif.Props
