import Verif.Props.Kalman
import Verif.Props.Junk
import Verif.Props.Convert
/-! A complete moving alignment at `ℝ`: 201 samples at rest, two fixes 5 m apart in height, one more sample. It
shows that NAVIGATION is reachable that way (C16, C17 are not vacuous), that the first velocity and heading depend
on uninitialised memory (C70) and that `rgioe_get_pos` returns the wrong deviations (C20). -/
namespace Verif.Props
open Verif Verif.Spec Verif.Convert

/-- Uninitialised memory that holds the given previous velocity. -/
noncomputable def junkV (w : V3 ℝ) : Junk ℝ := { (Ex.zJunk : Junk ℝ) with am := { (Ex.zAlign : Align ℝ) with vnPre := w } }
/-- An instance initialised for moving alignment. -/
noncomputable def devV (w : V3 ℝ) : Dev ℝ :=
  { (Ex.zDev : Dev ℝ) with
    df := Fusion.new (junkV w).df, am := (Align.new (junkV w).am (Ex.opt 0)).setOption (Ex.opt 0), opt := Ex.opt 0, status := ST_INIT }
theorem devV_init (w : V3 ℝ) : rgioeInit (junkV w) Ex.zDev (some (Ex.opt 0)) none = some (E_OK, devV w) := rfl

/-- The second fix: same place, 5 m higher, one second later. -/
noncomputable def fix2 : Gnss ℝ := { (Ex.fix 1 : Gnss ℝ) with height := 5, gpst := 1 }

/-- The history. -/
noncomputable def alignRun : List (Call ℝ) :=
  List.replicate 201 (.time (some Smooth.zeroImu)) ++ [.gnss (some (Ex.fix 1)), .gnss (some fix2), .time (some Smooth.zeroImu)]

/-- The static detector of the alignment at rest. -/
noncomputable def restS (k : Nat) : Smooth ℝ := feed (Fl.f32 (Fl.lit (1 / 1000))) 200 30 (List.replicate k Smooth.zeroImu)

theorem restS_succ (k : Nat) : restS (k + 1) = (restS k).update Smooth.zeroImu := by
  unfold restS
  rw [List.replicate_succ', feed_snoc]

theorem rest_inv (k : Nat) : (∀ i, (restS k).ave.acce i = 0) ∧ (∀ i, (restS k).var.acce i = 0) ∧
    (restS k).staticCnt = k ∧ (restS k).staticWidth = 200 ∧ (restS k).threshold = 1 / 1000 ∧ (restS k).upCnt = k ∧ (restS k).width = 30 := by
  induction k with
  | zero =>
    refine ⟨fun i => ?_, fun i => ?_, rfl, rfl, ?_, rfl, rfl⟩
    · fin_cases i <;> rfl
    · fin_cases i <;> rfl
    · show (Fl.f32 (Fl.lit (1 / 1000)) : ℝ) = _; simp
  | succ k ih =>
    obtain ⟨h1, h2, h3, h4, h5, h6, h7⟩ := ih
    rw [restS_succ]
    generalize restS k = s at *
    have z : ∀ i, (Smooth.zeroImu : Imu ℝ).acce i = 0 := fun i => by fin_cases i <;> rfl
    have ha : ∀ i, (s.update Smooth.zeroImu).ave.acce i = 0 := by
      intro i
      show Smooth.stepAve _ (s.ave.acce i) ((Smooth.zeroImu : Imu ℝ).acce i) = 0
      rw [h1, z]; simp [Smooth.stepAve]
    have hv : ∀ i, (s.update Smooth.zeroImu).var.acce i = 0 := by
      intro i
      have e : (s.update Smooth.zeroImu).var.acce i = Smooth.stepVar (if s.upCnt + 1 < s.width then s.upCnt + 1 else s.width)
        (s.var.acce i) ((s.update Smooth.zeroImu).ave.acce i) ((Smooth.zeroImu : Imu ℝ).acce i) := rfl
      rw [e, h2, z, ha]; simp [Smooth.stepVar]
    refine ⟨ha, hv, ?_, h4, h5, ?_, h7⟩
    · rw [smooth_cnt, h3, h5]
      have hg : (s.update Smooth.zeroImu).getStd = 0 := by
        unfold Smooth.getStd
        rw [hv, hv, hv]; simp
      rw [hg, if_neg (by rw [lt_real]; norm_num)]
      push_cast; rfl
    · show s.upCnt + 1 = _
      rw [h6]; push_cast; rfl

/-- At rest for `k ≤ 200` samples nothing but the detector moves. -/
theorem rest_dev (w : V3 ℝ) (g : ℝ) (k : Nat) (hk : k + 1 ≤ 200) :
    runCalls (List.replicate (k + 1) (.time (some Smooth.zeroImu))) (g, devV w) =
      (g, { devV w with am := { (devV w).am with smooth := restS (k + 1) }, status := ST_ALIGN }) := by
  have hstat : ∀ k, k ≤ 200 → (restS k).isStatic = false := by
    intro k hk
    cases k with
    | zero => rfl
    | succ k =>
      have h := rest_inv (k + 1)
      have h' := rest_inv k
      have e := restS_succ k
      have : (restS (k + 1)).isStatic = decide ((restS k).staticWidth < (restS (k + 1)).staticCnt) := by
        rw [e, smooth_static]
      rw [this, h'.2.2.2.1, h.2.2.1]
      simp; omega
  have step : ∀ k, k + 1 ≤ 200 → Align.updateImu { (devV w).am with smooth := restS k } Smooth.zeroImu =
      { (devV w).am with smooth := restS (k + 1) } := by
    intro k hk
    have hs := hstat (k + 1) hk
    unfold Align.updateImu
    dsimp only
    rw [← restS_succ, if_neg (by show ¬ (false = true); simp), if_pos (by rw [hs]; rfl)]
    rfl
  induction k with
  | zero =>
    show (rgioeTimeupdate g (devV w) (some Smooth.zeroImu)).2 = _
    unfold rgioeTimeupdate
    dsimp only
    rw [if_pos (show (devV w).status = ST_INIT from rfl), if_neg (show ¬ (devV w).opt.alignMode = ALIGN_USE_GIVEN by
      show ¬ ((0 : Int) = 2); decide)]
    have := step 0 (by omega)
    have e0 : ({ (devV w).am with smooth := restS 0 } : Align ℝ) = (devV w).am := rfl
    rw [e0] at this
    rw [this]
  | succ k ih =>
    rw [List.replicate_succ', runCalls_append, ih (by omega)]
    show (rgioeTimeupdate g { devV w with am := { (devV w).am with smooth := restS (k + 1) }, status := ST_ALIGN } (some Smooth.zeroImu)).2 = _
    unfold rgioeTimeupdate
    dsimp only
    rw [if_neg (by decide), if_pos rfl, step (k + 1) (by omega), if_neg (by show ¬ (false = true); simp)]

/-- After the 201st sample the level is known. -/
theorem rest_level (w : V3 ℝ) (g : ℝ) :
    ∃ am : Align ℝ, runCalls (List.replicate 201 (.time (some Smooth.zeroImu))) (g, devV w) =
        (g, { devV w with am := am, status := ST_ATTITUDE }) ∧
      am.level = true ∧ am.option = Ex.opt 0 ∧ am.vnPre = w ∧ am.gnssPre = Align.zeroGnss := by
  have e : runCalls (List.replicate 201 (.time (some Smooth.zeroImu))) (g, devV w) =
      runCalls [.time (some Smooth.zeroImu)] (g, { devV w with am := { (devV w).am with smooth := restS (199 + 1) }, status := ST_ALIGN }) := by
    rw [show (201 : Nat) = 200 + 1 from rfl, List.replicate_succ', runCalls_append, rest_dev w g 199 (by omega)]
  have hst : (restS (200 + 1)).isStatic = true := by
    have h' := rest_inv 200
    have h := rest_inv 201
    have : (restS (200 + 1)).isStatic = decide ((restS 200).staticWidth < (restS (200 + 1)).staticCnt) := by
      rw [restS_succ, smooth_static]
    rw [this, h'.2.2.2.1, h.2.2.1]
    decide
  set a0 : Align ℝ := { (devV w).am with smooth := restS (199 + 1) } with ha0
  have hl : (a0.updateImu Smooth.zeroImu).level = true := by
    rw [align_imu_level]
    rw [ha0]
    dsimp only
    rw [← restS_succ, hst]
    simp
  refine ⟨a0.updateImu Smooth.zeroImu, ?_, hl, ?_, ?_, ?_⟩
  · rw [e]
    show (rgioeTimeupdate g { devV w with am := a0, status := ST_ALIGN } (some Smooth.zeroImu)).2 = _
    unfold rgioeTimeupdate
    dsimp only
    rw [if_neg (by decide), if_pos rfl, if_pos (show (a0.updateImu Smooth.zeroImu).levelFinished = true from hl)]
  · rw [align_imu_option]; rfl
  · have : ∀ (a : Align ℝ) m, (a.updateImu m).vnPre = a.vnPre := by
      intro a m; unfold Align.updateImu; dsimp only; split_ifs <;> rfl
    rw [this]; rfl
  · rw [align_imu_pre]; rfl

/-- The velocity the alignment derives from the two fixes and the previous velocity in memory. -/
theorem yaw_vn (a : Align ℝ) (ho : a.option = Ex.opt 0) (hg : a.gnssPre = Ex.fix 1) :
    (a.yawStep fix2).nav.vn = v3 (-(a.vnPre 0) / 2) (-(a.vnPre 1) / 2) (15 / 2 - a.vnPre 2 / 2) ∧
    (a.yawStep fix2).yaw = true ∧ (∀ i, (a.yawStep fix2).nav.velStd i = 3 / 10) ∧ (a.yawStep fix2).level = a.level := by
  have hd : Earth.distance6 (fix2.lat * deg) (fix2.lon * deg) ((Ex.fix 1 : Gnss ℝ).lat * deg) ((Ex.fix 1 : Gnss ℝ).lon * deg)
      fix2.height (Ex.fix 1 : Gnss ℝ).height = v3 (0 : ℝ) 0 5 := by
    ext i; fin_cases i <;> simp [Earth.distance6, Earth.dN3, Earth.dE4, v3, fix2, Ex.fix, Align.zeroGnss]
  have hn : vnorm (v3 (0 : ℝ) 0 5) = 5 := by
    unfold vnorm
    rw [sqNorm_real]
    simp [v3, Fin.sum_univ_three]
  have ht : fix2.gpst - (Ex.fix 1 : Gnss ℝ).gpst = 1 := by simp [fix2, Ex.fix, Align.zeroGnss]
  have hth : (Ex.opt 0 : Opt ℝ).alignVelThreshold = 0 := rfl
  unfold Align.yawStep
  dsimp only
  rw [hg, hd, hn, ht, ho, hth]
  rw [if_pos (by simp only [Bool.and_eq_true, lt_real, f32_real, lit_real]; norm_num)]
  refine ⟨?_, rfl, fun i => ?_, rfl⟩
  · ext i
    fin_cases i
    · show (0 : ℝ) + (0 - a.vnPre 0) / 1 * 1 / ((2 : ℚ) : ℝ) = -(a.vnPre 0) / 2
      push_cast; ring
    · show (0 : ℝ) + (0 - a.vnPre 1) / 1 * 1 / ((2 : ℚ) : ℝ) = -(a.vnPre 1) / 2
      push_cast; ring
    · show (5 : ℝ) + (5 - a.vnPre 2) / 1 * 1 / ((2 : ℚ) : ℝ) = 15 / 2 - a.vnPre 2 / 2
      push_cast; ring
  · simp

/-- The outcome of the run. -/
theorem align_outcome (w : V3 ℝ) (g : ℝ) :
    ∃ (d : Dev ℝ) (g1 : ℝ) (nav : NavEpoch ℝ), (runCalls alignRun (g, devV w)).2 = d ∧ d.status = ST_NAVIGATION ∧
      d.opt = Ex.opt 0 ∧ d.df = ((Fusion.new (junkV w).df).initFusion g1 nav (Ex.opt 0)).2 ∧
      nav.vn = v3 (-(w 0) / 2) (-(w 1) / 2) (15 / 2 - w 2 / 2) ∧ (∀ i, nav.posStd i = 1) ∧ (∀ i, nav.attStd i = 3 / 10) ∧
      d.am.alignFinished = true := by
  obtain ⟨am, he, hl, ho, hv, hg⟩ := rest_level w g
  -- first fix
  have s1 : am.updateGnss g (Ex.fix 1) = (g, { am with gnssPre := Ex.fix 1 }) := by
    unfold Align.updateGnss
    rw [if_pos]
    rw [hg, eq_real]; rfl
  set am1 : Align ℝ := { am with gnssPre := Ex.fix 1 } with ham1
  -- second fix
  have s2 : am1.updateGnss g fix2 = (Earth.gravity (fix2.lat * deg) fix2.height, (am1.yawStep fix2).fixStep fix2) := by
    unfold Align.updateGnss
    rw [if_neg]
    rw [eq_real]
    show ¬ ((1 : ℝ) = 0)
    norm_num
  obtain ⟨y1, y2, y3, y4⟩ := yaw_vn am1 ho rfl
  set am2 := (am1.yawStep fix2).fixStep fix2 with ham2
  have hvn : am2.nav.vn = (am1.yawStep fix2).nav.vn := rfl
  have hps : ∀ i, am2.nav.posStd i = 1 := fun i => rfl
  have has : ∀ i, am2.nav.attStd i = 3 / 10 := by
    intro i
    show (am1.yawStep fix2).nav.velStd i / (1 : ℝ) = _
    rw [y3, div_one]
  have hl2 : am2.level = true := by
    show (am1.yawStep fix2).level = true
    rw [y4]; exact hl
  have hy2 : am2.yaw = true := y2
  clear_value am2
  -- last sample
  set am3 := am2.updateImu Smooth.zeroImu with ham3
  have e3 : am3 = { am2 with nav := { am2.nav with gpst := (Smooth.zeroImu : Imu ℝ).gpst }, smooth := am2.smooth.update Smooth.zeroImu, ahrs := am2.ahrs.updateImu Smooth.zeroImu } := by
    rw [ham3]; unfold Align.updateImu; dsimp only; rw [if_pos hl2]
  have hfin : am3.alignFinished = true := by
    rw [e3]; show (am2.level && am2.yaw) = true
    rw [hl2, hy2]; rfl
  let df3 : Fusion ℝ := ((devV w).df.initFusion (Earth.gravity (fix2.lat * deg) fix2.height) am3.nav (devV w).opt).2
  refine ⟨{ devV w with am := am3, df := df3, status := ST_NAVIGATION }, Earth.gravity (fix2.lat * deg) fix2.height, am3.nav, ?_, rfl, rfl, rfl, ?_, ?_, ?_, hfin⟩
  · unfold alignRun
    rw [runCalls_append, he]
    show (rgioeTimeupdate _ (rgioeGnssupdate _ (rgioeGnssupdate g { devV w with am := am, status := ST_ATTITUDE } (some (Ex.fix 1))).2.2 (some fix2)).2.2
      (some Smooth.zeroImu)).2.2 = _
    have g1 : (rgioeGnssupdate g { devV w with am := am, status := ST_ATTITUDE } (some (Ex.fix 1))) =
        (E_OK, g, { devV w with am := am1, status := ST_ATTITUDE }) := by
      unfold rgioeGnssupdate
      dsimp only
      rw [if_neg (by decide), if_pos (Or.inr rfl), s1]
    have g2 : (rgioeGnssupdate g { devV w with am := am1, status := ST_ATTITUDE } (some fix2)) =
        (E_OK, Earth.gravity (fix2.lat * deg) fix2.height, { devV w with am := am2, status := ST_ATTITUDE }) := by
      unfold rgioeGnssupdate
      dsimp only
      rw [if_neg (by decide), if_pos (Or.inr rfl), s2]
    have gx : ∀ x d, (rgioeGnssupdate x d (some fix2) : Int × ℝ × Dev ℝ).2.2 = (rgioeGnssupdate g d (some fix2)).2.2 := by
      intro x d
      unfold rgioeGnssupdate
      dsimp only
      have := (align_gnss_g x g d.am fix2)
      unfold Align.updateGnss
      split_ifs <;> rfl
    have tx : ∀ x d, (rgioeTimeupdate x d (some Smooth.zeroImu) : Int × ℝ × Dev ℝ).2.2 =
        (rgioeTimeupdate (Earth.gravity (fix2.lat * deg) fix2.height) d (some Smooth.zeroImu)).2.2 := by
      intro x d
      unfold rgioeTimeupdate
      dsimp only
      split_ifs <;> rfl
    rw [g1]
    dsimp only
    rw [gx, g2, tx]
    dsimp only
    unfold rgioeTimeupdate
    dsimp only
    rw [if_neg (by decide), if_neg (by decide), if_pos rfl, ← ham3, if_pos hfin]
  · rw [e3]; show am2.nav.vn = _
    rw [hvn, y1]
    have : am1.vnPre = w := hv
    rw [this]
  · rw [e3]; exact hps
  · rw [e3]; exact has

/-- C70, the violation: the same options, the same inputs, two contents of uninitialised memory; both instances are
NAVIGATING and report different velocities. -/
theorem C70_first_velocity_depends_on_memory (g : ℝ) :
    ∃ (j j' : Junk ℝ) (d d' : Dev ℝ) (cs : List (Call ℝ)),
      rgioeInit j Ex.zDev (some (Ex.opt 0)) none = some (E_OK, d) ∧
      rgioeInit j' Ex.zDev (some (Ex.opt 0)) none = some (E_OK, d') ∧
      rgioeGetStatus (runCalls cs (g, d)).2 = 3 ∧ rgioeGetStatus (runCalls cs (g, d')).2 = 3 ∧
      (rgioeGetResult (runCalls cs (g, d)).2 zeroPva).2.vn = v3 1 0 (15 / 2) ∧
      (rgioeGetResult (runCalls cs (g, d')).2 zeroPva).2.vn = v3 0 1 (15 / 2) := by
  have res : ∀ w : V3 ℝ, rgioeGetStatus (runCalls alignRun (g, devV w)).2 = 3 ∧
      (rgioeGetResult (runCalls alignRun (g, devV w)).2 zeroPva).2.vn = v3 (-(w 0) / 2) (-(w 1) / 2) (15 / 2 - w 2 / 2) := by
    intro w
    obtain ⟨d, g1, nav, h1, h2, h3, h4, h5, _⟩ := align_outcome w g
    rw [h1]
    refine ⟨h2, ?_⟩
    unfold rgioeGetResult
    dsimp only
    rw [if_pos h2]
    show d.df.ins.nav.vn = _
    rw [h4]
    exact h5
  refine ⟨junkV (v3 (-2) 0 0), junkV (v3 0 (-2) 0), devV (v3 (-2) 0 0), devV (v3 0 (-2) 0), alignRun, devV_init _, devV_init _,
    (res _).1, (res _).1, ?_, ?_⟩
  · rw [(res _).2]; ext i; fin_cases i <;> simp [v3]
  · rw [(res _).2]; ext i; fin_cases i <;> simp [v3]

/-- C20, the violation on a reachable state: after this alignment the position deviations are 1 m, but
`rgioe_get_pos` returns 0.3, the attitude deviations. -/
theorem C20_get_pos_wrong_on_reachable_state (g : ℝ) :
    let d := (runCalls alignRun (g, devV (v3 0 0 0))).2
    rgioeGetStatus d = 3 ∧ ∀ i, (rgioeGetResult d zeroPva).2.posStd i = 1 ∧ (rgioeGetPos d).2 i = 3 / 10 := by
  obtain ⟨d, g1, nav, h1, h2, h3, h4, h5, h6, h7, _⟩ := align_outcome (v3 0 0 0) g
  intro d'
  have hd : d' = d := h1
  rw [hd]
  refine ⟨h2, fun i => ?_⟩
  obtain ⟨c, _⟩ := C68_initial_covariance g1 (junkV (v3 0 0 0)).df nav (Ex.opt 0)
  have hc := c i
  have hout : (rgioeGetResult d zeroPva).2 = d.df.output := by
    unfold rgioeGetResult; dsimp only; rw [if_pos h2]
  constructor
  · rw [hout]
    show Real.sqrt (d.df.kf.P ⟨i, by omega⟩ ⟨i, by omega⟩) = 1
    rw [h4]
    have := hc.1
    rw [h6] at this
    unfold fstart at this
    rw [this]; simp
  · show Real.sqrt (d.df.kf.P ⟨6 + i, by omega⟩ ⟨6 + i, by omega⟩) = 3 / 10
    rw [h4]
    have := hc.2.2.1
    rw [h7] at this
    unfold fstart at this
    rw [this, Real.sqrt_sq (by norm_num)]

/-- The hypotheses of C16 and C17 are met by this run. -/
example (g : ℝ) : (Ex.opt 0 : Opt ℝ).alignMode ≠ 2 ∧ rgioeInit (junkV (v3 0 0 0)) Ex.zDev (some (Ex.opt 0)) none = some (E_OK, devV (v3 0 0 0)) ∧
    (∀ c ∈ alignRun, c.isInit = false) ∧ rgioeGetStatus (runCalls alignRun (g, devV (v3 0 0 0))).2 = 3 ∧ Fl.eq (0 : ℝ) 0 = true := by
  refine ⟨by show (0 : Int) ≠ 2; decide, devV_init _, ?_, (C20_get_pos_wrong_on_reachable_state g).1, by rw [eq_real]⟩
  intro c hc
  unfold alignRun at hc
  simp only [List.mem_append, List.mem_replicate, List.mem_cons, List.not_mem_nil, or_false] at hc
  rcases hc with ⟨_, rfl⟩ | rfl | rfl | rfl <;> rfl
end Verif.Props
