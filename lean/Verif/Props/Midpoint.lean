import Verif.Props.Strapdown
/-! C142: which instant of the sampling interval the mechanization evaluates its rates at. -/
namespace Verif.Props
open Verif Verif.Spec Verif.Convert Matrix Filter Topology

/-- The mechanization's step on one sample, from the state `s`. -/
noncomputable abbrev stepped (g : ℝ) (s : Ins ℝ) (m : Imu ℝ) : NavEpoch ℝ := (s.forwardImu g m).2.nav

/-- C142, height and velocity: over one sample the height changes by exactly the mean of the down velocities before and after. -/
theorem C142_height_is_the_mean (g : ℝ) (s : Ins ℝ) (m : Imu ℝ) :
    (stepped g s m).pos 2 = s.nav.pos 2 - (s.nav.vn 2 + (stepped g s m).vn 2) / 2 * s.dt := by
  simp only [stepped, Ins.forwardImu, Ins.forward, Ins.attiUpdate, Ins.positionUpdate, Ins.velocityUpdate, Ins.extrapolate,
    v3, Matrix.cons_val, Pi.add_apply, vd, lit_real]
  push_cast
  ring

/-- The rotation of the local frame in `t` seconds, at the latitude `lat`, height `h` and velocity `v`. -/
noncomputable def localTurn (v : V3 ℝ) (lat h t : ℝ) : V3 ℝ := fun i => (earthRate lat i + transportRate v lat h i) * t

/-- The latitude the attitude update uses: it lies half a step BEYOND the new latitude. -/
noncomputable def usedLat (old new : ℝ) : ℝ := new + (new - old) / 2

/-- C142, what is computed: the attitude is turned by the body rotation and, backwards, by the rotation of the local frame over the
interval, at the mean velocity and the mean height, but at the latitude half a step beyond the new one. -/
theorem C142_attitude_step_partial (g : ℝ) (s : Ins ℝ) (m : Imu ℝ) :
    ∃ z : V3 ℝ, z = localTurn (fun i => (s.nav.vn i + (stepped g s m).vn i) / 2)
        (usedLat (s.nav.pos 0) ((stepped g s m).pos 0)) ((s.nav.pos 2 + (stepped g s m).pos 2) / 2) s.dt ∧
      (stepped g s m).Qbn = (((rvToQuat z).conj.mul s.nav.Qbn).mul
        (rvToQuat (gyroToRv (Ins.compensate s.dt m.gyro s.nav.gb s.nav.gs) s.gyroPre))).normalized := by
  refine ⟨_, rfl, ?_⟩
  set c := Ins.compensate s.dt m.gyro s.nav.gb s.nav.gs with hc
  set V := (s.extrapolate.2).velocityUpdate s.extrapolate.1 (Ins.compensate s.dt m.acce s.nav.ab s.nav.as) c with hV
  have e1 : (stepped g s m).Qbn = (((rvToQuat (vs (V.positionUpdate.omegaIeN + V.positionUpdate.omegaEnN) s.dt)).conj.mul s.nav.Qbn).mul
      (rvToQuat (gyroToRv c s.gyroPre))).normalized := rfl
  rw [e1]
  have ev : V.vnMid = fun i => (s.nav.vn i + (stepped g s m).vn i) / 2 := by
    funext i
    have : (stepped g s m).vn i = s.nav.vn i + V.nav.dvn i := rfl
    rw [this]
    have : V.vnMid i = s.nav.vn i + V.nav.dvn i / Fl.lit 2 := rfl
    rw [this, lit_real]; push_cast; ring
  have ep : (stepped g s m).pos = V.positionUpdate.nav.pos := rfl
  have ez : vs (V.positionUpdate.omegaIeN + V.positionUpdate.omegaEnN) s.dt =
      localTurn (fun i => (s.nav.vn i + (stepped g s m).vn i) / 2)
        (usedLat (s.nav.pos 0) ((stepped g s m).pos 0)) ((s.nav.pos 2 + (stepped g s m).pos 2) / 2) s.dt := by
    have h1 : V.positionUpdate.omegaIeN = earthRate (V.positionUpdate.posMid 0) := by rw [← ie_eq]; rfl
    have h2 : V.positionUpdate.omegaEnN = transportRate V.vnMid (V.positionUpdate.posMid 0) (V.positionUpdate.posMid 2) := by
      rw [← en_eq]; rfl
    have h3 : V.positionUpdate.posMid 0 = usedLat (s.nav.pos 0) ((stepped g s m).pos 0) := by
      rw [ep]
      have : V.positionUpdate.posMid 0 = V.positionUpdate.nav.pos 0 + Fl.lit (1 / 2) * (V.positionUpdate.nav.pos 0 - s.nav.pos 0) := rfl
      rw [this, lit_real, usedLat]; push_cast; ring
    have h4 : V.positionUpdate.posMid 2 = (s.nav.pos 2 + (stepped g s m).pos 2) / 2 := by
      rw [ep]
      have : V.positionUpdate.posMid 2 = Fl.lit (1 / 2) * (V.positionUpdate.nav.pos 2 + s.nav.pos 2) := rfl
      rw [this, lit_real]; push_cast; ring
    rw [h1, h2, h3, h4, ev]
    rfl
  rw [ez]

/-- Two latitudes less than a full turn apart with the same earth rate are the same latitude. -/
theorem earthRate_inj (x y : ℝ) (h : |x - y| < 2 * Real.pi) (e : earthRate x = earthRate y) : x = y := by
  have hw : earthW ≠ 0 := by unfold earthW; norm_num
  have hcx : Real.cos x = Real.cos y := by
    have := congrFun e 0; simpa [earthRate, hw] using this
  have hsx : Real.sin x = Real.sin y := by
    have := congrFun e 2; simpa [earthRate, hw] using this
  have h1 : Real.cos (x - y) = 1 := by
    rw [Real.cos_sub, hcx, hsx]; nlinarith [Real.sin_sq_add_cos_sq y]
  have := (Real.cos_eq_one_iff_of_lt_of_lt (by linarith [(abs_lt.1 h).1]) (by linarith [(abs_lt.1 h).2])).1 h1
  linarith

/-- C142, violated: a vehicle that moves north or south has its attitude corrected with the earth rate of a latitude that is not the middle
of the interval, nor even inside it, for every sampling interval that is short enough; the latitude is off by a whole step. -/
theorem C142_not_the_middle (s : Ins ℝ) (fm wm f0 w0 a0 : V3 ℝ) (g time : ℝ) (hc : Consistent s.nav) (hv : s.nav.vn 0 ≠ 0)
    (N : ℝ → NavEpoch ℝ) (hN : N = stepOver s fm wm f0 w0 a0 g time) :
    ∀ᶠ t in 𝓝[≠] 0, ∀ u mid, u = usedLat (s.nav.pos 0) ((N t).pos 0) → mid = (s.nav.pos 0 + (N t).pos 0) / 2 →
      u - mid = (N t).pos 0 - s.nav.pos 0 ∧ u ≠ mid ∧
      u ∉ Set.uIcc (s.nav.pos 0) ((N t).pos 0) ∧ earthRate u ≠ earthRate mid := by
  obtain ⟨⟨_, h0, _⟩, _, h, _⟩ := C81_strapdown_consistent s fm wm f0 w0 a0 g time hc _ _ (fun _ => rfl) (fun _ => rfl) N hN
  have hd := h 0
  have hr : Regular (s.nav.pos 0) (s.nav.pos 2) := ⟨hc.lat, hc.height⟩
  have hne : posRate s.nav.vn (s.nav.pos 0) (s.nav.pos 2) 0 ≠ 0 := by
    simp only [posRate, Matrix.cons_val_zero]
    exact div_ne_zero hv hr.m.ne'
  have e1 := hd.eventually_ne (c := (N 0).pos 0) hne
  have e2 : ∀ᶠ t in 𝓝[≠] (0 : ℝ), |(N t).pos 0 - (N 0).pos 0| < 1 := by
    have := hd.continuousAt.eventually (Metric.ball_mem_nhds ((N 0).pos 0) one_pos)
    exact (this.filter_mono nhdsWithin_le_nhds).mono fun t ht => by simpa [Real.dist_eq] using ht
  filter_upwards [e1, e2] with t ht ht2 u mid hu hm
  rw [h0] at ht ht2
  have hd : u - mid = (N t).pos 0 - s.nav.pos 0 := by rw [hu, hm, usedLat]; ring
  have hn : u ≠ mid := by
    intro e; rw [e, sub_self] at hd; exact ht (by linarith)
  refine ⟨hd, hn, ?_, ?_⟩
  · rw [hu, usedLat]
    rcases lt_or_gt_of_ne ht with hl | hl
    · rw [Set.uIcc_of_ge hl.le]; intro hm; have := hm.1; linarith
    · rw [Set.uIcc_of_le hl.le]; intro hm; have := hm.2; linarith
  · intro e
    refine hn (earthRate_inj u mid ?_ e)
    rw [hd]; linarith [Real.pi_gt_three]

/-- The hypotheses of C142 are met: a vehicle at 45 degrees north heading north at 20 m/s. -/
example : ∃ s : Ins ℝ, Consistent s.nav ∧ s.nav.vn 0 ≠ 0 := by
  let q : Quat ℝ := ⟨1, 0, 0, 0⟩
  let n : NavEpoch ℝ := { (makeNavEpochPva (⟨0, zero3, zero3, zero3, zero3, zero3, 0, 0, q, q, zero3, zero3, zero3, zero3, zero3, zero3, zero3, 0, ⟨0, 0⟩, 0⟩)
      0 (v3 (Real.pi / 4) 0 0) (v3 20 0 0) zero3) with Qbn := q, Cbn := quatToDcm q }
  refine ⟨⟨n, 0, zero3, zero3, zero3, zero3, zero3, zero3⟩, ⟨?_, rfl, ?_, ?_, ?_, ?_⟩, ?_⟩
  · simp [n, q, qsq]
  · rfl
  · constructor <;> simp [n, makeNavEpochPva, v3] <;> linarith [Real.pi_pos]
  · constructor <;> simp [n, makeNavEpochPva, v3] <;> linarith [Real.pi_pos]
  · simp [n, makeNavEpochPva, v3]
  · simp [n, makeNavEpochPva, v3]
end Verif.Props
