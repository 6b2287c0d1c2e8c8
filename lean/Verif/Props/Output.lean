import Verif.Props.Rigid
import Verif.Props.Strapdown
import Verif.Spec.Examples
/-! C12 (return codes), C84 (what is reported and in which units), C85 (the getters agree with the result),
C86 (a result can be handed over as a given initial state). -/
namespace Verif.Props
open Verif Verif.Spec Verif.Convert Matrix
section
variable {α : Type} [Add α] [Sub α] [Mul α] [Neg α] [Div α] [Zero α] [One α] [Fl α]

/-- C12: an update with a sample always succeeds, in every state. -/
theorem C12_update_codes (s : α × Dev α) (m : Imu α) (fix : Gnss α) :
    ((Call.time (some m)).exec s).2 = .code 0 ∧ ((Call.gnss (some fix)).exec s).2 = .code 0 := by
  constructor
  · show Answer.code (rgioeTimeupdate s.1 s.2 (some m)).1 = _
    congr 1
    unfold rgioeTimeupdate
    dsimp only
    split_ifs <;> rfl
  · show Answer.code (rgioeGnssupdate s.1 s.2 (some fix)).1 = _
    congr 1
    unfold rgioeGnssupdate
    dsimp only
    split_ifs <;> rfl

/-- While navigating, the result is the filter's output. -/
theorem nav_result (d : Dev α) (hs : d.status = 3) (p : NavOutput α) : (rgioeGetResult d p).2 = d.df.output := by
  have : d.status = ST_NAVIGATION := hs
  unfold rgioeGetResult
  dsimp only
  rw [if_pos this]

/-- C85: while navigating, the attitude, position and velocity getters hand out what `rgioe_get_result` reports
(attitude and velocity rounded to single precision), and all of them succeed. -/
theorem C85_getters_agree (s : α × Dev α) (hs : s.2.status = 3) (p : NavOutput α) :
    ∃ r : NavOutput α, (Call.getResult p).exec s = (s, .pva 0 r) ∧
      (∃ e, (Call.getAtti).exec s = (s, .vec (fun i => Fl.f32 (r.atti i)) e)) ∧
      (∃ e, (Call.getPos).exec s = (s, .vec (v3 r.lat r.lon r.height) e)) ∧
      (∃ e, (Call.getVel).exec s = (s, .vec (fun i => Fl.f32 (r.vn i)) e)) := by
  refine ⟨s.2.df.output, ?_, ⟨_, rfl⟩, ⟨_, rfl⟩, ⟨_, rfl⟩⟩
  show (s, Answer.pva 0 (rgioeGetResult s.2 p).2) = _
  rw [nav_result s.2 hs]
end

/-- The reported attitude and position before any projection of the output. -/
theorem output_plain (f : Fusion ℝ) (h : f.opt.outputProjectEnable = 0) :
    f.output.lat = f.ins.nav.pos 0 / (Real.pi / 180) ∧ f.output.lon = f.ins.nav.pos 1 / (Real.pi / 180) ∧
    f.output.height = f.ins.nav.pos 2 ∧ ∀ i, f.output.atti i = f.ins.nav.atti i / (Real.pi / 180) := by
  have : ¬ f.opt.outputProjectEnable ≠ 0 := by simp [h]
  unfold Fusion.output
  simp only [this, if_false]
  refine ⟨by simp [deg], by simp [deg], trivial, fun i => by simp [vd, deg]⟩

/-- C84: while navigating without projection, the result is the filter's state: latitude, longitude and attitude
in degrees (of the internal radians), height in metres, velocity in m/s, gyroscope bias in degrees per hour,
accelerometer bias in milligal (1e-5 m/s²), scale factors in parts per million, standard deviations the square roots of
the covariance diagonal, time, week, flags and odometer scale unchanged. -/
theorem C84_result (d : Dev ℝ) (hs : d.status = 3) (hp : d.df.opt.outputProjectEnable = 0) (p r : NavOutput ℝ)
    (hr : (rgioeGetResult d p).2 = r) (n : NavEpoch ℝ) (hn : d.df.ins.nav = n) :
    r.lat * (Real.pi / 180) = n.pos 0 ∧ r.lon * (Real.pi / 180) = n.pos 1 ∧ r.height = n.pos 2 ∧
    (∀ i, r.atti i * (Real.pi / 180) = n.atti i) ∧ r.vn = n.vn ∧
    (∀ i, r.gb i * (Real.pi / 180) / 3600 = n.gb i) ∧ (∀ i, r.ab i * 1e-5 = n.ab i) ∧
    (∀ i, r.gs i * 1e-6 = n.gs i) ∧ (∀ i, r.as i * 1e-6 = n.as i) ∧
    (r.gpst = n.gpst ∧ r.week = n.week ∧ r.info = n.info ∧ r.kd = n.kd) := by
  have hpi := Real.pi_ne_zero
  have e : d.df.output = r := by rw [← hr, nav_result d hs]
  subst e hn
  obtain ⟨h1, h2, h3, h4⟩ := output_plain d.df hp
  refine ⟨by rw [h1]; field_simp, by rw [h2]; field_simp, h3, fun i => by rw [h4]; field_simp, rfl, fun i => ?_, fun i => ?_,
    fun i => ?_, fun i => ?_, rfl, rfl, rfl, rfl⟩
  · simp only [Fusion.output, vs, vd, deg, hour, pi_real, lit_real]; push_cast; field_simp
  · simp only [Fusion.output, vd, mGal, lit_real]; push_cast; norm_num
  · simp only [Fusion.output, vd, ppm, lit_real]; push_cast; norm_num
  · simp only [Fusion.output, vd, ppm, lit_real]; push_cast; norm_num

/-- C84, projection: with the output projection enabled the reported position is displaced by the configured vector,
turned from the body to the local frame, in metres north, east and (height up) minus down. -/
theorem C84_projected_position (d : Dev ℝ) (hs : d.status = 3) (hp : d.df.opt.outputProjectEnable ≠ 0) (p r : NavOutput ℝ)
    (hr : (rgioeGetResult d p).2 = r) (n : NavEpoch ℝ) (hn : d.df.ins.nav = n) (hreg : Regular (n.pos 0) (n.pos 2))
    (l : V3 ℝ) (hl : l = n.Cbn *ᵥ d.df.opt.posProject) :
    (r.lat * (Real.pi / 180) - n.pos 0) * (rM (n.pos 0) + n.pos 2) = l 0 ∧
    (r.lon * (Real.pi / 180) - n.pos 1) * ((rN (n.pos 0) + n.pos 2) * Real.cos (n.pos 0)) = l 1 ∧
    r.height - n.pos 2 = -l 2 := by
  have hpi := Real.pi_ne_zero
  have e : d.df.output = r := by rw [← hr, nav_result d hs]
  subst e hn
  have h1 := hreg.m.ne'
  have h2 := hreg.n.ne'
  have h3 := hreg.cos.ne'
  have hpos : ∀ i, d.df.projPos i = d.df.ins.nav.pos i + (![1 / (rM (d.df.ins.nav.pos 0) + d.df.ins.nav.pos 2),
      1 / ((rN (d.df.ins.nav.pos 0) + d.df.ins.nav.pos 2) * Real.cos (d.df.ins.nav.pos 0)), -1] : V3 ℝ) i * l i := by
    intro i
    unfold Fusion.projPos
    rw [Pi.add_apply, mvec_real, mvec_real, diagM_real, ← hl, rM_eq, rN_eq, Matrix.mulVec_diagonal]
    rfl
  unfold Fusion.output
  simp only [hp, ne_eq, not_false_eq_true, if_true, hpos, deg, pi_real, lit_real]
  simp only [Matrix.cons_val_zero, Matrix.cons_val_one, Matrix.cons_val]
  refine ⟨?_, ?_, ?_⟩
  · push_cast; field_simp; ring
  · push_cast; field_simp; ring
  · ring

/-- C84, projection: the reported attitude is that of the frame turned by the configured angles relative to the body. -/
theorem C84_projected_attitude (d : Dev ℝ) (hs : d.status = 3) (hp : d.df.opt.outputProjectEnable ≠ 0) (p r : NavOutput ℝ)
    (hr : (rgioeGetResult d p).2 = r) (C : M3 ℝ) (hC : isRot d.df.ins.nav.Cbn) (e : V3 ℝ) (he : d.df.opt.attiProject = e)
    (hdef : C = d.df.ins.nav.Cbn * (Rz (e 2) * Ry (e 1) * Rx (e 0))) (hlock : |C 2 0| < 999 / 1000)
    (a : V3 ℝ) (ha : ∀ i, a i = r.atti i * (Real.pi / 180)) :
    Rz (a 2) * Ry (a 1) * Rx (a 0) = C := by
  have hpi := Real.pi_ne_zero
  have e1 : d.df.output = r := by rw [← hr, nav_result d hs]
  have e2 : a = dcmToEuler C := by
    funext i
    rw [ha, ← e1, hdef, ← eulerToDcm_eq]
    unfold Fusion.output Fusion.projAtti
    simp only [hp, ne_eq, not_false_eq_true, if_true, vd, deg, pi_real, lit_real, mmul_real, he]
    push_cast
    field_simp
  rw [← eulerToDcm_eq, e2]
  refine C40_matrix_round_trip C ?_ hlock
  rw [hdef]
  exact isRot_mul hC (isRot_mul (isRot_mul (isRot_Rz _) (isRot_Ry _)) (isRot_Rx _))

/-- C86: initialising with a reported result as given state starts from the reporting device's position, velocity
and (away from gimbal lock) attitude. -/
theorem C86_handover (d : Dev ℝ) (hs : d.status = 3) (hp : d.df.opt.outputProjectEnable = 0) (p : NavOutput ℝ) (o : Opt ℝ)
    (ha : attitudeOk d.df.ins.nav) (hpos : positionOk d.df.ins.nav) (hlock : |d.df.ins.nav.Cbn 2 0| < 999 / 1000)
    (n : NavEpoch ℝ) (hn : n = makeNavEpoch (rgioeGetResult d p).2 o) :
    n.pos = d.df.ins.nav.pos ∧ n.vn = d.df.ins.nav.vn ∧ n.Cbn = d.df.ins.nav.Cbn ∧ n.atti = d.df.ins.nav.atti ∧
    n.Cne = d.df.ins.nav.Cne ∧ n.gpst = d.df.ins.nav.gpst := by
  obtain ⟨h1, h2, h3, h4, h5, -, -, -, -, h6, -, -, -⟩ := C84_result d hs hp p _ rfl _ rfl
  have epos : n.pos = d.df.ins.nav.pos := by
    rw [hn]
    funext i
    fin_cases i
    · simpa [makeNavEpoch, v3, deg] using h1
    · simpa [makeNavEpoch, v3, deg] using h2
    · simpa [makeNavEpoch, v3, deg] using h3
  have eatt : n.atti = d.df.ins.nav.atti := by
    rw [hn]
    funext i
    have := h4 i
    fin_cases i <;> simpa [makeNavEpoch, v3, deg] using this
  have eC : n.Cbn = eulerToDcm n.atti := by rw [hn]; rfl
  have eN : n.Cne = llaToCne ⟨n.pos 0, n.pos 1⟩ := by rw [hn]; rfl
  refine ⟨epos, by rw [hn]; exact h5, ?_, eatt, ?_, by rw [hn]; exact h6⟩
  · rw [eC, eatt, ha.2.2.2, C40_matrix_round_trip _ ha.2.2.1 hlock]
  · rw [eN, epos, hpos.2.2.1]

/-- A sensible given state starts with consistent attitude and position. -/
theorem given_ok (r : NavOutput ℝ) (o : Opt ℝ) (a : V3 ℝ) (ha : ∀ i, a i = r.atti i * (Real.pi / 180))
    (h0 : a 0 ∈ Set.Ioc (-Real.pi) Real.pi) (h2 : a 2 ∈ Set.Ioc (-Real.pi) Real.pi)
    (h1 : a 1 ∈ Set.Ioo (-(Real.pi / 2)) (Real.pi / 2)) (hlock : |Real.sin (a 1)| < 999 / 1000)
    (hlat : r.lat * (Real.pi / 180) ∈ Set.Ioo (-(Real.pi / 2)) (Real.pi / 2))
    (hlon : r.lon * (Real.pi / 180) ∈ Set.Ioo (-Real.pi) Real.pi) :
    attitudeOk (makeNavEpoch r o) ∧ positionOk (makeNavEpoch r o) := by
  have e : (makeNavEpoch r o).atti = a := by
    funext i
    rw [ha]
    fin_cases i <;> simp [makeNavEpoch, v3, deg]
  have eq : (makeNavEpoch r o).Qbn = eulerToQuat a := by rw [← e]; rfl
  have eC : (makeNavEpoch r o).Cbn = eulerToDcm a := by rw [← e]; rfl
  refine ⟨⟨by rw [eq]; exact (C39_euler_quaternion_agrees a).1, by rw [eq, eC]; exact (C39_euler_quaternion_agrees a).2.symm,
    by rw [eC]; exact (C38_euler_matrix_is_rotation a).2, by rw [e, eC]; exact (C40_euler_round_trip a h0 h2 h1 hlock).symm⟩, ?_⟩
  have eL : (⟨(makeNavEpoch r o).pos 0, (makeNavEpoch r o).pos 1⟩ : LatLon ℝ) = ⟨r.lat * (Real.pi / 180), r.lon * (Real.pi / 180)⟩ := by
    simp [makeNavEpoch, v3, deg]
  have eQ : (makeNavEpoch r o).Qne = llaToQne ⟨r.lat * (Real.pi / 180), r.lon * (Real.pi / 180)⟩ := by rw [← eL]; rfl
  have eN : (makeNavEpoch r o).Cne = llaToCne ⟨r.lat * (Real.pi / 180), r.lon * (Real.pi / 180)⟩ := by rw [← eL]; rfl
  refine ⟨by rw [eQ]; exact (C41_position_quaternion _).1, ?_, by rw [eN, eL], by rw [eN]; exact (C41_position_quaternion _).2.2⟩
  rw [eL, eQ]
  exact (C41_lat_lon_round_trip ⟨_, _⟩ hlat hlon).symm

/-- A device in Wuhan heading east, used to show that the hypotheses can be met. -/
noncomputable def demoDev : Dev ℝ :=
  { (Ex.zDev : Dev ℝ) with
    status := 3
    df := { (Ex.zFusion : Fusion ℝ) with ins := { (Ex.zIns : Ins ℝ) with
      nav := makeNavEpoch { (zeroPva : NavOutput ℝ) with lat := 30, lon := 114, height := 20, atti := v3 0 0 90, vn := v3 0 10 0 } (Ex.opt 2) } } }

/-- The hypotheses of `C84_result`, `C85_getters_agree` and `C86_handover` are met by it. -/
example : demoDev.status = 3 ∧ demoDev.df.opt.outputProjectEnable = 0 ∧ attitudeOk demoDev.df.ins.nav ∧ positionOk demoDev.df.ins.nav ∧
    |demoDev.df.ins.nav.Cbn 2 0| < 999 / 1000 := by
  have hp := Real.pi_pos
  obtain ⟨h1, h2⟩ := given_ok { (zeroPva : NavOutput ℝ) with lat := 30, lon := 114, height := 20, atti := v3 0 0 90, vn := v3 0 10 0 } (Ex.opt 2)
    (v3 0 0 (Real.pi / 2)) (by intro i; fin_cases i <;> simp [v3]; ring)
    (by constructor <;> simp [v3] <;> linarith) (by constructor <;> simp [v3] <;> linarith) (by constructor <;> simp [v3] <;> linarith)
    (by simp [v3]) (by constructor <;> simp only <;> linarith) (by constructor <;> simp only <;> linarith)
  refine ⟨rfl, rfl, h1, h2, ?_⟩
  simp [demoDev, makeNavEpoch, eulerToDcm, v3]

/-- The hypotheses of the projection theorems are met by it with an enabled projection. -/
example : Regular (demoDev.df.ins.nav.pos 0) (demoDev.df.ins.nav.pos 2) ∧ (1 : Int) ≠ 0 := by
  have hp := Real.pi_pos
  refine ⟨⟨?_, ?_⟩, by decide⟩
  · constructor <;> simp [demoDev, makeNavEpoch, v3, deg] <;> linarith
  · simp [demoDev, makeNavEpoch, v3]; try norm_num
end Verif.Props
