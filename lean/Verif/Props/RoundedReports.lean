import Verif.Spec.RoundedReports
import Verif.Props.Coasting
import Verif.Props.RoundedFlight
/-! C206: on inertial sensors alone, what the C interface computes with rounding follows the true flight. -/
namespace Verif.Props
open Verif Verif.Spec Verif.Convert Matrix

/-- Starts with given numbers within `M`. -/
structure SitG (M : ℝ) where
  R : Rounding
  u : ℝ
  acc : AccurateLib R u
  n : NavOutput (RR R)
  o : Opt (RR R)
  rate : 1 ≤ o.dRate
  lat : |n.lat.v| ≤ M
  lon : |n.lon.v| ≤ M
  height : |n.height.v| ≤ M
  vn : ∀ j, |(n.vn j).v| ≤ M
  atti : ∀ j, |(n.atti j).v| ≤ M
  gb : ∀ j, |(o.imuPara.gbIni j).v| ≤ M
  ab : ∀ j, |(o.imuPara.abIni j).v| ≤ M
  gs : ∀ j, |(o.imuPara.gsIni j).v| ≤ M
  as : ∀ j, |(o.imuPara.asIni j).v| ≤ M
instance (M : ℝ) : Sit (SitG M) := ⟨fun i => i.R, fun i => i.u, fun i => i.acc⟩

/-- The exact start for the same numbers. -/
noncomputable def exactStart {R : Rounding} (n : NavOutput (RR R)) (o : Opt (RR R)) : Ins ℝ :=
  coastStart Ex.zIns (valsOut n) { (Fusion.zeroOpt : Opt ℝ) with dRate := o.dRate, imuPara := valsPara o.imuPara }

section
variable {ι : Type} [Sit ι]

theorem Ap.deg : Ap (fun _ : ι => (deg : ℝ)) (fun _ => deg) := Ap.pi.divLit 180 (by norm_num)

theorem ApM.eulerToDcm {e : ι → V3 ℝ} {E : (i : ι) → V3 (RR (Sit.R i))} (h : ApV e E) :
    ApM (fun i => (Convert.eulerToDcm (e i) : M3 ℝ)) (fun i => Convert.eulerToDcm (E i)) := by
  have c0 := (h 0).cos
  have s0 := (h 0).sin
  have c1 := (h 1).cos
  have s1 := (h 1).sin
  have c2 := (h 2).cos
  have s2 := (h 2).sin
  intro j l
  fin_cases j <;> fin_cases l
  · exact c1.mul c2
  · exact (c0.neg.mul s2).add ((s0.mul s1).mul c2)
  · exact (s0.mul s2).add ((c0.mul s1).mul c2)
  · exact c1.mul s2
  · exact (c0.mul c2).add ((s0.mul s1).mul s2)
  · exact (s0.neg.mul c2).add ((c0.mul s1).mul s2)
  · exact s1.neg
  · exact s0.mul c1
  · exact c0.mul c1

theorem ApQ.eulerToQuat {e : ι → V3 ℝ} {E : (i : ι) → V3 (RR (Sit.R i))} (h : ApV e E) :
    ApQ (fun i => (Convert.eulerToQuat (e i) : Quat ℝ)) (fun i => Convert.eulerToQuat (E i)) := by
  have k0 := (h 0).divLit 2 (by norm_num)
  have k1 := (h 1).divLit 2 (by norm_num)
  have k2 := (h 2).divLit 2 (by norm_num)
  exact ⟨((k0.cos.mul k1.cos).mul k2.cos).add ((k0.sin.mul k1.sin).mul k2.sin), ((k0.sin.mul k1.cos).mul k2.cos).sub ((k0.cos.mul k1.sin).mul k2.sin),
    ((k0.cos.mul k1.sin).mul k2.cos).add ((k0.sin.mul k1.cos).mul k2.sin), ((k0.cos.mul k1.cos).mul k2.sin).sub ((k0.sin.mul k1.sin).mul k2.cos)⟩

theorem ApQ.llaToQne {a b : ι → ℝ} {A B : (i : ι) → RR (Sit.R i)} (ha : Ap a A) (hb : Ap b B) :
    ApQ (fun i => (Convert.llaToQne ⟨a i, b i⟩ : Quat ℝ)) (fun i => Convert.llaToQne ⟨A i, B i⟩) := by
  have p := ((Ap.lit (1 / 4)).neg.mul Ap.pi).sub ((Ap.lit (1 / 2)).mul ha)
  have l := (Ap.lit (1 / 2)).mul hb
  exact ⟨p.cos.mul l.cos, p.sin.neg.mul l.sin, p.sin.mul l.cos, p.cos.mul l.sin⟩
end

theorem dt_close {R : Rounding} {u : ℝ} (acc : AccurateLib R u) (D : Int) (hD : 1 ≤ D) :
    |((1 : RR R) / ofI D).v - 1 / (D : ℝ)| ≤ 7 * u := by
  have hD' : (1 : ℝ) ≤ D := by exact_mod_cast hD
  have u0 := acc.pos
  have us := acc.small
  obtain ⟨y, hy⟩ : ∃ y : ℝ, y = R.rnd (D : ℝ) := ⟨_, rfl⟩
  have h1 := acc.rnd (D : ℝ)
  rw [← hy, abs_of_pos (by linarith : (0 : ℝ) < D)] at h1
  have h2 : u * ((D : ℝ) + 1) ≤ 2 * u * D := by have := mul_le_mul_of_nonneg_left hD' u0; linarith
  have h3 : 2 * u * D ≤ D / 2 := by have := mul_le_mul_of_nonneg_right us (by linarith : (0 : ℝ) ≤ D); linarith
  have h4 := abs_le.1 h1
  have y0 : (D : ℝ) / 2 ≤ y := by linarith [h4.1]
  have y1 : 0 < y := by linarith
  have e : 1 / y - 1 / (D : ℝ) = ((D : ℝ) - y) / (y * D) := by field_simp
  have h5 : |1 / y - 1 / (D : ℝ)| ≤ 4 * u := by
    rw [e, abs_div, abs_of_pos (by positivity : 0 < y * (D : ℝ)), abs_sub_comm, div_le_iff₀ (by positivity)]
    have q1 : (1 : ℝ) / 2 * D ≤ y * D := by nlinarith
    have q2 := mul_le_mul_of_nonneg_left q1 (by linarith : 0 ≤ 4 * u)
    linarith
  have h6 := acc.rnd (1 / y)
  have h7 : |1 / y| ≤ 2 := by
    rw [abs_of_pos (by positivity), div_le_iff₀ y1]; linarith
  have h8 : u * (|1 / y| + 1) ≤ 3 * u := by have := mul_le_mul_of_nonneg_left h7 u0; linarith
  have e2 : ((1 : RR R) / ofI D).v = R.rnd (1 / y) := by
    rw [hy]; show R.rnd (1 / R.rnd (((D : ℚ)) : ℝ)) = _
    norm_num
  rw [e2]
  have := abs_sub_le (R.rnd (1 / y)) (1 / y) (1 / (D : ℝ))
  linarith

theorem start_rounded (M : ℝ) : ∃ c r : ℝ, 0 ≤ c ∧ 0 < r ∧ ∀ (i : SitG M), i.u ≤ r → ∀ junk : Ins (RR i.R),
    Within (c * i.u) (exactStart i.n i.o) (coastStart junk i.n i.o) := by
  have lat : Ap (fun i : SitG M => i.n.lat.v) (fun i => i.n.lat) := Apr.exact _ M (fun i => i.lat)
  have lon : Ap (fun i : SitG M => i.n.lon.v) (fun i => i.n.lon) := Apr.exact _ M (fun i => i.lon)
  have hei : Ap (fun i : SitG M => i.n.height.v) (fun i => i.n.height) := Apr.exact _ M (fun i => i.height)
  have att : ∀ j, Ap (fun i : SitG M => (i.n.atti j).v) (fun i => i.n.atti j) := fun j => Apr.exact _ M (fun i => i.atti j)
  have la := lat.mul Ap.deg
  have lo := lon.mul Ap.deg
  have eu := ApV.v3 ((att 0).mul Ap.deg) ((att 1).mul Ap.deg) ((att 2).mul Ap.deg)
  have hdt : Ap (fun i : SitG M => 1 / (i.o.dRate : ℝ)) (fun i => 1 / ofI i.o.dRate) := by
    refine ⟨1, 7, 1, zero_le_one, by norm_num, one_pos, fun i => ⟨?_, fun _ => dt_close i.acc i.o.dRate i.rate⟩⟩
    have : (1 : ℝ) ≤ i.o.dRate := by exact_mod_cast i.rate
    rw [abs_of_pos (by positivity), div_le_one (by linarith)]
    exact this
  have hdt' : Ap (fun i : SitG M => (exactStart i.n i.o).dt) (fun i => (1 / ofI i.o.dRate : RR i.R)) := by
    have e : ∀ i : SitG M, (exactStart i.n i.o).dt = 1 / (i.o.dRate : ℝ) := fun i => by
      show 1 / ofI i.o.dRate = _
      simp [ofI]
    simp only [e]
    exact hdt
  have z3 : ∀ j, Ap (fun _ : SitG M => (zero3 : V3 ℝ) j) (fun _ => zero3 j) := fun j => ApV.v3 Ap.zero Ap.zero Ap.zero j
  have key : ∀ a : Slot, Ap (fun i : SitG M => a.of (exactStart i.n i.o)) (fun i => a.of (coastStart (Ex.zIns : Ins (RR i.R)) i.n i.o)) := by
    intro a
    cases a with
    | pos j => exact ApV.v3 la lo hei j
    | vn j => exact Apr.exact _ M (fun i => i.vn j)
    | dvn j => exact z3 j
    | cbn j k => exact ApM.eulerToDcm eu j k
    | qbn j =>
      have q := ApQ.eulerToQuat eu
      fin_cases j
      · exact q.w
      · exact q.x
      · exact q.y
      · exact q.z
    | qne j =>
      have q := ApQ.llaToQne la lo
      fin_cases j
      · exact q.w
      · exact q.x
      · exact q.y
      · exact q.z
    | dt => exact hdt'
    | gyroPre j => exact z3 j
    | accePre j => exact z3 j
    | gb j => exact Apr.exact _ M (fun i => i.gb j)
    | ab j => exact Apr.exact _ M (fun i => i.ab j)
    | gs j => exact Apr.exact _ M (fun i => i.gs j)
    | as j => exact Apr.exact _ M (fun i => i.as j)
  have : Nonempty Slot := ⟨.dt⟩
  obtain ⟨c, r, hc, hr, hh⟩ := stepUniform _ _ key
  refine ⟨c, r, hc, hr, fun i hu junk a => ?_⟩
  have := hh a i hu
  cases a <;> exact this

/-- Numbers within `M`. -/
structure SitNum (M : ℝ) where
  R : Rounding
  u : ℝ
  acc : AccurateLib R u
  p : RR R
  le : |p.v| ≤ M
instance (M : ℝ) : Sit (SitNum M) := ⟨fun i => i.R, fun i => i.u, fun i => i.acc⟩

theorem deg_real : (deg : ℝ) = Real.pi / 180 := by simp [deg]

/-- Radians to degrees with rounding. -/
theorem to_degrees (M : ℝ) : ∃ c r : ℝ, 0 ≤ c ∧ 0 < r ∧ ∀ (R : Rounding) (u : ℝ), AccurateLib R u → ∀ p : RR R, |p.v| ≤ M → u ≤ r → |inRad (p / deg).v - p.v| ≤ c * u := by
  have h1 : Ap (fun i : SitNum M => i.p.v) (fun i => i.p) := Apr.exact _ M (fun i => i.le)
  have h2 := Ap.div (1 / 100) (by norm_num) (fun _ => by
    rw [deg_real, abs_of_pos (by have := Real.pi_pos; positivity)]; have := Real.pi_gt_three; linarith) h1 Ap.deg
  obtain ⟨_, c, r, _, hc, hr, h⟩ := h2
  refine ⟨c, r, hc, hr, fun R u acc p hp hu => ?_⟩
  have := (h ⟨R, u, acc, p, hp⟩).2 hu
  have k : |(p / deg).v - p.v / deg| ≤ c * u := this
  have e : inRad (p / deg).v - p.v = ((p / deg).v - p.v / deg) * (Real.pi / 180) := by
    have h0 : (deg : ℝ) ≠ 0 := by rw [deg_real]; have := Real.pi_pos; positivity
    rw [← deg_real, sub_mul, div_mul_cancel₀ _ h0, deg_real]; rfl
  rw [e, abs_mul, abs_of_pos (by have := Real.pi_pos; positivity : 0 < Real.pi / 180)]
  have p4 := Real.pi_le_four
  have := mul_le_mul_of_nonneg_left (by linarith : Real.pi / 180 ≤ 1) (abs_nonneg ((p / deg).v - p.v / deg))
  linarith

theorem from_rad (x : ℝ) : |x| ≤ 60 * |inRad x| := by
  unfold inRad
  rw [abs_mul, abs_of_pos (by have := Real.pi_pos; positivity : 0 < Real.pi / 180)]
  have p3 := Real.pi_gt_three
  have := mul_le_mul_of_nonneg_left (by linarith : (1 : ℝ) ≤ 60 * (Real.pi / 180)) (abs_nonneg x)
  linarith

theorem step_atti {α : Type} [Add α] [Sub α] [Mul α] [Neg α] [Div α] [Zero α] [One α] [Fl α] (g : α) (s : Ins α) (m : Imu α) :
    (s.forwardImu g m).2.nav.atti = dcmToEuler (s.forwardImu g m).2.nav.Cbn := by
  have h : ∀ (x : Ins α) (w : V3 α), (x.attiUpdate w).nav.atti = dcmToEuler (x.attiUpdate w).nav.Cbn := fun _ _ => rfl
  exact h ((s.extrapolate.2.velocityUpdate s.extrapolate.1 (Ins.compensate s.dt m.acce s.nav.ab s.nav.as) (Ins.compensate s.dt m.gyro s.nav.gb s.nav.gs)).positionUpdate) (Ins.compensate s.dt m.gyro s.nav.gb s.nav.gs)

/-- After a sample the angles are those of the attitude matrix. -/
theorem run_atti {α : Type} [Add α] [Sub α] [Mul α] [Neg α] [Div α] [Zero α] [One α] [Fl α] (g : α) (s : Ins α) (ms : List (Imu α)) (hm : ms ≠ []) :
    (run g s ms).2.nav.atti = dcmToEuler (run g s ms).2.nav.Cbn := by
  have key : ∀ (ms : List (Imu α)) (g : α) (s : Ins α), s.nav.atti = dcmToEuler s.nav.Cbn → (run g s ms).2.nav.atti = dcmToEuler (run g s ms).2.nav.Cbn := by
    intro ms
    induction ms with
    | nil => intro g s h; exact h
    | cons m ms ih =>
      intro g s _
      exact ih _ _ (step_atti g s m)
  obtain ⟨m, ms', rfl⟩ := List.exists_cons_of_ne_nil hm
  exact key ms' _ _ (step_atti g s m)

/-- What C206 and its extension to the attitude share. -/
theorem rounded_core (B : Limits) (hB : B.Sane) (T b : ℝ) : ∃ K r : ℝ, 0 < r ∧
    ∀ (lat lon h : ℝ → ℝ) (v : ℝ → V3 ℝ) (C : ℝ → M3 ℝ) (w θ f α : ℝ → V3 ℝ), TrueFlight B T lat lon h v C w θ f α →
    ∀ (R : Rounding) (u : ℝ), AccurateLib R u →
    ∀ (junk : Junk (RR R)) (d0 d : Dev (RR R)) (o : Opt (RR R)) (n : NavOutput (RR R)),
    o.alignMode = 2 → noAids o → o.outputProjectEnable = 0 → 0 < o.dRate → rgioeInit junk d0 (some o) (some n) = some (0, d) →
    (∀ j, |(o.imuPara.gbIni j).v| ≤ b ∧ |(o.imuPara.abIni j).v| ≤ b ∧ |(o.imuPara.gsIni j).v| ≤ b ∧ |(o.imuPara.asIni j).v| ≤ b) →
    (∀ j, |(n.atti j).v| ≤ b) →
    ∀ (e δ dt x : ℝ), dt = 1 / o.dRate → x = e + δ + dt + u / dt → x ≤ r → 0 ≤ δ → ResultNear e (valsOut n) (lat 0) (lon 0) (h 0) (v 0) (C 0) →
    ∀ cs : List (Call (RR R)), (∀ c ∈ cs, c.isInit = false) → (∀ m ∈ fixesOf cs, ¬ usable m.mode) → imusOf cs ≠ [] →
    ReadsNear δ (valsPara o.imuPara) dt θ α 0 ((imusOf cs).map valsImu) → (∀ m ∈ imusOf cs, ∀ j, |(m.gyro j).v| ≤ b ∧ |(m.acce j).v| ≤ b) →
    ∀ t : ℝ, t = (imusOf cs).length * dt → t ≤ T →
    ∀ (g : RR R) (p : NavOutput (RR R)), ∃ (q : NavOutput (RR R)) (E : NavEpoch (RR R)), rgioeGetResult (runCalls cs (g, d)).2 p = (0, q) ∧
      |inRad q.lat.v - lat t| ≤ K * x ∧ |inRad q.lon.v - lon t| ≤ K * x ∧ |q.height.v - h t| ≤ K * x ∧ len (valsV q.vn - v t) ≤ K * x ∧
      q.atti = vd E.atti deg ∧ E.atti = dcmToEuler E.Cbn ∧ ∀ y, len ((fun i j => (E.Cbn i j).v : M3 ℝ) *ᵥ y - C t *ᵥ y) ≤ K * x * len y := by
  obtain ⟨M, hM⟩ : ∃ M, M = 60 * (|B.lat| + |B.lon| + 1) + |B.height| + 1 + |B.speed| + 1 + |b| := ⟨_, rfl⟩
  obtain ⟨cs0, rs, hcs, hrs, hstart⟩ := start_rounded M
  obtain ⟨K0, r0, hr0, H⟩ := C203_rounded_flight_follows B hB T (|b| + cs0)
  obtain ⟨K1, hK1⟩ : ∃ K1, K1 = max K0 0 := ⟨_, rfl⟩
  have hK01 : K0 ≤ K1 := hK1 ▸ le_max_left _ _
  have hK1n : 0 ≤ K1 := hK1 ▸ le_max_right _ _
  obtain ⟨cd, rd, hcd, hrd, hdeg⟩ := to_degrees (|B.lat| + |B.lon| + K1)
  refine ⟨K1 + cd, min (min r0 rs) (min rd 1), lt_min (lt_min hr0 hrs) (lt_min hrd one_pos), ?_⟩
  intro lat lon h v C w θ f α F R u acc junk d0 d o n hm ha ho hdr hi hb hba e δ dt x hdt hx hxr hδ hn cs hc hg hs hp hrb t ht hT g p
  obtain ⟨q, g0, hq, hrep⟩ := C205_no_aid_is_the_mechanization junk d0 d o n hm hi ha ho cs hc hg hs g p
  have r1 := hxr.trans ((min_le_left _ _).trans (min_le_left _ _))
  have r2 := hxr.trans ((min_le_left _ _).trans (min_le_right _ _))
  have r3 := hxr.trans ((min_le_right _ _).trans (min_le_left _ _))
  have r4 := hxr.trans ((min_le_right _ _).trans (min_le_right _ _))
  have u0 := acc.pos
  have hD1 : (1 : ℝ) ≤ o.dRate := by exact_mod_cast hdr
  have hdt0 : 0 < dt := by rw [hdt]; positivity
  have hdt1 : dt ≤ 1 := by rw [hdt, div_le_one (by linarith)]; exact hD1
  have he0 : 0 ≤ e := (abs_nonneg _).trans hn.height
  have hud : 0 ≤ u / dt := div_nonneg u0 hdt0.le
  have hu1 : u ≤ u / dt := by
    rw [le_div_iff₀ hdt0]
    have := mul_le_mul_of_nonneg_left hdt1 u0
    linarith
  have hux : u ≤ x := by rw [hx]; linarith
  have hx0 : 0 ≤ x := u0.trans hux
  have he1 : e ≤ 1 := by rw [hx] at r4; linarith
  have t0 : 0 ≤ t := by rw [ht]; positivity
  have T0 : 0 ≤ T := t0.trans hT
  have b0 := le_abs_self b
  -- the given numbers are bounded
  have l1 : |n.lat.v| ≤ M := by
    have a1 := from_rad n.lat.v
    have a2 : |inRad n.lat.v - lat 0| ≤ e := hn.latitude
    have a3 := abs_sub_abs_le_abs_sub (inRad n.lat.v) (lat 0)
    have a4 := (F.lat_le 0 (le_refl 0) T0).trans (le_abs_self _)
    rw [hM]; linarith [abs_nonneg B.lon, abs_nonneg B.height, abs_nonneg B.speed, abs_nonneg b]
  have l2 : |n.lon.v| ≤ M := by
    have a1 := from_rad n.lon.v
    have a2 : |inRad n.lon.v - lon 0| ≤ e := hn.longitude
    have a3 := abs_sub_abs_le_abs_sub (inRad n.lon.v) (lon 0)
    have a4 := (F.lon_le 0 (le_refl 0) T0).trans (le_abs_self _)
    rw [hM]; linarith [abs_nonneg B.lat, abs_nonneg B.height, abs_nonneg B.speed, abs_nonneg b]
  have l3 : |n.height.v| ≤ M := by
    have a2 : |n.height.v - h 0| ≤ e := hn.height
    have a3 := abs_sub_abs_le_abs_sub n.height.v (h 0)
    have a4 := (F.height_le 0 (le_refl 0) T0).trans (le_abs_self _)
    rw [hM]; linarith [abs_nonneg B.lat, abs_nonneg B.lon, abs_nonneg B.speed, abs_nonneg b]
  have l4 : ∀ j, |(n.vn j).v| ≤ M := by
    intro j
    have a1 := comp_le_len (valsV n.vn - v 0) j
    have a2 : len (valsV n.vn - v 0) ≤ e := hn.velocity
    have a3 : |(n.vn j).v - v 0 j| ≤ e := a1.trans a2
    have a4 := abs_sub_abs_le_abs_sub (n.vn j).v (v 0 j)
    have a5 := (comp_le_len (v 0) j).trans ((F.speed_le 0 (le_refl 0) T0).trans (le_abs_self _))
    rw [hM]; linarith [abs_nonneg B.lat, abs_nonneg B.lon, abs_nonneg B.height, abs_nonneg b]
  have bM : b ≤ M := by rw [hM]; linarith [abs_nonneg B.lat, abs_nonneg B.lon, abs_nonneg B.height, abs_nonneg B.speed]
  have hW := hstart ⟨R, u, acc, n, o, hdr, l1, l2, l3, l4, fun j => (hba j).trans bM, fun j => (hb j).1.trans bM, fun j => (hb j).2.1.trans bM,
    fun j => (hb j).2.2.1.trans bM, fun j => (hb j).2.2.2.trans bM⟩ (hux.trans r2) junk.df.ins
  have hs0 : StartsNear e (exactStart n o) lat lon h v C := given_near _ _ _ e lat lon h v C hn
  have hSdt : (exactStart n o).dt = dt := by rw [hdt]; show 1 / ofI o.dRate = _; simp [ofI]
  have hst : StartsRounded e (|b| + cs0) u (exactStart n o) (coastStart junk.df.ins n o) lat lon h v C := by
    refine ⟨hs0, fun a => (hW a).trans (mul_le_mul_of_nonneg_right (by linarith [abs_nonneg b]) u0), fun j => ?_⟩
    exact ⟨(hb j).1.trans (by linarith), (hb j).2.1.trans (by linarith), (hb j).2.2.1.trans (by linarith), (hb j).2.2.2.trans (by linarith)⟩
  obtain ⟨E, hE⟩ : ∃ E, E = (run g0 (coastStart junk.df.ins n o) (imusOf cs)).2.nav := ⟨_, rfl⟩
  refine ⟨q, E, hq, ?_⟩
  have k := H lat lon h v C w θ f α F R u acc g0 (exactStart n o) (coastStart junk.df.ins n o) e δ hst (by rw [hSdt]; exact hdt0) hδ
    (by rw [hSdt, ← hx]; exact r1) (imusOf cs) (by rw [hSdt, ← ht]; exact hT)
    (by rw [hSdt]; exact reads_near δ _ (valsOut n) { (Fusion.zeroOpt : Opt ℝ) with dRate := o.dRate, imuPara := valsPara o.imuPara } dt θ α 0 _ hp)
    (fun m hm j => ⟨(hrb m hm j).1.trans (by linarith), (hrb m hm j).2.trans (by linarith)⟩) E t x hE (by rw [hSdt]; exact ht) (by rw [hSdt]; exact hx)
  obtain ⟨k1, k2, k3, k4, k5⟩ := k
  have hKx : K0 * x ≤ K1 * x := mul_le_mul_of_nonneg_right hK01 hx0
  have hK1x : K1 * x ≤ K1 := mul_le_of_le_one_right hK1n r4
  have hcx : cd * u ≤ cd * x := mul_le_mul_of_nonneg_left hux hcd
  have hcx0 : 0 ≤ cd * x := mul_nonneg hcd hx0
  have hsum : (K1 + cd) * x = K1 * x + cd * x := by ring
  obtain ⟨q1, q2, q3, q4, q5, -⟩ := hrep E hE
  have p1 : |(E.pos 0).v| ≤ |B.lat| + |B.lon| + K1 := by
    have a3 := abs_sub_abs_le_abs_sub (E.pos 0).v (lat t)
    have a4 := (F.lat_le t t0 hT).trans (le_abs_self _)
    linarith [abs_nonneg B.lon]
  have p2 : |(E.pos 1).v| ≤ |B.lat| + |B.lon| + K1 := by
    have a3 := abs_sub_abs_le_abs_sub (E.pos 1).v (lon t)
    have a4 := (F.lon_le t t0 hT).trans (le_abs_self _)
    linarith [abs_nonneg B.lat]
  have d1 := hdeg R u acc (E.pos 0) p1 (hux.trans r3)
  have d2 := hdeg R u acc (E.pos 1) p2 (hux.trans r3)
  rw [q1, q2, q3, q4, hsum]
  refine ⟨?_, ?_, by linarith, ?_, q5, by rw [hE]; exact run_atti g0 _ _ hs, fun y => (k5 y).trans (mul_le_mul_of_nonneg_right (by linarith) (len_nonneg y))⟩
  · have := abs_sub_le (inRad (E.pos 0 / deg).v) (E.pos 0).v (lat t)
    linarith
  · have := abs_sub_le (inRad (E.pos 1 / deg).v) (E.pos 1).v (lon t)
    linarith
  · have e1 : valsV E.vn - v t = fun j => (E.vn j).v - v t j := rfl
    rw [e1]; linarith

/-- C206: the C interface computing with rounding. For every true flight within given limits there are a constant and a
threshold such that, in every arithmetic accurate to `u`, an instance started from given values within `e` of the truth,
with the aids off, no usable fix and readings within `δ` of the true rates, reports place and velocity within a constant
times start error plus sensor error plus sampling interval plus `u` per sampling interval of the truth, for the whole flight. -/
theorem C206_rounded_reports_follow_the_flight (B : Limits) (hB : B.Sane) (T b : ℝ) : ∃ K r : ℝ, 0 < r ∧
    ∀ (lat lon h : ℝ → ℝ) (v : ℝ → V3 ℝ) (C : ℝ → M3 ℝ) (w θ f α : ℝ → V3 ℝ), TrueFlight B T lat lon h v C w θ f α →
    ∀ (R : Rounding) (u : ℝ), AccurateLib R u →
    ∀ (junk : Junk (RR R)) (d0 d : Dev (RR R)) (o : Opt (RR R)) (n : NavOutput (RR R)),
    o.alignMode = 2 → noAids o → o.outputProjectEnable = 0 → 0 < o.dRate → rgioeInit junk d0 (some o) (some n) = some (0, d) →
    (∀ j, |(o.imuPara.gbIni j).v| ≤ b ∧ |(o.imuPara.abIni j).v| ≤ b ∧ |(o.imuPara.gsIni j).v| ≤ b ∧ |(o.imuPara.asIni j).v| ≤ b) →
    (∀ j, |(n.atti j).v| ≤ b) →
    ∀ (e δ dt x : ℝ), dt = 1 / o.dRate → x = e + δ + dt + u / dt → x ≤ r → 0 ≤ δ → ResultNear e (valsOut n) (lat 0) (lon 0) (h 0) (v 0) (C 0) →
    ∀ cs : List (Call (RR R)), (∀ c ∈ cs, c.isInit = false) → (∀ m ∈ fixesOf cs, ¬ usable m.mode) → imusOf cs ≠ [] →
    ReadsNear δ (valsPara o.imuPara) dt θ α 0 ((imusOf cs).map valsImu) → (∀ m ∈ imusOf cs, ∀ j, |(m.gyro j).v| ≤ b ∧ |(m.acce j).v| ≤ b) →
    ∀ t : ℝ, t = (imusOf cs).length * dt → t ≤ T →
    ∀ (g : RR R) (p : NavOutput (RR R)), ∃ q : NavOutput (RR R), rgioeGetResult (runCalls cs (g, d)).2 p = (0, q) ∧
      |inRad q.lat.v - lat t| ≤ K * x ∧ |inRad q.lon.v - lon t| ≤ K * x ∧ |q.height.v - h t| ≤ K * x ∧ len (valsV q.vn - v t) ≤ K * x := by
  obtain ⟨K, r, hr, H⟩ := rounded_core B hB T b
  refine ⟨K, r, hr, ?_⟩
  intro lat lon h v C w θ f α F R u acc junk d0 d o n hm ha ho hdr hi hb hba e δ dt x hdt hx hxr hδ hn cs hc hg hs hp hrb t ht hT g p
  obtain ⟨q, E, hq, q1, q2, q3, q4, -⟩ := H lat lon h v C w θ f α F R u acc junk d0 d o n hm ha ho hdr hi hb hba e δ dt x hdt hx hxr hδ hn cs hc hg hs hp hrb t ht hT g p
  exact ⟨q, hq, q1, q2, q3, q4⟩

/-- What the caller gives at the start of the lift's flight (beside C201), written down with rounding. -/
noncomputable def gridGiven (u : ℝ) : NavOutput (RR (grid u)) :=
  { (zeroPva : NavOutput (RR (grid u))) with lat := ⟨(grid u).rnd (1 / 2 / deg)⟩, lon := ⟨(grid u).rnd (1 / deg)⟩, height := ⟨(grid u).rnd 100⟩, vn := gridV u ![0, 0, -3] }

/-- The hypotheses are met: these values in the arithmetic that rounds down to multiples of `u`, and the rounded readings shown
beside C203 given to the C interface. -/
example (u : ℝ) (h0 : 0 < u) (h1 : u ≤ 1 / 1000000) (rate : Int) : AccurateLib (grid u) u ∧ ∃ o : Opt (RR (grid u)), o.dRate = rate ∧ o.alignMode = 2 ∧ noAids o ∧
    o.outputProjectEnable = 0 ∧ (∃ d, rgioeInit Ex.zJunk Ex.zDev (some o) (some (gridGiven u)) = some (0, d)) ∧
    (∀ j, |(o.imuPara.gbIni j).v| ≤ 0 ∧ |(o.imuPara.abIni j).v| ≤ 0 ∧ |(o.imuPara.gsIni j).v| ≤ 0 ∧ |(o.imuPara.asIni j).v| ≤ 0) ∧
    (∀ j, |((gridGiven u).atti j).v| ≤ 0) ∧ ResultNear (6 * u) (valsOut (gridGiven u)) (1 / 2) 1 100 ![0, 0, -3] 1 ∧
    ∀ (δ dt : ℝ) (θ α : ℝ → V3 ℝ) (ms : List (Imu (RR (grid u)))) (t : ℝ), NearImu δ (liftIns dt).nav dt θ α t (ms.map valsImu) →
      ∃ cs : List (Call (RR (grid u))), (∀ c ∈ cs, c.isInit = false) ∧ fixesOf cs = [] ∧ imusOf cs = ms ∧ ReadsNear δ (valsPara o.imuPara) dt θ α t ((imusOf cs).map valsImu) := by
  refine ⟨grid_lib u h0 h1, { (Ex.opt 2 : Opt (RR (grid u))) with dRate := rate }, rfl, rfl, ⟨rfl, Or.inl rfl⟩, rfl, ⟨_, rfl⟩, ?_, ?_, ?_, ?_⟩
  · intro j
    have e : ((zero3 : V3 (RR (grid u))) j).v = 0 := by fin_cases j <;> rfl
    refine ⟨?_, ?_, ?_, ?_⟩
    all_goals
      show |((zero3 : V3 (RR (grid u))) j).v| ≤ 0
      rw [e, abs_zero]
  · intro j
    have e : ((gridGiven u).atti j).v = 0 := by fin_cases j <;> rfl
    rw [e, abs_zero]
  · have dg : ∀ y : ℝ, |inRad ((grid u).rnd (y / deg)) - y| ≤ 6 * u := by
      intro y
      have e : inRad ((grid u).rnd (y / deg)) - y = ((grid u).rnd (y / deg) - y / deg) * (Real.pi / 180) := by
        rw [sub_mul, ← deg_real, div_mul_cancel₀ _ (by rw [deg_real]; have := Real.pi_pos; positivity), deg_real]; rfl
      rw [e, abs_mul, abs_of_pos (by have := Real.pi_pos; positivity : 0 < Real.pi / 180)]
      have p4 := Real.pi_le_four
      have := mul_le_mul (grid_rnd u h0 (y / deg)) (by linarith : Real.pi / 180 ≤ 1) (by have := Real.pi_pos; positivity) h0.le
      linarith
    have e : rotOf (valsOut (gridGiven u)).atti = 1 := by
      have e0 : ∀ j, inRad ((valsOut (gridGiven u)).atti j) = 0 := fun j => by
        have : (valsOut (gridGiven u)).atti j = 0 := by fin_cases j <;> rfl
        rw [this]; simp [inRad]
      unfold rotOf
      rw [e0, e0, e0]
      ext i j
      fin_cases i <;> fin_cases j <;> simp [Rx, Ry, Rz, Matrix.mul_apply, Fin.sum_univ_three]
    refine ⟨dg _, dg _, (grid_rnd u h0 100).trans (by linarith), ?_, ?_⟩
    · exact (len_small _ u h0.le fun j => grid_rnd u h0 ((![0, 0, -3] : V3 ℝ) j)).trans (by linarith)
    · intro y
      rw [e, sub_self, len_zero']
      have := len_nonneg y
      positivity
  · intro δ dt θ α ms
    induction ms with
    | nil => intro t _; exact ⟨[], by simp, rfl, rfl, trivial⟩
    | cons m ms ih =>
      intro t hn
      obtain ⟨cs, c1, c2, c3, c4⟩ := ih (t + dt) hn.2
      refine ⟨.time (some m) :: cs, ?_, c2, by rw [← c3]; rfl, ⟨?_, ?_⟩, c4⟩
      · intro c hc
        rcases List.mem_cons.1 hc with rfl | hc
        · rfl
        · exact c1 c hc
      · have z : ∀ i, (valsV (zero3 : V3 (RR (grid u)))) i = 0 := fun i => by fin_cases i <;> rfl
        refine le_of_eq_of_le ?_ hn.1.1
        congr 1
        ext i
        show (1 - valsV zero3 i) * (_ - valsV zero3 i * dt) - _ = (1 - 0) * (_ - 0 * dt) - _
        rw [z i]
      · have z : ∀ i, (valsV (zero3 : V3 (RR (grid u)))) i = 0 := fun i => by fin_cases i <;> rfl
        refine le_of_eq_of_le ?_ hn.1.2
        congr 1
        ext i
        show (1 - valsV zero3 i) * (_ - valsV zero3 i * dt) - _ = (1 - 0) * (_ - 0 * dt) - _
        rw [z i]
end Verif.Props
