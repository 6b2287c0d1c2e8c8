import Verif.Spec.Coasting
import Verif.Props.Rest
import Verif.Props.Converges
import Verif.Spec.Examples
/-! C205: on inertial sensors alone, what the C interface reports is the mechanization, and follows the true flight. -/
namespace Verif.Props
open Verif Verif.Spec Verif.Convert Matrix
section
variable {α : Type} [Add α] [Sub α] [Mul α] [Neg α] [Div α] [Zero α] [One α] [Fl α]

/-- The same mechanization with another info word. -/
def reInfo (s : Ins α) (i : NavInfo) : Ins α := { s with nav := { s.nav with info := i } }

/-- No correction waits and no aid is on. -/
structure CoastQ (f : Fusion α) : Prop where
  flag : f.updateFlag = 0
  iter : ¬ 0 < f.updateIter
  aids : noAids f.opt

theorem extrapolate_reInfo (s : Ins α) (i : NavInfo) : (reInfo s i).extrapolate = (s.extrapolate.1, reInfo s.extrapolate.2 i) := rfl
theorem velocity_reInfo (g : α) (s : Ins α) (i : NavInfo) (a w : V3 α) :
    (reInfo s i).velocityUpdate g a w = reInfo (s.velocityUpdate g a w) i := rfl
theorem position_reInfo (s : Ins α) (i : NavInfo) : (reInfo s i).positionUpdate = reInfo s.positionUpdate i := rfl
theorem atti_reInfo (s : Ins α) (i : NavInfo) (w : V3 α) : (reInfo s i).attiUpdate w = reInfo (s.attiUpdate w) i := rfl
theorem forward_reInfo (g : α) (s : Ins α) (i : NavInfo) (a w : V3 α) :
    (reInfo s i).forward g a w = ((s.forward g a w).1, reInfo (s.forward g a w).2 i) := by
  unfold Ins.forward
  rw [extrapolate_reInfo]
  dsimp only
  rw [velocity_reInfo, position_reInfo, atti_reInfo]

theorem forwardImu_reInfo (g : α) (s : Ins α) (i : NavInfo) (m : Imu α) :
    (reInfo s i).forwardImu g m = ((s.forwardImu g m).1, reInfo (s.forwardImu g m).2 i) := by
  unfold Ins.forwardImu
  dsimp only
  rw [forward_reInfo]
  rfl

theorem coastq_stages (f : Fusion α) (ha : noAids f.opt) : f.zuptStage.nhcStage = f.clearSensor SENSOR_NHC := by
  have e : f.zuptStage = f := by
    unfold Fusion.zuptStage
    rw [if_neg (by rw [ha.1]; simp)]
  rw [e]
  unfold Fusion.nhcStage
  rw [if_neg]
  rintro ⟨-, h1, h2⟩
  rcases ha.2 with h | h
  · exact h1 h
  · exact h h2

theorem coastq_time (g : α) (f : Fusion α) (m : Imu α) (q : CoastQ f) :
    CoastQ (f.timeUpdate g m).2 ∧ (f.timeUpdate g m).2.opt = f.opt ∧ (f.timeUpdate g m).1 = (f.ins.forwardImu g m).1 ∧
    ∃ i, (f.timeUpdate g m).2.ins = reInfo (f.ins.forwardImu g m).2 i := by
  have e1 : f.takeCorrection.applyCorrection = f := by
    unfold Fusion.takeCorrection
    rw [if_neg (by rw [q.flag]; decide)]
    unfold Fusion.applyCorrection
    rw [if_neg q.iter]
  have e2 : f.timeUpdate g m = ((f.propagate g m).1, { (f.propagate g m).2.zuptStage.nhcStage with
      monitor := (f.propagate g m).2.zuptStage.nhcStage.monitor.onTimeUpdate }) := by
    unfold Fusion.timeUpdate
    rw [e1]
  have e3 := coastq_stages (f.propagate g m).2 q.aids
  rw [e2, e3]
  exact ⟨⟨q.flag, q.iter, q.aids⟩, rfl, rfl, _, rfl⟩

theorem coastq_gnss (f : Fusion α) (m : Gnss α) (hm : ¬ usable m.mode) (q : CoastQ f) :
    CoastQ (f.measureGnss m) ∧ (f.measureGnss m).opt = f.opt ∧ ∃ i, (f.measureGnss m).ins = reInfo f.ins i := by
  have e : Fusion.gnssCheck m = false := by
    unfold Fusion.gnssCheck
    rw [decide_eq_false]
    intro h
    apply hm
    unfold usable
    rcases h with h | h | h | h
    · exact Or.inl h
    · exact Or.inr (Or.inr (Or.inl h))
    · exact Or.inr (Or.inr (Or.inr h))
    · exact Or.inr (Or.inl h)
  have e2 : f.measureGnss m = (f.clearSensor SENSOR_GNSS).setGnssMode MODE_INVALID := by
    unfold Fusion.measureGnss
    rw [e]
    rfl
  rw [e2]
  exact ⟨⟨q.flag, q.iter, q.aids⟩, rfl, _, rfl⟩

theorem coastq_run (cs : List (Call α)) (hg : ∀ m ∈ fixesOf cs, ¬ usable m.mode) (g : α) (f : Fusion α) (s : Ins α) (i : NavInfo)
    (hs : f.ins = reInfo s i) (q : CoastQ f) :
    (frun (filterCalls cs) (g, f)).2.opt = f.opt ∧ (frun (filterCalls cs) (g, f)).1 = (run g s (imusOf cs)).1 ∧
    ∃ j, (frun (filterCalls cs) (g, f)).2.ins = reInfo (run g s (imusOf cs)).2 j := by
  induction cs generalizing g f s i with
  | nil => exact ⟨rfl, rfl, i, hs⟩
  | cons c cs ih =>
    rcases c with ⟨o, n, j⟩ | (_ | m) | (_ | m) | _ | _ | _ | _ | p | _
    case time.some =>
      obtain ⟨q1, q2, q3, k, q4⟩ := coastq_time g f m q
      rw [hs, forwardImu_reInfo] at q3 q4
      have := ih hg (f.timeUpdate g m).1 (f.timeUpdate g m).2 (s.forwardImu g m).2 k (by rw [q4]; rfl) q1
      rw [q2] at this
      rw [show (f.timeUpdate g m).1 = (s.forwardImu g m).1 from q3] at this
      have e : frun (filterCalls (.time (some m) :: cs)) (g, f) = frun (filterCalls cs) ((s.forwardImu g m).1, (f.timeUpdate g m).2) := by
        show frun (filterCalls cs) (f.timeUpdate g m) = _
        congr 1
        exact Prod.ext q3 rfl
      rw [e]
      exact this
    case gnss.some =>
      obtain ⟨q1, q2, k, q4⟩ := coastq_gnss f m (hg m List.mem_cons_self) q
      rw [hs] at q4
      have := ih (fun x hx => hg x (List.mem_cons_of_mem _ hx)) g (f.measureGnss m) s k (by rw [q4]; rfl) q1
      rw [q2] at this
      exact this
    all_goals exact ih hg g f s i hs q

omit [Add α] [Sub α] [Mul α] [Neg α] [Div α] [Zero α] [One α] [Fl α] in
theorem from_first (cs : List (Call α)) : imusOf (fromFirstSample cs) = imusOf cs ∧ ∀ m ∈ fixesOf (fromFirstSample cs), m ∈ fixesOf cs := by
  induction cs with
  | nil => exact ⟨rfl, fun m h => h⟩
  | cons c cs ih =>
    rcases c with ⟨o, n, j⟩ | (_ | m) | (_ | m) | _ | _ | _ | _ | p | _
    case time.some => exact ⟨rfl, fun m h => h⟩
    case gnss.some => exact ⟨ih.1, fun x h => List.mem_cons_of_mem _ (ih.2 x h)⟩
    all_goals exact ih

/-- C205, for every arithmetic: started from given values, with the aids switched off and no usable fix, whatever
else is called, the C interface reports exactly the place, velocity, attitude and sensor errors of the mechanization
alone, run over the samples it was given. -/
theorem C205_no_aid_is_the_mechanization (junk : Junk α) (d0 d : Dev α) (o : Opt α) (n : NavOutput α) (hm : o.alignMode = 2)
    (hi : rgioeInit junk d0 (some o) (some n) = some (0, d)) (ha : noAids o) (ho : o.outputProjectEnable = 0)
    (cs : List (Call α)) (hc : ∀ c ∈ cs, c.isInit = false) (hg : ∀ m ∈ fixesOf cs, ¬ usable m.mode) (hs : imusOf cs ≠ [])
    (g : α) (p : NavOutput α) : ∃ (r : NavOutput α) (g0 : α), rgioeGetResult (runCalls cs (g, d)).2 p = (0, r) ∧
    ∀ e : NavEpoch α, e = (run g0 (coastStart junk.df.ins n o) (imusOf cs)).2.nav →
      r.lat = e.pos 0 / deg ∧ r.lon = e.pos 1 / deg ∧ r.height = e.pos 2 ∧ r.vn = e.vn ∧ r.atti = vd e.atti deg ∧
      r.gpst = e.gpst ∧ r.week = e.week ∧ r.gb = vs (vd e.gb deg) hour ∧ r.ab = vd e.ab mGal := by
  obtain ⟨-, rep⟩ := C126_given_start junk d0 d o n hm hi cs hc hs g _ rfl
  obtain ⟨f1, f2⟩ := from_first cs
  obtain ⟨g0, f, hf⟩ : ∃ g0 f, (g0, f) = fstart g junk.df (makeNavEpoch n o) o := ⟨_, _, rfl⟩
  have hf2 : f = (fstart g junk.df (makeNavEpoch n o) o).2 := congrArg Prod.snd hf
  have hopt : f.opt = o := by rw [hf2]; rfl
  have q := coastq_run (fromFirstSample cs) (fun m h => hg m (f2 m h)) g0 f (coastStart junk.df.ins n o) n.info (by rw [hf2]; rfl)
    ⟨by rw [hf2]; rfl, by rw [hf2]; show ¬ (0 : Int) < 0; decide, by rw [hopt]; exact ha⟩
  rw [f1, hopt] at q
  rw [← hf] at rep
  obtain ⟨q1, -, j, q3⟩ := q
  generalize frun (filterCalls (fromFirstSample cs)) (g0, f) = F at rep q1 q3
  refine ⟨F.2.output, g0, rep.result p, ?_⟩
  rintro e rfl
  have hp : ¬ F.2.opt.outputProjectEnable ≠ 0 := by rw [q1, ho]; simp
  unfold Fusion.output
  dsimp only
  rw [if_neg hp, if_neg hp, q3]
  exact ⟨rfl, rfl, rfl, rfl, rfl, rfl, rfl, rfl, rfl⟩
end

theorem rad_deg (x : ℝ) : inRad (x / deg) = x := by
  have hd : (deg : ℝ) = Real.pi / 180 := by simp [deg]
  have hd0 : (deg : ℝ) ≠ 0 := by rw [hd]; have := Real.pi_pos; positivity
  unfold inRad
  rw [← hd, div_mul_cancel₀ _ hd0]

theorem rotOf_deg (a : V3 ℝ) : rotOf (vd a deg) = eulerToDcm a := by
  rw [eulerToDcm_eq]
  unfold rotOf
  have : ∀ i, inRad ((vd a deg : V3 ℝ) i) = a i := fun i => rad_deg (a i)
  rw [this, this, this]

theorem coast_flight (g : ℝ) (s : Ins ℝ) (ms : List (Imu ℝ)) : run g s ms = flight g s ms := rfl

theorem flight_att (g : ℝ) (s : Ins ℝ) (ms : List (Imu ℝ)) (hm : ms ≠ []) (h1 : 0 < qsq s.nav.Qbn) (h2 : 0 < qsq s.nav.Qne) :
    attitudeOk (flight g s ms).2.nav := by
  have key : ∀ (ms : List (Imu ℝ)) (g : ℝ) (s : Ins ℝ), attitudeOk s.nav → positionOk s.nav → attitudeOk (flight g s ms).2.nav := by
    intro ms
    induction ms with
    | nil => intro g s h _; exact h
    | cons m ms ih =>
      intro g s h1 h2
      obtain ⟨a1, a2⟩ := forwardImu_ok g s m (by rw [h1.1]; exact one_pos) (by rw [h2.1]; exact one_pos)
      exact ih _ _ a1 a2
  obtain ⟨m, ms', rfl⟩ := List.exists_cons_of_ne_nil hm
  obtain ⟨a1, a2⟩ := forwardImu_ok g s m h1 h2
  exact key ms' _ _ a1 a2

theorem reads_near (δ : ℝ) (junk : Ins ℝ) (n : NavOutput ℝ) (o : Opt ℝ) (dt : ℝ) (θ α : ℝ → V3 ℝ) (t : ℝ) (ms : List (Imu ℝ))
    (h : ReadsNear δ o.imuPara dt θ α t ms) : NearImu δ (coastStart junk n o).nav dt θ α t ms := by
  induction ms generalizing t with
  | nil => trivial
  | cons m ms ih => exact ⟨h.1, ih _ h.2⟩

theorem entry_le (A B : M3 ℝ) (c : ℝ) (h : ∀ x, len (A *ᵥ x - B *ᵥ x) ≤ c * len x) : |A 2 0 - B 2 0| ≤ c := by
  have h1 := h ![1, 0, 0]
  have h2 := comp_le_len (A *ᵥ ![1, 0, 0] - B *ᵥ ![1, 0, 0]) 2
  have e : (A *ᵥ ![1, 0, 0] - B *ᵥ ![1, 0, 0]) 2 = A 2 0 - B 2 0 := by
    simp [Matrix.mulVec, dotProduct, Fin.sum_univ_three]
  have e2 : len (![1, 0, 0] : V3 ℝ) = 1 := by simp [len]
  rw [e] at h2
  rw [e2, mul_one] at h1
  exact h2.trans h1

theorem given_near (junk : Ins ℝ) (n : NavOutput ℝ) (o : Opt ℝ) (e : ℝ) (lat lon h : ℝ → ℝ) (v : ℝ → V3 ℝ) (C : ℝ → M3 ℝ)
    (H : ResultNear e n (lat 0) (lon 0) (h 0) (v 0) (C 0)) : StartsNear e (coastStart junk n o) lat lon h v C := by
  have hd : (deg : ℝ) = Real.pi / 180 := by simp [deg]
  have hE : (coastStart junk n o).nav.Cbn = rotOf n.atti := by
    show eulerToDcm (v3 (n.atti 0 * deg) (n.atti 1 * deg) (n.atti 2 * deg)) = _
    rw [eulerToDcm_eq]
    unfold rotOf inRad
    rw [hd]; rfl
  refine ⟨?_, ?_, H.height, rfl, H.velocity, ?_, ?_, ?_, ?_, ?_, ?_⟩
  · have := H.latitude; unfold inRad at this; rw [← hd] at this; exact this
  · have := H.longitude; unfold inRad at this; rw [← hd] at this; exact this
  · exact qsq_euler _
  · exact (C39_euler_quaternion_agrees _).2.symm
  · intro x; rw [hE]; exact H.attitude x
  all_goals funext i; fin_cases i <;> rfl

/-- C205, in exact arithmetic: for every true flight within given limits there are a constant and a threshold such
that an instance of the C interface started from values within `e` of the truth, with the aids off, no usable fix and
readings within `δ` of the true rates, reports place, velocity and attitude within a constant times the start error
plus the sensor error plus the sampling interval of the truth at the time of the last sample, for the whole flight
(the attitude wherever the pitch is not within about 8 degrees of the vertical). -/
theorem C205_reports_follow_the_flight (B : Limits) (hB : B.Sane) (T : ℝ) : ∃ K r : ℝ, 0 < r ∧
    ∀ (lat lon h : ℝ → ℝ) (v : ℝ → V3 ℝ) (C : ℝ → M3 ℝ) (w θ f α : ℝ → V3 ℝ), TrueFlight B T lat lon h v C w θ f α →
    ∀ (junk : Junk ℝ) (d0 d : Dev ℝ) (o : Opt ℝ) (n : NavOutput ℝ), o.alignMode = 2 → noAids o → o.outputProjectEnable = 0 → 0 < o.dRate →
    rgioeInit junk d0 (some o) (some n) = some (0, d) →
    ∀ (e δ dt x : ℝ), dt = 1 / o.dRate → x = e + δ + dt → x ≤ r → 0 ≤ δ → ResultNear e n (lat 0) (lon 0) (h 0) (v 0) (C 0) →
    ∀ cs : List (Call ℝ), (∀ c ∈ cs, c.isInit = false) → (∀ m ∈ fixesOf cs, ¬ usable m.mode) → imusOf cs ≠ [] →
    ReadsNear δ o.imuPara dt θ α 0 (imusOf cs) → ∀ t : ℝ, t = (imusOf cs).length * dt → t ≤ T →
    ∀ (g : ℝ) (p : NavOutput ℝ), ∃ q : NavOutput ℝ, rgioeGetResult (runCalls cs (g, d)).2 p = (0, q) ∧
      |inRad q.lat - lat t| ≤ K * x ∧ |inRad q.lon - lon t| ≤ K * x ∧ |q.height - h t| ≤ K * x ∧ len (q.vn - v t) ≤ K * x ∧
      (|C t 2 0| ≤ 99 / 100 → ResultNear (K * x) q (lat t) (lon t) (h t) (v t) (C t)) := by
  obtain ⟨K0, r0, hr0, H⟩ := C202_errors_grow_in_proportion B hB T
  obtain ⟨K, hK⟩ : ∃ K, K = max K0 0 := ⟨_, rfl⟩
  have hK0 : K0 ≤ K := hK ▸ le_max_left _ _
  have hKn : 0 ≤ K := hK ▸ le_max_right _ _
  refine ⟨K, min r0 (9 / (1000 * (K + 1))), lt_min hr0 (by positivity), ?_⟩
  intro lat lon h v C w θ f α F junk d0 d o n hm ha ho hdr hi e δ dt x hdt hx hxr hδ hn cs hc hg hs hp t ht hT g p
  obtain ⟨q, g0, hq, hrep⟩ := C205_no_aid_is_the_mechanization junk d0 d o n hm hi ha ho cs hc hg hs g p
  refine ⟨q, hq, ?_⟩
  have hs0 := given_near junk.df.ins n o e lat lon h v C hn
  have hdt2 : (coastStart junk.df.ins n o).dt = dt := by rw [hdt]; show 1 / ofI o.dRate = _; simp [ofI]
  have hdt0 : 0 < dt := by rw [hdt]; exact one_div_pos.2 (by exact_mod_cast hdr)
  have he0 : 0 ≤ e := (abs_nonneg _).trans hn.height
  have hx0 : 0 ≤ x := by rw [hx]; linarith
  obtain ⟨E, hE⟩ : ∃ E, E = (run g0 (coastStart junk.df.ins n o) (imusOf cs)).2.nav := ⟨_, rfl⟩
  have hE' : E = (flight g0 (coastStart junk.df.ins n o) (imusOf cs)).2.nav := hE
  have k := H lat lon h v C w θ f α F g0 (coastStart junk.df.ins n o) e δ hs0 (by rw [hdt2]; exact hdt0) hδ
    (by rw [hdt2, ← hx]; exact hxr.trans (min_le_left _ _)) (imusOf cs) (by rw [hdt2, ← ht]; exact hT)
    (by rw [hdt2]; exact reads_near δ _ n o dt θ α 0 _ hp) E t hE' (by rw [hdt2]; exact ht)
  rw [hdt2, ← hx] at k
  have hKx : K0 * x ≤ K * x := mul_le_mul_of_nonneg_right hK0 hx0
  obtain ⟨k1, k2, k3, k4, k5⟩ := k
  obtain ⟨r1, r2, r3, r4, r5, -⟩ := hrep E hE
  have a1 : |inRad q.lat - lat t| ≤ K * x := by rw [r1, rad_deg]; exact k1.trans hKx
  have a2 : |inRad q.lon - lon t| ≤ K * x := by rw [r2, rad_deg]; exact k2.trans hKx
  have a3 : |q.height - h t| ≤ K * x := by rw [r3]; exact k3.trans hKx
  have a4 : len (q.vn - v t) ≤ K * x := by rw [r4]; exact k4.trans hKx
  refine ⟨a1, a2, a3, a4, fun hl => ⟨a1, a2, a3, a4, ?_⟩⟩
  have k5' : ∀ y, len (E.Cbn *ᵥ y - C t *ᵥ y) ≤ K * x * len y := fun y => (k5 y).trans (mul_le_mul_of_nonneg_right hKx (len_nonneg y))
  have hatt : attitudeOk E := by
    rw [hE']
    refine flight_att g0 _ _ hs ?_ ?_
    · rw [hs0.unit]; exact one_pos
    · rw [hs0.place, (C41_position_quaternion _).1]; exact one_pos
  obtain ⟨-, -, b3, b4⟩ := hatt
  have hlock : |E.Cbn 2 0| < 999 / 1000 := by
    have c1 := entry_le _ _ _ k5'
    have c2 : K * x < 9 / 1000 := by
      have c3 := hxr.trans (min_le_right _ _)
      rw [le_div_iff₀ (by positivity)] at c3
      have : 0 < K + 1 := by linarith
      have c4 : (K + 1) * x ≤ 9 / 1000 := by linarith
      have c5 : 0 < x := by rw [hx]; linarith
      linarith
    have c6 := abs_sub_abs_le_abs_sub (E.Cbn 2 0) (C t 2 0)
    linarith
  intro y
  rw [r5, rotOf_deg, b4, C40_matrix_round_trip _ b3 hlock]
  exact k5' y

/-- What the caller gives at the start of the lift's flight (beside C201). -/
noncomputable def liftGiven : NavOutput ℝ := { (zeroPva : NavOutput ℝ) with lat := 1 / 2 / deg, lon := 1 / deg, height := 100, vn := ![0, 0, -3] }

/-- The hypotheses of C205 are met on the flight of the lift beside C201, at any sampling rate: exact start values, and
calls with any number of perfect samples, with queries and unusable fixes in between. -/
example (rate : Int) (dt : ℝ) : ∃ o : Opt ℝ, o.dRate = rate ∧ o.alignMode = 2 ∧ noAids o ∧ o.outputProjectEnable = 0 ∧
    (∃ d, rgioeInit Ex.zJunk Ex.zDev (some o) (some liftGiven) = some (0, d)) ∧
    ResultNear 0 liftGiven (1 / 2) 1 100 ![0, 0, -3] 1 ∧
    ∀ (k : ℕ) (t : ℝ), ∃ cs : List (Call ℝ), (∀ c ∈ cs, c.isInit = false) ∧ (∀ m ∈ fixesOf cs, ¬ usable m.mode) ∧ (fixesOf cs).length = k ∧
      (imusOf cs).length = k ∧ ReadsNear 0 o.imuPara dt (fun t => t • earthRate (1 / 2)) liftImpulse t (imusOf cs) := by
  refine ⟨{ (Ex.opt 2 : Opt ℝ) with dRate := rate }, rfl, rfl, ⟨rfl, Or.inl rfl⟩, rfl, ⟨_, rfl⟩, ?_, ?_⟩
  · have e : rotOf (zeroPva : NavOutput ℝ).atti = 1 := by
      ext i j
      fin_cases i <;> fin_cases j <;> simp [rotOf, inRad, zeroPva, Rx, Ry, Rz, Matrix.mul_apply, Fin.sum_univ_three, zero3, v3]
    refine ⟨?_, ?_, ?_, ?_, ?_⟩
    · simp only [liftGiven]; rw [rad_deg, sub_self, abs_zero]
    · simp only [liftGiven]; rw [rad_deg, sub_self, abs_zero]
    · simp [liftGiven]
    · simp only [liftGiven]; rw [sub_self, len_zero']
    · intro x
      show len (rotOf (zeroPva : NavOutput ℝ).atti *ᵥ x - (1 : M3 ℝ) *ᵥ x) ≤ 0 * len x
      rw [e, sub_self, len_zero', zero_mul]
  · intro k
    induction k with
    | zero => intro t; exact ⟨[], by simp, by simp [fixesOf], rfl, rfl, trivial⟩
    | succ k ih =>
      intro t
      obtain ⟨cs, h1, h2, h3, h4, h5⟩ := ih (t + dt)
      refine ⟨.time (some ⟨0, (t + dt) • earthRate (1 / 2) - t • earthRate (1 / 2), liftImpulse (t + dt) - liftImpulse t⟩) :: .getStatus ::
        .gnss (some (Ex.fix 0)) :: cs, ?_, ?_, ?_, ?_, ⟨⟨?_, ?_⟩, h5⟩⟩
      · intro c hc
        simp only [List.mem_cons] at hc
        rcases hc with rfl | rfl | rfl | hc
        · rfl
        · rfl
        · rfl
        · exact h1 c hc
      · intro m hm
        simp only [fixesOf, List.mem_cons] at hm
        rcases hm with rfl | hm
        · simp [usable, Ex.fix]
        · exact h2 m hm
      · simp [fixesOf, h3]
      · simp [imusOf, h4]
      · rw [show (_ - _ : V3 ℝ) = 0 by ext i; fin_cases i <;> simp [Ex.opt, Fusion.zeroOpt, zero3, v3]]
        rw [len_zero', zero_mul]
      · rw [show (_ - _ : V3 ℝ) = 0 by ext i; fin_cases i <;> simp [Ex.opt, Fusion.zeroOpt, zero3, v3]]
        rw [len_zero', zero_mul]
end Verif.Props
