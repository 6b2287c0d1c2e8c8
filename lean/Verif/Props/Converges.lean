import Mathlib.MeasureTheory.Integral.IntervalIntegral.FundThmCalculus
import Mathlib.Topology.Order.Compact
import Verif.Props.FlightStep2
/-! C201: the strapdown mechanization converges to the true flight. -/
namespace Verif.Props
open Verif Verif.Spec Verif.Convert Matrix
open scoped Quaternion

variable {B : Limits} {K ρ e dt t T : ℝ} {s : Ins ℝ} {lat lon h : ℝ → ℝ} {v : ℝ → V3 ℝ} {C : ℝ → M3 ℝ} {w θ f α : ℝ → V3 ℝ}

theorem series_le (x : V3 ℝ) (hx : len x ≤ 1) : seriesError x ≤ len x ^ 2 := by
  unfold seriesError
  have : len x ^ 9 ≤ len x ^ 2 := pow_le_pow_of_le_one (len_nonneg x) hx (by norm_num)
  have := sq_nonneg (len x)
  linarith

/-- The turn of the frame taken out of the attitude. -/
theorem frame_turn (k : Kit B K ρ) (F : TrueFlight B T lat lon h v C w θ f α) (n : Near K e dt t s lat lon h v C) (sm : Small K ρ e dt) (ht : 0 ≤ t) (hT : t + dt ≤ T)
    (g : ℝ) (m : Imu ℝ) (hg : len (increment s.nav s.dt m.gyro - (θ (t + dt) - θ t)) ≤ dt * e) (ha : len (forceIncrement s.nav s.dt m.acce - (α (t + dt) - α t)) ≤ dt * e) :
    len (navFrameTurn s.dt s.nav (s.forwardImu g m).2.nav - dt • trueFrame lat h v t) ≤ 8 * K ^ 2 * (dt * (e + dt)) ∧ len (navFrameTurn s.dt s.nav (s.forwardImu g m).2.nav) ≤ K * dt ∧
    |(s.forwardImu g m).2.nav.pos 0 + ((s.forwardImu g m).2.nav.pos 0 - s.nav.pos 0) / 2| ≤ (B.lat + Real.pi / 2) / 2 ∧ |(s.nav.pos 2 + (s.forwardImu g m).2.nav.pos 2) / 2| ≤ B.height + 1 := by
  obtain ⟨f1, f2, f3, f4, f5, f6, f7⟩ := small_facts k sm
  have hK := k.bounds.one
  have hd := sm.dt0
  have he := sm.e0
  have hT' : t ≤ T := by linarith
  obtain ⟨b1, b2, b3, b4⟩ := near_box k F n sm ht hT'
  obtain ⟨mv, mu⟩ := mean_vel k F n sm ht hT g m hg ha _ rfl
  obtain ⟨hq, hp⟩ := step_place k F n sm ht hT g m hg ha
  obtain ⟨-, hh⟩ := step_height k F n sm ht hT g m hg ha
  have L := (true_lip F k.sane k.bounds).latitude t (t + dt) ht (by linarith) hT
  rw [show t + dt - t = dt by ring] at L
  have hst := sm.step
  have e1 : e + 17 * K ^ 3 * dt * (e + dt) ≤ 2 * (e + dt) := by
    have := mul_le_mul_of_nonneg_right hst (by linarith : 0 ≤ e + dt)
    linarith
  have ll := (k.lla (lat (t + dt)) (lon (t + dt)) _ (F.lat_le _ (by linarith) hT) (F.lon_le _ (by linarith) hT) (hp.trans (e1.trans (by nlinarith)))).1
  have hl : (s.forwardImu g m).2.nav.pos 0 = (qneToLla (s.forwardImu g m).2.nav.Qne).lat := rfl
  rw [← hl] at ll
  have l1 : |(s.forwardImu g m).2.nav.pos 0 - lat (t + dt)| ≤ 2 * (K * (e + dt)) := by
    refine ll.trans ((mul_le_mul_of_nonneg_left (hp.trans e1) (by linarith)).trans (le_of_eq (by ring)))
  have hturn : navFrameTurn s.dt s.nav (s.forwardImu g m).2.nav = dt • frameRate ((s.forwardImu g m).2.nav.pos 0 + ((s.forwardImu g m).2.nav.pos 0 - s.nav.pos 0) / 2)
      (fun j => (s.nav.vn j + (s.forwardImu g m).2.nav.vn j) / 2) ((s.nav.pos 2 + (s.forwardImu g m).2.nav.pos 2) / 2) := by
    funext i
    unfold navFrameTurn frameRate
    rw [n.dt_eq]
    simp only [Pi.add_apply, Pi.smul_apply, smul_eq_mul]; ring
  rw [hturn]
  have hn := n.height
  have Ke : K * (e + dt) = K * e + K * dt := by ring
  have K1 : 1 * e ≤ K * e := mul_le_mul_of_nonneg_right hK he
  generalize (s.forwardImu g m).2.nav.pos 0 = x1 at *
  generalize (s.forwardImu g m).2.nav.pos 2 = z1 at *
  generalize s.nav.pos 0 = x0 at *
  generalize s.nav.pos 2 = z0 at *
  generalize (fun j => (s.nav.vn j + (s.forwardImu g m).2.nav.vn j) / 2) = u at *
  have la : |x1 + (x1 - x0) / 2 - lat t| ≤ 5 * (K * (e + dt)) := by
    rw [abs_le] at l1 L b4 ⊢
    have := mul_nonneg (by linarith : 0 ≤ K) hd.le
    constructor <;> linarith [l1.1, l1.2, L.1, L.2, b4.1, b4.2]
  have ha : |(z0 + z1) / 2 - h t| ≤ K * (e + dt) := by
    rw [abs_le] at hn hh ⊢
    have := mul_nonneg (by linarith : 0 ≤ K) hd.le
    constructor <;> linarith [hn.1, hn.2, hh.1, hh.2]
  have bl : |x1 + (x1 - x0) / 2| ≤ (B.lat + Real.pi / 2) / 2 := by
    have := abs_sub_abs_le_abs_sub (x1 + (x1 - x0) / 2) (lat t); have := F.lat_le t ht hT'; have := k.gap
    have := mul_le_mul_of_nonneg_right hK k.pos.le
    have : 10 * K * (e + dt) = 10 * (K * (e + dt)) := by ring
    have : 0 ≤ K * (e + dt) := mul_nonneg (by linarith) (by linarith)
    linarith
  have bz : |(z0 + z1) / 2| ≤ B.height + 1 := by
    have := abs_sub_abs_le_abs_sub ((z0 + z1) / 2) (h t); have := F.height_le t ht hT'
    have : 10 * K * (e + dt) = 10 * (K * (e + dt)) := by ring
    have : 0 ≤ K * (e + dt) := mul_nonneg (by linarith) (by linarith)
    linarith
  have fd := frame_diff k F ht hT' _ _ _ _ _ _ bl mu bz la mv ha
  have fl := k.bounds.lip.frame_le _ _ _ bl mu bz
  refine ⟨?_, ?_, bl, bz⟩
  · rw [← smul_sub, len_smul, abs_of_pos hd]
    refine (mul_le_mul_of_nonneg_left fd hd.le).trans (le_of_eq ?_)
    ring
  · rw [len_smul, abs_of_pos hd, mul_comm]; exact mul_le_mul_of_nonneg_right fl hd.le

theorem step_att (k : Kit B K ρ) (F : TrueFlight B T lat lon h v C w θ f α) (n : Near K e dt t s lat lon h v C) (sm : Small K ρ e dt) (ht : 0 ≤ t) (hT : t + dt ≤ T)
    (g : ℝ) (m : Imu ℝ) (hg : len (increment s.nav s.dt m.gyro - (θ (t + dt) - θ t)) ≤ dt * e) (ha : len (forceIncrement s.nav s.dt m.acce - (α (t + dt) - α t)) ≤ dt * e) (x : V3 ℝ) :
    len ((s.forwardImu g m).2.nav.Cbn *ᵥ x - C (t + dt) *ᵥ x) ≤ (e + 41 * K ^ 3 * dt * (e + dt)) * len x := by
  obtain ⟨f1, f2, f3, f4, f5, f6, f7⟩ := small_facts k sm
  have hK := k.bounds.one
  have hd := sm.dt0
  have he := sm.e0
  have hT' : t ≤ T := by linarith
  obtain ⟨ft, fl, _, _⟩ := frame_turn k F n sm ht hT g m hg ha
  have hR := near_rot n
  have S := (true_step F k.sane k.bounds t dt ht hd.le hT).att x
  obtain ⟨lw, -⟩ := read_le k F sm ht hT _ _ hg ha
  have hcomp := C194_attitude_is_composition g s n.unit n.dcm [m] x
  have hfl : (flight g s [m]).2.nav.Cbn = (s.forwardImu g m).2.nav.Cbn := rfl
  have htu : flightTurns g s s.gyroPre [m] = [⟨navFrameTurn s.dt s.nav (s.forwardImu g m).2.nav, bodyTurn s.gyroPre (increment s.nav s.dt m.gyro)⟩] := rfl
  rw [hfl, htu] at hcomp
  simp only [List.foldl_cons, List.foldl_nil, Turn.applyTo, List.map_cons, List.map_nil, List.sum_cons, List.sum_nil, add_zero] at hcomp
  have tf := frame_true F k.sane k.bounds t ht hT'
  have hb : ∀ ω, bodyTurn s.gyroPre ω = ω + (1 / 12 : ℝ) • xp s.gyroPre ω := by
    intro ω; funext i; unfold bodyTurn; simp only [Pi.add_apply, Pi.smul_apply, smul_eq_mul]; ring
  have hgp := n.gyro
  have n1 := n.att x
  have n2 := n.att (xp (increment s.nav s.dt m.gyro) x)
  have lx := len_nonneg x
  have hrot : ∀ y, len (C t *ᵥ y) = len y := fun y => len_isRot _ (F.rot t ht hT') y
  change len ((s.forwardImu g m).2.nav.Cbn *ᵥ x - ((turnM (navFrameTurn s.dt s.nav (s.forwardImu g m).2.nav))ᵀ * s.nav.Cbn * turnM (bodyTurn s.gyroPre (increment s.nav s.dt m.gyro))) *ᵥ x) ≤ _ at hcomp
  generalize navFrameTurn s.dt s.nav (s.forwardImu g m).2.nav = z at *
  generalize θ (t + dt) - θ t = ω' at *
  generalize increment s.nav s.dt m.gyro = ω at *
  have lbd : len (bodyTurn s.gyroPre ω - ω) ≤ K ^ 2 * dt ^ 2 := by
    rw [hb, add_sub_cancel_left, len_smul, abs_of_pos (by norm_num)]
    have := (len_xp_le s.gyroPre ω).trans (mul_le_mul hgp lw (len_nonneg _) (by positivity))
    have e1 : K * dt * (K * dt) = K ^ 2 * dt ^ 2 := by ring
    have : 0 ≤ K ^ 2 * dt ^ 2 := by positivity
    linarith
  have Kd : K ^ 2 * dt ^ 2 ≤ K * dt := by
    have : K ^ 2 * dt ^ 2 = K * dt * (K * dt) := by ring
    rw [this]
    have : K * dt * (K * dt) ≤ K * dt * 1 := mul_le_mul_of_nonneg_left (by linarith) (mul_nonneg (by linarith) hd.le)
    linarith
  generalize bodyTurn s.gyroPre ω = b at *
  have lb : len b ≤ 2 * (K * dt) := by
    have e1 : b = (b - ω) + ω := by abel
    rw [e1]
    have := len_add_le (b - ω) ω
    linarith
  have at2 := att_two s.nav.Cbn hR z b x (fl.trans (by linarith)) (lb.trans (by linarith))
  have sz := series_le z (fl.trans (by linarith))
  have sb := series_le b (lb.trans (by linarith))
  generalize s.nav.Cbn = R at *
  generalize (s.forwardImu g m).2.nav.Cbn = R1 at *
  generalize trueFrame lat h v t = o at *
  obtain ⟨o1, o2, o3, o4, o5, o6⟩ := orders K e dt hK he hd
  have e1 : R1 *ᵥ x - C (t + dt) *ᵥ x = (R1 *ᵥ x - ((turnM z)ᵀ * R * turnM b) *ᵥ x) + (((turnM z)ᵀ * R * turnM b) *ᵥ x - R *ᵥ x - R *ᵥ xp b x + xp z (R *ᵥ x)) +
      (R *ᵥ x - C t *ᵥ x) + R *ᵥ xp (b - ω) x + (R *ᵥ xp ω x - C t *ᵥ xp ω x) - xp (z - dt • o) (R *ᵥ x) - dt • xp o (R *ᵥ x - C t *ᵥ x) -
      (C (t + dt) *ᵥ x - C t *ᵥ x - C t *ᵥ xp ω' x + dt • xp o (C t *ᵥ x)) + C t *ᵥ xp (ω - ω') x := by
    rw [xp_sub_left, xp_sub_left, xp_sub_left, mulVec_sub, mulVec_sub, xp_sub_right, xp_smul_left, smul_sub]; abel
  rw [e1]
  have p1 : len (R1 *ᵥ x - ((turnM z)ᵀ * R * turnM b) *ᵥ x) ≤ 10 * (K ^ 2 * dt ^ 2) * len x := by
    refine hcomp.trans (mul_le_mul_of_nonneg_right ?_ lx)
    have q1 := pow_le_pow_left₀ (len_nonneg _) fl 2
    have q2 := pow_le_pow_left₀ (len_nonneg _) lb 2
    have q3 : (K * dt) ^ 2 = K ^ 2 * dt ^ 2 := by ring
    have q4 : (2 * (K * dt)) ^ 2 = 4 * (K ^ 2 * dt ^ 2) := by ring
    rw [q3] at q1
    rw [q4] at q2
    linarith
  have p2 : len (((turnM z)ᵀ * R * turnM b) *ᵥ x - R *ᵥ x - R *ᵥ xp b x + xp z (R *ᵥ x)) ≤ 9 * (K ^ 2 * dt ^ 2) * len x := by
    refine at2.trans (mul_le_mul_of_nonneg_right ?_ lx)
    have q1 := pow_le_pow_left₀ (add_nonneg (len_nonneg _) (len_nonneg _)) (add_le_add fl lb) 2
    refine q1.trans (le_of_eq ?_); ring
  have p3 : len (R *ᵥ xp (b - ω) x) ≤ K ^ 2 * dt ^ 2 * len x := by
    rw [hR]; exact (len_xp_le _ _).trans (mul_le_mul_of_nonneg_right lbd lx)
  have p4 : len (R *ᵥ xp ω x - C t *ᵥ xp ω x) ≤ K * (dt * e) * len x := by
    refine n2.trans ((mul_le_mul_of_nonneg_left ((len_xp_le _ _).trans (mul_le_mul_of_nonneg_right lw lx)) he).trans (le_of_eq ?_)); ring
  have p5 : len (xp (z - dt • o) (R *ᵥ x)) ≤ 8 * K ^ 2 * (dt * (e + dt)) * len x := by
    refine (len_xp_le _ _).trans ?_
    rw [hR]; exact mul_le_mul_of_nonneg_right ft lx
  have p6 : len (dt • xp o (R *ᵥ x - C t *ᵥ x)) ≤ K * (dt * e) * len x := by
    rw [len_smul, abs_of_pos hd]
    refine (mul_le_mul_of_nonneg_left ((len_xp_le _ _).trans (mul_le_mul tf n1 (len_nonneg _) (by linarith))) hd.le).trans (le_of_eq ?_); ring
  have p7 : len (C t *ᵥ xp (ω - ω') x) ≤ dt * e * len x := by
    rw [hrot]; exact (len_xp_le _ _).trans (mul_le_mul_of_nonneg_right hg lx)
  generalize R1 *ᵥ x - ((turnM z)ᵀ * R * turnM b) *ᵥ x = A1 at *
  generalize ((turnM z)ᵀ * R * turnM b) *ᵥ x - R *ᵥ x - R *ᵥ xp b x + xp z (R *ᵥ x) = A2 at *
  generalize R *ᵥ xp (b - ω) x = A3 at *
  generalize R *ᵥ xp ω x - C t *ᵥ xp ω x = A4 at *
  generalize xp (z - dt • o) (R *ᵥ x) = A5 at *
  generalize dt • xp o (R *ᵥ x - C t *ᵥ x) = A6 at *
  generalize C (t + dt) *ᵥ x - C t *ᵥ x - C t *ᵥ xp ω' x + dt • xp o (C t *ᵥ x) = A7 at *
  generalize C t *ᵥ xp (ω - ω') x = A9 at *
  generalize R *ᵥ x - C t *ᵥ x = A8 at *
  have w0 := len_add_le (A1 + A2 + A8 + A3 + A4 - A5 - A6 - A7) A9
  have w1 := len_sub_le (A1 + A2 + A8 + A3 + A4 - A5 - A6) A7
  have w2 := len_sub_le (A1 + A2 + A8 + A3 + A4 - A5) A6
  have w3 := len_sub_le (A1 + A2 + A8 + A3 + A4) A5
  have w4 := len_add_le (A1 + A2 + A8 + A3) A4
  have w5 := len_add_le (A1 + A2 + A8) A3
  have w6 := len_add_le (A1 + A2) A8
  have w7 := len_add_le A1 A2
  have w8 : (10 * (K ^ 2 * dt ^ 2) + 9 * (K ^ 2 * dt ^ 2) + e + K ^ 2 * dt ^ 2 + K * (dt * e) + 8 * K ^ 2 * (dt * (e + dt)) + K * (dt * e) + 8 * K ^ 2 * dt ^ 2 + dt * e) * len x ≤
      (e + 41 * K ^ 3 * dt * (e + dt)) * len x := by
    refine mul_le_mul_of_nonneg_right ?_ lx
    have q1 : 41 * K ^ 3 * dt * (e + dt) = 41 * (K ^ 3 * (dt * (e + dt))) := by ring
    rw [q1]
    linarith
  linarith

/-- One sample. -/
theorem near_step (k : Kit B K ρ) (F : TrueFlight B T lat lon h v C w θ f α) (n : Near K e dt t s lat lon h v C) (sm : Small K ρ e dt) (ht : 0 ≤ t) (hT : t + dt ≤ T)
    (g : ℝ) (m : Imu ℝ) (hg : len (increment s.nav s.dt m.gyro - (θ (t + dt) - θ t)) ≤ dt * e) (ha : len (forceIncrement s.nav s.dt m.acce - (α (t + dt) - α t)) ≤ dt * e) :
    Near K (e + 50 * K ^ 3 * dt * (e + dt)) dt (t + dt) (s.forwardImu g m).2 lat lon h v C := by
  have hK := k.bounds.one
  have hd := sm.dt0
  have he := sm.e0
  obtain ⟨v1, v2⟩ := step_vel k F n sm ht hT g m hg ha
  obtain ⟨h1, -⟩ := step_height k F n sm ht hT g m hg ha
  obtain ⟨p1, p2⟩ := step_place k F n sm ht hT g m hg ha
  have hat := step_att k F n sm ht hT g m hg ha
  obtain ⟨-, -, -, -, -, o6⟩ := orders K e dt hK he hd
  have q : ∀ c : ℝ, c ≤ 50 → e + c * K ^ 3 * dt * (e + dt) ≤ e + 50 * K ^ 3 * dt * (e + dt) := by
    intro c hc
    have e1 : ∀ c : ℝ, c * K ^ 3 * dt * (e + dt) = c * (K ^ 3 * (dt * (e + dt))) := fun c => by ring
    rw [e1, e1]
    have := mul_le_mul_of_nonneg_right hc o6
    linarith
  obtain ⟨lw, la⟩ := read_le k F sm ht hT _ _ hg ha
  refine ⟨(next_rotation g s m n.unit).1, rfl, p1, rfl, rfl, n.dt_eq, ?_, ?_, ?_, p2.trans (q 17 (by norm_num)), v1.trans (q 18 (by norm_num)), h1.trans (q 10 (by norm_num)), ?_⟩
  · have e1 : (s.forwardImu g m).2.nav.dvn = (s.forwardImu g m).2.nav.vn - s.nav.vn := by
      have : (s.forwardImu g m).2.nav.vn = s.nav.vn + (s.forwardImu g m).2.nav.dvn := rfl
      rw [this]; abel
    rw [e1]
    have := mul_pos (by linarith : 0 < K) hd
    linarith
  · show len (Ins.compensate s.dt m.gyro s.nav.gb s.nav.gs) ≤ _
    rw [turn_compensated]; exact lw
  · show len (Ins.compensate s.dt m.acce s.nav.ab s.nav.as) ≤ _
    rw [force_compensated]; exact la
  · intro x
    exact (hat x).trans (mul_le_mul_of_nonneg_right (q 41 (by norm_num)) (len_nonneg x))

theorem near_flight (k : Kit B K ρ) (F : TrueFlight B T lat lon h v C w θ f α) (A : ℝ) (hA : A = 50 * K ^ 3) (h0 : 0 < dt) (hstep : A * dt ≤ 1) (δ : ℝ) (N : NavEpoch ℝ) (ms : List (Imu ℝ)) :
    ∀ (g : ℝ) (s : Ins ℝ) (t e : ℝ), N.gb = s.nav.gb → N.gs = s.nav.gs → N.ab = s.nav.ab → N.as = s.nav.as → Near K e dt t s lat lon h v C → 0 ≤ e → δ ≤ e → 0 ≤ t →
    t + ms.length * dt ≤ T → 10 * K ^ 2 * ((e + dt) * (1 + A * dt) ^ ms.length) ≤ ρ → NearImu δ N dt θ α t ms →
    Near K ((e + dt) * (1 + A * dt) ^ ms.length - dt) dt (t + ms.length * dt) (flight g s ms).2 lat lon h v C := by
  have hK := k.bounds.one
  have hA0 : 0 ≤ A := by rw [hA]; positivity
  have hg1 : 1 ≤ 1 + A * dt := by have := mul_nonneg hA0 h0.le; linarith
  induction ms with
  | nil =>
    intro g s t e _ _ _ _ n _ _ _ _ _ _
    simpa [flight] using n
  | cons m ms ih =>
    intro g s t e h1 h2 h3 h4 n he hδ ht hT hρ hp
    obtain ⟨⟨i1, i2⟩, hp'⟩ := hp
    have hed : 0 ≤ e + dt := by linarith
    have hpow : 1 ≤ (1 + A * dt) ^ (m :: ms).length := one_le_pow₀ hg1
    have sm : Small K ρ e dt := ⟨he, h0, by
      refine le_trans ?_ hρ
      refine mul_le_mul_of_nonneg_left ?_ (by positivity)
      have := mul_le_mul_of_nonneg_left hpow hed
      linarith, by rw [← hA]; exact hstep⟩
    have hlen : t + dt + ms.length * dt ≤ T := by
      rw [List.length_cons] at hT; push_cast at hT; linarith
    have hms : 0 ≤ (ms.length : ℝ) * dt := mul_nonneg (Nat.cast_nonneg _) h0.le
    have c1 : increment N dt m.gyro = increment s.nav s.dt m.gyro := by rw [n.dt_eq]; unfold increment; rw [h1, h2]
    have c2 : forceIncrement N dt m.acce = forceIncrement s.nav s.dt m.acce := by rw [n.dt_eq]; unfold forceIncrement; rw [h3, h4]
    rw [c1] at i1
    rw [c2] at i2
    have hδ' : δ * dt ≤ dt * e := by rw [mul_comm]; exact mul_le_mul_of_nonneg_left hδ h0.le
    have j1 := i1.trans hδ'
    have j2 := i2.trans hδ'
    have st := near_step k F n sm ht (by linarith) g m j1 j2
    rw [← hA] at st
    have ee : e + A * dt * (e + dt) + dt = (e + dt) * (1 + A * dt) := by ring
    have r := ih (s.forwardImu g m).1 (s.forwardImu g m).2 (t + dt) (e + A * dt * (e + dt)) h1 h2 h3 h4 st
      (add_nonneg he (mul_nonneg (mul_nonneg hA0 h0.le) hed)) (by have := mul_nonneg (mul_nonneg hA0 h0.le) hed; linarith) (by linarith) hlen (by
        rw [ee, mul_assoc (e + dt), ← pow_succ']; exact hρ) hp'
    rw [ee, mul_assoc (e + dt), ← pow_succ'] at r
    have tt : t + dt + (ms.length : ℝ) * dt = t + ((m :: ms).length : ℝ) * dt := by rw [List.length_cons]; push_cast; ring
    rw [tt] at r
    exact r

theorem RatesLip.mono {Λ V H a : ℝ} (r : RatesLip Λ V H a) {b : ℝ} (hab : a ≤ b) : RatesLip Λ V H b where
  nonneg := r.nonneg.trans hab
  frame_le := fun l v z h1 h2 h3 => (r.frame_le l v z h1 h2 h3).trans hab
  frame_lip := fun l l' v v' z z' h1 h2 h3 h4 h5 h6 => (r.frame_lip l l' v v' z z' h1 h2 h3 h4 h5 h6).trans
    (mul_le_mul_of_nonneg_right hab (add_nonneg (add_nonneg (abs_nonneg _) (len_nonneg _)) (abs_nonneg _)))
  fall_le := fun l v z u h1 h2 h3 h4 => (r.fall_le l v z u h1 h2 h3 h4).trans hab
  fall_lip := fun l l' v v' z z' u u' h1 h2 h3 h4 h5 h6 h7 h8 => (r.fall_lip l l' v v' z z' u u' h1 h2 h3 h4 h5 h6 h7 h8).trans
    (mul_le_mul_of_nonneg_right hab (add_nonneg (add_nonneg (add_nonneg (abs_nonneg _) (len_nonneg _)) (abs_nonneg _)) (len_nonneg _)))
  lat_le := fun l v z h1 h2 h3 => (r.lat_le l v z h1 h2 h3).trans hab

theorem kit_exists (B : Limits) (hs : B.Sane) (hV : 0 ≤ B.speed) : ∃ K ρ, Kit B K ρ := by
  obtain ⟨K1, r⟩ := rates_lip ((B.lat + Real.pi / 2) / 2) (B.speed + 1) (B.height + 1) (by have := hs.lat; linarith) (by have := hs.height; linarith) (by linarith)
  obtain ⟨L, ρ1, hρ1, ll⟩ := lla_near B.lat B.lon hs.lat hs.lon
  obtain ⟨K, hK⟩ : ∃ K, K = 1 + K1 + |L| + (B.speed + 1) + |B.rate| + |B.force| := ⟨_, rfl⟩
  have n1 := r.nonneg
  have a1 := abs_nonneg L; have a2 := abs_nonneg B.rate; have a3 := abs_nonneg B.force
  have b1 := le_abs_self L; have b2 := le_abs_self B.rate; have b3 := le_abs_self B.force
  have hK1 : 1 ≤ K := by rw [hK]; linarith
  have gp : 0 < (Real.pi / 2 - B.lat) / 2 := by have := hs.lat; linarith
  obtain ⟨ρ, hρ⟩ : ∃ ρ, ρ = min (min ρ1 1) ((Real.pi / 2 - B.lat) / 2 / K) := ⟨_, rfl⟩
  have hρ0 : 0 < ρ := by rw [hρ]; exact lt_min (lt_min hρ1 one_pos) (div_pos gp (by linarith))
  refine ⟨K, ρ, ⟨hK1, r.mono (by rw [hK]; linarith), by rw [hK]; linarith, by rw [hK]; linarith, by rw [hK]; linarith⟩, hs, hρ0, ?_, ?_, ?_⟩
  · rw [hρ]; exact (min_le_left _ _).trans (min_le_right _ _)
  · have : ρ ≤ (Real.pi / 2 - B.lat) / 2 / K := by rw [hρ]; exact min_le_right _ _
    rw [le_div_iff₀ (by linarith)] at this
    linarith
  · intro l o q h1 h2 h3
    have : ρ ≤ ρ1 := by rw [hρ]; exact (min_le_left _ _).trans (min_le_left _ _)
    obtain ⟨c1, c2⟩ := ll l o q h1 h2 (h3.trans this)
    have hLK : L ≤ K := by rw [hK]; linarith
    exact ⟨c1.trans (mul_le_mul_of_nonneg_right hLK (norm_nonneg _)), c2.trans (mul_le_mul_of_nonneg_right hLK (norm_nonneg _))⟩

theorem cos_prod_lip (a b a' b' : ℝ) : 2 - 2 * (Real.cos (a - a') * Real.cos (b - b')) ≤ (a - a') ^ 2 + (b - b') ^ 2 := by
  have h1 := Real.one_sub_sq_div_two_le_cos (x := a - a')
  have h2 := Real.one_sub_sq_div_two_le_cos (x := b - b')
  have h3 := Real.cos_le_one (a - a')
  have h4 := Real.cos_le_one (b - b')
  have h5 := Real.neg_one_le_cos (a - a')
  nlinarith [mul_nonneg (by linarith : 0 ≤ 1 - Real.cos (a - a')) (by linarith : 0 ≤ 1 - Real.cos (b - b'))]

/-- The place quaternion moves at most as far as latitude and longitude. -/
theorem lla_lip (l o l' o' x : ℝ) (h1 : |l - l'| ≤ x) (h2 : |o - o'| ≤ x) : ‖toH (llaToQne ⟨l, o⟩) - toH (llaToQne ⟨l', o'⟩)‖ ≤ x := by
  have hx : 0 ≤ x := (abs_nonneg _).trans h1
  have e : ∀ l o : ℝ, toH (llaToQne ⟨l, o⟩) = toH ⟨Real.cos (-(1 / 4) * Real.pi - 1 / 2 * l) * Real.cos (1 / 2 * o), -(Real.sin (-(1 / 4) * Real.pi - 1 / 2 * l)) * Real.sin (1 / 2 * o),
      Real.sin (-(1 / 4) * Real.pi - 1 / 2 * l) * Real.cos (1 / 2 * o), Real.cos (-(1 / 4) * Real.pi - 1 / 2 * l) * Real.sin (1 / 2 * o)⟩ := by
    intro l o
    ext <;> simp [llaToQne, lit_real, pi_real, sin_real, cos_real]
  have key := cos_prod_lip (-(1 / 4) * Real.pi - 1 / 2 * l) (1 / 2 * o) (-(1 / 4) * Real.pi - 1 / 2 * l') (1 / 2 * o')
  have hq : (-(1 / 4) * Real.pi - 1 / 2 * l - (-(1 / 4) * Real.pi - 1 / 2 * l')) ^ 2 + (1 / 2 * o - 1 / 2 * o') ^ 2 ≤ x ^ 2 := by
    have q1 : (l - l') ^ 2 ≤ x ^ 2 := sq_le_sq' (by linarith [abs_le.1 h1]) (by linarith [abs_le.1 h1])
    have q2 : (o - o') ^ 2 ≤ x ^ 2 := sq_le_sq' (by linarith [abs_le.1 h2]) (by linarith [abs_le.1 h2])
    have : (-(1 / 4) * Real.pi - 1 / 2 * l - (-(1 / 4) * Real.pi - 1 / 2 * l')) ^ 2 + (1 / 2 * o - 1 / 2 * o') ^ 2 = ((l - l') ^ 2 + (o - o') ^ 2) / 4 := by ring
    linarith [sq_nonneg x]
  rw [e, e]
  generalize -(1 / 4) * Real.pi - 1 / 2 * l = a at *
  generalize -(1 / 4) * Real.pi - 1 / 2 * l' = a' at *
  generalize 1 / 2 * o = b at *
  generalize 1 / 2 * o' = b' at *
  refine abs_le_of_sq_le_sq' ?_ hx |>.2
  refine le_trans (le_of_eq ?_) (key.trans hq)
  rw [sq ‖_‖, ← Quaternion.normSq_eq_norm_mul_self, Quaternion.normSq_def', Real.cos_sub, Real.cos_sub]
  rw [Quaternion.re_sub, Quaternion.imI_sub, Quaternion.imJ_sub, Quaternion.imK_sub]
  simp only [toH]
  have p1 := Real.sin_sq_add_cos_sq a; have p2 := Real.sin_sq_add_cos_sq b; have p3 := Real.sin_sq_add_cos_sq a'; have p4 := Real.sin_sq_add_cos_sq b'
  have p5 : (Real.sin a ^ 2 + Real.cos a ^ 2) * (Real.sin b ^ 2 + Real.cos b ^ 2) = 1 := by rw [p1, p2]; norm_num
  have p6 : (Real.sin a' ^ 2 + Real.cos a' ^ 2) * (Real.sin b' ^ 2 + Real.cos b' ^ 2) = 1 := by rw [p3, p4]; norm_num
  linear_combination p5 + p6

/-- C202: on every flight within given limits away from the poles and the 180 degree meridian, over any time `T`: position, velocity and attitude of the mechanization
follow the truth up to a constant times the sum of the error at the start, the error of the sensors and the sampling interval, when that sum is small enough. The constant
and what is small enough depend on the limits and `T` only. -/
theorem C202_errors_grow_in_proportion (B : Limits) (hs : B.Sane) (T : ℝ) : ∃ K r : ℝ, 0 < r ∧
    ∀ (lat lon h : ℝ → ℝ) (v : ℝ → V3 ℝ) (C : ℝ → M3 ℝ) (w θ f α : ℝ → V3 ℝ), TrueFlight B T lat lon h v C w θ f α →
    ∀ (g : ℝ) (s : Ins ℝ) (e δ : ℝ), StartsNear e s lat lon h v C → 0 < s.dt → 0 ≤ δ → e + δ + s.dt ≤ r →
    ∀ ms : List (Imu ℝ), ms.length * s.dt ≤ T → NearImu δ s.nav s.dt θ α 0 ms → ∀ (n : NavEpoch ℝ) (t : ℝ), n = (flight g s ms).2.nav → t = ms.length * s.dt →
      |n.pos 0 - lat t| ≤ K * (e + δ + s.dt) ∧ |n.pos 1 - lon t| ≤ K * (e + δ + s.dt) ∧ |n.pos 2 - h t| ≤ K * (e + δ + s.dt) ∧ len (n.vn - v t) ≤ K * (e + δ + s.dt) ∧
      ∀ x, len (n.Cbn *ᵥ x - C t *ᵥ x) ≤ K * (e + δ + s.dt) * len x := by
  by_cases hV : 0 ≤ B.speed
  swap
  · refine ⟨0, 1, one_pos, ?_⟩
    intro lat lon h v C w θ f α F g s e δ st hd0 _ hd ms hT
    have := mul_nonneg (Nat.cast_nonneg ms.length : (0 : ℝ) ≤ ms.length) hd0.le
    exact absurd (limits_pos F 0 (le_refl 0) (by linarith)).2.2.2.1 hV
  obtain ⟨K, ρ, k⟩ := kit_exists B hs hV
  have hK := k.bounds.one
  obtain ⟨A, hA⟩ : ∃ A, A = 50 * K ^ 3 := ⟨_, rfl⟩
  have hA0 : 0 < A := by rw [hA]; positivity
  obtain ⟨G, hG⟩ : ∃ G, G = Real.exp (A * T) := ⟨_, rfl⟩
  have hG0 : 0 < G := by rw [hG]; exact Real.exp_pos _
  have g1 : 0 < (Real.pi / 2 - B.lat) / 2 := by have := hs.lat; linarith
  have g2 : 0 < (Real.pi - B.lon) / 2 := by have := hs.lon; linarith
  refine ⟨K * G, min (min (1 / A) (ρ / (10 * K ^ 2 * G))) (min ((Real.pi / 2 - B.lat) / 2) ((Real.pi - B.lon) / 2)),
    lt_min (lt_min (by positivity) (div_pos k.pos (by positivity))) (lt_min g1 g2), ?_⟩
  intro lat lon h v C w θ f α F g s e δ st hd0 hδ0 hr ms hT hp n t hn ht
  have he0 : 0 ≤ e := (abs_nonneg _).trans st.latitude
  have r1 := (hr.trans (min_le_left _ _)).trans (min_le_left _ _)
  have r2 := (hr.trans (min_le_left _ _)).trans (min_le_right _ _)
  have r3 := (hr.trans (min_le_right _ _)).trans (min_le_left _ _)
  have r4 := (hr.trans (min_le_right _ _)).trans (min_le_right _ _)
  clear hr
  have hms : 0 ≤ (ms.length : ℝ) * s.dt := mul_nonneg (Nat.cast_nonneg _) hd0.le
  have hAd : A * s.dt ≤ 1 := by
    have : s.dt ≤ 1 / A := by linarith
    rw [le_div_iff₀ hA0] at this; linarith
  have hη : 0 < e + δ + s.dt := by linarith
  have hρd : 10 * K ^ 2 * ((e + δ + s.dt) * G) ≤ ρ := by
    rw [le_div_iff₀ (by positivity)] at r2; linarith
  have hpow : (1 + A * s.dt) ^ ms.length ≤ G := by
    have h1 : 1 + A * s.dt ≤ Real.exp (A * s.dt) := by have := Real.add_one_le_exp (A * s.dt); linarith
    have h2 := pow_le_pow_left₀ (by have := mul_pos hA0 hd0; linarith) h1 ms.length
    rw [← Real.exp_nat_mul] at h2
    refine h2.trans ?_
    rw [hG]
    refine Real.exp_le_exp.2 ?_
    have := mul_le_mul_of_nonneg_left hT hA0.le
    linarith
  have hT0 : (0 : ℝ) ≤ T := by linarith
  have a1 := abs_le.1 (F.lat_le 0 (le_refl 0) hT0)
  have a2 := abs_le.1 (F.lon_le 0 (le_refl 0) hT0)
  have a3 := abs_le.1 st.latitude
  have a4 := abs_le.1 st.longitude
  have rt := C41_lat_lon_round_trip ⟨s.nav.pos 0, s.nav.pos 1⟩
    (by have := hs.lat; exact ⟨by dsimp only; linarith [a1.1, a1.2, a3.1, a3.2], by dsimp only; linarith [a1.1, a1.2, a3.1, a3.2]⟩)
    (by have := hs.lon; exact ⟨by dsimp only; linarith [a2.1, a2.2, a4.1, a4.2], by dsimp only; linarith [a2.1, a2.2, a4.1, a4.2]⟩)
  obtain ⟨z1, z2, z3⟩ := st.fresh
  have hK0 : 0 ≤ K * s.dt := mul_nonneg (by linarith) hd0.le
  have start : Near K (e + δ) s.dt 0 s lat lon h v C := by
    refine ⟨st.unit, st.dcm, by rw [st.place]; exact (C41_position_quaternion _).1, by rw [st.place, rt], by rw [st.place, rt], rfl,
      by rw [z1, len_zero']; linarith, by rw [z2, len_zero']; exact hK0, by rw [z3, len_zero']; exact hK0, ?_, ?_, ?_, ?_⟩
    · rw [st.place]; exact (lla_lip _ _ _ _ e st.latitude st.longitude).trans (by linarith)
    · linarith [st.vel]
    · linarith [st.height]
    · intro x; exact (st.att x).trans (mul_le_mul_of_nonneg_right (by linarith) (len_nonneg x))
  have N := near_flight k F A hA hd0 hAd δ s.nav ms g s 0 (e + δ) rfl rfl rfl rfl start (by linarith) (by linarith) (le_refl 0) (by rw [zero_add]; exact hT) (by
    refine le_trans ?_ hρd
    exact mul_le_mul_of_nonneg_left (mul_le_mul_of_nonneg_left hpow hη.le) (by positivity)) hp
  rw [zero_add, ← ht] at N
  have hE : (e + δ + s.dt) * (1 + A * s.dt) ^ ms.length - s.dt ≤ (e + δ + s.dt) * G := by
    have := mul_le_mul_of_nonneg_left hpow hη.le; linarith
  have hEK : (e + δ + s.dt) * G ≤ K * G * (e + δ + s.dt) := by
    have := mul_le_mul_of_nonneg_right hK (mul_pos hη hG0).le
    linarith
  have hEρ : (e + δ + s.dt) * G ≤ ρ := by
    have h1 : 1 ≤ 10 * K ^ 2 := by nlinarith
    have := mul_le_mul_of_nonneg_right h1 (mul_pos hη hG0).le
    linarith
  have ll := k.lla (lat t) (lon t) (flight g s ms).2.nav.Qne (F.lat_le t (by rw [ht]; exact hms) (by rw [ht]; exact hT)) (F.lon_le t (by rw [ht]; exact hms) (by rw [ht]; exact hT))
    (N.place.trans (hE.trans hEρ))
  have hq : ‖toH (flight g s ms).2.nav.Qne - toH (llaToQne ⟨lat t, lon t⟩)‖ ≤ (e + δ + s.dt) * G := N.place.trans hE
  have hKq := mul_le_mul_of_nonneg_left hq (by linarith : 0 ≤ K)
  rw [← N.pos0, ← N.pos1] at ll
  rw [hn]
  refine ⟨by linarith [ll.1], by linarith [ll.2], by linarith [N.height], by linarith [N.vel], ?_⟩
  intro x
  refine (N.att x).trans (mul_le_mul_of_nonneg_right (by linarith) (len_nonneg x))

theorem perfect_near (n : NavEpoch ℝ) (dt : ℝ) (θ α : ℝ → V3 ℝ) (ms : List (Imu ℝ)) : ∀ t, PerfectImu n dt θ α t ms → NearImu 0 n dt θ α t ms := by
  induction ms with
  | nil => intro t _; trivial
  | cons m ms ih =>
    intro t h
    refine ⟨⟨?_, ?_⟩, ih _ h.2⟩
    · rw [h.1.1, sub_self, len_zero', zero_mul]
    · rw [h.1.2, sub_self, len_zero', zero_mul]

theorem starts_near {s : Ins ℝ} {lat lon h : ℝ → ℝ} {v : ℝ → V3 ℝ} {C : ℝ → M3 ℝ} (st : StartsAt s lat lon h v C) : StartsNear 0 s lat lon h v C := by
  refine ⟨by simp [st.pos], by simp [st.pos], by simp [st.pos], by rw [st.place, st.pos]; rfl, by rw [st.vel, sub_self, len_zero'], st.unit, st.dcm, ?_, st.fresh⟩
  intro x; rw [st.att, sub_self, len_zero', zero_mul]

/-- C201: on every flight within given limits away from the poles and the 180 degree meridian, over any time `T`, perfect sensors and the true start: position,
velocity and attitude of the mechanization follow the truth up to a constant times the sampling interval, where the constant depends on the limits and `T` only. -/
theorem C201_strapdown_converges (B : Limits) (hs : B.Sane) (T : ℝ) : ∃ K δ : ℝ, 0 < δ ∧
    ∀ (lat lon h : ℝ → ℝ) (v : ℝ → V3 ℝ) (C : ℝ → M3 ℝ) (w θ f α : ℝ → V3 ℝ), TrueFlight B T lat lon h v C w θ f α →
    ∀ (g : ℝ) (s : Ins ℝ), StartsAt s lat lon h v C → 0 < s.dt → s.dt ≤ δ →
    ∀ ms : List (Imu ℝ), ms.length * s.dt ≤ T → PerfectImu s.nav s.dt θ α 0 ms → ∀ (n : NavEpoch ℝ) (t : ℝ), n = (flight g s ms).2.nav → t = ms.length * s.dt →
      |n.pos 0 - lat t| ≤ K * s.dt ∧ |n.pos 1 - lon t| ≤ K * s.dt ∧ |n.pos 2 - h t| ≤ K * s.dt ∧ len (n.vn - v t) ≤ K * s.dt ∧
      ∀ x, len (n.Cbn *ᵥ x - C t *ᵥ x) ≤ K * s.dt * len x := by
  obtain ⟨K, r, hr, H⟩ := C202_errors_grow_in_proportion B hs T
  refine ⟨K, r, hr, ?_⟩
  intro lat lon h v C w θ f α F g s st hd0 hd ms hT hp n t hn ht
  have := H lat lon h v C w θ f α F g s 0 0 (starts_near st) hd0 (le_refl 0) (by linarith) ms hT (perfect_near _ _ _ _ _ _ hp) n t hn ht
  simpa only [zero_add] using this

/-! C201's hypotheses are met: a lift going up at 3 m/s on the turning earth, with perfect sensors. -/

/-- The specific force in a lift going up at 3 m/s, at latitude 1/2, from 100 m. -/
noncomputable def liftForce (t : ℝ) : V3 ℝ := xp ((2 : ℝ) • earthRate (1 / 2)) ![0, 0, -3] - ![0, 0, normalGravity (1 / 2) (100 + 3 * t)]

theorem liftForce_cont (i : Fin 3) : Continuous (fun t => liftForce t i) := by
  fin_cases i <;> simp [liftForce, xp, normalGravity] <;> fun_prop

noncomputable def liftImpulse (t : ℝ) : V3 ℝ := fun i => ∫ u in (0 : ℝ)..t, liftForce u i

theorem lift_deriv (t : ℝ) (i : Fin 3) : HasDerivAt (fun u => liftImpulse u i) (liftForce t i) t :=
  (liftForce_cont i).integral_hasStrictDerivAt 0 t |>.hasDerivAt

/-- The device in that lift. -/
noncomputable def liftIns (dt : ℝ) : Ins ℝ :=
  { nav := { gpst := 0, pos := ![1 / 2, 1, 100], vn := ![0, 0, -3], atti := 0, dvn := 0, vfKb := 0, Cbn := quatToDcm ⟨1, 0, 0, 0⟩,
             Cne := llaToCne ⟨1 / 2, 1⟩, Qbn := ⟨1, 0, 0, 0⟩, Qne := llaToQne ⟨1 / 2, 1⟩, gb := 0, ab := 0,
             gs := 0, as := 0, posStd := 0, velStd := 0, attStd := 0, kd := 1, info := ⟨0, 0⟩, week := 0 }
    dt := dt, accePre := 0, gyroPre := 0, omegaEnN := 0, omegaIeN := 0, vnMid := 0, posMid := 0 }

example : ∃ B : Limits, B.Sane ∧ TrueFlight B 60 (fun _ => 1 / 2) (fun _ => 1) (fun t => 100 + 3 * t) (fun _ => ![0, 0, -3]) (fun _ => 1)
    (fun _ => earthRate (1 / 2)) (fun t => t • earthRate (1 / 2)) liftForce liftImpulse ∧
    ∀ dt, StartsAt (liftIns dt) (fun _ => 1 / 2) (fun _ => 1) (fun t => 100 + 3 * t) (fun _ => ![0, 0, -3]) (fun _ => 1) := by
  have h3 := Real.pi_gt_three
  have hc : Continuous (fun t => len (liftForce t)) := by
    unfold len
    have := liftForce_cont 0; have := liftForce_cont 1; have := liftForce_cont 2
    fun_prop
  obtain ⟨F, hF⟩ := (isCompact_Icc (a := (0 : ℝ)) (b := 60)).exists_bound_of_continuousOn (f := fun t => len (liftForce t)) hc.continuousOn
  refine ⟨⟨1 / 2, 1, 280, len ![0, 0, -3], len (earthRate (1 / 2)), F⟩, ⟨by dsimp only; linarith, by dsimp only; linarith, by norm_num⟩, ?_, ?_⟩
  · have ht : transportRate (![0, 0, -3] : V3 ℝ) (1 / 2) = fun _ => 0 := by
      funext h; ext i; fin_cases i <;> simp [transportRate]
    constructor
    · intro t _ _; exact (hasDerivAt_const t _).congr_deriv (by simp [posRate])
    · intro t _ _; exact (hasDerivAt_const t _).congr_deriv (by simp [posRate])
    · intro t _ _; exact (((hasDerivAt_id t).const_mul (3 : ℝ)).const_add 100).congr_deriv (by simp [posRate])
    · intro t _ _ i
      refine (hasDerivAt_const t _).congr_deriv ?_
      unfold velRate liftForce
      rw [ht]
      simp only [Matrix.one_mulVec, sub_add_cancel]
      rw [add_zero, sub_self]; rfl
    · intro t _ _ i j
      refine (hasDerivAt_const t _).congr_deriv ?_
      unfold attRate
      rw [ht]
      simp
    · intro t _ _ i
      exact ((hasDerivAt_id t).mul_const (earthRate (1 / 2) i)).congr_deriv (by simp)
    · intro t _ _ i; exact lift_deriv t i
    · intro t _ _; simp [isRot]
    · intro t _ _; dsimp only; rw [abs_of_pos (by norm_num)]
    · intro t _ _; simp
    · intro t h0 h1; rw [abs_le]; constructor <;> dsimp only <;> linarith
    · intro t _ _; exact le_refl _
    · intro t _ _; exact le_refl _
    · intro t h0 h1; have := hF t ⟨h0, h1⟩; rwa [Real.norm_of_nonneg (len_nonneg _)] at this
  · intro dt
    refine ⟨?_, rfl, rfl, by simp [liftIns, qsq], rfl, ?_, rfl, rfl, rfl⟩
    · simp [liftIns]
    · show quatToDcm ⟨1, 0, 0, 0⟩ = 1
      ext i j; fin_cases i <;> fin_cases j <;> simp [quatToDcm, Quat.toRot]

/-- Any number of perfect readings for it exist, for any sampling interval. -/
example (dt : ℝ) : ∀ (k : ℕ) (t : ℝ), ∃ ms : List (Imu ℝ), ms.length = k ∧
    PerfectImu (liftIns dt).nav dt (fun t => t • earthRate (1 / 2)) liftImpulse t ms := by
  intro k
  induction k with
  | zero => intro t; exact ⟨[], rfl, trivial⟩
  | succ k ih =>
    intro t
    obtain ⟨ms, h1, h2⟩ := ih (t + dt)
    refine ⟨⟨0, (t + dt) • earthRate (1 / 2) - t • earthRate (1 / 2), liftImpulse (t + dt) - liftImpulse t⟩ :: ms, by simp [h1], ⟨?_, ?_⟩, h2⟩
    · ext i; simp [increment, liftIns]
    · ext i; simp [forceIncrement, liftIns]

/-- C202's too: a start one metre too high, and a gyroscope with a bias of 1/1000 rad/s on one axis. -/
example (dt : ℝ) : StartsNear 1 { liftIns dt with nav := { (liftIns dt).nav with pos := ![1 / 2, 1, 101] } } (fun _ => 1 / 2) (fun _ => 1) (fun t => 100 + 3 * t)
    (fun _ => ![0, 0, -3]) (fun _ => 1) := by
  refine ⟨by simp, by simp, by simp; norm_num, rfl, ?_, by simp [liftIns, qsq], rfl, ?_, rfl, rfl, rfl⟩
  · show len (![0, 0, -3] - ![0, 0, -3]) ≤ 1
    rw [sub_self, len_zero']; norm_num
  · intro x
    have : quatToDcm ⟨1, 0, 0, 0⟩ = (1 : M3 ℝ) := by ext i j; fin_cases i <;> fin_cases j <;> simp [quatToDcm, Quat.toRot]
    show len (quatToDcm ⟨1, 0, 0, 0⟩ *ᵥ x - (1 : M3 ℝ) *ᵥ x) ≤ 1 * len x
    rw [this, sub_self, len_zero']; linarith [len_nonneg x]

example (dt : ℝ) (hd : 0 ≤ dt) : ∀ (k : ℕ) (t : ℝ), ∃ ms : List (Imu ℝ), ms.length = k ∧
    NearImu (1 / 1000) (liftIns dt).nav dt (fun t => t • earthRate (1 / 2)) liftImpulse t ms ∧
    ∀ m ∈ ms, m.gyro = dt • (earthRate (1 / 2) + ![0, 0, 1 / 1000]) := by
  intro k
  induction k with
  | zero => intro t; exact ⟨[], rfl, trivial, by simp⟩
  | succ k ih =>
    intro t
    obtain ⟨ms, h1, h2, h3⟩ := ih (t + dt)
    refine ⟨⟨0, dt • (earthRate (1 / 2) + ![0, 0, 1 / 1000]), liftImpulse (t + dt) - liftImpulse t⟩ :: ms, by simp [h1], ⟨⟨?_, ?_⟩, h2⟩, ?_⟩
    · have e : increment (liftIns dt).nav dt (dt • (earthRate (1 / 2) + ![0, 0, 1 / 1000])) - ((t + dt) • earthRate (1 / 2) - t • earthRate (1 / 2)) = dt • ![0, 0, 1 / 1000] := by
        funext i; simp only [increment, liftIns, Pi.add_apply, Pi.sub_apply, Pi.smul_apply, smul_eq_mul, Pi.zero_apply]; ring
      dsimp only
      rw [e, len_smul, len_axis, abs_of_nonneg hd, abs_of_pos (by norm_num)]
      linarith
    · have e : forceIncrement (liftIns dt).nav dt (liftImpulse (t + dt) - liftImpulse t) = liftImpulse (t + dt) - liftImpulse t := by ext i; simp [forceIncrement, liftIns]
      dsimp only
      rw [e, sub_self, len_zero']; positivity
    · intro m hm
      rcases List.mem_cons.1 hm with rfl | h
      · rfl
      · exact h3 m h
end Verif.Props
