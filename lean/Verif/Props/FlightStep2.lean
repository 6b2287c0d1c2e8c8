import Verif.Props.FlightOne
/-! One sample: velocity, place, height and attitude. -/
namespace Verif.Props
open Verif Verif.Spec Verif.Convert Matrix
open scoped Quaternion

variable {B : Limits} {K ρ e dt t T : ℝ} {s : Ins ℝ} {lat lon h : ℝ → ℝ} {v : ℝ → V3 ℝ} {C : ℝ → M3 ℝ} {w θ f α : ℝ → V3 ℝ}

theorem near_rot (n : Near K e dt t s lat lon h v C) (x : V3 ℝ) : len (s.nav.Cbn *ᵥ x) = len x := by
  rw [n.dcm]; show len ((s.nav.Qbn.toRot : M3 ℝ) *ᵥ x) = _; rw [toRot_eq _ n.unit]; exact len_rot _ n.unit x

theorem impulse_diff (K dt : ℝ) (hK : 1 ≤ K) (hd : 0 ≤ dt) (gp ap w a : V3 ℝ) (h1 : len gp ≤ K * dt) (h2 : len ap ≤ K * dt) (h3 : len w ≤ K * dt) (h4 : len a ≤ K * dt) :
    len (impulse gp ap w a - a) ≤ K ^ 2 * dt ^ 2 := by
  have e : impulse gp ap w a - a = (1 / 2 : ℝ) • xp w a + (1 / 12 : ℝ) • (xp gp a + xp ap w) := by unfold impulse; abel
  rw [e]
  have n1 := len_add_le ((1 / 2 : ℝ) • xp w a) ((1 / 12 : ℝ) • (xp gp a + xp ap w))
  have n2 := len_add_le (xp gp a) (xp ap w)
  rw [len_smul, len_smul, abs_of_pos (by norm_num), abs_of_pos (by norm_num)] at n1
  have m : ∀ x y : V3 ℝ, len x ≤ K * dt → len y ≤ K * dt → len (xp x y) ≤ K ^ 2 * dt ^ 2 := fun x y hx hy =>
    (len_xp_le x y).trans ((mul_le_mul hx hy (len_nonneg _) (by positivity)).trans (le_of_eq (by ring)))
  have := m w a h3 h4; have := m gp a h1 h4; have := m ap w h2 h3
  have : 0 ≤ K ^ 2 * dt ^ 2 := by positivity
  linarith

/-- Orders of magnitude of one step. -/
theorem orders (K e dt : ℝ) (hK : 1 ≤ K) (he : 0 ≤ e) (hd : 0 < dt) : K ^ 2 * dt ^ 2 ≤ K ^ 3 * (dt * (e + dt)) ∧ K ^ 2 * (dt * (e + dt)) ≤ K ^ 3 * (dt * (e + dt)) ∧
    K * (dt * (e + dt)) ≤ K ^ 3 * (dt * (e + dt)) ∧ K * (dt * e) ≤ K ^ 3 * (dt * (e + dt)) ∧ dt * e ≤ K ^ 3 * (dt * (e + dt)) ∧ 0 ≤ K ^ 3 * (dt * (e + dt)) := by
  have f1 : K ≤ K ^ 2 := by nlinarith
  have f2 : K ^ 2 ≤ K ^ 3 := by nlinarith
  have hη : 0 ≤ dt * (e + dt) := mul_nonneg hd.le (by linarith)
  have r2 : K * (dt * (e + dt)) ≤ K ^ 3 * (dt * (e + dt)) := mul_le_mul_of_nonneg_right (f1.trans f2) hη
  have r3 : K ^ 2 * (dt * (e + dt)) ≤ K ^ 3 * (dt * (e + dt)) := mul_le_mul_of_nonneg_right f2 hη
  have r4 : 1 * (dt * (e + dt)) ≤ K * (dt * (e + dt)) := mul_le_mul_of_nonneg_right hK hη
  have r6 : dt * e ≤ dt * (e + dt) := mul_le_mul_of_nonneg_left (by linarith) hd.le
  have r5 : K * (dt * e) ≤ K * (dt * (e + dt)) := mul_le_mul_of_nonneg_left r6 (by linarith)
  have r7 : dt ^ 2 ≤ dt * (e + dt) := by rw [sq]; exact mul_le_mul_of_nonneg_left (by linarith) hd.le
  have r8 : K ^ 2 * dt ^ 2 ≤ K ^ 2 * (dt * (e + dt)) := mul_le_mul_of_nonneg_left r7 (by positivity)
  exact ⟨by linarith, r3, r2, by linarith, by linarith, by positivity⟩

/-- The readings are within their limits, with some error. -/
theorem read_le (k : Kit B K ρ) (F : TrueFlight B T lat lon h v C w θ f α) (sm : Small K ρ e dt) (ht : 0 ≤ t) (hT : t + dt ≤ T) (ω a : V3 ℝ)
    (hg : len (ω - (θ (t + dt) - θ t)) ≤ dt * e) (ha : len (a - (α (t + dt) - α t)) ≤ dt * e) : len ω ≤ K * dt ∧ len a ≤ K * dt := by
  obtain ⟨f1, f2, f3, f4, f5, f6, f7⟩ := small_facts k sm
  have hd := sm.dt0
  have hK := k.bounds.one
  have he : e ≤ 1 := by
    have : 1 * (e + dt) ≤ K * (e + dt) := mul_le_mul_of_nonneg_right hK (by linarith [sm.e0])
    linarith [sm.e0]
  have q := mul_le_mul_of_nonneg_left he hd.le
  have lw := growV θ w t (t + dt) (K - 1) (by linarith) (fun u h1 h2 => F.angle u (by linarith) (by linarith)) (fun u h1 h2 => by
    have := F.rate_le u (by linarith) (by linarith); linarith [k.bounds.rate1])
  have la := growV α f t (t + dt) (K - 1) (by linarith) (fun u h1 h2 => F.impulse u (by linarith) (by linarith)) (fun u h1 h2 => by
    have := F.force_le u (by linarith) (by linarith); linarith [k.bounds.force1])
  have e1 : ω = (ω - (θ (t + dt) - θ t)) + (θ (t + dt) - θ t) := by abel
  have e2 : a = (a - (α (t + dt) - α t)) + (α (t + dt) - α t) := by abel
  have d1 := len_add_le (ω - (θ (t + dt) - θ t)) (θ (t + dt) - θ t)
  have d2 := len_add_le (a - (α (t + dt) - α t)) (α (t + dt) - α t)
  rw [← e1] at d1
  rw [← e2] at d2
  constructor <;> linarith

/-- With some room. -/
theorem read_room (k : Kit B K ρ) (F : TrueFlight B T lat lon h v C w θ f α) (sm : Small K ρ e dt) (ht : 0 ≤ t) (hT : t + dt ≤ T) (ω a : V3 ℝ)
    (hg : len (ω - (θ (t + dt) - θ t)) ≤ dt * e) (ha : len (a - (α (t + dt) - α t)) ≤ dt * e) : len ω ≤ K * dt - dt / 2 ∧ len a ≤ K * dt - dt / 2 := by
  obtain ⟨f1, f2, f3, f4, f5, f6, f7⟩ := small_facts k sm
  have hd := sm.dt0
  have hK := k.bounds.one
  have he : e ≤ 1 / 2 := by
    have : 1 * (e + dt) ≤ K * (e + dt) := mul_le_mul_of_nonneg_right hK (by linarith [sm.e0])
    linarith [sm.e0]
  have q := mul_le_mul_of_nonneg_left he hd.le
  have lw := growV θ w t (t + dt) (K - 1) (by linarith) (fun u h1 h2 => F.angle u (by linarith) (by linarith)) (fun u h1 h2 => by
    have := F.rate_le u (by linarith) (by linarith); linarith [k.bounds.rate1])
  have la := growV α f t (t + dt) (K - 1) (by linarith) (fun u h1 h2 => F.impulse u (by linarith) (by linarith)) (fun u h1 h2 => by
    have := F.force_le u (by linarith) (by linarith); linarith [k.bounds.force1])
  have e1 : ω = (ω - (θ (t + dt) - θ t)) + (θ (t + dt) - θ t) := by abel
  have e2 : a = (a - (α (t + dt) - α t)) + (α (t + dt) - α t) := by abel
  have d1 := len_add_le (ω - (θ (t + dt) - θ t)) (θ (t + dt) - θ t)
  have d2 := len_add_le (a - (α (t + dt) - α t)) (α (t + dt) - α t)
  rw [← e1] at d1
  rw [← e2] at d2
  constructor <;> linarith

theorem step_vel (k : Kit B K ρ) (F : TrueFlight B T lat lon h v C w θ f α) (n : Near K e dt t s lat lon h v C) (sm : Small K ρ e dt) (ht : 0 ≤ t) (hT : t + dt ≤ T)
    (g : ℝ) (m : Imu ℝ) (hg : len (increment s.nav s.dt m.gyro - (θ (t + dt) - θ t)) ≤ dt * e) (ha : len (forceIncrement s.nav s.dt m.acce - (α (t + dt) - α t)) ≤ dt * e) :
    len ((s.forwardImu g m).2.nav.vn - v (t + dt)) ≤ e + 18 * K ^ 3 * dt * (e + dt) ∧ len ((s.forwardImu g m).2.nav.vn - s.nav.vn) ≤ 7 / 2 * K * dt := by
  obtain ⟨f1, f2, f3, f4, f5, f6, f7⟩ := small_facts k sm
  have hK := k.bounds.one
  have h1 := sm.e0; have h2 := sm.dt0
  have hT' : t ≤ T := by linarith
  have A := ahead k F n sm ht hT'
  obtain ⟨b1, b2, b3, b4⟩ := near_box k F n sm ht hT'
  have S := true_step F k.sane k.bounds t dt ht h2.le hT
  obtain ⟨lw, la⟩ := read_le k F sm ht hT _ _ hg ha
  have hv := velocity_after g s m
  have hi := impulse_diff K dt hK h2.le s.gyroPre s.accePre _ _ n.gyro n.acce lw la
  have fd := fall_diff k F ht hT' _ _ _ _ _ _ _ _ A.lat_in A.vel_in A.height_in b2 A.lat_near A.vel_near A.height_near n.vel
  have ffall : fallAhead s = dt • fallRate (s.extrapolate.2.posMid 0) s.extrapolate.2.vnMid (s.extrapolate.2.posMid 2) s.nav.vn := by
    unfold fallAhead fallRate; rw [n.dt_eq, gravity_eq]
  have ffr : len (frameAhead s) ≤ K * dt := by
    have : frameAhead s = dt • frameRate (s.extrapolate.2.posMid 0) s.extrapolate.2.vnMid (s.extrapolate.2.posMid 2) := by unfold frameAhead frameRate; rw [n.dt_eq]
    rw [this, len_smul, abs_of_pos h2, mul_comm]
    exact mul_le_mul_of_nonneg_right (k.bounds.lip.frame_le _ _ _ A.lat_in A.vel_in A.height_in) h2.le
  have fle := k.bounds.lip.fall_le _ _ _ _ A.lat_in A.vel_in A.height_in b2
  rw [ffall] at hv
  have hR := near_rot n
  have hatt := n.att (forceIncrement s.nav s.dt m.acce)
  have hvel := n.vel
  have sv := S.vel
  have hCt := len_isRot _ (F.rot t ht hT') (forceIncrement s.nav s.dt m.acce - (α (t + dt) - α t))
  generalize α (t + dt) - α t = a' at *
  generalize forceIncrement s.nav s.dt m.acce = a at *
  generalize increment s.nav s.dt m.gyro = ω at *
  generalize impulse s.gyroPre s.accePre ω a = I at *
  generalize fallRate (s.extrapolate.2.posMid 0) s.extrapolate.2.vnMid (s.extrapolate.2.posMid 2) s.nav.vn = fr at *
  generalize frameAhead s = z at *
  generalize s.nav.Cbn = R at *
  generalize (s.forwardImu g m).2.nav.vn = v1 at *
  obtain ⟨o1, o2, o3, o4, o5, o6⟩ := orders K e dt hK h1 h2
  have Kp := mul_nonneg (by linarith : 0 ≤ K) h2.le
  have Kd : K ^ 2 * dt ^ 2 ≤ K * dt * (1 / 10) := by
    have : K ^ 2 * dt ^ 2 = K * dt * (K * dt) := by ring
    rw [this]
    exact mul_le_mul_of_nonneg_left (by linarith) Kp
  have lI : len I ≤ 2 * K * dt := by
    have e1 : I = (I - a) + a := by abel
    rw [e1]
    refine (len_add_le _ _).trans ?_
    linarith
  have xz : len ((1 / 2 : ℝ) • xp z (R *ᵥ I)) ≤ K ^ 2 * dt ^ 2 := by
    rw [len_smul, abs_of_pos (by norm_num)]
    have := (len_xp_le z (R *ᵥ I))
    rw [hR] at this
    have := mul_le_mul ffr lI (len_nonneg _) (by positivity)
    have e1 : K * dt * (2 * K * dt) = 2 * (K ^ 2 * dt ^ 2) := by ring
    linarith
  constructor
  · have e1 : v1 - v (t + dt) = (s.nav.vn - v t) + dt • (fr - trueFall lat h v t) + (R *ᵥ (I - a) + (R *ᵥ a - C t *ᵥ a)) - (1 / 2 : ℝ) • xp z (R *ᵥ I) -
        (v (t + dt) - v t - C t *ᵥ a' - dt • trueFall lat h v t) + C t *ᵥ (a - a') := by
      rw [hv, mulVec_sub, mulVec_sub, smul_sub]; abel
    rw [e1]
    refine (len_add_le _ _).trans ?_
    rw [hCt]
    have q0 := len_sub_le ((s.nav.vn - v t) + dt • (fr - trueFall lat h v t) + (R *ᵥ (I - a) + (R *ᵥ a - C t *ᵥ a)) - (1 / 2 : ℝ) • xp z (R *ᵥ I))
      (v (t + dt) - v t - C t *ᵥ a' - dt • trueFall lat h v t)
    have q1 := len_sub_le ((s.nav.vn - v t) + dt • (fr - trueFall lat h v t) + (R *ᵥ (I - a) + (R *ᵥ a - C t *ᵥ a))) ((1 / 2 : ℝ) • xp z (R *ᵥ I))
    have q2 := len_add_le ((s.nav.vn - v t) + dt • (fr - trueFall lat h v t)) (R *ᵥ (I - a) + (R *ᵥ a - C t *ᵥ a))
    have q3 := len_add_le (s.nav.vn - v t) (dt • (fr - trueFall lat h v t))
    have q4 := len_add_le (R *ᵥ (I - a)) (R *ᵥ a - C t *ᵥ a)
    rw [hR] at q4
    rw [len_smul, abs_of_pos h2] at q3
    have q5 := mul_le_mul_of_nonneg_left fd h2.le
    have q6 : e * len a ≤ K * (dt * e) := (mul_le_mul_of_nonneg_left la h1).trans (le_of_eq (by ring))
    have q7 : dt * (K * (2 * K ^ 2 * (e + dt) + 2 * K * (e + dt) + K * (e + dt) + e)) = 2 * (K ^ 3 * (dt * (e + dt))) + 3 * (K ^ 2 * (dt * (e + dt))) + K * (dt * e) := by ring
    rw [q7] at q5
    have q8 : 18 * K ^ 3 * dt * (e + dt) = 18 * (K ^ 3 * (dt * (e + dt))) := by ring
    have q9 : 8 * K ^ 2 * dt ^ 2 = 8 * (K ^ 2 * dt ^ 2) := by ring
    rw [q9] at sv
    rw [q8]
    linarith
  · have e1 : v1 - s.nav.vn = dt • fr + (R *ᵥ I - (1 / 2 : ℝ) • xp z (R *ᵥ I)) := by rw [hv]; abel
    rw [e1]
    refine (len_add_le _ _).trans ?_
    have q1 := len_sub_le (R *ᵥ I) ((1 / 2 : ℝ) • xp z (R *ᵥ I))
    rw [hR] at q1
    rw [len_smul, abs_of_pos h2]
    have q2 := mul_le_mul_of_nonneg_left fle h2.le
    linarith

/-- The position quaternion after a sample. -/
theorem place_after (g : ℝ) (s : Ins ℝ) (m : Imu ℝ) : (s.forwardImu g m).2.nav.Qne = placeTurned (earthAxisTurn s.dt) s.nav.Qne (placeTurn s (s.forwardImu g m).2.nav) := by
  have hvm := vel_mid s.extrapolate.1 s.extrapolate.2 (Ins.compensate s.dt m.acce s.nav.ab s.nav.as) (Ins.compensate s.dt m.gyro s.nav.gb s.nav.gs)
  have hplace : ∃ ζ ε, ζ = placeTurn s (s.forwardImu g m).2.nav ∧ ε = earthAxisTurn s.dt ∧ (s.forwardImu g m).2.nav.Qne = (((rvToQuat ε).conj.mul s.nav.Qne).mul (rvToQuat ζ)).normalized := by
    refine ⟨_, _, ?_, ?_, rfl⟩
    · exact place_eq s (Ins.velocityUpdate s.extrapolate.1 s.extrapolate.2 (Ins.compensate s.dt m.acce s.nav.ab s.nav.as)
        (Ins.compensate s.dt m.gyro s.nav.gb s.nav.gs)) rfl hvm rfl rfl rfl _ rfl
    · show vs Earth.omegaIeE s.dt = _
      funext i
      fin_cases i <;> simp [vs, Earth.omegaIeE, v3, earthAxisTurn, Earth.omegaE, earthW]
      left; norm_num
  obtain ⟨ζ, ε, hζ, hε, hplace⟩ := hplace
  rw [hζ, hε] at hplace
  exact hplace

theorem height_after (g : ℝ) (s : Ins ℝ) (m : Imu ℝ) : (s.forwardImu g m).2.nav.pos 2 = s.nav.pos 2 - (s.nav.vn 2 + (s.forwardImu g m).2.nav.vn 2) / 2 * s.dt := by
  have hvm := vel_mid s.extrapolate.1 s.extrapolate.2 (Ins.compensate s.dt m.acce s.nav.ab s.nav.as) (Ins.compensate s.dt m.gyro s.nav.gb s.nav.gs) 2
  have h1 : (s.forwardImu g m).2.nav.pos 2 = s.nav.pos 2 - (Ins.velocityUpdate s.extrapolate.1 s.extrapolate.2 (Ins.compensate s.dt m.acce s.nav.ab s.nav.as)
    (Ins.compensate s.dt m.gyro s.nav.gb s.nav.gs)).vnMid 2 * s.dt := rfl
  rw [h1, hvm]
  rfl

/-- The mean velocity over the interval. -/
theorem mean_vel (k : Kit B K ρ) (F : TrueFlight B T lat lon h v C w θ f α) (n : Near K e dt t s lat lon h v C) (sm : Small K ρ e dt) (ht : 0 ≤ t) (hT : t + dt ≤ T)
    (g : ℝ) (m : Imu ℝ) (hg : len (increment s.nav s.dt m.gyro - (θ (t + dt) - θ t)) ≤ dt * e) (ha : len (forceIncrement s.nav s.dt m.acce - (α (t + dt) - α t)) ≤ dt * e) (u : V3 ℝ)
    (hu : u = fun j => (s.nav.vn j + (s.forwardImu g m).2.nav.vn j) / 2) : len (u - v t) ≤ 2 * K * (e + dt) ∧ len u ≤ B.speed + 1 := by
  obtain ⟨f1, f2, f3, f4, f5, f6, f7⟩ := small_facts k sm
  obtain ⟨-, h1⟩ := step_vel k F n sm ht hT g m hg ha
  have e1 : u - v t = (s.nav.vn - v t) + (1 / 2 : ℝ) • ((s.forwardImu g m).2.nav.vn - s.nav.vn) := by
    rw [hu]; funext i; simp only [Pi.add_apply, Pi.sub_apply, Pi.smul_apply, smul_eq_mul]; ring
  have a : len (u - v t) ≤ 2 * K * (e + dt) := by
    rw [e1]
    refine (len_add_le _ _).trans ?_
    rw [len_smul, abs_of_pos (by norm_num)]
    have := n.vel
    have := mul_le_mul_of_nonneg_right k.bounds.one sm.e0
    have := mul_nonneg (by linarith [k.bounds.one] : 0 ≤ K) sm.dt0.le
    linarith [sm.e0]
  refine ⟨a, ?_⟩
  have e2 : u = (u - v t) + v t := by abel
  rw [e2]
  have := len_add_le (u - v t) (v t); have := F.speed_le t ht (by linarith [sm.dt0]); have := k.one; linarith

theorem step_height (k : Kit B K ρ) (F : TrueFlight B T lat lon h v C w θ f α) (n : Near K e dt t s lat lon h v C) (sm : Small K ρ e dt) (ht : 0 ≤ t) (hT : t + dt ≤ T)
    (g : ℝ) (m : Imu ℝ) (hg : len (increment s.nav s.dt m.gyro - (θ (t + dt) - θ t)) ≤ dt * e) (ha : len (forceIncrement s.nav s.dt m.acce - (α (t + dt) - α t)) ≤ dt * e) :
    |(s.forwardImu g m).2.nav.pos 2 - h (t + dt)| ≤ e + 10 * K ^ 3 * dt * (e + dt) ∧ |(s.forwardImu g m).2.nav.pos 2 - s.nav.pos 2| ≤ K * dt := by
  obtain ⟨f1, f2, f3, f4, f5, f6, f7⟩ := small_facts k sm
  obtain ⟨mv, mu⟩ := mean_vel k F n sm ht hT g m hg ha _ rfl
  have S := true_step F k.sane k.bounds t dt ht sm.dt0.le hT
  have hd := sm.dt0
  have he := sm.e0
  have hK := k.bounds.one
  have ha := height_after g s m
  rw [n.dt_eq] at ha
  have c1 := comp_le_len _ 2 |>.trans mv
  have c2 := comp_le_len _ 2 |>.trans mu
  dsimp only [Pi.sub_apply] at c1 c2
  generalize (s.nav.vn 2 + (s.forwardImu g m).2.nav.vn 2) / 2 = u at *
  have hh := S.heightStep
  have hn := n.height
  constructor
  · have e1 : (s.forwardImu g m).2.nav.pos 2 - h (t + dt) = (s.nav.pos 2 - h t) - dt * (u - v t 2) - (h (t + dt) - h t + dt * v t 2) := by rw [ha]; ring
    rw [e1]
    refine (abs_sub _ _).trans ?_
    have q1 := abs_sub (s.nav.pos 2 - h t) (dt * (u - v t 2))
    rw [abs_mul, abs_of_pos hd] at q1
    have q2 := mul_le_mul_of_nonneg_left c1 hd.le
    obtain ⟨o1, o2, o3, o4, o5, o6⟩ := orders K e dt hK he hd
    have q3 : dt * (2 * K * (e + dt)) = 2 * (K * (dt * (e + dt))) := by ring
    have q8 : 10 * K ^ 3 * dt * (e + dt) = 10 * (K ^ 3 * (dt * (e + dt))) := by ring
    have q9 : 8 * K ^ 2 * dt ^ 2 = 8 * (K ^ 2 * dt ^ 2) := by ring
    rw [q9] at hh
    rw [q3] at q2
    rw [q8]
    linarith
  · have e1 : (s.forwardImu g m).2.nav.pos 2 - s.nav.pos 2 = -(u * dt) := by rw [ha]; ring
    rw [e1, abs_neg, abs_mul, abs_of_pos hd]
    exact mul_le_mul_of_nonneg_right (c2.trans k.bounds.speed) hd.le

theorem step_place (k : Kit B K ρ) (F : TrueFlight B T lat lon h v C w θ f α) (n : Near K e dt t s lat lon h v C) (sm : Small K ρ e dt) (ht : 0 ≤ t) (hT : t + dt ≤ T)
    (g : ℝ) (m : Imu ℝ) (hg : len (increment s.nav s.dt m.gyro - (θ (t + dt) - θ t)) ≤ dt * e) (ha : len (forceIncrement s.nav s.dt m.acce - (α (t + dt) - α t)) ≤ dt * e) :
    qsq (s.forwardImu g m).2.nav.Qne = 1 ∧ ‖toH (s.forwardImu g m).2.nav.Qne - placeH lat lon (t + dt)‖ ≤ e + 17 * K ^ 3 * dt * (e + dt) := by
  obtain ⟨f1, f2, f3, f4, f5, f6, f7⟩ := small_facts k sm
  have hT' : t ≤ T := by linarith [sm.dt0]
  have A := ahead k F n sm ht hT'
  obtain ⟨mv, mu⟩ := mean_vel k F n sm ht hT g m hg ha _ rfl
  have S := (true_step F k.sane k.bounds t dt ht sm.dt0.le hT).place
  have hd := sm.dt0
  have he := sm.e0
  have hK := k.bounds.one
  have fd := frame_diff k F ht hT' _ _ _ _ _ _ A.lat_in mu A.height_in A.lat_near mv A.height_near
  have fl := k.bounds.lip.frame_le _ _ _ A.lat_in mu A.height_in
  have hz : placeTurn s (s.forwardImu g m).2.nav = dt • frameRate (s.extrapolate.2.posMid 0) (fun j => (s.nav.vn j + (s.forwardImu g m).2.nav.vn j) / 2) (s.extrapolate.2.posMid 2) := by
    funext i
    unfold placeTurn frameRate
    rw [n.dt_eq]
    simp only [Pi.add_apply, Pi.smul_apply, smul_eq_mul]; ring
  have hq := place_after g s m
  rw [hz] at hq
  generalize frameRate (s.extrapolate.2.posMid 0) (fun j => (s.nav.vn j + (s.forwardImu g m).2.nav.vn j) / 2) (s.extrapolate.2.posMid 2) = ω at *
  have lz : len (dt • ω) ≤ K * dt := by
    rw [len_smul, abs_of_pos hd, mul_comm]; exact mul_le_mul_of_nonneg_right fl hd.le
  have le : len (earthAxisTurn s.dt) ≤ dt := by
    rw [earthAxisTurn, len_axis, n.dt_eq, abs_of_pos (mul_pos earthW_small.1 hd)]
    have := mul_le_mul_of_nonneg_right earthW_small.2 hd.le
    linarith
  have t2 := turned_two (earthAxisTurn s.dt) s.nav.Qne (dt • ω) n.unitP (le.trans (by linarith)) (lz.trans (by linarith))
  refine ⟨by rw [hq]; exact turned_unit _ _ _ n.unitP, ?_⟩
  rw [hq]
  have pe : pureH (earthAxisTurn s.dt) = dt • pureH ![0, 0, earthW] := by
    rw [n.dt_eq]; ext <;> simp [pureH, earthAxisTurn]; ring
  have pz : pureH (dt • ω) = dt • pureH ω := by ext <;> simp [pureH]
  rw [pe, pz] at t2
  have hp := n.place
  have pn := placeH_norm lat lon t
  have nE : ‖pureH ![0, 0, earthW]‖ ≤ 1 := by rw [pureH_norm, len_axis, abs_of_pos earthW_small.1]; exact earthW_small.2
  rw [← pureH_norm] at fd fl
  rw [pureH_sub'] at fd
  have b2 : 2 * (len (earthAxisTurn s.dt) ^ 2 + len (dt • ω) ^ 2) ≤ 4 * (K ^ 2 * dt ^ 2) := by
    have q1 := pow_le_pow_left₀ (len_nonneg _) le 2
    have q2 := pow_le_pow_left₀ (len_nonneg _) lz 2
    have q3 : 1 * dt ^ 2 ≤ K ^ 2 * dt ^ 2 := mul_le_mul_of_nonneg_right (by nlinarith) (sq_nonneg dt)
    rw [mul_pow] at q2
    linarith
  generalize toH (placeTurned (earthAxisTurn s.dt) s.nav.Qne (dt • ω)) = Q1 at *
  generalize toH s.nav.Qne = Q at *
  generalize placeH lat lon (t + dt) = p1 at *
  generalize placeH lat lon t = p at *
  generalize pureH ω = o at *
  generalize pureH (trueFrame lat h v t) = o' at *
  generalize pureH ![0, 0, earthW] = E at *
  have e1 : Q1 - p1 = (Q - p) + (dt / 2) • ((Q - p) * o + p * (o - o') - E * (Q - p)) + (Q1 - Q - (1 / 2 : ℝ) • (Q * dt • o) + (1 / 2 : ℝ) • (dt • E * Q)) -
      (p1 - p - (dt / 2) • (p * o') + (dt / 2) • (E * p)) := by
    simp only [mul_sub, sub_mul, smul_mul_assoc, mul_smul_comm, smul_sub, smul_add, smul_smul]
    rw [show (1 / 2 : ℝ) * dt = dt / 2 by ring]
    abel
  rw [e1]
  refine (norm_sub_le _ _).trans ?_
  have n1 := norm_add_le ((Q - p) + (dt / 2) • ((Q - p) * o + p * (o - o') - E * (Q - p))) (Q1 - Q - (1 / 2 : ℝ) • (Q * dt • o) + (1 / 2 : ℝ) • (dt • E * Q))
  have n2 := norm_add_le (Q - p) ((dt / 2) • ((Q - p) * o + p * (o - o') - E * (Q - p)))
  have n3 := norm_sub_le ((Q - p) * o + p * (o - o')) (E * (Q - p))
  have n4 := norm_add_le ((Q - p) * o) (p * (o - o'))
  rw [norm_mul, norm_mul, pn] at n4
  rw [norm_mul E] at n3
  rw [norm_smul, Real.norm_of_nonneg (by linarith : 0 ≤ dt / 2)] at n2
  have m1 := mul_le_mul hp fl (norm_nonneg _) he
  have m2 := mul_le_mul nE hp (norm_nonneg _) (by norm_num)
  have m3 : ‖(Q - p) * o + p * (o - o') - E * (Q - p)‖ ≤ e * K + K * (2 * K ^ 2 * (e + dt) + 2 * K * (e + dt) + K * (e + dt)) + e := by linarith
  have m4 := mul_le_mul_of_nonneg_left m3 (by linarith : 0 ≤ dt / 2)
  obtain ⟨o1, o2, o3, o4, o5, o6⟩ := orders K e dt hK he hd
  have m5 : dt / 2 * (e * K + K * (2 * K ^ 2 * (e + dt) + 2 * K * (e + dt) + K * (e + dt)) + e) =
    (K * (dt * e) + 2 * (K ^ 3 * (dt * (e + dt))) + 3 * (K ^ 2 * (dt * (e + dt))) + dt * e) / 2 := by ring
  rw [m5] at m4
  have m7 : 17 * K ^ 3 * dt * (e + dt) = 17 * (K ^ 3 * (dt * (e + dt))) := by ring
  rw [m7]
  have m8 : 8 * K ^ 2 * dt ^ 2 = 8 * (K ^ 2 * dt ^ 2) := by ring
  rw [m8] at S
  linarith
end Verif.Props
