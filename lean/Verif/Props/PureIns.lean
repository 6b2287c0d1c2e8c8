import Verif.Model.PureIns
import Verif.Model.Fusion
import Verif.Props.Strapdown
import Verif.Props.Gravity
import Verif.Props.Rigid
import Mathlib.Tactic.Ring
import Mathlib.Tactic.Abel
import Mathlib.Tactic.NormNum
import Mathlib.Tactic.Linarith
import Mathlib.Tactic.LinearCombination
import Mathlib.Tactic.FieldSimp
import Mathlib.Tactic.FinCases
/-! The mechanization on its own: starting from an epoch and the sample at that epoch, and the result reported. -/
namespace Verif.Props
open Verif Spec Convert

section any
variable {α : Type} [Add α] [Sub α] [Mul α] [Neg α] [Div α] [Zero α] [One α] [Fl α]

/-- What a step reads of the state: epoch, interval and the two previous increments. -/
theorem forwardImu_reads (g g' : α) (s s' : Ins α) (m : Imu α) (hn : s.nav = s'.nav) (hd : s.dt = s'.dt) (ha : s.accePre = s'.accePre)
    (hg : s.gyroPre = s'.gyroPre) : s.forwardImu g m = s'.forwardImu g' m := by
  obtain ⟨nav, dt, ap, gp, _, _, _, _⟩ := s
  obtain ⟨nav', dt', ap', gp', _, _, _, _⟩ := s'
  dsimp only at hn hd ha hg
  subst hn hd ha hg
  rfl

theorem run_reads (g g' : α) (s s' : Ins α) (ms : List (Imu α)) (hm : ms ≠ []) (hn : s.nav = s'.nav) (hd : s.dt = s'.dt)
    (ha : s.accePre = s'.accePre) (hg : s.gyroPre = s'.gyroPre) : Ins.run ms (g, s) = Ins.run ms (g', s') := by
  match ms, hm with
  | m :: ms, _ =>
    show Ins.run ms (s.forwardImu g m) = Ins.run ms (s'.forwardImu g' m)
    rw [forwardImu_reads g g' s s' m hn hd ha hg]

/-- C179, when a restart is exact: at any moment of a run with an interval of 5 ms at which the last sample was used as measured,
starting again (in whatever object) from the epoch reached and that sample and going on gives what the unbroken run gives: the whole state after
any further samples. Rounding included (every arithmetic). -/
theorem C179_restart_exact (g : α) (s fresh : Ins α) (m : Imu α) (ms : List (Imu α)) (hm : ms ≠ []) (hdt : s.dt = Fl.lit (5 / 1000))
    (ha : Ins.compensate s.dt m.acce s.nav.ab s.nav.as = m.acce) (hg : Ins.compensate s.dt m.gyro s.nav.gb s.nav.gs = m.gyro) :
    let mid := s.forwardImu g m
    Ins.run ms (fresh.initializePvaSample mid.2.nav m) = Ins.run (m :: ms) (g, s) := by
  refine run_reads _ _ _ _ ms hm rfl ?_ ?_ ?_
  · exact hdt.symm
  · exact ha.symm
  · exact hg.symm

/-- C92: whichever way the mechanization is started, the gravity kept from then on is normal gravity at the given place. -/
theorem C92_start_gravity (s : Ins ℝ) (nav : NavEpoch ℝ) (m : Imu ℝ) (rate : Int) :
    (s.initializePva nav rate).1 = normalGravity (nav.pos 0) (nav.pos 2) ∧ (s.initializePvaSample nav m).1 = normalGravity (nav.pos 0) (nav.pos 2) :=
  ⟨gravity_eq _ _, gravity_eq _ _⟩

/-- C180: what the mechanization on its own reports: time, week, flags, place and attitude in degrees, velocity, gyroscope bias in degrees per
hour and accelerometer bias in milligals of the epoch; in every arithmetic. -/
theorem C180_reports_the_epoch_partial (s : Ins α) (i : Fin 3) : s.output.gpst = s.nav.gpst ∧ s.output.week = s.nav.week ∧
    s.output.info = s.nav.info ∧ s.output.lat = s.nav.pos 0 / deg ∧ s.output.lon = s.nav.pos 1 / deg ∧ s.output.height = Fl.f32 (s.nav.pos 2) ∧
    s.output.vn i = Fl.f32 (s.nav.vn i) ∧ s.output.atti i = Fl.f32 (s.nav.atti i / deg) ∧ s.output.gb i = Fl.f32 (s.nav.gb i / deg * hour) ∧
    s.output.ab i = Fl.f32 (s.nav.ab i / mGal) := ⟨rfl, rfl, rfl, rfl, rfl, rfl, rfl, rfl, rfl, rfl⟩

/-- C180, the violation: scale factors, odometer scale and deviations are reported as zero whatever the epoch holds. -/
theorem C180_rest_is_zero (s : Ins α) (i : Fin 3) : s.output.gs i = 0 ∧ s.output.as i = 0 ∧ s.output.kd = 0 ∧ s.output.posStd i = 0 ∧
    s.output.vnStd i = 0 ∧ s.output.attiStd i = 0 := by
  refine ⟨?_, ?_, rfl, ?_, ?_, ?_⟩ <;> fin_cases i <;> rfl
end any

theorem compensate_at (t : ℝ) (v b k : V3 ℝ) (i : Fin 3) : Ins.compensate t v b k i = (1 - k i) * (v i - b i * t) := by
  simp only [Ins.compensate, mvec_real, eyeM_real, diagM_real]
  rw [Matrix.sub_mulVec, Matrix.one_mulVec, Pi.sub_apply, Matrix.mulVec_diagonal]
  simp only [vs, Pi.sub_apply]
  ring

/-- Without errors to compensate a sample is used as measured. -/
theorem compensate_zero (t : ℝ) (v : V3 ℝ) : Ins.compensate t v 0 0 = v := by
  ext i
  rw [compensate_at]
  simp

/-- C179 for error-free sensors at 200 samples per second, in exact arithmetic: starting again from the epoch reached and the last
sample continues the run. -/
theorem C179_restart_at_200Hz_partial (g : ℝ) (s fresh : Ins ℝ) (m : Imu ℝ) (ms : List (Imu ℝ)) (hm : ms ≠ []) (hdt : s.dt = 1 / 200)
    (h1 : s.nav.gb = 0) (h2 : s.nav.ab = 0) (h3 : s.nav.gs = 0) (h4 : s.nav.as = 0) :
    Ins.run ms (fresh.initializePvaSample (s.forwardImu g m).2.nav m) = Ins.run (m :: ms) (g, s) := by
  refine C179_restart_exact g s fresh m ms hm ?_ ?_ ?_
  · rw [hdt, lit_real]; norm_num
  · rw [h2, h4, compensate_zero]
  · rw [h1, h3, compensate_zero]

/-- The epoch of one step: vertical part. -/
theorem forwardImu_height (g : ℝ) (s : Ins ℝ) (m : Imu ℝ) : (s.forwardImu g m).2.nav.pos 2 =
    s.nav.pos 2 - (s.nav.vn 2 + (s.forwardImu g m).2.nav.vn 2) / 2 * s.dt := by
  have e1 : (s.forwardImu g m).2.nav.pos 2 = s.nav.pos 2 - (s.nav.vn 2 + (s.forwardImu g m).2.nav.dvn 2 / Fl.lit 2) * s.dt := rfl
  have e2 : (s.forwardImu g m).2.nav.vn 2 = s.nav.vn 2 + (s.forwardImu g m).2.nav.dvn 2 := rfl
  rw [e1, e2, lit_real]
  push_cast
  ring

/-- C179, the violation for other rates: the height after the first step is that of 5 ms, whatever the interval of the samples was. -/
theorem C179_always_5ms (s : Ins ℝ) (nav : NavEpoch ℝ) (m m' : Imu ℝ) :
    let after := (Ins.run [m'] (s.initializePvaSample nav m)).2.nav
    after.pos 2 = nav.pos 2 - (nav.vn 2 + after.vn 2) / 2 * (1 / 200) := by
  have h := forwardImu_height (s.initializePvaSample nav m).1 (s.initializePvaSample nav m).2 m'
  have hd : (s.initializePvaSample nav m).2.dt = 1 / 200 := by
    show (Fl.lit (5 / 1000) : ℝ) = _
    rw [lit_real]; norm_num
  rw [hd] at h
  exact h

/-- C180: with output projection off and exact arithmetic the filter reports the same time, place, velocity, attitude and biases. -/
theorem C180_agrees_with_the_filter (f : Fusion ℝ) (hp : f.opt.outputProjectEnable = 0) : let a := f.ins.output; let b := f.output
    a.gpst = b.gpst ∧ a.week = b.week ∧ a.info = b.info ∧ a.lat = b.lat ∧ a.lon = b.lon ∧ a.height = b.height ∧ a.vn = b.vn ∧ a.atti = b.atti ∧
    a.gb = b.gb ∧ a.ab = b.ab := by
  have hp' : ¬ f.opt.outputProjectEnable ≠ 0 := by simp [hp]
  unfold Fusion.output Ins.output
  simp only [if_neg hp', f32_real]
  exact ⟨trivial, trivial, trivial, trivial, trivial, trivial, trivial, rfl, rfl, rfl⟩

/-- A free fall through one step, from a vertical velocity, without sensor errors. -/
theorem forwardImu_fall (g : ℝ) (s : Ins ℝ) (t : ℝ) (h0 : s.nav.vn 0 = 0) (h1 : s.nav.vn 1 = 0) (ha : s.accePre = 0) (hg : s.gyroPre = 0)
    (e1 : s.nav.gb = 0) (e2 : s.nav.ab = 0) (e3 : s.nav.gs = 0) (e4 : s.nav.as = 0) :
    ∃ lat, (s.forwardImu g ⟨t, 0, 0⟩).2.nav.vn 2 = s.nav.vn 2 + Earth.gravity lat (s.nav.pos 2 - s.nav.vn 2 * s.dt / 2) * s.dt := by
  have hv : (s.forwardImu g ⟨t, 0, 0⟩).2.nav.vn 2 = ((s.extrapolate.2).velocityUpdate s.extrapolate.1
      (Ins.compensate s.dt 0 s.nav.ab s.nav.as) (Ins.compensate s.dt 0 s.nav.gb s.nav.gs)).nav.vn 2 := rfl
  have hG : s.extrapolate.1 = Earth.gravity (s.extrapolate.2.posMid 0) (s.nav.pos 2 - s.nav.vn 2 * s.dt / Fl.lit 2) := rfl
  have hn : s.extrapolate.2.nav = s.nav := rfl
  have hd : s.extrapolate.2.dt = s.dt := rfl
  have hap : s.extrapolate.2.accePre = 0 := ha
  have hgp : s.extrapolate.2.gyroPre = 0 := hg
  refine ⟨s.extrapolate.2.posMid 0, ?_⟩
  rw [hv, e1, e2, e3, e4, compensate_zero]
  rw [lit_real] at hG
  push_cast at hG
  rw [← hG]
  generalize s.extrapolate.2 = x at *
  generalize s.extrapolate.1 = G at *
  have z : cross (0 : V3 ℝ) 0 = 0 := by ext i; fin_cases i <;> simp [cross, v3]
  unfold Ins.velocityUpdate
  simp only [hn, hd, hap, hgp, z, mvec_real]
  have z2 : (0 : V3 ℝ) + sv (Fl.lit (1 / 2)) 0 + vd (0 + 0) (Fl.lit 12) = 0 := by
    ext i; simp [sv, vd, Pi.add_apply]
  rw [z2, Matrix.mulVec_zero]
  simp [cross, v3, vs, sv, h0, h1]

/-- C179, the violation: from one epoch and one sample (a device falling freely, readings zero throughout) the start that is told the rate of 100 samples
per second and the start that is given the sample lead to different heights. -/
theorem C179_rate_ignored (fresh : Ins ℝ) : ∃ (nav : NavEpoch ℝ) (m m' : Imu ℝ),
    (Ins.run [m'] (fresh.initializePva nav 100)).2.nav.pos 2 ≠ (Ins.run [m'] (fresh.initializePvaSample nav m)).2.nav.pos 2 := by
  let nav : NavEpoch ℝ := { demoIns.nav with pos := v3 (1 / 2) 1 1, vn := v3 0 0 1, gb := 0, ab := 0 }
  refine ⟨nav, ⟨0, 0, 0⟩, ⟨0, 0, 0⟩, ?_⟩
  set a := fresh.initializePva nav 100 with hadef
  set b := fresh.initializePvaSample nav ⟨0, 0, 0⟩ with hbdef
  have z3 : (zero3 : V3 ℝ) = 0 := by ext i; fin_cases i <;> rfl
  have ad : a.2.dt = 1 / 100 := by
    show (1 : ℝ) / ofI 100 = _
    simp [ofI, lit_real]
  have bd : b.2.dt = 1 / 200 := by
    show (Fl.lit (5 / 1000) : ℝ) = _
    rw [lit_real]; norm_num
  have np : nav.pos 2 = 1 := rfl
  have nv : nav.vn 2 = 1 := rfl
  obtain ⟨l1, va⟩ := forwardImu_fall a.1 a.2 0 rfl rfl z3 z3 rfl rfl rfl rfl
  obtain ⟨l2, vb⟩ := forwardImu_fall b.1 b.2 0 rfl rfl rfl rfl rfl rfl rfl rfl
  have ha := forwardImu_height a.1 a.2 ⟨0, 0, 0⟩
  have hb := forwardImu_height b.1 b.2 ⟨0, 0, 0⟩
  show (a.2.forwardImu a.1 ⟨0, 0, 0⟩).2.nav.pos 2 ≠ (b.2.forwardImu b.1 ⟨0, 0, 0⟩).2.nav.pos 2
  have an : a.2.nav = nav := rfl
  have bn : b.2.nav = nav := rfl
  rw [ha, hb, va, vb, an, bn, np, nv, ad, bd]
  have g1 : 0 < Earth.gravity l1 ((1 : ℝ) - 1 * (1 / 100) / 2) := by
    rw [gravity_eq]; unfold normalGravity
    have := Real.sin_sq_le_one l1
    have := sq_nonneg (Real.sin l1)
    have h4 : Real.sin l1 ^ 4 = (Real.sin l1 ^ 2) ^ 2 := by ring
    rw [h4]
    nlinarith
  have g2 : Earth.gravity l2 ((1 : ℝ) - 1 * (1 / 200) / 2) < 20 := by
    rw [gravity_eq]; unfold normalGravity
    have := Real.sin_sq_le_one l2
    have := sq_nonneg (Real.sin l2)
    have h4 : Real.sin l2 ^ 4 = (Real.sin l2 ^ 2) ^ 2 := by ring
    rw [h4]
    nlinarith
  intro h
  linarith

/-- Two states with the same epoch and interval: what the previous increments do to the velocity of the next step. -/
theorem forwardImu_vn_diff (g g' : ℝ) (u u' : Ins ℝ) (m : Imu ℝ) (hn : u'.nav = u.nav) (hd : u'.dt = u.dt) :
    (u'.forwardImu g' m).2.nav.vn - (u.forwardImu g m).2.nav.vn =
      mvec (mmul (eyeM 3 - sm (1 / 2 : ℝ) (skew (vs (u.extrapolate.2.omegaEnN + u.extrapolate.2.omegaIeN) u.dt))) u.nav.Cbn)
        (vd (cross (u'.gyroPre - u.gyroPre) (Ins.compensate u.dt m.acce u.nav.ab u.nav.as) +
          cross (u'.accePre - u.accePre) (Ins.compensate u.dt m.gyro u.nav.gb u.nav.gs)) 12) := by
  have hx : u'.extrapolate.1 = u.extrapolate.1 ∧ u'.extrapolate.2.omegaEnN = u.extrapolate.2.omegaEnN ∧
      u'.extrapolate.2.omegaIeN = u.extrapolate.2.omegaIeN := by
    unfold Ins.extrapolate
    rw [hn, hd]
    exact ⟨rfl, rfl, rfl⟩
  have e : ∀ (h : ℝ) (v : Ins ℝ), (v.forwardImu h m).2.nav.vn = (v.extrapolate.2.velocityUpdate v.extrapolate.1
      (Ins.compensate v.dt m.acce v.nav.ab v.nav.as) (Ins.compensate v.dt m.gyro v.nav.gb v.nav.gs)).nav.vn := fun _ _ => rfl
  have r : ∀ v : Ins ℝ, v.extrapolate.2.nav = v.nav ∧ v.extrapolate.2.dt = v.dt ∧ v.extrapolate.2.gyroPre = v.gyroPre ∧
      v.extrapolate.2.accePre = v.accePre := fun _ => ⟨rfl, rfl, rfl, rfl⟩
  rw [e, e, hd, hn, hx.1]
  generalize Ins.compensate u.dt m.acce u.nav.ab u.nav.as = a
  generalize Ins.compensate u.dt m.gyro u.nav.gb u.nav.gs = w
  unfold Ins.velocityUpdate
  dsimp only
  rw [(r u).1, (r u).2.1, (r u).2.2.1, (r u).2.2.2, (r u').1, (r u').2.1, (r u').2.2.1, (r u').2.2.2, hx.2.1, hx.2.2, hd, hn]
  rw [show (Fl.lit (1 / 2) : ℝ) = 1 / 2 by rw [lit_real]; norm_num]
  generalize (mmul (eyeM 3 - sm (1 / 2 : ℝ) (skew (vs (u.extrapolate.2.omegaEnN + u.extrapolate.2.omegaIeN) u.dt))) u.nav.Cbn) = M
  simp only [mvec_real]
  rw [show (vd (cross (u'.gyroPre - u.gyroPre) a + cross (u'.accePre - u.accePre) w) 12 : V3 ℝ) =
      (a + sv (1 / 2 : ℝ) (cross w a) + vd (cross u'.gyroPre a + cross u'.accePre w) (Fl.lit 12)) -
      (a + sv (1 / 2 : ℝ) (cross w a) + vd (cross u.gyroPre a + cross u.accePre w) (Fl.lit 12)) by
    ext i
    fin_cases i <;> simp [cross, vd, v3, lit_real] <;> ring, Matrix.mulVec_sub]
  abel

/-- C179, the violation with a gyroscope bias and 200 samples per second: the sample is kept as measured where the unbroken run keeps it
compensated, so the two kinds of correction for rotation and force between samples differ: the difference of the velocities after the next sample is a
twelfth of the products with the compensation left out. -/
theorem C179_bias_kept (g : ℝ) (s fresh : Ins ℝ) (m m' : Imu ℝ) (hdt : s.dt = 1 / 200) (a w : V3 ℝ)
    (ha : a = Ins.compensate s.dt m'.acce s.nav.ab s.nav.as) (hw : w = Ins.compensate s.dt m'.gyro s.nav.gb s.nav.gs) :
    let mid := s.forwardImu g m
    let x := mid.2.extrapolate.2
    let zeta := vs (x.omegaEnN + x.omegaIeN) s.dt
    (Ins.run [m'] (fresh.initializePvaSample mid.2.nav m)).2.nav.vn - (Ins.run [m, m'] (g, s)).2.nav.vn =
      mvec (mmul (eyeM 3 - sm (1 / 2 : ℝ) (skew zeta)) mid.2.nav.Cbn)
        (vd (cross (m.gyro - Ins.compensate s.dt m.gyro s.nav.gb s.nav.gs) a + cross (m.acce - Ins.compensate s.dt m.acce s.nav.ab s.nav.as) w) 12) := by
  subst ha hw
  have hd5 : (Fl.lit (5 / 1000) : ℝ) = s.dt := by rw [hdt, lit_real]; norm_num
  exact forwardImu_vn_diff (s.forwardImu g m).1 (fresh.initializePvaSample (s.forwardImu g m).2.nav m).1 (s.forwardImu g m).2
    (fresh.initializePvaSample (s.forwardImu g m).2.nav m).2 m' rfl hd5

theorem half_turn_injective (z : V3 ℝ) (C : M3 ℝ) (hC : isRot C) (v : V3 ℝ) (h : mvec (mmul (eyeM 3 - sm (1 / 2 : ℝ) (skew z)) C) v = 0) : v = 0 := by
  rw [mmul_real, mvec_real, eyeM_real, ← Matrix.mulVec_mulVec] at h
  have hu : C.mulVec v = 0 := by
    generalize C.mulVec v = u at h
    have h0 := congrFun h 0
    have h1 := congrFun h 1
    have h2 := congrFun h 2
    simp [Matrix.mulVec, dotProduct, Fin.sum_univ_three, skew, sm_real, Matrix.one_apply] at h0 h1 h2
    have hs : u 0 ^ 2 + u 1 ^ 2 + u 2 ^ 2 = 0 := by linear_combination u 0 * h0 + u 1 * h1 + u 2 * h2
    have a0 : u 0 = 0 := by nlinarith [sq_nonneg (u 0), sq_nonneg (u 1), sq_nonneg (u 2)]
    have a1 : u 1 = 0 := by nlinarith [sq_nonneg (u 0), sq_nonneg (u 1), sq_nonneg (u 2)]
    have a2 : u 2 = 0 := by nlinarith [sq_nonneg (u 0), sq_nonneg (u 1), sq_nonneg (u 2)]
    ext i; fin_cases i <;> assumption
  have := congrArg C.transpose.mulVec hu
  rwa [Matrix.mulVec_mulVec, Matrix.mulVec_zero, hC.2.1, Matrix.one_mulVec] at this

/-- C179: so a restart at 200 samples per second is exact for the velocity of the next sample only if those products vanish. -/
theorem C179_bias_matters (g : ℝ) (s fresh : Ins ℝ) (m m' : Imu ℝ) (hdt : s.dt = 1 / 200) (hq : 0 < qsq s.nav.Qbn) (hq' : 0 < qsq s.nav.Qne)
    (hne : (vd (cross (m.gyro - Ins.compensate s.dt m.gyro s.nav.gb s.nav.gs) (Ins.compensate s.dt m'.acce s.nav.ab s.nav.as) +
      cross (m.acce - Ins.compensate s.dt m.acce s.nav.ab s.nav.as) (Ins.compensate s.dt m'.gyro s.nav.gb s.nav.gs)) (12 : ℝ)) ≠ 0) :
    (Ins.run [m'] (fresh.initializePvaSample (s.forwardImu g m).2.nav m)).2.nav.vn ≠ (Ins.run [m, m'] (g, s)).2.nav.vn := by
  intro h
  have d := C179_bias_kept g s fresh m m' hdt _ _ rfl rfl
  dsimp only at d
  rw [h, sub_self] at d
  exact hne (half_turn_injective _ _ (forwardImu_ok g s m hq hq').1.2.2.1 _ d.symm)

/-- C179's hypotheses are met: the vehicle of C81 without sensor errors at 200 samples per second. -/
example (g : ℝ) (m m' : Imu ℝ) : let s : Ins ℝ := { demoIns with dt := 1 / 200, nav := { demoIns.nav with gb := 0, ab := 0 } }
    Ins.run [m'] (demoIns.initializePvaSample (s.forwardImu g m).2.nav m) = Ins.run [m, m'] (g, s) :=
  C179_restart_at_200Hz_partial g _ demoIns m [m'] (by simp) rfl rfl rfl rfl rfl

/-- C179's bias: with its gyroscope bias, at rest and then pushed sideways, the restarted run has another velocity. -/
example (g : ℝ) : let s : Ins ℝ := { demoIns with dt := 1 / 200, nav := { demoIns.nav with ab := 0 } }
    (Ins.run [⟨1, 0, v3 0 1 0⟩] (demoIns.initializePvaSample (s.forwardImu g ⟨0, 0, 0⟩).2.nav ⟨0, 0, 0⟩)).2.nav.vn ≠
      (Ins.run [⟨0, 0, 0⟩, ⟨1, 0, v3 0 1 0⟩] (g, s)).2.nav.vn := by
  dsimp only
  refine C179_bias_matters g _ demoIns _ _ rfl (by simp [demoIns, qsq]) ?_ ?_
  · show 0 < qsq (llaToQne ⟨1 / 2, 1⟩)
    rw [(C41_position_quaternion _).1]; norm_num
  · intro h
    have h2 := congrFun h 2
    simp [compensate_at, cross, vd, v3, demoIns] at h2
end Verif.Props
