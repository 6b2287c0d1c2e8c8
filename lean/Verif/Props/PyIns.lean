import Verif.Model.PyIns
import Verif.Model.Ins
import Verif.Props.RotVec
import Verif.Props.Gravity
import Verif.Lemmas.Real
import Verif.Lemmas.Rotation
import Mathlib.Analysis.SpecificLimits.Basic
import Mathlib.Tactic.Ring
import Mathlib.Tactic.NormNum
import Mathlib.Tactic.Linarith
import Mathlib.Tactic.LinearCombination
import Mathlib.Tactic.FieldSimp
import Mathlib.Tactic.FinCases
/-! The mechanization of Tools/InsCore.py against that of the library, in exact arithmetic. -/
namespace Verif.Props
open Verif Verif.Spec Verif.Convert Matrix

/-- Both programs hold the same epoch: `e` the script's, `s` the library's. -/
structure SameEpoch (e : PyIns.Nav) (s : Ins ℝ) : Prop where
  lat : e.lat = s.nav.pos 0
  lon : e.lon = s.nav.pos 1
  height : e.height = s.nav.pos 2
  vn : e.Vn = s.nav.vn
  dvn : e.dvn = s.nav.dvn
  Cbn : e.Cbn = s.nav.Cbn
  Qne : e.Qne = s.nav.Qne
  gb : e.gb = s.nav.gb
  ab : e.ab = s.nav.ab
  gs : e.gs = s.nav.gs
  as : e.as = s.nav.as

theorem py_compensate (dt : ℝ) (x b c : V3 ℝ) : PyIns.compensate x b c dt = Ins.compensate dt x b c := by
  unfold PyIns.compensate Ins.compensate
  rw [mvec_real, eyeM_real, diagM_real]
  funext i
  fin_cases i <;> simp [vs, Matrix.mulVec, dotProduct, Fin.sum_univ_three, Matrix.diagonal, Matrix.one_apply]

theorem py_gravity (lat h : ℝ) : PyIns.gravity lat h = Earth.gravity lat h := by
  unfold PyIns.gravity Earth.gravity Earth.g0
  simp only [lit_real, sin_real]
  push_cast
  ring

/-- Latitude and longitude of a position quaternion do not depend on its length. -/
theorem lla_scale (q : Quat ℝ) (k : ℝ) (hk : 0 < k) : qneToLla ⟨q.w / k, q.x / k, q.y / k, q.z / k⟩ = qneToLla q := by
  unfold qneToLla
  simp only [atan2_real]
  have h1 : q.y / k / (q.w / k) = q.y / q.w := by
    by_cases hw : q.w = 0
    · simp [hw]
    · field_simp
  have h2 : Complex.arg ⟨q.w / k, q.z / k⟩ = Complex.arg ⟨q.w, q.z⟩ := by
    have : (⟨q.w / k, q.z / k⟩ : ℂ) = ((k⁻¹ : ℝ) : ℂ) * ⟨q.w, q.z⟩ := by
      apply Complex.ext
      · rw [Complex.re_ofReal_mul]; exact div_eq_inv_mul _ _
      · rw [Complex.im_ofReal_mul]; exact div_eq_inv_mul _ _
    rw [this, Complex.arg_real_mul _ (by positivity)]
  rw [h1, h2]

theorem lla_normalized (q : Quat ℝ) (h : 0 < qsq q) : qneToLla q.normalized = qneToLla q := by
  have hn : q.nsq = qsq q := nsq_eq q
  unfold Quat.normalized
  rw [if_pos (by rw [lt_real, hn]; exact h)]
  simp only [hn, sqrt_real]
  exact lla_scale q _ (Real.sqrt_pos.2 h)

theorem py_normalize (q : Quat ℝ) (h : 0 < qsq q) : PyIns.normalize q = q.normalized := by
  have hn : q.nsq = qsq q := nsq_eq q
  unfold Quat.normalized PyIns.normalize
  rw [if_pos (by rw [lt_real, hn]; exact h)]
  have e : q.w * q.w + (q.x * q.x + q.y * q.y + q.z * q.z) = qsq q := by unfold qsq; ring
  simp only [hn, sqrt_real, e]

/-- The scripts's point half an interval ahead is the library's. -/
theorem py_mid (e : PyIns.Nav) (s : Ins ℝ) (h : SameEpoch e s) (hq : 0 < qsq s.nav.Qne) :
    v3 (PyIns.mid e s.dt).1 (PyIns.mid e s.dt).2.1 (PyIns.mid e s.dt).2.2 = s.extrapolate.2.posMid := by
  have hpos : v3 e.lat e.lon e.height = s.nav.pos := by
    rw [h.lat, h.lon, h.height]; funext i; fin_cases i <;> rfl
  unfold PyIns.mid Ins.extrapolate
  rw [hpos, h.vn, h.Qne, h.lat, h.height]
  dsimp only
  have e1 : (fun i => Earth.omegaIeE i * s.dt / 2 : V3 ℝ) = vd (vs Earth.omegaIeE s.dt) (Fl.lit 2) := by
    funext i; simp [vd, vs, lit_real]
  have e2 : (fun i => (Earth.omegaEnN s.nav.vn s.nav.pos i + Earth.omegaIeN (s.nav.pos 0) i) * s.dt / 2 : V3 ℝ) =
      vd (vs (Earth.omegaIeN (s.nav.pos 0) + Earth.omegaEnN s.nav.vn s.nav.pos) s.dt) (Fl.lit 2) := by
    funext i; simp only [vd, vs, lit_real, Pi.add_apply]; push_cast; ring
  rw [e1, e2, lla_normalized _ (by
    rw [qsq_mul, qsq_mul]
    exact mul_pos (mul_pos (by rw [qsq_conj]; exact rv_pos _) hq) (rv_pos _))]
  funext i
  fin_cases i <;> simp [v3, lit_real]

/-- The two ways the velocity update is written. -/
theorem velocity_forms (vn ie en dv dth dvp dthp : V3 ℝ) (C : M3 ℝ) (g g' dt : ℝ) :
    (fun i => vn i + ((1 - (1 / 2 : ℝ) • skew (fun i => (en i + ie i) * dt)) * C).mulVec
        (fun i => dv i + 1 / 2 * cross dth dv i + (cross dthp dv i + cross dvp dth i) / 12) i +
        (v3 0 0 g i - cross (fun i => 2 * ie i + en i) vn i) * dt : V3 ℝ) =
    vn + (mvec (mmul (eyeM 3 - sm (Fl.lit (1 / 2)) (skew (vs (en + ie) dt))) C)
        (dv + sv (Fl.lit (1 / 2)) (cross dth dv) + vd (cross dthp dv + cross dvp dth) (Fl.lit 12)) +
        vs (v3 0 0 g' - cross (sv (Fl.lit 2) ie + en) vn) dt) + v3 0 0 ((g - g') * dt) := by
  have h1 : (fun i => dv i + 1 / 2 * cross dth dv i + (cross dthp dv i + cross dvp dth i) / 12 : V3 ℝ) =
      dv + sv (Fl.lit (1 / 2)) (cross dth dv) + vd (cross dthp dv + cross dvp dth) (Fl.lit 12) := by
    funext i; simp [sv, vd, lit_real]
  have h2 : (fun i => (en i + ie i) * dt : V3 ℝ) = vs (en + ie) dt := by funext i; simp [vs]
  have h3 : (fun i => 2 * ie i + en i : V3 ℝ) = sv (Fl.lit 2) ie + en := by funext i; simp [sv, lit_real]
  have h4 : sm (Fl.lit (1 / 2)) (skew (vs (en + ie) dt)) = (1 / 2 : ℝ) • skew (vs (en + ie) dt) := by
    rw [sm_real]; simp [lit_real]
  rw [h1, h2, h3, mvec_real, mmul_real, eyeM_real, h4]
  funext i
  simp only [Pi.add_apply, Pi.sub_apply, vs]
  fin_cases i <;> simp [v3] <;> ring

/-- C172: from the same epoch, over the same interval, the script's velocity differs from the library's only in the vertical, by the
difference between the gravity at the start of the interval (which the script uses) and half an interval ahead (which the library uses); the
heights differ by half an interval times that. -/
theorem C172_velocity_and_height (e : PyIns.Nav) (s : Ins ℝ) (h : SameEpoch e s) (hq : 0 < qsq s.nav.Qne) (cur last : Imu ℝ) (g0 : ℝ)
    (hdt : cur.gpst - e.time = s.dt) (hlong : 1 / 10000 ≤ |s.dt|)
    (hacc : s.accePre = Ins.compensate s.dt last.acce s.nav.ab s.nav.as) (hgyr : s.gyroPre = Ins.compensate s.dt last.gyro s.nav.gb s.nav.gs) :
    let lib := s.forwardImu g0 cur
    let dg := (Earth.gravity (s.nav.pos 0) (s.nav.pos 2) - lib.1) * s.dt
    (PyIns.step cur last e).Vn = lib.2.nav.vn + v3 0 0 dg ∧
    (PyIns.step cur last e).height = lib.2.nav.pos 2 - dg * s.dt / 2 := by
  intro lib dg
  have hm := py_mid e s h hq
  have hm0 := congrFun hm 0
  have hg : lib.1 = Earth.gravity (s.extrapolate.2.posMid 0) (s.extrapolate.2.posMid 2) := rfl
  have hvn : lib.2.nav.vn = s.nav.vn + (s.extrapolate.2.velocityUpdate lib.1 (Ins.compensate s.dt cur.acce s.nav.ab s.nav.as)
      (Ins.compensate s.dt cur.gyro s.nav.gb s.nav.gs)).nav.dvn := rfl
  have hh : lib.2.nav.pos 2 = s.nav.pos 2 - (s.nav.vn 2 + (lib.2.nav.vn 2 - s.nav.vn 2) / 2) * s.dt := by
    have : lib.2.nav.pos 2 = s.nav.pos 2 - (s.nav.vn + vd (s.extrapolate.2.velocityUpdate lib.1 (Ins.compensate s.dt cur.acce s.nav.ab s.nav.as)
      (Ins.compensate s.dt cur.gyro s.nav.gb s.nav.gs)).nav.dvn (Fl.lit 2)) 2 * s.dt := rfl
    rw [this, hvn]
    simp [vd, lit_real]
  have key : (PyIns.step cur last e).Vn = lib.2.nav.vn + v3 0 0 dg := by
    rw [hvn]
    have hm0' : (PyIns.mid e s.dt).1 = s.extrapolate.2.posMid 0 := hm0
    have hx1 : s.extrapolate.2.omegaIeN = Earth.omegaIeN (s.extrapolate.2.posMid 0) := rfl
    have hx2 : s.extrapolate.2.omegaEnN = Earth.omegaEnN s.extrapolate.2.vnMid s.extrapolate.2.posMid := rfl
    have hx3 : s.extrapolate.2.vnMid = s.nav.vn + sv (Fl.lit (1 / 2)) s.nav.dvn := rfl
    have hx4 : s.extrapolate.2.nav = s.nav := rfl
    have hx5 : s.extrapolate.2.dt = s.dt := rfl
    have hx6 : s.extrapolate.2.gyroPre = s.gyroPre := rfl
    have hx7 : s.extrapolate.2.accePre = s.accePre := rfl
    have hv : (fun i => s.nav.vn i + 1 / 2 * s.nav.dvn i : V3 ℝ) = s.extrapolate.2.vnMid := by
      rw [hx3]; funext i; simp [sv, lit_real]
    unfold PyIns.step Ins.velocityUpdate
    dsimp only
    rw [hdt, if_neg (by simpa using hlong)]
    dsimp only
    rw [hm, hm0', h.vn, h.dvn, hv, h.lat, h.height, h.Cbn, h.gb, h.gs, h.ab, h.as, py_gravity]
    simp only [py_compensate]
    rw [← hacc, ← hgyr, ← hx1, ← hx2, hx4, hx5, hx6, hx7]
    generalize s.extrapolate.2.omegaIeN = ie
    generalize s.extrapolate.2.omegaEnN = en
    generalize Ins.compensate s.dt cur.acce s.nav.ab s.nav.as = dv
    generalize Ins.compensate s.dt cur.gyro s.nav.gb s.nav.gs = dth
    exact velocity_forms _ _ _ _ _ _ _ _ _ _ _
  refine ⟨key, ?_⟩
  have : (PyIns.step cur last e).height = e.height - (e.Vn 2 + (PyIns.step cur last e).Vn 2) / 2 * s.dt := by
    unfold PyIns.step
    dsimp only
    rw [hdt, if_neg (by simpa using hlong)]
  rw [this, key, hh, h.height, h.vn]
  simp [v3]
  ring

/-- C172 on a concrete epoch: both programs at rest at 45° north, level, reading nothing for ten milliseconds. -/
example : ∃ (e : PyIns.Nav) (s : Ins ℝ) (cur last : Imu ℝ), SameEpoch e s ∧ 0 < qsq s.nav.Qne ∧ cur.gpst - e.time = s.dt ∧
    1 / 10000 ≤ |s.dt| ∧ s.accePre = Ins.compensate s.dt last.acce s.nav.ab s.nav.as ∧
    s.gyroPre = Ins.compensate s.dt last.gyro s.nav.gb s.nav.gs ∧ s.nav.vn 0 = 3 := by
  let z : V3 ℝ := fun _ => 0
  let n : NavEpoch ℝ := { gpst := 0, pos := v3 1 0 100, vn := v3 3 0 0, atti := z, dvn := z, vfKb := z, Cbn := 1, Cne := 1, Qbn := ⟨1, 0, 0, 0⟩, Qne := ⟨1, 0, 0, 0⟩, gb := z, ab := z, gs := z, as := z, posStd := z, velStd := z, attStd := z, kd := 1, info := ⟨0, 0⟩, week := 0 }
  let s : Ins ℝ := ⟨n, 1 / 100, Ins.compensate (1 / 100) z z z, Ins.compensate (1 / 100) z z z, z, z, z, z⟩
  let e : PyIns.Nav := ⟨0, 1, 0, 100, z, z, z, ⟨1, 0, 0, 0⟩, 1, ⟨1, 0, 0, 0⟩, v3 3 0 0, z, z, z, z⟩
  refine ⟨e, s, ⟨1 / 100, z, z⟩, ⟨0, z, z⟩, ⟨rfl, rfl, rfl, rfl, rfl, rfl, rfl, rfl, rfl, rfl, rfl⟩, ?_, ?_, ?_, rfl, rfl, rfl⟩
  · show (0 : ℝ) < qsq ⟨1, 0, 0, 0⟩
    simp [qsq]
  · show (1 / 100 : ℝ) - 0 = 1 / 100
    norm_num
  · show (1 / 10000 : ℝ) ≤ |1 / 100|
    rw [abs_of_pos] <;> norm_num

theorem py_dcm (q : Quat ℝ) : PyIns.quatToDcm q = rotH q := by
  unfold PyIns.quatToDcm rotH
  ext i j
  fin_cases i <;> fin_cases j <;> simp <;> ring

/-- A rotation vector's quaternion is never longer than one, and is shorter than one below half a turn. -/
theorem rv_short (v : V3 ℝ) : qsq (rvToQuat v) ≤ 1 ∧ (0 < len v → len v < Real.pi → qsq (rvToQuat v) < 1) := by
  by_cases h : len v < Real.pi
  · have h0 : 0 ≤ len v / 2 := by have := len_nonneg v; linarith
    have e : qsq (rvToQuat v) = csP (len v / 2) ^ 2 + (len v / 2 * snP (len v / 2)) ^ 2 := by
      rw [rv_small v h]
      simp only [qsq]
      linear_combination (-(1 / 4 : ℝ)) * snP (len v / 2) ^ 2 * len_sq v
    rw [e]
    refine ⟨(norm_small _ h0 (half_lt v h)).1, fun hp _ => ?_⟩
    have hm : 0 < (len v / 2) ^ 2 := by positivity
    have m1 : (len v / 2) ^ 2 ≤ 5 / 2 := by
      have : (len v / 2) ^ 2 ≤ 1.5708 ^ 2 := pow_le_pow_left₀ h0 (half_lt v h) 2
      norm_num at this; linarith
    have e2 : csP (len v / 2) ^ 2 + (len v / 2 * snP (len v / 2)) ^ 2 = 1 - ((len v / 2) ^ 2) ^ 4 *
        (1 / 20160 - (len v / 2) ^ 2 / 50400 + ((len v / 2) ^ 2) ^ 2 / 725760 - ((len v / 2) ^ 2) ^ 3 / 25401600) := by
      unfold csP snP; ring
    rw [e2]
    generalize (len v / 2) ^ 2 = m at hm m1
    have q0 : 0 < 1 / 20160 - m / 50400 + m ^ 2 / 725760 - m ^ 3 / 25401600 := by nlinarith [mul_pos hm hm]
    have := mul_pos (pow_pos hm 4) q0
    linarith
  · push Not at h
    exact ⟨(((C43_rotation_vector v).2.2.2 h).1).le, fun _ h2 => absurd h2 (not_lt.2 h)⟩

/-- C173 (the part of the claim that holds): the position quaternion has unit length after every processed reading. -/
theorem C173_position_partial (cur last : Imu ℝ) (e : PyIns.Nav) (hq : 0 < qsq e.Qne) (hlong : 1 / 10000 ≤ |cur.gpst - e.time|) :
    qsq (PyIns.step cur last e).Qne = 1 := by
  unfold PyIns.step
  dsimp only
  rw [if_neg (by simpa using hlong)]
  dsimp only
  have hp : 0 < qsq (((rvToQuat fun i => Earth.omegaIeE i * (cur.gpst - e.time)).conj.mul e.Qne).mul (rvToQuat fun i =>
      (Earth.omegaIeN (PyIns.mid e (cur.gpst - e.time)).1 i + Earth.omegaEnN (fun i => e.Vn i + 1 / 2 * e.dvn i)
        (v3 (PyIns.mid e (cur.gpst - e.time)).1 (PyIns.mid e (cur.gpst - e.time)).2.1 (PyIns.mid e (cur.gpst - e.time)).2.2) i) * (cur.gpst - e.time))) := by
    rw [qsq_mul, qsq_mul]
    exact mul_pos (mul_pos (by rw [qsq_conj]; exact rv_pos _) hq) (rv_pos _)
  rw [py_normalize _ hp, qsq_normalized _ hp]

theorem qsq_three (z : V3 ℝ) (q b : Quat ℝ) : qsq (((rvToQuat z).conj.mul q).mul b) = qsq (rvToQuat z) * qsq q * qsq b := by
  rw [qsq_mul, qsq_mul, qsq_conj]

/-- One reading: the attitude quaternion keeps the factors the series leave, and the matrix is the one of that quaternion. -/
theorem py_attitude (cur last : Imu ℝ) (e : PyIns.Nav) (hlong : 1 / 10000 ≤ |cur.gpst - e.time|) :
    (∃ z : V3 ℝ, qsq (PyIns.step cur last e).Qbn = qsq (rvToQuat z) * qsq e.Qbn *
      qsq (rvToQuat (gyroToRv (PyIns.compensate cur.gyro e.gb e.gs (cur.gpst - e.time)) (PyIns.compensate last.gyro e.gb e.gs (cur.gpst - e.time))))) ∧
    (PyIns.step cur last e).Cbn = rotH (PyIns.step cur last e).Qbn ∧
    (PyIns.step cur last e).time = cur.gpst ∧ (PyIns.step cur last e).gb = e.gb ∧ (PyIns.step cur last e).gs = e.gs := by
  unfold PyIns.step
  dsimp only
  rw [if_neg (by simpa using hlong)]
  dsimp only
  exact ⟨⟨_, qsq_three _ _ _⟩, py_dcm _, rfl, rfl, rfl⟩

/-- C173, for every run of readings: the columns of the attitude matrix the script applies to the specific force are orthogonal, of one
length, which is the squared length of its attitude quaternion; that length never grows. -/
theorem C173_never_grows (cur last : Imu ℝ) (e : PyIns.Nav) (hlong : 1 / 10000 ≤ |cur.gpst - e.time|) :
    let n := PyIns.step cur last e
    n.Cbnᵀ * n.Cbn = (qsq n.Qbn ^ 2) • (1 : M3 ℝ) ∧ qsq n.Qbn ≤ qsq e.Qbn := by
  obtain ⟨⟨z, hz⟩, hc, -⟩ := py_attitude cur last e hlong
  refine ⟨by rw [hc]; exact rotH_orth' _, ?_⟩
  rw [hz]
  have h1 := (rv_short z).1
  have h2 := (rv_short (gyroToRv (PyIns.compensate cur.gyro e.gb e.gs (cur.gpst - e.time)) (PyIns.compensate last.gyro e.gb e.gs (cur.gpst - e.time)))).1
  have h3 := qsq_nonneg e.Qbn
  have h4 := qsq_nonneg (rvToQuat z)
  have h5 := qsq_nonneg (rvToQuat (gyroToRv (PyIns.compensate cur.gyro e.gb e.gs (cur.gpst - e.time)) (PyIns.compensate last.gyro e.gb e.gs (cur.gpst - e.time))))
  calc _ ≤ qsq (rvToQuat z) * qsq e.Qbn * 1 := mul_le_mul_of_nonneg_left h2 (mul_nonneg h4 h3)
    _ ≤ 1 * qsq e.Qbn * 1 := by nlinarith
    _ = qsq e.Qbn := by ring

/-- No entry of the homogeneous matrix exceeds the squared length. -/
theorem rotH_entry (q : Quat ℝ) (i j : Fin 3) : |rotH q i j| ≤ qsq q := by
  have h := congrFun (congrFun (rotH_orth' q) j) j
  simp only [Matrix.mul_apply, Matrix.transpose_apply, Fin.sum_univ_three, Matrix.smul_apply, Matrix.one_apply_eq, smul_eq_mul, mul_one] at h
  refine abs_le_of_sq_le_sq ?_ (qsq_nonneg q)
  rw [← h]
  fin_cases i <;> dsimp only [Fin.zero_eta, Fin.mk_one, Fin.reduceFinMk] <;> nlinarith [mul_self_nonneg (rotH q 0 j), mul_self_nonneg (rotH q 1 j), mul_self_nonneg (rotH q 2 j)]

/-- `n` readings of the same increments `w`, `dt` apart, the first `dt` after `t`. -/
def spinning (w a : V3 ℝ) (dt : ℝ) : ℝ → Nat → List (Imu ℝ)
  | _, 0 => []
  | t, n + 1 => ⟨t + dt, w, a⟩ :: spinning w a dt (t + dt) n

theorem rv_same (w : V3 ℝ) : gyroToRv w w = w := by
  funext i
  fin_cases i <;> simp [gyroToRv, cross, v3, vd, lit_real] <;> ring

/-- C173 (violated): while the device keeps turning, by the same angle less than half a turn from reading to reading, the length of the columns
of the script's attitude matrix goes down geometrically: the specific force it integrates goes to nothing. -/
theorem C173_force_vanishes (w a : V3 ℝ) (dt : ℝ) (hdt : 1 / 10000 ≤ dt) (hw : 0 < len w) (hw2 : len w < Real.pi) :
    ∃ k < 1, 0 ≤ k ∧ ∀ (n : Nat) (e : PyIns.Nav) (last : Imu ℝ), last.gyro = w → e.gb = (fun _ => 0) → e.gs = (fun _ => 0) →
      e.Cbn = rotH e.Qbn →
      (PyIns.run last (spinning w a dt e.time n) e).Cbn = rotH (PyIns.run last (spinning w a dt e.time n) e).Qbn ∧
      qsq (PyIns.run last (spinning w a dt e.time n) e).Qbn ≤ k ^ n * qsq e.Qbn := by
  refine ⟨qsq (rvToQuat w), (rv_short w).2 hw hw2, qsq_nonneg _, fun n => ?_⟩
  induction n with
  | zero => intro e last _ _ _ hC; exact ⟨hC, by simp [spinning, PyIns.run]⟩
  | succ n ih =>
    intro e last hl hgb hgs hC
    have hlong : 1 / 10000 ≤ |(⟨e.time + dt, w, a⟩ : Imu ℝ).gpst - e.time| := by
      show 1 / 10000 ≤ |e.time + dt - e.time|
      rw [add_sub_cancel_left]; exact hdt.trans (le_abs_self _)
    obtain ⟨⟨z, hz⟩, hc, ht, hgb', hgs'⟩ := py_attitude ⟨e.time + dt, w, a⟩ last e hlong
    have := ih (PyIns.step ⟨e.time + dt, w, a⟩ last e) ⟨e.time + dt, w, a⟩ rfl (hgb'.trans hgb) (hgs'.trans hgs) hc
    have ht' : (PyIns.step ⟨e.time + dt, w, a⟩ last e).time = e.time + dt := ht
    rw [ht'] at this
    refine ⟨this.1, this.2.trans ?_⟩
    have hcw : ∀ (x : V3 ℝ) (dt : ℝ), PyIns.compensate x (fun _ => 0) (fun _ => 0) dt = x := by
      intro x dt; funext i; simp [PyIns.compensate]
    rw [hz, hl, hgb, hgs, hcw, rv_same]
    have h1 := (rv_short z).1
    have h3 := qsq_nonneg e.Qbn
    have h5 := qsq_nonneg (rvToQuat w)
    calc _ ≤ qsq (rvToQuat w) ^ n * (1 * qsq e.Qbn * qsq (rvToQuat w)) := by gcongr
      _ = _ := by ring

/-- C173 (violated): no matter how small a positive length is asked for, a device that keeps turning gets a shorter attitude matrix. -/
theorem C173_violated (w a : V3 ℝ) (dt : ℝ) (hdt : 1 / 10000 ≤ dt) (hw : 0 < len w) (hw2 : len w < Real.pi) (e : PyIns.Nav) (last : Imu ℝ)
    (hl : last.gyro = w) (hgb : e.gb = fun _ => 0) (hgs : e.gs = fun _ => 0) (hC : e.Cbn = rotH e.Qbn) (hq : qsq e.Qbn = 1) :
    isRot e.Cbn ∧ ∀ i j, Filter.Tendsto (fun n => (PyIns.run last (spinning w a dt e.time n) e).Cbn i j) Filter.atTop (nhds 0) := by
  have hr : isRot e.Cbn := by rw [hC, ← toRot_eq _ hq]; exact toRot_isRot _ hq
  refine ⟨hr, fun i j => ?_⟩
  obtain ⟨k, hk1, hk0, hk⟩ := C173_force_vanishes w a dt hdt hw hw2
  have hb : ∀ n, |(PyIns.run last (spinning w a dt e.time n) e).Cbn i j| ≤ k ^ n := by
    intro n
    obtain ⟨h1, h2⟩ := hk n e last hl hgb hgs hC
    rw [hq, mul_one] at h2
    rw [h1]
    refine le_trans ?_ h2
    exact rotH_entry _ i j
  exact squeeze_zero_norm hb (tendsto_pow_atTop_nhds_zero_of_lt_one hk0 hk1)

/-- A device turning half a radian per reading meets the hypotheses. -/
example : ∃ (w : V3 ℝ) (e : PyIns.Nav), 0 < len w ∧ len w < Real.pi ∧ e.gb = (fun _ => 0) ∧ e.gs = (fun _ => 0) ∧ e.Cbn = rotH e.Qbn ∧ qsq e.Qbn = 1 := by
  let z : V3 ℝ := fun _ => 0
  refine ⟨v3 (1 / 2) 0 0, ⟨0, 1, 0, 100, z, z, z, ⟨1, 0, 0, 0⟩, rotH ⟨1, 0, 0, 0⟩, ⟨1, 0, 0, 0⟩, z, z, z, z, z⟩, ?_, ?_, rfl, rfl, rfl, ?_⟩
  · have h2 : len (v3 (1 / 2 : ℝ) 0 0) ^ 2 = 1 / 4 := by rw [len_sq]; simp [v3]; norm_num
    have h0 := len_nonneg (v3 (1 / 2 : ℝ) 0 0)
    nlinarith
  · have h2 : len (v3 (1 / 2 : ℝ) 0 0) ^ 2 = 1 / 4 := by rw [len_sq]; simp [v3]; norm_num
    have h0 := len_nonneg (v3 (1 / 2 : ℝ) 0 0)
    have := Real.pi_gt_three
    nlinarith
  · simp [qsq]
end Verif.Props
