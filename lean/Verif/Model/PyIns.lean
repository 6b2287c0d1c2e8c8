import Verif.Model.Convert
import Mathlib.Analysis.SpecialFunctions.Sqrt
import Verif.Lemmas.Real
/-! Model of the mechanization of Tools/InsCore.py, over the real numbers (rounding is not modelled; Python's division of a quaternion
by its length raises only when the length is zero, which no theorem below allows). Functions of InsCore.py whose text is that of the library (`gyro_to_rv`, 202-210; `rv_to_quaternion`, 213-242; `dcm_to_euler`, 276-297;
`euler_to_quaternion`, 309-319; `euler_to_dcm`, 322-342; `skew_sym`, 346-354; `lla_to_qne`, 371-378; `qne_to_lla`, 381-391; `RM`, `RN`, 60-64;
`omega_en_n`, `omega_ie_n`, 129-137) are taken from `Model/Convert` and `Model/Earth`. The function overwrites the epoch it is given and returns it
(InsCore.py:520: `current_epoch = last_epoch` copies nothing); no member is overwritten before its last use. -/
namespace Verif.PyIns
open Verif Verif.Convert

/-- Members of `NavData`, InsCore.py:394-422, that the mechanization uses; the angles are those of `atti`. -/
structure Nav where
  time : ℝ
  lat : ℝ
  lon : ℝ
  height : ℝ
  atti : V3 ℝ
  vfKb : V3 ℝ
  dvn : V3 ℝ
  Qbn : Quat ℝ
  Cbn : M3 ℝ
  Qne : Quat ℝ
  Vn : V3 ℝ
  gb : V3 ℝ
  ab : V3 ℝ
  gs : V3 ℝ
  as : V3 ℝ

/-- `Quaternion.normalize`, InsCore.py:187-196. -/
noncomputable def normalize (q : Quat ℝ) : Quat ℝ :=
  let n := Real.sqrt (q.w * q.w + (q.x * q.x + q.y * q.y + q.z * q.z))
  ⟨q.w / n, q.x / n, q.y / n, q.z / n⟩

/-- `quaternion_to_dcm`, InsCore.py:252-273. -/
def quatToDcm (q : Quat ℝ) : M3 ℝ :=
  !![q.w * q.w + q.x * q.x - q.y * q.y - q.z * q.z, 2 * (q.x * q.y - q.w * q.z), 2 * (q.x * q.z + q.w * q.y);
     2 * (q.x * q.y + q.w * q.z), q.w * q.w - q.x * q.x + q.y * q.y - q.z * q.z, 2 * (q.y * q.z - q.w * q.x);
     2 * (q.x * q.z - q.w * q.y), 2 * (q.y * q.z + q.w * q.x), q.w * q.w - q.x * q.x - q.y * q.y + q.z * q.z]

/-- `WGS84.g`, InsCore.py:139-145. -/
noncomputable def gravity (lat h : ℝ) : ℝ :=
  let sin2 := Real.sin lat ^ 2
  97803267715 / 10000000000 * (1 + 52790414 / 10000000000 * sin2 + 232718 / 10000000000 * sin2 ^ 2)
    + h * (43977311 / 10000000000000000 * sin2 - 30876910891 / 10000000000000000) + 7211 / 10000000000000000 * h ^ 2

/-- `compensate_imu`, InsCore.py:435-442, for one of the two sensors. -/
noncomputable def compensate (x bias scale : V3 ℝ) (dt : ℝ) : V3 ℝ := fun i => (1 - scale i) * (x i - bias i * dt)

/-- The mid-point latitude, longitude and height, InsCore.py:532-542. -/
noncomputable def mid (e : Nav) (dt : ℝ) : ℝ × ℝ × ℝ :=
  let en := Earth.omegaEnN e.Vn (v3 e.lat e.lon e.height)
  let ie := Earth.omegaIeN e.lat
  let q := ((rvToQuat (fun i => Earth.omegaIeE i * dt / 2)).conj.mul e.Qne).mul (rvToQuat fun i => (en i + ie i) * dt / 2)
  ((qneToLla q).lat, (qneToLla q).lon, e.height - e.Vn 2 * dt / 2)

/-- `mechanization_n`, InsCore.py:497-602. -/
noncomputable def step (cur last : Imu ℝ) (e : Nav) : Nav :=
  let dt := cur.gpst - e.time
  if @decide (|dt| < 1 / 10000) (Classical.propDecidable _) then e
  else
    let dth := compensate cur.gyro e.gb e.gs dt
    let dvf := compensate cur.acce e.ab e.as dt
    let dth1 := compensate last.gyro e.gb e.gs dt
    let dvf1 := compensate last.acce e.ab e.as dt
    let m := mid e dt
    let vnMid : V3 ℝ := fun i => e.Vn i + 1 / 2 * e.dvn i
    let ie := Earth.omegaIeN m.1
    let en := Earth.omegaEnN vnMid (v3 m.1 m.2.1 m.2.2)
    let gamma := v3 0 0 (gravity e.lat e.height)
    let cor : V3 ℝ := fun i => (gamma i - cross (fun i => 2 * ie i + en i) e.Vn i) * dt
    let zeta : V3 ℝ := fun i => (en i + ie i) * dt
    let vf : V3 ℝ := fun i => dvf i + 1 / 2 * cross dth dvf i + (cross dth1 dvf i + cross dvf1 dth i) / 12
    let vfn : V3 ℝ := ((1 - (1 / 2 : ℝ) • skew zeta) * e.Cbn).mulVec vf
    let vn : V3 ℝ := fun i => e.Vn i + vfn i + cor i
    let qne := normalize (((rvToQuat fun i => Earth.omegaIeE i * dt).conj.mul e.Qne).mul (rvToQuat fun i => (ie i + en i) * dt))
    let ll := qneToLla qne
    let vm : V3 ℝ := fun i => (e.Vn i + vn i) / 2
    let ie2 := Earth.omegaIeN ll.lat
    let en2 := Earth.omegaEnN vm (v3 ll.lat ll.lon m.2.2)
    let qbn := ((rvToQuat fun i => (ie2 i + en2 i) * dt).conj.mul e.Qbn).mul (rvToQuat (gyroToRv dth dth1))
    { e with
      time := cur.gpst, lat := ll.lat, lon := ll.lon, height := e.height - vm 2 * dt
      dvn := fun i => vfn i + cor i, vfKb := fun i => vfn i / dt, Vn := vn
      Qne := qne, Qbn := qbn, Cbn := quatToDcm qbn, atti := dcmToEuler (quatToDcm qbn) }

/-- `mechanization_n` called reading after reading, each time with the reading before as `last_imu` (the function has no caller in the repository;
its parameters say so, InsCore.py:499-504). -/
noncomputable def run : Imu ℝ → List (Imu ℝ) → Nav → Nav
  | _, [], e => e
  | last, cur :: more, e => run cur more (step cur last e)
end Verif.PyIns
