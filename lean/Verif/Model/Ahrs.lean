import Verif.Model.Convert
/-! Model of `/repo/Src/AttiAhrs.cpp`. The recorder side effect of `Update(imu)` is in
`Model/Logging`. -/
namespace Verif
open Verif.Convert
variable {α : Type} [Add α] [Sub α] [Mul α] [Neg α] [Div α] [Zero α] [One α] [Fl α]

/-- Members of `AttiAhrs`, AttiAhrs.h:43-48 (`method` is never read). -/
structure Ahrs (α : Type) where
  qnb : Quat α
  Cnb : M3 α
  ts : α
  Kp : α
  Ki : α
  tk : α
  exyzInt : V3 α
  ebMax : V3 α

namespace Ahrs
/-- Constructor, AttiAhrs.cpp:15-23. -/
def new (dt : α) : Ahrs α :=
  let beta : α := Fl.f32 (Fl.f32 (Fl.lit (2146 / 1000)) / Fl.lit 100)
  let q := eulerToQuat zero3
  { qnb := q, Cnb := quatToDcm q, ts := dt, Kp := Fl.lit 2 * beta, Ki := beta * beta, tk := 0
    exyzInt := zero3, ebMax := vs (v3 1 1 1) deg }

/-- The clamp of one component, AttiAhrs.cpp:57-59. -/
def clamp (x m : α) : α := if Fl.lt m x then m else if Fl.lt x (-m) then -m else x

/-- The normalised specific force, AttiAhrs.cpp:37-38. -/
def acc0 (a : Ahrs α) (vm : V3 α) : V3 α :=
  let nm := vnorm vm / a.ts
  if Fl.lt (Fl.lit (1 / 2)) nm then vd vm (nm * a.ts) else zero3

/-- The attitude error, AttiAhrs.cpp:39-50: the magnetometer vector is zero, so `mag0 = wxyz = 0`. -/
def err (a : Ahrs α) (vm : V3 α) : V3 α := cross (a.Cnb 2) (a.acc0 vm) + cross zero3 zero3

/-- `Update(wm, vm)`, AttiAhrs.cpp:32-60. -/
def update (a : Ahrs α) (wm vm : V3 α) : Ahrs α :=
  let exyz := a.err vm
  let eint := a.exyzInt + vs exyz (a.Ki * a.ts)
  let q := (a.qnb.mul (rvToQuat (wm - vs (sv a.Kp exyz + eint) a.ts))).normalized
  { a with qnb := q, Cnb := quatToDcm q, tk := a.tk + a.ts
           exyzInt := fun i => clamp (eint i) (a.ebMax i) }

/-- `Update(imu)`, AttiAhrs.cpp:86-91. -/
def updateImu (a : Ahrs α) (imu : Imu α) : Ahrs α := a.update imu.gyro imu.acce

/-- `normXY`, AttiAhrs.cpp:24-26. -/
def normXY (v : V3 α) : α := Fl.sqrt (v 0 * v 0 + v 1 * v 1)

/-- A normalised vector or zero, AttiAhrs.cpp:66-69. -/
def unit0 (v : V3 α) : V3 α :=
  let nm := vnorm v
  if Fl.lt (Fl.lit (1 / 10)) nm then vd v nm else zero3

/-- `Update(gyro, acc, mag)`, AttiAhrs.cpp:62-79. -/
def updateMag (a : Ahrs α) (gyro acc mag : V3 α) : Ahrs α :=
  let acc0 := unit0 acc
  let mag0 := unit0 mag
  let b := mvec a.Cnb mag0
  let bxyz := v3 0 (normXY b) (b 2)
  let wxyz := mvec a.Cnb.transpose bxyz
  let exyz := cross (a.Cnb 2) acc0 + cross wxyz mag0
  let eint := a.exyzInt + vs exyz (a.Ki * a.ts)
  let q := a.qnb.mul (rvToQuat (vs (gyro - sv a.Kp exyz - eint) a.ts))
  { a with qnb := q, Cnb := quatToDcm q, tk := a.tk + a.ts, exyzInt := eint }

/-- `SetAtti(euler)`, AttiAhrs.cpp:81-84. -/
def setAttiEuler (a : Ahrs α) (e : V3 α) : Ahrs α :=
  { a with qnb := eulerToQuat e, Cnb := quatToDcm (eulerToQuat e) }
/-- `SetAtti(Quad)`, AttiAhrs.cpp:112-114. -/
def setAttiQuat (a : Ahrs α) (q : Quat α) : Ahrs α := { a with qnb := q }
/-- `GetQnb`, AttiAhrs.cpp:104-106. -/
def getQnb (a : Ahrs α) : Quat α := a.qnb
/-- `GetAtti`, AttiAhrs.cpp:108-110. -/
def getAtti (a : Ahrs α) : V3 α := dcmToEuler a.Cnb
end Ahrs
end Verif
