import Verif.Types
/-! Model of `/repo/Src/StaticDetect.cpp`, `StaticDetect.h` (class `IMUSmooth`). `int` counters are unbounded. -/
namespace Verif
variable {α : Type} [Add α] [Sub α] [Mul α] [Neg α] [Div α] [Zero α] [One α] [Fl α]

/-- Members of `IMUSmooth`, StaticDetect.h:12-23 (`imu_pre` is written but never read; kept). -/
structure Smooth (α : Type) where
  ave : Imu α
  var : Imu α
  pre : Imu α
  upCnt : Int
  staticCnt : Int
  width : Int
  threshold : α
  staticWidth : Int
  isStatic : Bool

namespace Smooth
/-- a zero `RgioeImuData`, StaticDetect.cpp:74-80. -/
def zeroImu : Imu α := ⟨0, zero3, zero3⟩

/-- `IMUSmooth(threshold, static_width, window)`, StaticDetect.cpp:74-80. -/
def new (threshold : α) (staticWidth window : Int) : Smooth α :=
  { ave := zeroImu, var := zeroImu, pre := zeroImu, upCnt := 0, staticCnt := 0, width := window
    threshold := threshold, staticWidth := staticWidth, isStatic := false }

/-- One running mean, StaticDetect.cpp:26-27,36-37. -/
def stepAve (n : Int) (ave x : α) : α := (ave * ofI (n - 1) + x) / ofI n
/-- One running variance (with the already updated mean), StaticDetect.cpp:29-32,39-44. -/
def stepVar (n : Int) (var ave' x : α) : α := (var * ofI (n - 1) + (x - ave') * (x - ave')) / ofI n

/-- `getStd`, StaticDetect.cpp:66-68. -/
def getStd (s : Smooth α) : α :=
  Fl.f32 (Fl.sqrt (Fl.f32 (s.var.acce 0 + s.var.acce 1 + s.var.acce 2)))

/-- `Update`, StaticDetect.cpp:22-56. -/
def update (s : Smooth α) (imu : Imu α) : Smooth α :=
  let up := s.upCnt + 1
  let n := if up < s.width then up else s.width
  let aveA : V3 α := fun i => stepAve n (s.ave.acce i) (imu.acce i)
  let aveG : V3 α := fun i => stepAve n (s.ave.gyro i) (imu.gyro i)
  let varA : V3 α := fun i => stepVar n (s.var.acce i) (aveA i) (imu.acce i)
  let varG : V3 α := fun i => stepVar n (s.var.gyro i) (aveG i) (imu.gyro i)
  let s1 : Smooth α := { s with
    upCnt := up
    ave := { s.ave with acce := aveA, gyro := aveG }
    var := { s.var with acce := varA, gyro := varG } }
  let cnt := if Fl.lt s.threshold s1.getStd then 0 else s.staticCnt + 1
  { s1 with
    staticCnt := cnt
    isStatic := decide (s.staticWidth < cnt)
    ave := { s1.ave with gpst := imu.gpst }
    pre := imu }
end Smooth
end Verif
