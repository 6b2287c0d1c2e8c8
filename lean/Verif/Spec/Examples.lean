import Verif.Spec.Api
/-! Concrete values used to show that hypotheses are satisfiable. -/
namespace Verif.Ex
open Verif
variable {α : Type} [Add α] [Sub α] [Mul α] [Neg α] [Div α] [Zero α] [One α] [Fl α]

/-- All-zero quaternion. -/
def zq : Quat α := ⟨0, 0, 0, 0⟩
/-- All-zero matrix. -/
def zm : M3 α := fun _ _ => 0
/-- All-zero epoch. -/
def zNav : NavEpoch α :=
  { gpst := 0, pos := zero3, vn := zero3, atti := zero3, dvn := zero3, vfKb := zero3
    Cbn := zm, Cne := zm, Qbn := zq, Qne := zq, gb := zero3, ab := zero3, gs := zero3, as := zero3
    posStd := zero3, velStd := zero3, attStd := zero3, kd := 0, info := ⟨0, 0⟩, week := 0 }
/-- All-zero mechanization. -/
def zIns : Ins α :=
  { nav := zNav, dt := 0, accePre := zero3, gyroPre := zero3, omegaEnN := zero3, omegaIeN := zero3
    vnMid := zero3, posMid := zero3 }
/-- All-zero fusion memory, before any constructor ran. -/
def zFusion : Fusion α :=
  { ins := zIns, kf := Kf.new 15, Q0 := fun _ _ => 0, lbGnss := zero3, lbWheel := zero3, Cbv := zm
    opt := Fusion.zeroOpt, updateFlag := 0, kfXd := fun _ => 0, updateIter := 0, timeUpdateIdx := 0
    smooth := Smooth.new 0 0 0, monitor := Monitor.new, pHeight := 0, gnssHeight := 0, baseHeightIsSet := 0 }
/-- All-zero alignment memory. -/
def zAlign : Align α :=
  { nav := zNav, level := false, yaw := false, gnssPre := Align.zeroGnss, smooth := Smooth.new 0 0 0
    option := Fusion.zeroOpt, vnPre := zero3, accPre := zero3
    ahrs := { qnb := zq, Cnb := zm, ts := 0, Kp := 0, Ki := 0, tk := 0, exyzInt := zero3, ebMax := zero3 } }
/-- All-zero uninitialised memory. -/
def zJunk : Junk α := ⟨zFusion, zAlign⟩
/-- A zeroed device buffer. -/
def zDev : Dev α := { df := zFusion, am := zAlign, status := 0, opt := Fusion.zeroOpt, curPva := zeroPva }
/-- A 100 Hz option set with the given align mode. -/
def opt (mode : Int) : Opt α := { Fusion.zeroOpt with dRate := 100, alignMode := mode }
/-- A zero IMU sample. -/
def zImu : Imu α := Smooth.zeroImu
/-- A fix of the given mode. -/
def fix (mode : Int) : Gnss α := { (Align.zeroGnss : Gnss α) with posStd := fun _ => 1, mode := mode }
end Verif.Ex
