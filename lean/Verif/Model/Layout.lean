import Verif.Model.Fusion
/-! Model of the state layout macros of `/repo/Src/RgioeDefine.h:17-56` for all sixteen builds, and of the parts
of `TransferMatrix` that only exist in builds with scale-factor estimation (DataFusion.cpp:323-330). The rest of
the model is of the default build, in which all four switches are 0 (RgioeConfig.h:14-30). -/
namespace Verif
variable {α : Type} [Add α] [Sub α] [Mul α] [Neg α] [Div α] [Zero α] [One α] [Fl α]

/-- The four compile-time switches, RgioeConfig.h:14-30. -/
structure Build where
  gyroScale : Bool
  acceScale : Bool
  leverArm : Bool
  odoScale : Bool

namespace Build
/-- `BASE_STATE`, RgioeDefine.h:17. -/
def base : Nat := 15
/-- `STATE_GYRO_SCALE_FACTOR_SIZE`, RgioeDefine.h:24,27. -/
def gyroSize (b : Build) : Nat := if b.gyroScale then 3 else 0
/-- `STATE_GYRO_SCALE_FACTOR_START`, RgioeDefine.h:25,28. -/
def gyroStart (_ : Build) : Nat := base
/-- `STATE_ACCE_SCALE_FACTOR_SIZE`, RgioeDefine.h:32,35. -/
def acceSize (b : Build) : Nat := if b.acceScale then 3 else 0
/-- `STATE_ACCE_SCALE_FACTOR_START`, RgioeDefine.h:33,36. -/
def acceStart (b : Build) : Nat := if b.acceScale then b.gyroStart + b.gyroSize else b.gyroStart
/-- `STATE_GNSS_LEVEL_ARM_SIZE`, RgioeDefine.h:40,43. -/
def armSize (b : Build) : Nat := if b.leverArm then 3 else 0
/-- `STATE_GNSS_LEVEL_ARM_START`, RgioeDefine.h:41,44. -/
def armStart (b : Build) : Nat := if b.leverArm then b.acceStart + b.acceSize else b.acceStart
/-- `STATE_ODOMETER_SCALE_FACTOR_SIZE`, RgioeDefine.h:48,51. -/
def odoSize (b : Build) : Nat := if b.odoScale then 1 else 0
/-- `STATE_ODOMETER_SCALE_FACTOR_START`, RgioeDefine.h:49,52. -/
def odoStart (b : Build) : Nat := if b.odoScale then b.armStart + b.armSize else b.armStart
/-- `STATE_CNT`, RgioeDefine.h:56. -/
def count (b : Build) : Nat := base + b.gyroSize + b.acceSize + b.odoSize + b.armSize
end Build

/-- The additional blocks of `TransferMatrix`, DataFusion.cpp:323-330, written over the matrix of the 15 base
states (which `phi.setZero()` extended with zeros). -/
def scaleBlocks (b : Build) (f : Fusion α) (phi : Matrix (Fin b.count) (Fin b.count) α) :
    Matrix (Fin b.count) (Fin b.count) α :=
  let I : M3 α := eyeM 3
  let p1 := if b.gyroScale then
      setBlock (setBlock phi b.gyroStart b.gyroStart (I - md (ms I f.ins.dt) f.opt.imuPara.gtCorr))
        9 b.gyroStart (mmul (-f.ins.nav.Cbn) (diagM f.ins.gyroPre))
    else phi
  if b.acceScale then
    setBlock (setBlock p1 b.acceStart b.acceStart (I - md (ms I f.ins.dt) f.opt.imuPara.atCorr))
      6 b.acceStart (mmul f.ins.nav.Cbn (diagM f.ins.accePre))
  else p1
end Verif
