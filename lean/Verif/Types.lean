import Verif.Num
/-!
The plain data structures of `/repo/Src/RgioeDataType.h` and `/repo/Src/InsCore.h`.
`int` is unbounded `Int` (no field is incremented), `unsigned short` is `BitVec 16`; `float` and
`double` are both `α` (a `float` member holds a `float` value; casts are explicit `Fl.f32`).
-/
namespace Verif

/-- `RgioeSensorType`, RgioeDataType.h:34-44. -/
def SENSOR_IMU : BitVec 16 := 0x01#16
@[inherit_doc SENSOR_IMU] def SENSOR_GNSS : BitVec 16 := 0x02#16
@[inherit_doc SENSOR_IMU] def SENSOR_ODO : BitVec 16 := 0x04#16
@[inherit_doc SENSOR_IMU] def SENSOR_ZUPT : BitVec 16 := 0x08#16
@[inherit_doc SENSOR_IMU] def SENSOR_NHC : BitVec 16 := 0x10#16
@[inherit_doc SENSOR_IMU] def SENSOR_HEIGHT : BitVec 16 := 0x80#16

/-- `RgioeAlignMode`, RgioeDataType.h:45-49. -/
def ALIGN_USE_GIVEN : Int := 2
@[inherit_doc ALIGN_USE_GIVEN] def ALIGN_MOVING : Int := 0
@[inherit_doc ALIGN_USE_GIVEN] def ALIGN_STATIONARY : Int := 1

/-- `GnssMode`, RgioeDataType.h:61-71. -/
def MODE_INITIAL : Int := 0
@[inherit_doc MODE_INITIAL] def MODE_SPP : Int := 1
@[inherit_doc MODE_INITIAL] def MODE_RTK_DGPS : Int := 2
@[inherit_doc MODE_INITIAL] def MODE_RTK_FIX : Int := 4
@[inherit_doc MODE_INITIAL] def MODE_RTK_FLOAT : Int := 5
@[inherit_doc MODE_INITIAL] def MODE_INVALID : Int := 6

/-- `LatLon`, RgioeDataType.h:133-136. -/
structure LatLon (α : Type) where
  lat : α
  lon : α

/-- `RgioeImuData`, RgioeDataType.h:55-59. -/
structure Imu (α : Type) where
  gpst : α
  gyro : V3 α
  acce : V3 α

/-- `RgioeGnssData`, RgioeDataType.h:81-94 (the velocity, yaw and pitch members are not read by the
default build and are left out). -/
structure Gnss (α : Type) where
  lat : α
  lon : α
  height : α
  posStd : V3 α
  gpst : α
  mode : Int

/-- `ImuPara`, RgioeDataType.h:96-109. -/
structure ImuPara (α : Type) where
  arw : α
  vrw : α
  abIni : V3 α
  gbIni : V3 α
  asIni : V3 α
  gsIni : V3 α
  abStd : V3 α
  gbStd : V3 α
  gsStd : V3 α
  asStd : V3 α
  atCorr : α
  gtCorr : α

/-- `NavInfo`, RgioeDataType.h:110-113. -/
structure NavInfo where
  sensors : BitVec 16
  gnssMode : BitVec 16
  deriving DecidableEq

/-- `NavOutput`, RgioeDataType.h:114-131. -/
structure NavOutput (α : Type) where
  week : Int
  gpst : α
  lat : α
  lon : α
  height : α
  posStd : V3 α
  vn : V3 α
  vnStd : V3 α
  atti : V3 α
  attiStd : V3 α
  info : NavInfo
  gb : V3 α
  ab : V3 α
  gs : V3 α
  as : V3 α
  kd : α

/-- `RgioeOption`, RgioeDataType.h:151-178. `nhc_std[2]` as a pair of members. -/
structure Opt (α : Type) where
  imuPara : ImuPara α
  dRate : Int
  alignMode : Int
  alignVelThreshold : α
  enableGnss : Int
  lbGnss : V3 α
  gnssStdScale : α
  nhcEnable : Int
  nhcStd : Fin 2 → α
  zuptEnable : Int
  zuptStd : α
  zuptaEnable : Int
  zuptaStd : α
  odoEnable : Int
  odoStd : α
  odoScale : α
  odoScaleStd : α
  lbWheel : V3 α
  angleBv : V3 α
  posStd : V3 α
  velStd : V3 α
  attiStd : V3 α
  outputProjectEnable : Int
  posProject : V3 α
  attiProject : V3 α
  enableRts : Int

/-- `NavEpoch`, InsCore.h:17-44. -/
structure NavEpoch (α : Type) where
  gpst : α
  pos : V3 α
  vn : V3 α
  atti : V3 α
  dvn : V3 α
  vfKb : V3 α
  Cbn : M3 α
  Cne : M3 α
  Qbn : Quat α
  Qne : Quat α
  gb : V3 α
  ab : V3 α
  gs : V3 α
  as : V3 α
  posStd : V3 α
  velStd : V3 α
  attStd : V3 α
  kd : α
  info : NavInfo
  week : Int

section
variable {α : Type} [Add α] [Sub α] [Mul α] [Neg α] [Div α] [Zero α] [One α] [Fl α]
/-- An `int` converted to floating point (`* opt.d_rate`, `/ d_rate`). -/
def ofI (z : Int) : α := Fl.lit z
/-- The zero vector. -/
def zero3 : V3 α := v3 0 0 0
end

end Verif
