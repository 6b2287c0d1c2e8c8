import Verif.Model.FileIO
/-! Model of `/repo/App/RtSimulation/src/navplay/src/AdiHandle.cpp` and the conversions of `navplay_node.cpp`
(ROS publishing is not modelled). -/
namespace Verif
variable {α : Type} [Add α] [Sub α] [Mul α] [Neg α] [Div α] [Zero α] [One α] [Fl α]

/-- `ADIHandleBase::CheckSum`, AdiHandle.cpp:27-34, on the bytes of the structure (24, RawStruct.h:19-27): a
16-bit sum of the first 20. -/
def adiCheckSum (raw : List Byte) : Bool :=
  let sum := (raw.take 20).foldl (fun (s : BitVec 16) (b : Byte) => s + b.setWidth 16) 0#16
  sum == 0#16

/-- One component of `ConvertVelRawToFloat`, navplay_node.cpp:30-31, before the division by 1000: shift left
by eight as `int`, convert to `int16_t`, promote to `int` again, "or" with the low byte. -/
def velRaw (vh vl : Byte) : Int :=
  ((((vh.setWidth 32 <<< 8).setWidth 16).signExtend 32) ||| vl.setWidth 32 : BitVec 32).toInt

/-- `ConvertVelRawToFloat`, navplay_node.cpp:29-33. -/
def convertVel (vh vl ah al : Byte) : α × α :=
  (Fl.f32 (Fl.lit (velRaw vh vl) / Fl.lit 1000), Fl.f32 (Fl.lit (velRaw ah al) / Fl.lit 1000))

/-- The six measurements of an `ImuData` as filled by `ConvertRaw2D`, AdiHandle.cpp:19-26. -/
structure Meas (α : Type) where
  gyro : V3 α
  acce : V3 α

/-- `ConvertRaw2D`, AdiHandle.cpp:19-26, with the two sensitivities. -/
def convertRaw2D (kg ka : α) (gyro acce : Fin 3 → BitVec 16) : Meas α :=
  ⟨fun i => kg * Fl.lit ((gyro i).toInt : ℚ), fun i => ka * Fl.lit ((acce i).toInt : ℚ)⟩

/-- `Absolute2Increment`, AdiHandle.cpp:44-60. -/
def absolute2Increment (rate g : α) (m : Meas α) (rfu2frd : Bool) : Meas α :=
  let dt := 1 / rate
  let acce : V3 α := fun i => m.acce i * (dt * g)
  let gyro : V3 α := fun i => m.gyro i * dt
  if rfu2frd then
    ⟨v3 (gyro 1) (gyro 0) (gyro 2 * Fl.lit (-1)), v3 (acce 1) (acce 0) (acce 2 * Fl.lit (-1))⟩
  else ⟨gyro, acce⟩

/-- `toImuMsg`, navplay_node.cpp:86-99, after `ConvertRaw2D`. -/
def toImuMsg (m : Meas α) : Meas α :=
  ⟨v3 (m.gyro 1) (m.gyro 0) (-(m.gyro 2)), v3 (m.acce 1) (m.acce 0) (-(m.acce 2))⟩
end Verif
