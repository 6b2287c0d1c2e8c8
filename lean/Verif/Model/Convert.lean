import Verif.Model.Earth
/-! Model of `/repo/Src/Convert.cpp` (FP64 build: `RgioeFloatType` is `double`). -/
namespace Verif.Convert
variable {α : Type} [Add α] [Sub α] [Mul α] [Neg α] [Div α] [Zero α] [One α] [Fl α]

/-- `Convert::rv_to_quaternion`, Convert.cpp:18-45, and its textual twin `rv_to_quaternion_hp`,
Convert.cpp:46-73 (identical in the FP64 build). -/
def rvToQuat (v : V3 α) : Quat α :=
  let mag2 := v 0 * v 0 + v 1 * v 1 + v 2 * v 2
  if Fl.lt mag2 (Fl.pi * Fl.pi) then
    let m := mag2 * Fl.lit (1 / 4)
    let cs := 1 - m / Fl.lit 2 * (1 - m / Fl.lit 12 * (1 - m / Fl.lit 30))
    let sn := 1 - m / Fl.lit 6 * (1 - m / Fl.lit 20 * (1 - m / Fl.lit 42))
    ⟨cs, Fl.lit (1 / 2) * sn * v 0, Fl.lit (1 / 2) * sn * v 1, Fl.lit (1 / 2) * sn * v 2⟩
  else
    let mag := Fl.sqrt mag2
    let s := Fl.sin (mag / Fl.lit 2)
    let c := Fl.cos (mag / Fl.lit 2)
    if Fl.lt c 0 then
      ⟨-c, -(v 0) * s / mag, -(v 1) * s / mag, -(v 2) * s / mag⟩
    else ⟨c, v 0 * s / mag, v 1 * s / mag, v 2 * s / mag⟩

/-- `Convert::skew`, Convert.cpp:83-93. -/
def skew (v : V3 α) : M3 α :=
  !![0, -(v 2), v 1;
     v 2, 0, -(v 0);
     -(v 1), v 0, 0]

/-- `Convert::rv_to_DCM`, Convert.cpp:96-104. -/
def rvToDcm (v : V3 α) : M3 α :=
  let norm := v 0 * v 0 + v 1 * v 1 + v 2 * v 2
  let s := Fl.sqrt norm
  let sk := skew v
  eyeM 3 + sm (Fl.sin s / s) sk + mmul (sm ((1 - Fl.cos s) / norm) sk) sk

/-- `Convert::quaternion_to_dcm`, Convert.cpp:106-108. -/
def quatToDcm (q : Quat α) : M3 α := q.toRot

/-- `Convert::qne_to_lla`, Convert.cpp:110-116. -/
def qneToLla (q : Quat α) : LatLon α :=
  let a := Fl.atan (q.y / q.w)
  let b := Fl.atan2 q.z q.w
  ⟨-(Fl.lit (1 / 2)) * Fl.pi - Fl.lit 2 * a, Fl.lit 2 * b⟩

/-- `Convert::dcm_to_euler`, Convert.cpp:118-133. -/
def dcmToEuler (c : M3 α) : V3 α :=
  let pitch := Fl.atan (-(c 2 0) / Fl.sqrt (c 2 1 * c 2 1 + c 2 2 * c 2 2))
  if Fl.le (c 2 0) (Fl.lit (-999 / 1000)) then
    v3 Fl.nan pitch (Fl.atan2 (c 1 2 - c 0 1) (c 0 2 + c 1 1))
  else if Fl.le (Fl.lit (999 / 1000)) (c 2 0) then
    v3 Fl.nan pitch (Fl.atan2 (c 1 2 + c 0 1) (c 0 2 + c 1 1) + Fl.pi)
  else
    v3 (Fl.atan2 (c 2 1) (c 2 2)) pitch (Fl.atan2 (c 1 0) (c 0 0))

/-- `Convert::euler_to_quaternion`, Convert.cpp:135-146. -/
def eulerToQuat (e : V3 α) : Quat α :=
  let two : α := Fl.lit 2
  let cr := Fl.cos (e 0 / two)
  let sr := Fl.sin (e 0 / two)
  let cp := Fl.cos (e 1 / two)
  let sp := Fl.sin (e 1 / two)
  let ch := Fl.cos (e 2 / two)
  let sh := Fl.sin (e 2 / two)
  ⟨cr * cp * ch + sr * sp * sh, sr * cp * ch - cr * sp * sh,
   cr * sp * ch + sr * cp * sh, cr * cp * sh - sr * sp * ch⟩

/-- `Convert::euler_to_dcm`, Convert.cpp:149-162. -/
def eulerToDcm (e : V3 α) : M3 α :=
  let cf := Fl.cos (e 0)
  let sf := Fl.sin (e 0)
  let ct := Fl.cos (e 1)
  let st := Fl.sin (e 1)
  let cp := Fl.cos (e 2)
  let sp := Fl.sin (e 2)
  !![ct * cp, -cf * sp + sf * st * cp, sf * sp + cf * st * cp;
     ct * sp, cf * cp + sf * st * sp, -sf * cp + cf * st * sp;
     -st, sf * ct, cf * ct]

/-- `Convert::lla_to_qne`, Convert.cpp:174-182. -/
def llaToQne (ll : LatLon α) : Quat α :=
  let phi := -(Fl.lit (1 / 4)) * Fl.pi - Fl.lit (1 / 2) * ll.lat
  let lam := Fl.lit (1 / 2) * ll.lon
  ⟨Fl.cos phi * Fl.cos lam, -(Fl.sin phi) * Fl.sin lam, Fl.sin phi * Fl.cos lam, Fl.cos phi * Fl.sin lam⟩

/-- `Convert::lla_to_cne`, Convert.cpp:184-197. -/
def llaToCne (ll : LatLon α) : M3 α :=
  let sl := Fl.sin ll.lat
  let cl := Fl.cos ll.lat
  let so := Fl.sin ll.lon
  let co := Fl.cos ll.lon
  !![-sl * co, -so, -cl * co;
     -sl * so, co, -cl * so;
     cl, 0, -sl]

/-- `Convert::gyro_to_rv`, Convert.cpp:199-201. -/
def gyroToRv (gyro pre : V3 α) : V3 α := gyro + vd (cross pre gyro) (Fl.lit 12)

/-- `Convert::lla_to_xyz`, Convert.cpp:203-210. -/
def llaToXyz (p : V3 α) : V3 α :=
  let rn := Earth.RN (p 0)
  v3 ((rn + p 2) * Fl.cos (p 0) * Fl.cos (p 1))
     ((rn + p 2) * Fl.cos (p 0) * Fl.sin (p 1))
     ((rn * (1 - Earth.e2) + p 2) * Fl.sin (p 0))

end Verif.Convert
