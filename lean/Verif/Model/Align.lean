import Verif.Model.Ins
import Verif.Model.Ahrs
import Verif.Model.StaticDetect
/-! Model of `/repo/Src/Alignment.cpp` (class `AlignMoving`), default build (no double antenna).
Recorder side effects are in `Model/Logging`; the `double` returned by `Update(gnss)` is only logged. -/
namespace Verif
open Verif.Convert
variable {α : Type} [Add α] [Sub α] [Mul α] [Neg α] [Div α] [Zero α] [One α] [Fl α]

/-- Members of `AlignMoving`, Alignment.h:62-72. -/
structure Align (α : Type) where
  nav : NavEpoch α
  level : Bool
  yaw : Bool
  gnssPre : Gnss α
  smooth : Smooth α
  option : Opt α
  vnPre : V3 α
  accPre : V3 α
  ahrs : Ahrs α

namespace Align
/-- `gnss_pre = {0}`, Alignment.cpp:198. -/
def zeroGnss : Gnss α := ⟨0, 0, 0, zero3, 0, 0⟩

/-- Constructor, Alignment.cpp:165-202. `vn_pre` and `acc_pre` are not initialised (`junk`). -/
def new (junk : Align α) (opt : Opt α) : Align α :=
  let ll : LatLon α := ⟨0, 0⟩
  { nav :=
      { gpst := 0, pos := zero3, vn := zero3, atti := zero3, dvn := zero3, vfKb := zero3
        Cbn := eulerToDcm zero3, Cne := llaToCne ll, Qbn := eulerToQuat zero3, Qne := llaToQne ll
        gb := zero3, ab := zero3, gs := zero3, as := zero3
        posStd := zero3, velStd := zero3, attStd := zero3
        kd := opt.odoScale, info := ⟨SENSOR_IMU, BitVec.ofInt 16 MODE_INVALID⟩, week := 0 }
    level := false
    yaw := false
    gnssPre := zeroGnss
    smooth := Smooth.new (Fl.f32 (Fl.lit (1 / 1000))) 200 30
    option := opt
    vnPre := junk.vnPre
    accPre := junk.accPre
    ahrs := Ahrs.new (1 / ofI opt.dRate) }

/-- `SetOption`, Alignment.cpp:262-265. -/
def setOption (a : Align α) (opt : Opt α) : Align α := { a with option := opt }
/-- `levelFinished`, Alignment.cpp:267-269. -/
def levelFinished (a : Align α) : Bool := a.level
/-- `alignFinished`, Alignment.cpp:259. -/
def alignFinished (a : Align α) : Bool := a.level && a.yaw

/-- Roll and pitch from the averaged specific force, Alignment.cpp:39-41. -/
def levelAngles (acce : V3 α) : α × α :=
  let vm := vnormalized acce
  let s : α := if Fl.lt 0 (vm 2) then 1 else -1
  (Fl.asin (vm 1) * s, -(Fl.asin (vm 0)) * s)

/-- `Update(imu)`, Alignment.cpp:18-61. -/
def updateImu (a : Align α) (imu : Imu α) : Align α :=
  let a1 := { a with nav := { a.nav with gpst := imu.gpst }, smooth := a.smooth.update imu }
  if a1.level then { a1 with ahrs := a1.ahrs.updateImu imu }
  else if !a1.smooth.isStatic then a1
  else
    let sm := a1.smooth.ave
    let para := a1.option.imuPara
    let acce := Ins.compensate (1 / ofI a1.option.dRate) sm.acce para.abIni para.asIni
    let (roll, pitch) := levelAngles acce
    let atti := v3 roll pitch (a1.nav.atti 2)
    let qbn := eulerToQuat atti
    { a1 with
      nav := { a1.nav with gb := vs sm.gyro (ofI a1.option.dRate), atti := atti, Qbn := qbn, Cbn := eulerToDcm atti }
      level := true
      ahrs := a1.ahrs.setAttiQuat qbn }

/-- The speed test and yaw initialisation, Alignment.cpp:82-102. -/
def yawStep (a : Align α) (gnss : Gnss α) : Align α :=
  let vnCur := Earth.distance6 (gnss.lat * deg) (gnss.lon * deg) (a.gnssPre.lat * deg) (a.gnssPre.lon * deg)
    gnss.height a.gnssPre.height
  let v := Fl.f32 (vnorm vnCur)
  let dt := gnss.gpst - a.gnssPre.gpst
  let acce := vd (vnCur - a.vnPre) dt
  let a1 := { a with vnPre := vnCur }
  if Fl.lt a.option.alignVelThreshold v && Fl.lt v (Fl.lit 1000) then
    let vn := vnCur + vd (vs acce dt) (Fl.lit 2)
    let atti := v3 (a.nav.atti 0) (a.nav.atti 1) (Fl.atan2 (vn 1) (vn 0))
    { a1 with
      nav := { a1.nav with
        vn := vn
        velStd := fun _ => Fl.lit (3 / 10)
        atti := atti
        attStd := fun _ => Fl.lit 5 * deg
        Qbn := eulerToQuat atti
        Cbn := eulerToDcm atti }
      yaw := true }
  else a1

/-- Position, lever arm, mounting angle and standard deviations, Alignment.cpp:106-146. -/
def fixStep (a : Align α) (gnss : Gnss α) : Align α :=
  let lat := gnss.lat * deg
  let lon := gnss.lon * deg
  let h := gnss.height
  let vdr := v3 (1 / (Earth.RM lat + h)) (1 / ((Earth.RN lat + h) * Fl.cos lat)) (-1)
  let pos := v3 lat lon h - mvec (diagM vdr) (mvec a.nav.Cbn a.option.lbGnss)
  let cbn := mmul a.nav.Cbn (eulerToDcm (v3 0 0 (a.option.angleBv 2)))
  let atti := dcmToEuler cbn
  let ll : LatLon α := ⟨pos 0, pos 1⟩
  let para := a.option.imuPara
  { a with
    nav := { a.nav with
      gpst := gnss.gpst
      pos := pos
      Cbn := cbn
      atti := atti
      Qbn := eulerToQuat atti
      Qne := llaToQne ll
      Cne := llaToCne ll
      posStd := gnss.posStd
      attStd := fun i => a.nav.velStd i / gnss.posStd i
      velStd := fun i => gnss.posStd i + a.gnssPre.posStd i
      gb := para.gbIni
      ab := para.abIni
      gs := para.gsIni
      as := para.asIni
      dvn := zero3
      vfKb := zero3
      kd := a.option.odoScale
      info := ⟨SENSOR_GNSS ||| SENSOR_IMU, BitVec.ofInt 16 gnss.mode⟩ }
    gnssPre := gnss }

/-- `Update(gnss)`, Alignment.cpp:63-163, with the new gravity. -/
def updateGnss (g : α) (a : Align α) (gnss : Gnss α) : α × Align α :=
  if Fl.eq (a.gnssPre.posStd 0) 0 then (g, { a with gnssPre := gnss })
  else (Earth.gravity (gnss.lat * deg) gnss.height, (a.yawStep gnss).fixStep gnss)
end Align
end Verif
