import Verif.Model.Convert
/-! Model of `/repo/Src/InsCore.cpp`, `InsCore.h`. The gravity of the `Earth` singleton is passed in and
returned by every function that may read or write it. The member `eye3` is always the identity
(InsCore.cpp:151,162,172) and is replaced by it. -/
namespace Verif
open Verif.Convert
variable {α : Type} [Add α] [Sub α] [Mul α] [Neg α] [Div α] [Zero α] [One α] [Fl α]

/-- `makeNavEpoch(NavOutput, RgioeOption)`, InsCore.cpp:32-59. -/
def makeNavEpoch (n : NavOutput α) (opt : Opt α) : NavEpoch α :=
  let para := opt.imuPara
  let atti : V3 α := v3 (n.atti 0 * deg) (n.atti 1 * deg) (n.atti 2 * deg)
  let pos : V3 α := v3 (n.lat * deg) (n.lon * deg) n.height
  let ll : LatLon α := ⟨pos 0, pos 1⟩
  { gpst := n.gpst, pos := pos, vn := n.vn, atti := atti
    dvn := zero3, vfKb := zero3
    Cbn := eulerToDcm atti, Cne := llaToCne ll, Qbn := eulerToQuat atti, Qne := llaToQne ll
    gb := para.gbIni, ab := para.abIni, gs := para.gsIni, as := para.asIni
    posStd := opt.posStd, velStd := opt.velStd, attStd := opt.attiStd
    kd := opt.odoScale, info := n.info, week := n.week }

/-- `makeNavEpoch(gpst, pos, vn, atti)`, InsCore.cpp:13-30. The Eigen members the aggregate does not
list (`pos_std`, `vel_std`, `att_std`) are left uninitialised: they come from `junk`. -/
def makeNavEpochPva (junk : NavEpoch α) (gpst : α) (pos vn atti : V3 α) : NavEpoch α :=
  let ll : LatLon α := ⟨pos 0, pos 1⟩
  { gpst := gpst, pos := pos, vn := vn, atti := atti
    dvn := zero3, vfKb := zero3
    Cbn := eulerToDcm atti, Cne := llaToCne ll, Qbn := eulerToQuat atti, Qne := llaToQne ll
    gb := zero3, ab := zero3, gs := zero3, as := zero3
    posStd := junk.posStd, velStd := junk.velStd, attStd := junk.attStd
    kd := 0, info := ⟨0, 0⟩, week := 0 }

/-- Members of `Ins`, InsCore.h:52-64. -/
structure Ins (α : Type) where
  nav : NavEpoch α
  dt : α
  accePre : V3 α
  gyroPre : V3 α
  omegaEnN : V3 α
  omegaIeN : V3 α
  vnMid : V3 α
  posMid : V3 α

namespace Ins
/-- Constructor, InsCore.cpp:150-157: `NavEpoch{0,{0,0,0}}` sets `gpst`, `pos` and the plain
members; the Eigen members not listed stay as the memory was (`junk`). -/
def new (junk : Ins α) : Ins α :=
  { junk with
    dt := 1 / ofI 100
    accePre := zero3
    gyroPre := zero3
    nav := { junk.nav with gpst := 0, pos := zero3, kd := 0, info := ⟨0, 0⟩, week := 0 } }

/-- `InitializePva(nav, d_rate)`, InsCore.cpp:161-169; returns the new gravity as well. -/
def initializePva (s : Ins α) (nav : NavEpoch α) (dRate : Int) : α × Ins α :=
  (Earth.gravity (nav.pos 0) (nav.pos 2),
   { s with dt := 1 / ofI dRate, nav := nav, gyroPre := zero3, accePre := zero3 })

/-- `CompensateIMU`, InsCore.cpp:145-148. -/
def compensate (dt : α) (imu bias scale : V3 α) : V3 α :=
  mvec (eyeM 3 - diagM scale) (imu - vs bias dt)

/-- `_extrapolate`, InsCore.cpp:180-199. -/
def extrapolate (s : Ins α) : α × Ins α :=
  let en := Earth.omegaEnN s.nav.vn s.nav.pos
  let ie := Earth.omegaIeN (s.nav.pos 0)
  let vnMid := s.nav.vn + sv (Fl.lit (1 / 2)) s.nav.dvn
  let hMid := s.nav.pos 2 - s.nav.vn 2 * s.dt / Fl.lit 2
  let zeta := vd (vs (ie + en) s.dt) (Fl.lit 2)
  let eps := vd (vs Earth.omegaIeE s.dt) (Fl.lit 2)
  let qnn := rvToQuat zeta
  let qee := (rvToQuat eps).conj
  let qne := (qee.mul s.nav.Qne).mul qnn
  let ll := qneToLla qne.normalized
  let posMid := v3 ll.lat ll.lon hMid
  (Earth.gravity (posMid 0) (posMid 2),
   { s with vnMid := vnMid, posMid := posMid
            omegaEnN := Earth.omegaEnN vnMid posMid, omegaIeN := Earth.omegaIeN (posMid 0) })

/-- `_velocity_update`, InsCore.cpp:61-73; reads the gravity `g`. -/
def velocityUpdate (g : α) (s : Ins α) (acce gyro : V3 α) : Ins α :=
  let gn := v3 0 0 g
  let vgCor := vs (gn - cross (sv (Fl.lit 2) s.omegaIeN + s.omegaEnN) s.nav.vn) s.dt
  let zeta := vs (s.omegaEnN + s.omegaIeN) s.dt
  let vfK1 := acce + sv (Fl.lit (1 / 2)) (cross gyro acce) +
    vd (cross s.gyroPre acce + cross s.accePre gyro) (Fl.lit 12)
  let vf := mvec (mmul (eyeM 3 - sm (Fl.lit (1 / 2)) (skew zeta)) s.nav.Cbn) vfK1
  let dvn := vf + vgCor
  let vnMid := s.nav.vn + vd dvn (Fl.lit 2)
  { s with
    nav := { s.nav with dvn := dvn, vn := s.nav.vn + dvn, vfKb := vd vf s.dt }
    vnMid := vnMid
    omegaEnN := Earth.omegaEnN vnMid s.posMid }

/-- `_position_update`, InsCore.cpp:75-98. -/
def positionUpdate (s : Ins α) : Ins α :=
  let eps := vs Earth.omegaIeE s.dt
  let qee := (rvToQuat eps).conj
  let zeta := vs (s.omegaIeN + s.omegaEnN) s.dt
  let qnn := rvToQuat zeta
  let qne := ((qee.mul s.nav.Qne).mul qnn).normalized
  let ll := qneToLla qne
  let h := s.nav.pos 2 - s.vnMid 2 * s.dt
  let pos := v3 ll.lat ll.lon h
  let posMid := v3 (pos 0 + Fl.lit (1 / 2) * (pos 0 - s.nav.pos 0))
                   (pos 1 + Fl.lit (1 / 2) * (pos 1 - s.nav.pos 1))
                   (Fl.lit (1 / 2) * (pos 2 + s.nav.pos 2))
  { s with
    nav := { s.nav with Qne := qne, Cne := llaToCne ll, pos := pos }
    posMid := posMid
    omegaIeN := Earth.omegaIeN (posMid 0)
    omegaEnN := Earth.omegaEnN s.vnMid posMid }

/-- `_atti_update`, InsCore.cpp:100-113. -/
def attiUpdate (s : Ins α) (gyro : V3 α) : Ins α :=
  let qbb := rvToQuat (gyroToRv gyro s.gyroPre)
  let zeta := vs (s.omegaIeN + s.omegaEnN) s.dt
  let qnn := (rvToQuat zeta).conj
  let qbn := ((qnn.mul s.nav.Qbn).mul qbb).normalized
  let cbn := quatToDcm qbn
  { s with nav := { s.nav with Qbn := qbn, Cbn := cbn, atti := dcmToEuler cbn } }

/-- `ForwardMechanization(acce, gyro)`, InsCore.cpp:133-143. The incoming gravity is overwritten by
`_extrapolate` before `_velocity_update` reads it. -/
def forward (_g : α) (s : Ins α) (acce gyro : V3 α) : α × Ins α :=
  let (g1, s1) := s.extrapolate
  (g1, ((s1.velocityUpdate g1 acce gyro).positionUpdate).attiUpdate gyro)

/-- `ForwardMechanization(imu)`, InsCore.cpp:120-131. -/
def forwardImu (g : α) (s : Ins α) (imu : Imu α) : α × Ins α :=
  let acce := compensate s.dt imu.acce s.nav.ab s.nav.as
  let gyro := compensate s.dt imu.gyro s.nav.gb s.nav.gs
  let (g1, s1) := s.forward g acce gyro
  (g1, { s1 with nav := { s1.nav with gpst := imu.gpst }, accePre := acce, gyroPre := gyro })
end Ins
end Verif
