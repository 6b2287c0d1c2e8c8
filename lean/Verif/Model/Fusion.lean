import Verif.Model.Ins
import Verif.Model.Kalman
import Verif.Model.StaticDetect
/-! Model of `/repo/Src/DataFusion.cpp`, `DataFusion.h`, default build (`STATE_CNT = 15`, no optional
states, no RTS). Recorder side effects are in `Model/Logging`, the
optional states in `Model/FusionExt`. The gravity of the `Earth` singleton is passed
in and returned. `DcmEstimator estimator_` is never used by the class (modelled separately). -/
namespace Verif
open Verif.Convert
variable {α : Type} [Add α] [Sub α] [Mul α] [Neg α] [Div α] [Zero α] [One α] [Fl α]

/-- `DataFusion::Monitor`, DataFusion.h:44-60. -/
structure Monitor where
  rejectCnt : BitVec 32
  noUpdateCnt : BitVec 32
  measUpdateCnt : BitVec 32
  timeUpdateCnt : BitVec 32
  noUpdateCntMin : BitVec 32
  noUpdateCntMax : BitVec 32
  deriving DecidableEq

namespace Monitor
/-- Member initialisers, DataFusion.h:54-59. -/
def new : Monitor := ⟨0, 0, 0, 0, 0xFFFFFFFF#32, 0⟩
/-- `OnTimeUpdate`, DataFusion.cpp:576-579. -/
def onTimeUpdate (m : Monitor) : Monitor :=
  { m with timeUpdateCnt := m.timeUpdateCnt + 1, noUpdateCnt := m.noUpdateCnt + 1 }
/-- `OnMeasUpdate`, DataFusion.cpp:581-591. -/
def onMeasUpdate (m : Monitor) : Monitor :=
  { m with
    measUpdateCnt := m.measUpdateCnt + 1
    noUpdateCntMin := if m.noUpdateCnt.toNat < m.noUpdateCntMin.toNat then m.noUpdateCnt else m.noUpdateCntMin
    noUpdateCntMax := if m.noUpdateCntMax.toNat < m.noUpdateCnt.toNat then m.noUpdateCnt else m.noUpdateCntMax
    noUpdateCnt := 0
    rejectCnt := 0 }
/-- `GetMaxIntegrateIter`, DataFusion.cpp:597-605. -/
def maxIter (m : Monitor) : Nat :=
  if 1000 < m.noUpdateCntMin.toNat then 1000 else if m.noUpdateCntMin.toNat = 0 then 1 else 1
end Monitor

/-- Members of `DataFusion`, DataFusion.h:163-194, with its base class. -/
structure Fusion (α : Type) where
  ins : Ins α
  kf : Kf 15 α
  Q0 : Matrix (Fin 15) (Fin 15) α
  lbGnss : V3 α
  lbWheel : V3 α
  Cbv : M3 α
  opt : Opt α
  updateFlag : BitVec 32
  kfXd : Fin 15 → α
  updateIter : Int
  timeUpdateIdx : BitVec 32
  smooth : Smooth α
  monitor : Monitor
  pHeight : α
  gnssHeight : α
  baseHeightIsSet : Int

namespace Fusion
/-- `FLAG_POSITION`, DataFusion.cpp:10. -/
def FLAG_POSITION : BitVec 32 := 0b111#32
/-- `FLAG_VELOCITY`, DataFusion.cpp:11. -/
def FLAG_VELOCITY : BitVec 32 := 0b111000#32
/-- `FLAG_HEIGHT`, DataFusion.cpp:12. -/
def FLAG_HEIGHT : BitVec 32 := 0b1000000#32
/-- `INT32_MIN` as used in DataFusion.h:192-193. -/
def int32Min : α := Fl.lit (-2147483648)

/-- A zero `RgioeOption` (`RgioeOption opt{}`, DataFusion.h:168). -/
def zeroOpt : Opt α :=
  { imuPara := { arw := 0, vrw := 0, abIni := zero3, gbIni := zero3, asIni := zero3, gsIni := zero3
                 abStd := zero3, gbStd := zero3, gsStd := zero3, asStd := zero3, atCorr := 0, gtCorr := 0 }
    dRate := 0, alignMode := 0, alignVelThreshold := 0, enableGnss := 0, lbGnss := zero3, gnssStdScale := 0
    nhcEnable := 0, nhcStd := fun _ => 0, zuptEnable := 0, zuptStd := 0, zuptaEnable := 0, zuptaStd := 0
    odoEnable := 0, odoStd := 0, odoScale := 0, odoScaleStd := 0, lbWheel := zero3, angleBv := zero3
    posStd := zero3, velStd := zero3, attiStd := zero3, outputProjectEnable := 0, posProject := zero3
    attiProject := zero3, enableRts := 0 }

/-- Constructor, DataFusion.cpp:15-22 with the member initialisers of DataFusion.h:163-194. `lb_gnss`,
`lb_wheel`, `Cbv` and parts of the base class are not initialised: they come from `junk`. -/
def new (junk : Fusion α) : Fusion α :=
  { junk with
    ins := Ins.new junk.ins
    kf := Kf.new 15
    Q0 := fun _ _ => 0
    opt := zeroOpt
    updateFlag := 0
    kfXd := fun _ => 0
    updateIter := 0
    timeUpdateIdx := 0
    smooth := Smooth.new (Fl.f32 (Fl.lit (5 / 1000000000))) 2 10
    monitor := Monitor.new
    pHeight := int32Min
    gnssHeight := int32Min
    baseHeightIsSet := 0 }

/-- The initial standard deviations on the diagonal, DataFusion.cpp:38-46. -/
def initStd (nav : NavEpoch α) (opt : Opt α) : Matrix (Fin 15) (Fin 15) α :=
  let P0 : Matrix (Fin 15) (Fin 15) α := fun _ _ => 0
  let P1 := setBlock P0 0 0 (diagM nav.posStd)
  let P2 := setBlock P1 3 3 (diagM nav.velStd)
  let P3 := setBlock P2 6 6 (diagM nav.attStd)
  let P4 := setBlock P3 9 9 (diagM opt.imuPara.gbStd)
  setBlock P4 12 12 (diagM opt.imuPara.abStd)

/-- The diagonal of `Q0`, DataFusion.cpp:69-83. The option members are `float`, so every product is rounded to `float`. -/
def initQ0 (opt : Opt α) : Matrix (Fin 15) (Fin 15) α :=
  let p := opt.imuPara
  diagM fun i : Fin 15 =>
    if i.val < 3 then 0
    else if i.val < 6 then Fl.f32 (p.vrw * p.vrw)
    else if i.val < 9 then Fl.f32 (p.arw * p.arw)
    else if h : i.val < 12 then
      Fl.f32 (Fl.f32 (Fl.f32 (Fl.lit 2 * p.gbStd ⟨i.val - 9, by omega⟩) * p.gbStd ⟨i.val - 9, by omega⟩) / p.gtCorr)
    else Fl.f32 (Fl.f32 (Fl.f32 (Fl.lit 2 * p.abStd ⟨i.val - 12, by omega⟩) * p.abStd ⟨i.val - 12, by omega⟩) / p.atCorr)

/-- `Initialize`, DataFusion.cpp:29-111; the first component is the new gravity. -/
def initFusion (_g : α) (f : Fusion α) (ini : NavEpoch α) (opt : Opt α) : α × Fusion α :=
  let (_, ins) := f.ins.initializePva ini opt.dRate
  let ins := { ins with nav := { ins.nav with kd := opt.odoScale } }
  let P := initStd ini opt
  (Earth.gravity (ins.nav.pos 0) (ins.nav.pos 2),
   { f with
     opt := opt
     ins := ins
     Q0 := initQ0 opt
     kf := Kf.ofState (fun _ => 0) (mmul P P)
     lbGnss := opt.lbGnss
     lbWheel := opt.lbWheel
     timeUpdateIdx := 0
     Cbv := eulerToDcm opt.angleBv })

/-- `TransferMatrix`, DataFusion.cpp:302-341. -/
def transferMatrix (g : α) (f : Fusion α) : Matrix (Fin 15) (Fin 15) α :=
  let nav := f.ins.nav
  let dt := f.ins.dt
  let para := f.opt.imuPara
  let rm := Earth.RM (nav.pos 0)
  let rn := Earth.RN (nav.pos 0)
  let I : M3 α := eyeM 3
  let p0 : Matrix (Fin 15) (Fin 15) α := fun _ _ => 0
  let p1 := setBlock p0 0 0 (I - ms (skew f.ins.omegaEnN) dt)
  let p2 := setBlock p1 0 3 (ms I dt)
  let p3 := setBlock p2 3 0 (ms (diagM (v3 (-g / (rm + nav.pos 2)) (-g / (rn + nav.pos 2))
              (Fl.lit 2 * g / (Fl.sqrt (rm * rn) + nav.pos 2)))) dt)
  let p4 := setBlock p3 3 3 (I - ms (skew (f.ins.omegaEnN + sv (Fl.lit 2) f.ins.omegaIeN)) dt)
  let p5 := setBlock p4 3 6 (ms (skew nav.vfKb) dt)
  let p6 := setBlock p5 6 6 (I - ms (skew (f.ins.omegaEnN + f.ins.omegaIeN)) dt)
  let p7 := setBlock p6 3 12 (ms nav.Cbn dt)
  let p8 := setBlock p7 6 9 (ms (-nav.Cbn) dt)
  let p9 := setBlock p8 9 9 (I - md (ms I dt) para.gtCorr)
  setBlock p9 12 12 (I - md (ms I dt) para.atCorr)

/-- The process noise of a step, DataFusion.cpp:147. -/
def stepQ (f : Fusion α) (phi : Matrix (Fin 15) (Fin 15) α) : Matrix (Fin 15) (Fin 15) α :=
  ms (sm (Fl.lit (1 / 2)) (mmul phi f.Q0 + mmul f.Q0 phi.transpose)) f.ins.dt

/-- `_feedBack`, DataFusion.cpp:347-384. -/
def feedBack (f : Fusion α) (xd : Fin 15 → α) : Fusion α :=
  let nav := f.ins.nav
  let lat := nav.pos 0
  let h := nav.pos 2
  let rn := Earth.RN lat
  let rm := Earth.RM lat
  let d : V3 α := v3 (xd 1 / (rn + h)) (-(xd 0) / (rm + h)) (-(xd 1) * Fl.tan lat / (rn + h))
  let qne := (nav.Qne.mul (rvToQuat (-d))).normalized
  let ll := qneToLla qne
  let pos := v3 ll.lat ll.lon (nav.pos 2 + xd 2)
  let vn := mvec (eyeM 3 + skew d) (nav.vn - v3 (xd 3) (xd 4) (xd 5))
  let phi := v3 (xd 6) (xd 7) (xd 8) + d
  let qbn := ((rvToQuat phi).mul nav.Qbn).normalized
  let cbn := quatToDcm qbn
  { f with ins := { f.ins with nav := { nav with
      Qne := qne, pos := pos, vn := vn, Qbn := qbn, Cbn := cbn, atti := dcmToEuler cbn
      gb := nav.gb + v3 (xd 9) (xd 10) (xd 11)
      ab := nav.ab + v3 (xd 12) (xd 13) (xd 14) } } }

/-- `_posH`, DataFusion.cpp:386-399. -/
def posH (f : Fusion α) : Matrix (Fin 3) (Fin 15) α :=
  let h0 : Matrix (Fin 3) (Fin 15) α := fun _ _ => 0
  let h1 := setBlock h0 0 0 (eyeM 3 : M3 α)
  setBlock h1 0 6 (skew (mvec f.ins.nav.Cbn f.lbGnss))

/-- `_posZ`, DataFusion.cpp:423-429. -/
def posZ (f : Fusion α) (pos : V3 α) : V3 α :=
  mvec f.ins.nav.Cne.transpose (llaToXyz f.ins.nav.pos - llaToXyz pos) + mvec f.ins.nav.Cbn f.lbGnss

/-- The vehicle-frame velocity and its measurement matrix, shared text of DataFusion.cpp:269-276 and
:432-439 (and of the unused `_velH`, :401-416). -/
def velModel (f : Fusion α) : V3 α × Matrix (Fin 3) (Fin 15) α :=
  let nav := f.ins.nav
  let Cnv := mmul f.Cbv nav.Cbn.transpose
  let wib := vs f.ins.gyroPre (ofI f.opt.dRate)
  let wnb := wib - mvec nav.Cbn.transpose (f.ins.omegaIeN + f.ins.omegaEnN)
  let vv := mvec Cnv nav.vn + mvec f.Cbv (cross wnb f.lbWheel)
  let h0 : Matrix (Fin 3) (Fin 15) α := fun _ _ => 0
  let h1 := setBlock h0 0 3 Cnv
  let h2 := setBlock h1 0 6 (mmul (-Cnv) (skew nav.vn))
  let h3 := setBlock h2 0 9 (mmul (-f.Cbv) (skew f.lbWheel))
  (vv, h3)

/-- `nav.info.sensors |= b`, DataFusion.cpp:160, 168, 238, 268, 281, 495. -/
def setSensor (f : Fusion α) (b : BitVec 16) : Fusion α :=
  { f with ins := { f.ins with nav := { f.ins.nav with
      info := { f.ins.nav.info with sensors := f.ins.nav.info.sensors ||| b } } } }
/-- `nav.info.sensors &= ~b`, DataFusion.cpp:162, 170, 249, 283, 484, 497. -/
def clearSensor (f : Fusion α) (b : BitVec 16) : Fusion α :=
  { f with ins := { f.ins with nav := { f.ins.nav with
      info := { f.ins.nav.info with sensors := f.ins.nav.info.sensors &&& ~~~b } } } }
/-- `nav.info.gnss_mode = m` (int to unsigned short), DataFusion.cpp:239, 250. -/
def setGnssMode (f : Fusion α) (m : Int) : Fusion α :=
  { f with ins := { f.ins with nav := { f.ins.nav with
      info := { f.ins.nav.info with gnssMode := BitVec.ofInt 16 m } } } }

/-- `MeasureNHC`, DataFusion.cpp:431-448. -/
def measureNHC (f : Fusion α) : Fusion α :=
  let (vv, h3) := f.velModel
  let R0 : Matrix (Fin 2) (Fin 2) α := diagM f.opt.nhcStd
  let z : Fin 2 → α := fun i => vv ⟨i.val + 1, by omega⟩
  let H : Matrix (Fin 2) (Fin 15) α := fun i j => h3 ⟨i.val + 1, by omega⟩ j
  { f with kf := f.kf.update H z (mmul R0 R0), updateFlag := f.updateFlag ||| FLAG_VELOCITY }

/-- The zero-velocity part of `MeasureZeroVelocity`, DataFusion.cpp:452-458. -/
def measureZupt (f : Fusion α) : Fusion α :=
  let h0 : Matrix (Fin 3) (Fin 15) α := fun _ _ => 0
  let H := setBlock h0 0 3 (eyeM 3 : M3 α)
  let R : M3 α := diagM fun _ => Fl.f32 (f.opt.zuptStd * f.opt.zuptStd)
  { f with kf := f.kf.update H f.ins.nav.vn R, updateFlag := f.updateFlag ||| FLAG_VELOCITY }

/-- The zero-angular-rate part, DataFusion.cpp:461-465. -/
def measureZihr (f : Fusion α) : Fusion α :=
  let H : Matrix (Fin 1) (Fin 15) α := fun _ j => if j.val = 11 then 1 else 0
  let R : Matrix (Fin 1) (Fin 1) α := fun _ _ => Fl.f32 (f.opt.zuptaStd * f.opt.zuptaStd)
  { f with kf := f.kf.update H (fun _ => f.ins.gyroPre 2 / f.ins.dt) R }

/-- `MeasureZeroVelocity`, DataFusion.cpp:450-467. -/
def measureZeroVelocity (f : Fusion α) : Fusion α :=
  let f1 := f.measureZupt
  if f.opt.zuptaEnable = 0 then f1 else f1.measureZihr

/-- Taking over a pending correction, DataFusion.cpp:134-139. -/
def takeCorrection (f : Fusion α) : Fusion α :=
  if 0 < f.updateFlag.toNat then
    { f with kfXd := f.kf.Xd, updateIter := f.monitor.maxIter, kf := f.kf.reset, updateFlag := 0 }
  else f

/-- Applying a share of the pending correction, DataFusion.cpp:140-143. -/
def applyCorrection (f : Fusion α) : Fusion α :=
  if 0 < f.updateIter then
    let f1 := f.feedBack (vd f.kfXd (ofI f.monitor.maxIter))
    { f1 with updateIter := f1.updateIter - 1 }
  else f

/-- Mechanization and covariance propagation, DataFusion.cpp:144-156. -/
def propagate (g : α) (f : Fusion α) (imu : Imu α) : α × Fusion α :=
  let f1 := { f with smooth := f.smooth.update imu }
  let (g1, ins) := f1.ins.forwardImu g imu
  let f2 := { f1 with ins := ins }
  let phi := f2.transferMatrix g1
  (g1, { f2 with kf := f2.kf.predict phi (f2.stepQ phi), timeUpdateIdx := f2.timeUpdateIdx + 1 })

/-- The ZUPT stage, DataFusion.cpp:157-164. -/
def zuptStage (f : Fusion α) : Fusion α :=
  if f.timeUpdateIdx.toNat % 8 ≠ 0 ∧ f.opt.zuptEnable ≠ 0 then
    if f.smooth.isStatic then f.measureZeroVelocity.setSensor SENSOR_ZUPT
    else f.clearSensor SENSOR_ZUPT
  else f

/-- The NHC stage, DataFusion.cpp:166-171. -/
def nhcStage (f : Fusion α) : Fusion α :=
  if f.timeUpdateIdx.toNat % 32 = 1 ∧ f.opt.nhcEnable ≠ 0 ∧ f.opt.odoEnable = 0 then
    f.measureNHC.setSensor SENSOR_NHC
  else f.clearSensor SENSOR_NHC

/-- `TimeUpdate`, DataFusion.cpp:119-196. -/
def timeUpdate (g : α) (f : Fusion α) (imu : Imu α) : α × Fusion α :=
  let f1 := f.takeCorrection.applyCorrection
  let (g1, f2) := f1.propagate g imu
  let f3 := f2.zuptStage.nhcStage
  (g1, { f3 with monitor := f3.monitor.onTimeUpdate })

/-- `MeasureUpdatePos(pos, Rk)`, DataFusion.cpp:205-224. -/
def measurePos (f : Fusion α) (pos : V3 α) (Rk : M3 α) : Fusion α :=
  { f with
    kf := f.kf.update f.posH (f.posZ pos) Rk
    updateFlag := f.updateFlag ||| FLAG_POSITION
    monitor := f.monitor.onMeasUpdate }

/-- `GnssCheck` (default, weak), DataFusion.cpp:232-234. -/
def gnssCheck (gnss : Gnss α) : Bool :=
  gnss.mode = MODE_SPP ∨ gnss.mode = MODE_RTK_FIX ∨ gnss.mode = MODE_RTK_FLOAT ∨ gnss.mode = MODE_RTK_DGPS

/-- `MeasureUpdatePos(gnss)`, DataFusion.cpp:236-265. -/
def measureGnss (f : Fusion α) (gnss : Gnss α) : Fusion α :=
  if gnssCheck gnss then
    let f1 := (f.setSensor SENSOR_GNSS).setGnssMode gnss.mode
    let pos := v3 (gnss.lat * deg) (gnss.lon * deg) gnss.height
    let Rk : M3 α := diagM fun i => gnss.posStd i * gnss.posStd i * f.opt.gnssStdScale
    let f2 := f1.measurePos pos Rk
    { f2 with gnssHeight := gnss.height, baseHeightIsSet := 1 }
  else (f.clearSensor SENSOR_GNSS).setGnssMode MODE_INVALID

/-- `MeasureUpdateVel(Vec3d)`, DataFusion.cpp:267-292. -/
def measureVel (f0 : Fusion α) (vel : V3 α) : Fusion α :=
  let f := f0.setSensor SENSOR_ODO
  let (vv, h3) := f.velModel
  let z := vv - sv f.ins.nav.kd vel
  let f1 :=
    if f.opt.nhcEnable ≠ 0 then
      let R : M3 α := diagM (v3 f.opt.odoStd (f.opt.nhcStd 0) (f.opt.nhcStd 1))
      ({ f with kf := f.kf.update h3 z (mmul R R) } : Fusion α).setSensor SENSOR_NHC
    else
      let f' := f.clearSensor SENSOR_NHC
      let R : Matrix (Fin 1) (Fin 1) α := fun _ _ => Fl.f32 (f.opt.odoStd * f.opt.odoStd)
      { f' with kf := f'.kf.update (fun (_ : Fin 1) j => h3 0 j) (fun _ => z 0) R }
  { f1 with updateFlag := f1.updateFlag ||| FLAG_VELOCITY, monitor := f1.monitor.onMeasUpdate }

/-- `MeasureUpdateVel(fp32)`, DataFusion.cpp:294-300. -/
def measureForwardVel (f : Fusion α) (vel : α) : Fusion α := f.measureVel (v3 vel 0 0)

/-- `MeasureUpdateRelativeHeight`, DataFusion.cpp:480-501. -/
def measureRelativeHeight (f : Fusion α) (height : α) : Fusion α :=
  let f1 := if f.baseHeightIsSet = 1 then { f with pHeight := height }.clearSensor SENSOR_HEIGHT else f
  let f2 :=
    if 4 < f1.baseHeightIsSet then
      let nav := f1.ins.nav
      let z := f1.posZ (v3 (nav.pos 0) (nav.pos 1) (f1.gnssHeight + height - f1.pHeight))
      let H : Matrix (Fin 1) (Fin 15) α := fun _ j => f1.posH 2 j
      let R : Matrix (Fin 1) (Fin 1) α := fun _ _ => Fl.f32 (f1.opt.zuptaStd * f1.opt.zuptaStd)
      ({ f1 with kf := f1.kf.update H (fun _ => z 2) R
                 updateFlag := f1.updateFlag ||| FLAG_HEIGHT } : Fusion α).setSensor SENSOR_HEIGHT
    else f1.clearSensor SENSOR_HEIGHT
  { f2 with baseHeightIsSet := f2.baseHeightIsSet + 1 }

/-- The projected attitude, DataFusion.cpp:541-543. -/
def projAtti (f : Fusion α) : V3 α := dcmToEuler (mmul f.ins.nav.Cbn (eulerToDcm f.opt.attiProject))

/-- The projected position, DataFusion.cpp:544-550. -/
def projPos (f : Fusion α) : V3 α :=
  let p := f.ins.nav.pos
  let vdr := v3 (1 / (Earth.RM (p 0) + p 2)) (1 / ((Earth.RN (p 0) + p 2) * Fl.cos (p 0))) (-1)
  p + mvec (diagM vdr) (mvec f.ins.nav.Cbn f.opt.posProject)

/-- `Output`, DataFusion.cpp:537-574 (every member of the static result is written). -/
def output (f : Fusion α) : NavOutput α :=
  let nav := f.ins.nav
  let pos := if f.opt.outputProjectEnable ≠ 0 then f.projPos else nav.pos
  let atti := if f.opt.outputProjectEnable ≠ 0 then f.projAtti else nav.atti
  { week := nav.week, gpst := nav.gpst, lat := pos 0 / deg, lon := pos 1 / deg, height := pos 2
    posStd := fun i => Fl.sqrt (f.kf.P ⟨i.val, by omega⟩ ⟨i.val, by omega⟩)
    vn := nav.vn
    vnStd := fun i => Fl.sqrt (f.kf.P ⟨3 + i.val, by omega⟩ ⟨3 + i.val, by omega⟩)
    atti := vd atti deg
    attiStd := fun i => Fl.sqrt (f.kf.P ⟨6 + i.val, by omega⟩ ⟨6 + i.val, by omega⟩)
    info := nav.info
    gb := vs (vd nav.gb deg) hour
    ab := vd nav.ab mGal
    gs := vd nav.gs ppm
    as := vd nav.as ppm
    kd := nav.kd }
end Fusion
end Verif
