import Verif.Model.Fusion
/-! Model of `/repo/Src/DataFusion.cpp` and `/repo/Src/RgioeDefine.h` for the builds with optional states
(`RGIOE_ESTIMATE_GYRO_SCALE_FACTOR`, `..._ACCE_SCALE_FACTOR`, `..._GNSS_LEVEL_ARM`, `..._ODOMETER_SCALE_FACTOR`),
selected at compile time (App/PostDataFusion/CMakeLists.txt:28-47). The `RGIOE_ENABLE_RTS` build is not modelled: the
lists it uses are commented out (DataFusion.h:173-181). Recorder side effects of this build are not modelled. -/
namespace Verif
open Verif.Convert
variable {α : Type} [Add α] [Sub α] [Mul α] [Neg α] [Div α] [Zero α] [One α] [Fl α]

/-- The compile-time switches, RgioeConfig.h:14-30. -/
structure Cfg where
  gs : Bool
  as : Bool
  lever : Bool
  odo : Bool
  deriving DecidableEq, Fintype

namespace Cfg
/-- The default build, RgioeConfig.h:14-30. -/
def default : Cfg := ⟨false, false, false, false⟩
/-- Some optional state is estimated: `STATE_CNT > BASE_STATE`, RgioeDefine.h:17-56. -/
def extended (c : Cfg) : Bool := c.gs || c.as || c.lever || c.odo
/-- `STATE_GYRO_SCALE_FACTOR_SIZE`, RgioeDefine.h:23-29. -/
def gsSize (c : Cfg) : Nat := if c.gs then 3 else 0
/-- `STATE_GYRO_SCALE_FACTOR_START`, RgioeDefine.h:23-29. -/
def gsStart (_ : Cfg) : Nat := 15
/-- `STATE_ACCE_SCALE_FACTOR_SIZE`, RgioeDefine.h:31-37. -/
def asSize (c : Cfg) : Nat := if c.as then 3 else 0
/-- `STATE_ACCE_SCALE_FACTOR_START`, RgioeDefine.h:31-37. -/
def asStart (c : Cfg) : Nat := if c.as then c.gsStart + c.gsSize else c.gsStart
/-- `STATE_GNSS_LEVEL_ARM_SIZE`, RgioeDefine.h:39-45. -/
def leverSize (c : Cfg) : Nat := if c.lever then 3 else 0
/-- `STATE_GNSS_LEVEL_ARM_START`, RgioeDefine.h:39-45. -/
def leverStart (c : Cfg) : Nat := if c.lever then c.asStart + c.asSize else c.asStart
/-- `STATE_ODOMETER_SCALE_FACTOR_SIZE`, RgioeDefine.h:47-53. -/
def odoSize (c : Cfg) : Nat := if c.odo then 1 else 0
/-- `STATE_ODOMETER_SCALE_FACTOR_START`, RgioeDefine.h:47-53. -/
def odoStart (c : Cfg) : Nat := if c.odo then c.leverStart + c.leverSize else c.leverStart
/-- `STATE_CNT`, RgioeDefine.h:56. -/
def dim (c : Cfg) : Nat := 15 + c.gsSize + c.asSize + c.odoSize + c.leverSize

theorem le_dim (c : Cfg) : 15 ≤ c.dim := by unfold dim; omega
/-- The switch `RGIOE_ESTIMATE_...` set by each CMake option, App/PostDataFusion/CMakeLists.txt:28-47:
`EST_ODO_SCALE` sets the accelerometer switch. -/
def ofCMake (estGyro estAcce estLever estOdo : Bool) : Cfg := ⟨estGyro, estAcce || estOdo, estLever, false⟩
end Cfg

/-- `setZero()`, DataFusion.cpp:39, 69. -/
def zeroM {m n : Nat} : Matrix (Fin m) (Fin n) α := fun _ _ => 0

/-- `M(r,c) = v`, DataFusion.cpp:69-105. -/
def setEntry {n : Nat} (M : Matrix (Fin n) (Fin n) α) (r : Nat) (v : α) : Matrix (Fin n) (Fin n) α :=
  setBlock M r r (fun (_ _ : Fin 1) => v)

/-- The fusion object of a build. `core` holds the members whose type does not depend on the number of states (its own
filter, `Q0` and `kfXd` are not used), the other fields those that do: DataFusion.h:163-194. -/
structure XFusion (c : Cfg) (α : Type) where
  core : Fusion α
  kf : Kf c.dim α
  Q0 : Matrix (Fin c.dim) (Fin c.dim) α
  kfXd : Fin c.dim → α

namespace XFusion
variable {c : Cfg}

/-- Constructor, DataFusion.cpp:15-22. -/
def new (c : Cfg) (junk : Fusion α) : XFusion c α :=
  { core := Fusion.new junk, kf := Kf.new c.dim, Q0 := fun _ _ => 0, kfXd := fun _ => 0 }

/-- The matrix `P` before it is squared, DataFusion.cpp:38-66. The scale-factor entries are already squares. -/
def initStd (c : Cfg) (nav : NavEpoch α) (opt : Opt α) : Matrix (Fin c.dim) (Fin c.dim) α :=
  let P0 : Matrix (Fin c.dim) (Fin c.dim) α := zeroM
  let P1 := setBlock P0 0 0 (diagM nav.posStd)
  let P2 := setBlock P1 3 3 (diagM nav.velStd)
  let P3 := setBlock P2 6 6 (diagM nav.attStd)
  let P4 := setBlock P3 9 9 (diagM opt.imuPara.gbStd)
  let P5 := setBlock P4 12 12 (diagM opt.imuPara.abStd)
  let sq (v : V3 α) (i : Fin 3) : α := Fl.f32 (v i * v i)
  let P6 := if c.gs then setEntry (setEntry (setEntry P5 c.gsStart (sq opt.imuPara.gsStd 0)) (c.gsStart + 1) (sq opt.imuPara.gsStd 1))
      (c.gsStart + 2) (sq opt.imuPara.gsStd 2) else P5
  let P7 := if c.as then setEntry (setEntry (setEntry P6 c.asStart (sq opt.imuPara.asStd 0)) (c.asStart + 1) (sq opt.imuPara.asStd 1))
      (c.asStart + 2) (sq opt.imuPara.asStd 2) else P6
  let l : α := Fl.lit (1 / 1000)
  let P8 := if c.lever then setEntry (setEntry (setEntry P7 c.leverStart l) (c.leverStart + 1) l) (c.leverStart + 2) l else P7
  if c.odo then setEntry P8 c.odoStart (Fl.lit (1 / 1000000000)) else P8

/-- `Q0`, DataFusion.cpp:68-105. -/
def initQ0 (c : Cfg) (opt : Opt α) : Matrix (Fin c.dim) (Fin c.dim) α :=
  let p := opt.imuPara
  let two : α := Fl.lit 2
  let q0 : Matrix (Fin c.dim) (Fin c.dim) α := diagM fun i : Fin c.dim =>
    if i.val < 3 then 0
    else if i.val < 6 then Fl.f32 (p.vrw * p.vrw)
    else if i.val < 9 then Fl.f32 (p.arw * p.arw)
    else if h : i.val < 12 then Fl.f32 (Fl.f32 (Fl.f32 (two * p.gbStd ⟨i.val - 9, by omega⟩) * p.gbStd ⟨i.val - 9, by omega⟩) / p.gtCorr)
    else if h : i.val < 15 then Fl.f32 (Fl.f32 (Fl.f32 (two * p.abStd ⟨i.val - 12, by omega⟩) * p.abStd ⟨i.val - 12, by omega⟩) / p.atCorr)
    else 0
  let g (i : Fin 3) : α := Fl.f32 (Fl.f32 (Fl.f32 (two * p.gsStd i) * p.gsStd i) / p.gtCorr)
  let a (i : Fin 3) : α := Fl.f32 (Fl.f32 (Fl.f32 (two * p.asStd i) * p.asStd i) / p.atCorr)
  let q1 := if c.gs then setEntry (setEntry (setEntry q0 c.gsStart (g 0)) (c.gsStart + 1) (g 1)) (c.gsStart + 2) (g 2) else q0
  let q2 := if c.as then setEntry (setEntry (setEntry q1 c.asStart (a 0)) (c.asStart + 1) (a 1)) (c.asStart + 2) (a 2) else q1
  let q3 := if c.lever then setEntry (setEntry (setEntry q2 c.leverStart 0) (c.leverStart + 1) 0) (c.leverStart + 2) 0 else q2
  if c.odo then setEntry q3 c.odoStart (Fl.f32 (Fl.f32 (Fl.f32 (two * opt.odoScaleStd) * opt.odoScaleStd) / Fl.lit 3600)) else q3

/-- `Initialize`, DataFusion.cpp:29-111. -/
def initFusion (g : α) (x : XFusion c α) (ini : NavEpoch α) (opt : Opt α) : α × XFusion c α :=
  let r := x.core.initFusion g ini opt
  let P := initStd c ini opt
  (r.1, { core := r.2, kf := Kf.ofState (fun _ => 0) (mmul P P), Q0 := initQ0 c opt, kfXd := x.kfXd })

/-- `TransferMatrix`, the fifteen fixed states, DataFusion.cpp:302-321. -/
def phiBase (g : α) (x : XFusion c α) : Matrix (Fin c.dim) (Fin c.dim) α :=
  let f := x.core
  let nav := f.ins.nav
  let dt := f.ins.dt
  let para := f.opt.imuPara
  let rm := Earth.RM (nav.pos 0)
  let rn := Earth.RN (nav.pos 0)
  let I : M3 α := eyeM 3
  let p0 : Matrix (Fin c.dim) (Fin c.dim) α := zeroM
  let p1 := setBlock p0 0 0 (I - ms (skew f.ins.omegaEnN) dt)
  let p2 := setBlock p1 0 3 (ms I dt)
  let p3 := setBlock p2 3 0 (ms (diagM (v3 (-g / (rm + nav.pos 2)) (-g / (rn + nav.pos 2))
              (Fl.lit 2 * g / (Fl.sqrt (rm * rn) + nav.pos 2)))) dt)
  let p4 := setBlock p3 3 3 (I - ms (skew (f.ins.omegaEnN + sv (Fl.lit 2) f.ins.omegaIeN)) dt)
  let p5 := setBlock p4 3 6 (ms (skew nav.vfKb) dt)
  let p6 := setBlock p5 6 6 (I - ms (skew (f.ins.omegaEnN + f.ins.omegaIeN)) dt)
  let p7 := setBlock p6 3 12 (ms nav.Cbn dt)
  let p8 := setBlock p7 6 9 (ms (-nav.Cbn) dt)
  let p9 := setBlock p8 9 9 (I - md (ms I dt) para.gtCorr)
  setBlock p9 12 12 (I - md (ms I dt) para.atCorr)

/-- `TransferMatrix`, DataFusion.cpp:302-341. -/
def transferMatrix (g : α) (x : XFusion c α) : Matrix (Fin c.dim) (Fin c.dim) α :=
  let f := x.core
  let nav := f.ins.nav
  let dt := f.ins.dt
  let para := f.opt.imuPara
  let I : M3 α := eyeM 3
  let p10 := x.phiBase g
  let p11 := if c.gs then setBlock (setBlock p10 c.gsStart c.gsStart (I - md (ms I dt) para.gtCorr)) 9 c.gsStart
      (mmul (-nav.Cbn) (diagM f.ins.gyroPre)) else p10
  let p12 := if c.as then setBlock (setBlock p11 c.asStart c.asStart (I - md (ms I dt) para.atCorr)) 6 c.asStart
      (mmul nav.Cbn (diagM f.ins.accePre)) else p11
  let k : α := 1 - dt / Fl.lit 36000
  let p13 := if c.lever then setEntry (setEntry (setEntry p12 c.leverStart k) (c.leverStart + 1) k) (c.leverStart + 2) k else p12
  if c.odo then setEntry p13 c.odoStart k else p13

/-- The process noise of a step, DataFusion.cpp:147. -/
def stepQ (x : XFusion c α) (phi : Matrix (Fin c.dim) (Fin c.dim) α) : Matrix (Fin c.dim) (Fin c.dim) α :=
  ms (sm (Fl.lit (1 / 2)) (mmul phi x.Q0 + mmul x.Q0 phi.transpose)) x.core.ins.dt

/-- `_feedBack`, DataFusion.cpp:347-384. `xd` is a row (`Vec1X`, 1 × STATE_CNT, KalmanFilter.hpp:31), so every
`xd.block<k,1>(START,0)` of an optional state reads rows `START..` of a matrix with one row: undefined behaviour
(Eigen asserts `startRow + BlockRows <= rows()`); the outcome is `none`. -/
def feedBack (x : XFusion c α) (xd : Fin c.dim → α) : Option (XFusion c α) :=
  if c.extended then none
  else some { x with core := x.core.feedBack fun i => xd ⟨i.val, Nat.lt_of_lt_of_le i.isLt c.le_dim⟩ }

/-- `_posH`, DataFusion.cpp:386-399. -/
def posH (x : XFusion c α) : Matrix (Fin 3) (Fin c.dim) α :=
  let nav := x.core.ins.nav
  let h0 : Matrix (Fin 3) (Fin c.dim) α := zeroM
  let h1 := setBlock h0 0 0 (eyeM 3 : M3 α)
  let h2 := setBlock h1 0 6 (skew (mvec nav.Cbn x.core.lbGnss))
  let vdr := v3 (1 / (Earth.RM (nav.pos 0) + nav.pos 2)) (1 / ((Earth.RN (nav.pos 0) + nav.pos 2) * Fl.cos (nav.pos 0))) (-1)
  if c.lever then setBlock h2 0 c.leverStart (-(mmul (diagM vdr) nav.Cbn)) else h2

/-- The velocity measurement matrix, DataFusion.cpp:273-276 and :436-439. -/
def velH (x : XFusion c α) : Matrix (Fin 3) (Fin c.dim) α :=
  let f := x.core
  let Cnv := mmul f.Cbv f.ins.nav.Cbn.transpose
  let h0 : Matrix (Fin 3) (Fin c.dim) α := zeroM
  let h1 := setBlock h0 0 3 Cnv
  let h2 := setBlock h1 0 6 (mmul (-Cnv) (skew f.ins.nav.vn))
  setBlock h2 0 9 (mmul (-f.Cbv) (skew f.lbWheel))

/-- `MeasureNHC`, DataFusion.cpp:431-448. -/
def measureNHC (x : XFusion c α) : XFusion c α :=
  let R0 : Matrix (Fin 2) (Fin 2) α := diagM x.core.opt.nhcStd
  let z : Fin 2 → α := fun i => x.core.velModel.1 ⟨i.val + 1, by omega⟩
  let H : Matrix (Fin 2) (Fin c.dim) α := fun i j => x.velH ⟨i.val + 1, by omega⟩ j
  { x with kf := x.kf.update H z (mmul R0 R0)
           core := { x.core with updateFlag := x.core.updateFlag ||| Fusion.FLAG_VELOCITY } }

/-- `MeasureZeroVelocity`, DataFusion.cpp:450-467. -/
def measureZeroVelocity (x : XFusion c α) : XFusion c α :=
  let f := x.core
  let h0 : Matrix (Fin 3) (Fin c.dim) α := zeroM
  let H := setBlock h0 0 3 (eyeM 3 : M3 α)
  let R : M3 α := diagM fun _ => Fl.f32 (f.opt.zuptStd * f.opt.zuptStd)
  let k1 := x.kf.update H f.ins.nav.vn R
  let H2 : Matrix (Fin 1) (Fin c.dim) α := fun _ j => if j.val = 11 then 1 else 0
  let R2 : Matrix (Fin 1) (Fin 1) α := fun _ _ => Fl.f32 (f.opt.zuptaStd * f.opt.zuptaStd)
  { x with kf := if f.opt.zuptaEnable = 0 then k1 else k1.update H2 (fun _ => f.ins.gyroPre 2 / f.ins.dt) R2
           core := { f with updateFlag := f.updateFlag ||| Fusion.FLAG_VELOCITY } }

/-- Taking over a pending correction, DataFusion.cpp:134-139. -/
def takeCorrection (x : XFusion c α) : XFusion c α :=
  if 0 < x.core.updateFlag.toNat then
    { x with kfXd := x.kf.Xd, kf := x.kf.reset
             core := { x.core with updateIter := x.core.monitor.maxIter, updateFlag := 0 } }
  else x

/-- Applying a share of the pending correction, DataFusion.cpp:140-143. -/
def applyCorrection (x : XFusion c α) : Option (XFusion c α) :=
  if 0 < x.core.updateIter then
    (x.feedBack (vd x.kfXd (ofI x.core.monitor.maxIter))).map fun y =>
      { y with core := { y.core with updateIter := y.core.updateIter - 1 } }
  else some x

/-- Mechanization and covariance propagation, DataFusion.cpp:144-156. -/
def propagate (g : α) (x : XFusion c α) (imu : Imu α) : α × XFusion c α :=
  let r := x.core.ins.forwardImu g imu
  let y : XFusion c α := { x with core := { x.core with smooth := x.core.smooth.update imu, ins := r.2 } }
  let phi := y.transferMatrix r.1
  (r.1, { y with kf := y.kf.predict phi (y.stepQ phi)
                 core := { y.core with timeUpdateIdx := y.core.timeUpdateIdx + 1 } })

/-- `nav.info.sensors |= b`, DataFusion.cpp:160, 168, 238, 268, 281, 495. -/
def setSensor (x : XFusion c α) (b : BitVec 16) : XFusion c α := { x with core := x.core.setSensor b }
/-- `nav.info.sensors &= ~b`, DataFusion.cpp:162, 170, 249, 283, 484, 497. -/
def clearSensor (x : XFusion c α) (b : BitVec 16) : XFusion c α := { x with core := x.core.clearSensor b }

/-- The ZUPT stage, DataFusion.cpp:157-164. -/
def zuptStage (x : XFusion c α) : XFusion c α :=
  if x.core.timeUpdateIdx.toNat % 8 ≠ 0 ∧ x.core.opt.zuptEnable ≠ 0 then
    if x.core.smooth.isStatic then x.measureZeroVelocity.setSensor SENSOR_ZUPT else x.clearSensor SENSOR_ZUPT
  else x

/-- The NHC stage, DataFusion.cpp:166-171. -/
def nhcStage (x : XFusion c α) : XFusion c α :=
  if x.core.timeUpdateIdx.toNat % 32 = 1 ∧ x.core.opt.nhcEnable ≠ 0 ∧ x.core.opt.odoEnable = 0 then
    x.measureNHC.setSensor SENSOR_NHC
  else x.clearSensor SENSOR_NHC

/-- `TimeUpdate`, DataFusion.cpp:119-196. -/
def timeUpdate (g : α) (x : XFusion c α) (imu : Imu α) : Option (α × XFusion c α) :=
  x.takeCorrection.applyCorrection.map fun x1 =>
    let r := x1.propagate g imu
    let y := r.2.zuptStage.nhcStage
    (r.1, { y with core := { y.core with monitor := y.core.monitor.onTimeUpdate } })

/-- `MeasureUpdatePos(pos, Rk)`, DataFusion.cpp:205-224. -/
def measurePos (x : XFusion c α) (pos : V3 α) (Rk : M3 α) : XFusion c α :=
  { x with kf := x.kf.update x.posH (x.core.posZ pos) Rk
           core := { x.core with updateFlag := x.core.updateFlag ||| Fusion.FLAG_POSITION
                                 monitor := x.core.monitor.onMeasUpdate } }

/-- `MeasureUpdatePos(gnss)`, DataFusion.cpp:236-265. -/
def measureGnss (x : XFusion c α) (gnss : Gnss α) : XFusion c α :=
  if Fusion.gnssCheck gnss then
    let x1 : XFusion c α := { x with core := (x.core.setSensor SENSOR_GNSS).setGnssMode gnss.mode }
    let pos := v3 (gnss.lat * deg) (gnss.lon * deg) gnss.height
    let Rk : M3 α := diagM fun i => gnss.posStd i * gnss.posStd i * x.core.opt.gnssStdScale
    let x2 := x1.measurePos pos Rk
    { x2 with core := { x2.core with gnssHeight := gnss.height, baseHeightIsSet := 1 } }
  else { x with core := (x.core.clearSensor SENSOR_GNSS).setGnssMode MODE_INVALID }

/-- `MeasureUpdateVel(Vec3d)`, DataFusion.cpp:267-292. -/
def measureVel (x0 : XFusion c α) (vel : V3 α) : XFusion c α :=
  let x := x0.setSensor SENSOR_ODO
  let f := x.core
  let z := f.velModel.1 - sv f.ins.nav.kd vel
  let h3 := x.velH
  let x1 : XFusion c α :=
    if f.opt.nhcEnable ≠ 0 then
      let R : M3 α := diagM (v3 f.opt.odoStd (f.opt.nhcStd 0) (f.opt.nhcStd 1))
      ({ x with kf := x.kf.update h3 z (mmul R R) } : XFusion c α).setSensor SENSOR_NHC
    else
      let x' := x.clearSensor SENSOR_NHC
      let R : Matrix (Fin 1) (Fin 1) α := fun _ _ => Fl.f32 (f.opt.odoStd * f.opt.odoStd)
      { x' with kf := x'.kf.update (fun (_ : Fin 1) j => h3 0 j) (fun _ => z 0) R }
  { x1 with core := { x1.core with updateFlag := x1.core.updateFlag ||| Fusion.FLAG_VELOCITY
                                   monitor := x1.core.monitor.onMeasUpdate } }

/-- `MeasureUpdateRelativeHeight`, DataFusion.cpp:480-501. -/
def measureRelativeHeight (x : XFusion c α) (height : α) : XFusion c α :=
  let x1 : XFusion c α := if x.core.baseHeightIsSet = 1 then
    { x with core := { x.core with pHeight := height }.clearSensor SENSOR_HEIGHT } else x
  let x2 : XFusion c α :=
    if 4 < x1.core.baseHeightIsSet then
      let f := x1.core
      let z := f.posZ (v3 (f.ins.nav.pos 0) (f.ins.nav.pos 1) (f.gnssHeight + height - f.pHeight))
      let H : Matrix (Fin 1) (Fin c.dim) α := fun _ j => x1.posH 2 j
      let R : Matrix (Fin 1) (Fin 1) α := fun _ _ => Fl.f32 (f.opt.zuptaStd * f.opt.zuptaStd)
      ({ x1 with kf := x1.kf.update H (fun _ => z 2) R
                 core := { f with updateFlag := f.updateFlag ||| Fusion.FLAG_HEIGHT } } : XFusion c α).setSensor SENSOR_HEIGHT
    else x1.clearSensor SENSOR_HEIGHT
  { x2 with core := { x2.core with baseHeightIsSet := x2.core.baseHeightIsSet + 1 } }
end XFusion
end Verif
