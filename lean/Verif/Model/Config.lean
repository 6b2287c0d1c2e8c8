import Verif.Types
/-! Model of `/repo/App/AppCommon/Config.cpp` and `Config.h`.

A YAML document is a partial map from the key paths the program uses to scalars; the text format and its
parser (yaml-cpp, not part of /repo) are not modelled: a number written is read back unchanged, an `int`
read as a floating-point number is that number. Reading an absent key throws, which ends `LoadFrom`. -/
namespace Verif
variable {α : Type} [Add α] [Sub α] [Mul α] [Neg α] [Div α] [Zero α] [One α] [Fl α]

/-- `GnssConfig`, Config.h:19-31 (`columns` is never read or written). -/
structure GnssCfg (α : Type) where
  enable : Bool
  filePath : String
  format : Int
  index : Fin 9 → Int
  doubleAntenna : Bool
  levelArm : V3 α
  pitch : α
  yaw : α
  scaleOfStd : α

/-- `OutputConfig`, Config.h:33-40. -/
structure OutputCfg (α : Type) where
  filePath : String
  format : Int
  projectEnable : Bool
  posProject : V3 α
  attiProject : V3 α

/-- `IMUConfig`, Config.h:42-50. -/
structure ImuCfg (α : Type) where
  filePath : String
  format : Int
  frame : Int
  dRate : Int
  parameterPath : String
  para : ImuPara α

/-- `OdometerConfig`, Config.h:53-64. -/
structure OdoCfg (α : Type) where
  enable : Bool
  filePath : String
  odometerStd : α
  nhcEnable : Bool
  nhcStd : Fin 2 → α
  angleBv : V3 α
  wheelLevelArm : V3 α
  scaleFactor : α
  scaleFactorStd : α

/-- `PressureConfig`, Config.h:66-71. -/
structure PressCfg (α : Type) where
  enable : Bool
  filePath : String
  heightStd : α

/-- `ZuptConfig`, Config.h:73-82. -/
structure ZuptCfg (α : Type) where
  zuptEnable : Bool
  zuptaEnable : Bool
  zuptStd : α
  zuptaStd : α
  zuptWindow : Int
  staticWide : Int
  threshold : α

/-- `AlignConfig`, Config.h:84-89. -/
structure AlignCfg (α : Type) where
  mode : Int
  velThreshold : α
  initPva : NavOutput α

/-- `OutageConfig`, Config.h:91-99. -/
structure OutageCfg (α : Type) where
  enable : Bool
  start : α
  stop : α
  step : α
  outage : α

/-- `Config`, Config.h:101-126. -/
structure Config (α : Type) where
  startTime : α
  stopTime : α
  enableRts : Bool
  gnss : GnssCfg α
  imu : ImuCfg α
  odo : OdoCfg α
  zupt : ZuptCfg α
  align : AlignCfg α
  outage : OutageCfg α
  output : OutputCfg α
  press : PressCfg α

/-- The key paths used by `SaveTo`, `SaveConfig` and `LoadFrom`, Config.cpp:17-247; the number of an
element of a sequence is an argument. -/
inductive Key
  /-- `start-time` -/
  | startTime
  /-- `stop-time` -/
  | stopTime
  /-- `enable-rts` -/
  | enableRts
  /-- `Output-Config/file-path` -/
  | outPath
  /-- `Output-Config/file-format` -/
  | outFormat
  /-- `Output-Config/project-enable` -/
  | outProject
  /-- `Output-Config/position-project/i` -/
  | outPos (i : Fin 3)
  /-- `Output-Config/attitude-project/i` -/
  | outAtti (i : Fin 3)
  /-- `Output-Config/atti-project` (only written) -/
  | outAttiScalar
  /-- `IMU-Config/file-path` -/
  | imuPath
  /-- `IMU-Config/d-rate` -/
  | imuRate
  /-- `IMU-Config/format` -/
  | imuFormat
  /-- `IMU-Config/parameter-path` -/
  | imuPara
  /-- `IMU-Config/frame` -/
  | imuFrame
  /-- `GNSS-Config/enable` -/
  | gnssEnable
  /-- `GNSS-Config/file-path` -/
  | gnssPath
  /-- `GNSS-Config/format` -/
  | gnssFormat
  /-- `GNSS-Config/std-scale` -/
  | gnssScale
  /-- `GNSS-Config/level-arm/i` -/
  | gnssArm (i : Fin 3)
  /-- `GNSS-Config/double-antenna-enable` -/
  | gnssDouble
  /-- `GNSS-Config/antenna-pitch` -/
  | gnssPitch
  /-- `GNSS-Config/antenna-yaw` -/
  | gnssYaw
  /-- `GNSS-Config/columns/i` -/
  | gnssColumns (i : Fin 9)
  /-- `Odometer/enable` -/
  | odoEnable
  /-- `Odometer/odometer-std` -/
  | odoStd
  /-- `Odometer/file-path` -/
  | odoPath
  /-- `Odometer/NHC-enable` -/
  | odoNhc
  /-- `Odometer/NHC-std/i` -/
  | odoNhcStd (i : Fin 2)
  /-- `Odometer/angle-bv/i` -/
  | odoAngle (i : Fin 3)
  /-- `Odometer/wheel-level-arm/i` -/
  | odoArm (i : Fin 3)
  /-- `Odometer/scale-factor` -/
  | odoScale
  /-- `Odometer/scale-factor-std` -/
  | odoScaleStd
  /-- `ZUPT-Config/ZUPT-enable` -/
  | zuptEnable
  /-- `ZUPT-Config/ZUPTA-enable` -/
  | zuptaEnable
  /-- `ZUPT-Config/zupt-std` -/
  | zuptStd
  /-- `ZUPT-Config/zupta-std` -/
  | zuptaStd
  /-- `ZUPT-Config/zupt-window` -/
  | zuptWindow
  /-- `ZUPT-Config/static-wide` -/
  | zuptWide
  /-- `ZUPT-Config/threshold` -/
  | zuptThreshold
  /-- `Align-Config/mode` -/
  | alignMode
  /-- `Align-Config/velocity-threshold` -/
  | alignVel
  /-- `Align-Config/init-PVA/week` -/
  | pvaWeek
  /-- `Align-Config/init-PVA/gpst` -/
  | pvaGpst
  /-- `Align-Config/init-PVA/lat` -/
  | pvaLat
  /-- `Align-Config/init-PVA/lon` -/
  | pvaLon
  /-- `Align-Config/init-PVA/height` -/
  | pvaHeight
  /-- `Align-Config/init-PVA/vn/i` -/
  | pvaVn (i : Fin 3)
  /-- `Align-Config/init-PVA/atti/i` -/
  | pvaAtti (i : Fin 3)
  /-- `Outage-Config/enable` -/
  | outageEnable
  /-- `Outage-Config/start` -/
  | outageStart
  /-- `Outage-Config/stop` -/
  | outageStop
  /-- `Outage-Config/step` -/
  | outageStep
  /-- `Outage-Config/outage` -/
  | outageLen
  /-- `Pressure-Config/enable` -/
  | pressEnable
  /-- `Pressure-Config/file-path` -/
  | pressPath
  /-- `Pressure-Config/height-std` -/
  | pressStd
  deriving DecidableEq

/-- A YAML scalar, Config.cpp:17-247. -/
inductive Val (α : Type)
  | num (x : α)
  | int (z : Int)
  | bool (b : Bool)
  | str (s : String)

/-- A YAML document (yaml-cpp, not modelled further), restricted to the key paths of Config.cpp:17-247. -/
abbrev Yaml (α : Type) := Key → Option (Val α)

namespace Yaml
/-- `node[…].as<float>()`, `.as<double>()` as used in Config.cpp:160-247: absent or not numeric throws. -/
def num (y : Yaml α) (k : Key) : Option α :=
  match y k with
  | some (.num x) => some x
  | some (.int z) => some (ofI z)
  | _ => none
/-- `node[…].as<int>()` as used in Config.cpp:160-247. -/
def int (y : Yaml α) (k : Key) : Option Int :=
  match y k with
  | some (.int z) => some z
  | _ => none
/-- `node[…].as<bool>()` as used in Config.cpp:160-247. -/
def bool (y : Yaml α) (k : Key) : Option Bool :=
  match y k with
  | some (.bool b) => some b
  | _ => none
/-- `node[…].as<std::string>()` as used in Config.cpp:160-247. -/
def str (y : Yaml α) (k : Key) : Option String :=
  match y k with
  | some (.str s) => some s
  | _ => none
/-- Three numbers of a sequence, as read in Config.cpp:160-247. -/
def num3 (y : Yaml α) (k : Fin 3 → Key) : Option (V3 α) := do
  let a ← y.num (k 0); let b ← y.num (k 1); let c ← y.num (k 2)
  return v3 a b c
end Yaml

namespace Config
/-- `Config::SaveTo`, Config.cpp:88-159: the document written. `toInt` is the cast `(int)` of a
floating-point number. -/
def saveTo (toInt : α → Int) (c : Config α) : Yaml α
  | .startTime => some (.num c.startTime)
  | .stopTime => some (.num c.stopTime)
  | .enableRts => none
  | .outPath => some (.str c.output.filePath)
  | .outFormat => none
  | .outProject => some (.bool c.output.projectEnable)
  | .outPos _ => none
  | .outAtti _ => none
  | .outAttiScalar => some (.num (c.output.attiProject 0))
  | .imuPath => some (.str c.imu.filePath)
  | .imuRate => some (.int c.imu.dRate)
  | .imuFormat => some (.int c.imu.format)
  | .imuPara => some (.str c.imu.parameterPath)
  | .imuFrame => some (.int c.imu.frame)
  | .gnssEnable => some (.bool c.gnss.enable)
  | .gnssPath => some (.str c.gnss.filePath)
  | .gnssFormat => some (.int c.gnss.format)
  | .gnssScale => none
  | .gnssArm i => some (.num (c.gnss.levelArm i))
  | .gnssDouble => some (.bool c.gnss.doubleAntenna)
  | .gnssPitch => some (.num c.gnss.pitch)
  | .gnssYaw => some (.num c.gnss.yaw)
  | .gnssColumns i => some (.int (c.gnss.index i))
  | .odoEnable => some (.bool c.odo.enable)
  | .odoStd => some (.num c.odo.odometerStd)
  | .odoPath => some (.str c.odo.filePath)
  | .odoNhc => some (.bool c.odo.nhcEnable)
  | .odoNhcStd i => some (.num (c.odo.nhcStd i))
  | .odoAngle i => some (.num (c.odo.angleBv i))
  | .odoArm i => some (.num (c.odo.wheelLevelArm i))
  | .odoScale => some (.num c.odo.scaleFactor)
  | .odoScaleStd => some (.num c.odo.scaleFactorStd)
  | .zuptEnable => some (.bool c.zupt.zuptEnable)
  | .zuptaEnable => some (.bool c.zupt.zuptaEnable)
  | .zuptStd => some (.num c.zupt.zuptStd)
  | .zuptaStd => some (.num c.zupt.zuptaStd)
  | .zuptWindow => some (.int c.zupt.zuptWindow)
  | .zuptWide => some (.int c.zupt.staticWide)
  | .zuptThreshold => some (.num c.zupt.threshold)
  | .alignMode => some (.int c.align.mode)
  | .alignVel => some (.int (toInt c.align.velThreshold))
  | .pvaWeek => some (.int c.align.initPva.week)
  | .pvaGpst => some (.num c.align.initPva.gpst)
  | .pvaLat => some (.num c.align.initPva.lat)
  | .pvaLon => some (.num c.align.initPva.lon)
  | .pvaHeight => some (.num c.align.initPva.height)
  | .pvaVn i => some (.num (c.align.initPva.vn i))
  | .pvaAtti i => some (.num (c.align.initPva.atti i))
  | .outageEnable => some (.bool c.outage.enable)
  | .outageStart => some (.num c.outage.start)
  | .outageStop => some (.num c.outage.stop)
  | .outageStep => some (.num c.outage.step)
  | .outageLen => some (.num c.outage.outage)
  | .pressEnable => none
  | .pressPath => none
  | .pressStd => none

/-- The free function `SaveConfig`, Config.cpp:17-79: like `SaveTo` without start and stop time, the
`Output-Config` section and the odometer scale factor, and with `zupt_enable` written under
`ZUPTA-enable` (line 47). -/
def saveConfig (toInt : α → Int) (c : Config α) : Yaml α
  | .startTime | .stopTime | .outPath | .outProject | .outAttiScalar | .odoScale | .odoScaleStd => none
  | .zuptaEnable => some (.bool c.zupt.zuptEnable)
  | k => c.saveTo toInt k

/-- The parameter file read by `LoadImuPara`, Config.cpp:283-310: `none` where a key is absent or not a
number. -/
structure ParaFile (α : Type) where
  arw : Option α
  vrw : Option α
  gbStd : Fin 3 → Option α
  gsStd : Fin 3 → Option α
  asStd : Fin 3 → Option α
  abStd : Fin 3 → Option α
  gbIni : Fin 3 → Option α
  gsIni : Fin 3 → Option α
  abIni : Fin 3 → Option α
  asIni : Fin 3 → Option α
  gtCorr : Option α
  atCorr : Option α

/-- Three values, or nothing (the loops of Config.cpp:285-303). -/
def opt3 (f : Fin 3 → Option α) : Option (V3 α) := do
  let a ← f 0; let b ← f 1; let c ← f 2
  return v3 a b c

/-- The body of the `try` in `LoadImuPara`, Config.cpp:285-303; `_sqrt_h` is 60. -/
def readPara (p : ParaFile α) : Option (ImuPara α) := do
  let arw ← p.arw
  let vrw ← p.vrw
  let gbStd ← opt3 p.gbStd
  let gsStd ← opt3 p.gsStd
  let asStd ← opt3 p.asStd
  let abStd ← opt3 p.abStd
  let gbIni ← opt3 p.gbIni
  let gsIni ← opt3 p.gsIni
  let abIni ← opt3 p.abIni
  let asIni ← opt3 p.asIni
  let gt ← p.gtCorr
  let at_ ← p.atCorr
  return { arw := Fl.f32 (arw * deg / Fl.lit 60)
           vrw := Fl.f32 (vrw / Fl.lit 60)
           abIni := fun i => Fl.f32 (abIni i * mGal)
           gbIni := fun i => Fl.f32 (gbIni i * deg / hour)
           asIni := fun i => Fl.f32 (asIni i * ppm)
           gsIni := fun i => Fl.f32 (gsIni i * ppm)
           abStd := fun i => Fl.f32 (abStd i * mGal)
           gbStd := fun i => Fl.f32 (gbStd i * deg / hour)
           gsStd := fun i => Fl.f32 (gsStd i * ppm)
           asStd := fun i => Fl.f32 (asStd i * ppm)
           atCorr := Fl.f32 (at_ * hour)
           gtCorr := Fl.f32 (gt * hour) }

/-- `Config::LoadImuPara`, Config.cpp:283-310. The file is `none` if it cannot be opened or parsed. Every
exception leaves the configuration as it was. -/
def loadImuPara (files : String → Option (ParaFile α)) (c : Config α) : Bool × Config α :=
  match files c.imu.parameterPath with
  | none => (false, c)
  | some p => match readPara p with
    | none => (false, c)
    | some q => (true, { c with imu := { c.imu with para := q } })

/-- `Config::LoadFrom`, Config.cpp:160-247; `none` is an exception. `files` are the parameter files. -/
def loadFrom (files : String → Option (ParaFile α)) (c : Config α) (y : Yaml α) : Option (Config α) := do
  let startTime ← y.num .startTime
  let stopTime ← y.num .stopTime
  let enableRts ← y.bool .enableRts
  let outPath ← y.str .outPath
  let outFormat ← y.int .outFormat
  let outProject ← y.bool .outProject
  let outPos ← y.num3 .outPos
  let outAtti ← y.num3 .outAtti
  let imuPath ← y.str .imuPath
  let imuRate ← y.int .imuRate
  let imuFormat ← y.int .imuFormat
  let imuPara ← y.str .imuPara
  let imuFrame ← y.int .imuFrame
  let gnssEnable ← y.bool .gnssEnable
  let gnssPath ← y.str .gnssPath
  let gnssFormat ← y.int .gnssFormat
  let gnssScale ← y.num .gnssScale
  let gnssArm ← y.num3 .gnssArm
  let gnssDouble ← y.bool .gnssDouble
  let gnssPitch ← y.num .gnssPitch
  let gnssYaw ← y.num .gnssYaw
  let odoEnable ← y.bool .odoEnable
  let odoStd ← y.num .odoStd
  let odoPath ← y.str .odoPath
  let odoNhc ← y.bool .odoNhc
  let nhc0 ← y.num (.odoNhcStd 0)
  let nhc1 ← y.num (.odoNhcStd 1)
  let odoAngle ← y.num3 .odoAngle
  let odoArm ← y.num3 .odoArm
  let odoScale ← y.num .odoScale
  let odoScaleStd ← y.num .odoScaleStd
  let c0 ← y.int (.gnssColumns 0)
  let c1 ← y.int (.gnssColumns 1)
  let c2 ← y.int (.gnssColumns 2)
  let zuptEnable ← y.bool .zuptEnable
  let zuptaEnable ← y.bool .zuptaEnable
  let zuptStd ← y.num .zuptStd
  let zuptaStd ← y.num .zuptaStd
  let zuptWindow ← y.int .zuptWindow
  let zuptWide ← y.int .zuptWide
  let zuptThreshold ← y.num .zuptThreshold
  let alignMode ← y.int .alignMode
  let alignVel ← y.num .alignVel
  let week ← y.int .pvaWeek
  let gpst ← y.num .pvaGpst
  let lat ← y.num .pvaLat
  let lon ← y.num .pvaLon
  let height ← y.num .pvaHeight
  let vn ← y.num3 .pvaVn
  let atti ← y.num3 .pvaAtti
  let outageEnable ← y.bool .outageEnable
  let outageStart ← y.num .outageStart
  let outageStop ← y.num .outageStop
  let outageStep ← y.num .outageStep
  let outageLen ← y.num .outageLen
  let pressEnable ← y.bool .pressEnable
  let pressPath ← y.str .pressPath
  let pressStd ← y.num .pressStd
  let r : Config α :=
    { startTime := startTime, stopTime := stopTime, enableRts := enableRts
      gnss := { enable := gnssEnable, filePath := gnssPath, format := gnssFormat
                index := fun i => if i = 0 then c0 else if i = 1 then c1 else if i = 2 then c2 else c.gnss.index i
                doubleAntenna := gnssDouble, levelArm := gnssArm, pitch := gnssPitch, yaw := gnssYaw, scaleOfStd := gnssScale }
      imu := { filePath := imuPath, format := imuFormat, frame := imuFrame, dRate := imuRate, parameterPath := imuPara, para := c.imu.para }
      odo := { enable := odoEnable, filePath := odoPath, odometerStd := odoStd, nhcEnable := odoNhc
               nhcStd := fun i => if i = 0 then nhc0 else nhc1
               angleBv := odoAngle, wheelLevelArm := odoArm, scaleFactor := odoScale, scaleFactorStd := odoScaleStd }
      zupt := { zuptEnable := zuptEnable, zuptaEnable := zuptaEnable, zuptStd := zuptStd, zuptaStd := zuptaStd, zuptWindow := zuptWindow, staticWide := zuptWide, threshold := zuptThreshold }
      align := { mode := alignMode, velThreshold := alignVel
                 initPva := { c.align.initPva with week := week, gpst := gpst, lat := lat, lon := lon, height := height, vn := vn, atti := atti } }
      outage := { enable := outageEnable, start := outageStart, stop := outageStop, step := outageStep, outage := outageLen }
      output := { filePath := outPath, format := outFormat, projectEnable := outProject, posProject := outPos, attiProject := outAtti }
      press := { enable := pressEnable, filePath := pressPath, heightStd := pressStd } }
  return (loadImuPara files r).2

/-- A `bool` stored in an `int` (assignments of Config.cpp:249-281). -/
def b2i (b : Bool) : Int := if b then 1 else 0

/-- `Config::GetOption`, Config.cpp:249-281. Members without initialiser (`pos_std`, `vel_std`,
`atti_std`) are zero. -/
def getOption (c : Config α) : Opt α :=
  { imuPara := c.imu.para, dRate := c.imu.dRate, alignMode := c.align.mode, alignVelThreshold := c.align.velThreshold
    enableGnss := b2i c.gnss.enable, lbGnss := c.gnss.levelArm, gnssStdScale := c.gnss.scaleOfStd
    nhcEnable := b2i c.odo.nhcEnable, nhcStd := c.odo.nhcStd
    zuptEnable := b2i c.zupt.zuptEnable, zuptStd := c.zupt.zuptStd
    zuptaEnable := b2i c.zupt.zuptaEnable, zuptaStd := c.zupt.zuptaStd
    odoEnable := b2i c.odo.enable, odoStd := c.odo.odometerStd, odoScale := c.odo.scaleFactor, odoScaleStd := c.odo.scaleFactorStd
    lbWheel := c.odo.wheelLevelArm
    angleBv := fun i => Fl.f32 (c.odo.angleBv i * Fl.f32 deg)
    posStd := zero3, velStd := zero3, attiStd := zero3
    outputProjectEnable := b2i c.output.projectEnable
    posProject := c.output.posProject
    attiProject := fun i => Fl.f32 (c.output.attiProject i * Fl.f32 deg)
    enableRts := b2i c.enableRts }
end Config
end Verif
