import Verif.Model.Config
/-! Model of the configuration window, `/repo/App/UiDataFusion/datafusionwindow.cpp` and `datafusionwindow.h`:
reading the form at Start (31-151), showing a configuration (200-252), opening and saving a configuration
file (342-355). This program is not part of the top-level build; its reader interface is an older one.

The contents of the text boxes are strings; converting them (`QString::toFloat`, `toInt`, `number`) is Qt's and
enters as the functions of `Qt`. Not modelled: the greying out of widgets, fonts, file choosers, the log of glog. -/
namespace Verif
variable {α : Type} [Add α] [Sub α] [Mul α] [Neg α] [Div α] [Zero α] [One α] [Fl α]

/-- The Qt functions used in datafusionwindow.cpp:35-132, 200-244: `toFloat(&ok)` and `toInt(&ok)` give a number
and `ok`; `QString::number` gives a text. -/
structure Qt (α : Type) where
  toFloat : String → α × Bool
  toInt : String → Int × Bool
  number : α → String
  numberI : Int → String

/-- The widgets of the window that `on_btnStart_clicked` or `InitialUi` touch, datafusionwindow.cpp:31-132,
200-244. Combo boxes hold `currentIndex`. -/
structure Form where
  imuPath : String
  imuFormat : Int
  imuFrame : Int
  imuRate : String
  imuParaPath : String
  gnssPath : String
  gnssFormat : Int
  gnssArm : Fin 3 → String
  doubleAntenna : Bool
  antennaPitch : String
  antennaYaw : String
  odoEnable : Bool
  odoPath : String
  odoStd : String
  odoScale : String
  odoScaleStd : String
  nhcEnable : Bool
  nhcStd : Fin 2 → String
  angleBv : Fin 3 → String
  odoArm : Fin 3 → String
  zuptEnable : Bool
  zuptStd : String
  zuptaEnable : Bool
  zuptaStd : String
  alignMode : Int
  velThreshold : String
  outageEnable : Bool
  outageStart : String
  outageStop : String
  outageStep : String
  outageLen : String
  startTime : String
  stopTime : String
  outputPath : String

/-- An entry of the log list of the window, datafusionwindow.cpp:134-136, 142-143, 153-163. -/
inductive LogLine
  | invalid (text : String)
  | badForm
  | badPara
  deriving DecidableEq

/-- `DataFusionWindow`, datafusionwindow.h:26-30: the configuration, the form, the log list, and the
configurations of the processing threads started so far (datafusionwindow.cpp:147-150; `fusion_thread` is
overwritten at each start, the earlier threads keep running). -/
structure Window (α : Type) where
  cfg : Config α
  form : Form
  log : List LogLine
  threads : List (Config α)

namespace Form
/-- Three floats of the form (`toFloat` of three fields, as in datafusionwindow.cpp:48-52). -/
def float3 (q : Qt α) (t : Fin 3 → String) : V3 α := fun i => (q.toFloat (t i)).1

/-- The assignments of `on_btnStart_clicked`, datafusionwindow.cpp:35-132: `config_` after the form was read.
The file format enumerations and the align mode are the indices of their combo boxes (43, 47, 112). -/
def read (q : Qt α) (f : Form) (c : Config α) : Config α :=
  let v := fun t => (q.toFloat t).1
  { c with
    startTime := v f.startTime
    stopTime := v f.stopTime
    output := { c.output with filePath := f.outputPath }
    imu := { c.imu with
      filePath := f.imuPath, dRate := (q.toInt f.imuRate).1, format := f.imuFormat, parameterPath := f.imuParaPath }
    gnss := { c.gnss with
      filePath := f.gnssPath, format := f.gnssFormat, levelArm := float3 q f.gnssArm, doubleAntenna := f.doubleAntenna
      pitch := if f.doubleAntenna then v f.antennaPitch else c.gnss.pitch
      yaw := if f.doubleAntenna then v f.antennaYaw else c.gnss.yaw }
    odo := { c.odo with
      enable := f.odoEnable
      filePath := if f.odoEnable then f.odoPath else c.odo.filePath
      odometerStd := if f.odoEnable then v f.odoStd else c.odo.odometerStd
      nhcEnable := f.nhcEnable
      nhcStd := fun i => if f.nhcEnable then v (f.nhcStd i) else c.odo.nhcStd i
      angleBv := fun i => if f.odoEnable || f.nhcEnable then v (f.angleBv i) else c.odo.angleBv i
      wheelLevelArm := fun i => if f.odoEnable || f.nhcEnable then v (f.odoArm i) else c.odo.wheelLevelArm i
      scaleFactor := if f.odoEnable || f.nhcEnable then v f.odoScale else c.odo.scaleFactor
      scaleFactorStd := if f.odoEnable || f.nhcEnable then v f.odoScaleStd else c.odo.scaleFactorStd }
    zupt := { c.zupt with
      zuptEnable := f.zuptEnable, zuptStd := if f.zuptEnable then v f.zuptStd else c.zupt.zuptStd
      zuptaEnable := f.zuptaEnable, zuptaStd := if f.zuptaEnable then v f.zuptaStd else c.zupt.zuptaStd }
    align := { c.align with
      mode := f.alignMode, velThreshold := if f.alignMode = 0 then v f.velThreshold else c.align.velThreshold }
    outage := {
      enable := f.outageEnable
      start := if f.outageEnable then v f.outageStart else c.outage.start
      stop := if f.outageEnable then v f.outageStop else c.outage.stop
      step := if f.outageEnable then v f.outageStep else c.outage.step
      outage := if f.outageEnable then v f.outageLen else c.outage.outage } }

/-- The texts given to `OnConvertResult` with the flag of their conversion, in the order of
datafusionwindow.cpp:36-131. Lines 68, 69, 98 and 99 convert the scale factor texts without this check. -/
def checked (q : Qt α) (f : Form) : List (String × Bool) :=
  let r := fun t => (t, (q.toFloat t).2)
  [r f.startTime, r f.stopTime, (f.imuRate, (q.toInt f.imuRate).2)]
  ++ [r (f.gnssArm 0), r (f.gnssArm 1), r (f.gnssArm 2)]
  ++ (if f.doubleAntenna then [r f.antennaPitch, r f.antennaYaw] else [])
  ++ (if f.odoEnable then [r f.odoStd] else [])
  ++ (if f.nhcEnable then [r (f.nhcStd 0), r (f.nhcStd 1)] else [])
  ++ (if f.odoEnable || f.nhcEnable then
        [r (f.angleBv 0), r (f.angleBv 1), r (f.angleBv 2), r (f.odoArm 0), r (f.odoArm 1), r (f.odoArm 2)] else [])
  ++ (if f.zuptEnable then [r f.zuptStd] else [])
  ++ (if f.zuptaEnable then [r f.zuptaStd] else [])
  ++ (if f.alignMode = 0 then [r f.velThreshold] else [])
  ++ (if f.outageEnable then [r f.outageStart, r f.outageStop, r f.outageStep, r f.outageLen] else [])

/-- `QComboBox::setCurrentIndex` for a box of `n` items, as used at datafusionwindow.cpp:203, 204, 209, 238: an
index the box does not have leaves it without a current item (index -1). -/
def combo (n i : Int) : Int := if 0 ≤ i ∧ i < n then i else -1

/-- `InitialUi`, datafusionwindow.cpp:200-244: the form shows the configuration. The boxes for the IMU format, the
IMU frame and the GNSS format have two items, the box for the align mode three (DataFusionWindow.ui). The former
contents are all replaced. -/
def ofConfig (q : Qt α) (c : Config α) : Form :=
  { imuPath := c.imu.filePath, imuFormat := combo 2 c.imu.format, imuFrame := combo 2 c.imu.frame
    imuRate := q.numberI c.imu.dRate, imuParaPath := c.imu.parameterPath
    gnssPath := c.gnss.filePath, gnssFormat := combo 2 c.gnss.format
    gnssArm := fun i => q.number (c.gnss.levelArm i)
    doubleAntenna := c.gnss.doubleAntenna, antennaPitch := q.number c.gnss.pitch, antennaYaw := q.number c.gnss.yaw
    odoEnable := c.odo.enable, odoPath := c.odo.filePath, odoStd := q.number c.odo.odometerStd
    odoScale := q.number c.odo.scaleFactor, odoScaleStd := q.number c.odo.scaleFactorStd
    nhcEnable := c.odo.nhcEnable, nhcStd := fun i => q.number (c.odo.nhcStd i)
    angleBv := fun i => q.number (c.odo.angleBv i), odoArm := fun i => q.number (c.odo.wheelLevelArm i)
    zuptEnable := c.zupt.zuptEnable, zuptStd := q.number c.zupt.zuptStd
    zuptaEnable := c.zupt.zuptaEnable, zuptaStd := q.number c.zupt.zuptaStd
    alignMode := combo 3 c.align.mode, velThreshold := q.number c.align.velThreshold
    outageEnable := c.outage.enable, outageStart := q.number c.outage.start, outageStop := q.number c.outage.stop
    outageStep := q.number c.outage.step, outageLen := q.number c.outage.outage
    startTime := q.number c.startTime, stopTime := q.number c.stopTime, outputPath := c.output.filePath }
end Form

namespace Window
/-- `on_btnStart_clicked`, datafusionwindow.cpp:31-151. `files` are the IMU parameter files. -/
def start (q : Qt α) (files : String → Option (Config.ParaFile α)) (w : Window α) : Window α :=
  let c1 := w.form.read q w.cfg
  let wrong := ((w.form.checked q).filter (fun t => !t.2)).map (fun t => LogLine.invalid t.1)
  if wrong ≠ [] then { w with cfg := c1, log := w.log ++ wrong ++ [.badForm] }
  else
    let p := Config.loadImuPara files c1
    if p.1 then { w with cfg := p.2, threads := w.threads ++ [p.2] }
    else { w with cfg := p.2, log := w.log ++ [.badPara] }

/-- `on_actOpenConfigFile_triggered`, datafusionwindow.cpp:342-348. The document is `none` if the chosen file cannot
be read, in particular if the dialog is cancelled (an empty name); `none` as the result: the exception of yaml-cpp,
which nobody catches, ends the program. -/
def openFile (q : Qt α) (files : String → Option (Config.ParaFile α)) (doc : Option (Yaml α)) (w : Window α) :
    Option (Window α) :=
  match doc with
  | none => none
  | some y => match Config.loadFrom files w.cfg y with
    | none => none
    | some c => some { w with cfg := c, form := Form.ofConfig q c }

/-- `on_actSaveConfigFile_triggered`, datafusionwindow.cpp:350-355: the document written. -/
def saveFile (toInt : α → Int) (w : Window α) : Yaml α := w.cfg.saveTo toInt

/-- `on_btnClearLog_clicked`, datafusionwindow.cpp:338-340. -/
def clearLog (w : Window α) : Window α := { w with log := [] }

/-- What happens to the window (the slots of datafusionwindow.h:46-80): the user edits the form, or uses one of the commands. -/
inductive Event (α : Type)
  | edit (f : Form)
  | start (files : String → Option (Config.ParaFile α))
  | openFile (files : String → Option (Config.ParaFile α)) (doc : Option (Yaml α))
  | clearLog

/-- One event (the slots of datafusionwindow.h:46-80). -/
def step (q : Qt α) (w : Window α) : Event α → Option (Window α)
  | .edit f => some { w with form := f }
  | .start files => some (w.start q files)
  | .openFile files doc => w.openFile q files doc
  | .clearLog => some w.clearLog

/-- A sequence of events of datafusionwindow.cpp; `none`: the program ended by an exception. -/
def run (q : Qt α) : Window α → List (Event α) → Option (Window α)
  | w, [] => some w
  | w, e :: es => match w.step q e with
    | none => none
    | some w1 => run q w1 es
end Window
end Verif
