import Verif.Model.Ui
/-! What the configuration window promises: a run uses what the form shows. -/
namespace Verif.Spec
open Verif
variable {α : Type}

/-- Text `t` is a number, and it is `x`. -/
def isNumber (q : Qt α) (t : String) (x : α) : Prop := q.toFloat t = (x, true)

/-- Configuration `c` is what form `f` shows, for everything the form asks except the IMU frame and the odometer
scale factor. Fields of a group whose box is not ticked are not asked. -/
structure RunsForm (q : Qt α) (f : Form) (c : Config α) : Prop where
  times : isNumber q f.startTime c.startTime ∧ isNumber q f.stopTime c.stopTime
  output : c.output.filePath = f.outputPath
  imu : c.imu.filePath = f.imuPath ∧ c.imu.format = f.imuFormat ∧ c.imu.parameterPath = f.imuParaPath
  rate : q.toInt f.imuRate = (c.imu.dRate, true)
  gnss : c.gnss.filePath = f.gnssPath ∧ c.gnss.format = f.gnssFormat
  arm : ∀ i, isNumber q (f.gnssArm i) (c.gnss.levelArm i)
  antenna : c.gnss.doubleAntenna = f.doubleAntenna ∧ (f.doubleAntenna = true →
    isNumber q f.antennaPitch c.gnss.pitch ∧ isNumber q f.antennaYaw c.gnss.yaw)
  odo : c.odo.enable = f.odoEnable ∧ (f.odoEnable = true →
    c.odo.filePath = f.odoPath ∧ isNumber q f.odoStd c.odo.odometerStd)
  nhc : c.odo.nhcEnable = f.nhcEnable ∧ (f.nhcEnable = true → ∀ i, isNumber q (f.nhcStd i) (c.odo.nhcStd i))
  wheel : (f.odoEnable = true ∨ f.nhcEnable = true) → ∀ i,
    isNumber q (f.angleBv i) (c.odo.angleBv i) ∧ isNumber q (f.odoArm i) (c.odo.wheelLevelArm i)
  zupt : c.zupt.zuptEnable = f.zuptEnable ∧ (f.zuptEnable = true → isNumber q f.zuptStd c.zupt.zuptStd)
  zupta : c.zupt.zuptaEnable = f.zuptaEnable ∧ (f.zuptaEnable = true → isNumber q f.zuptaStd c.zupt.zuptaStd)
  align : c.align.mode = f.alignMode ∧ (f.alignMode = 0 → isNumber q f.velThreshold c.align.velThreshold)
  outage : c.outage.enable = f.outageEnable ∧ (f.outageEnable = true →
    isNumber q f.outageStart c.outage.start ∧ isNumber q f.outageStop c.outage.stop ∧
    isNumber q f.outageStep c.outage.step ∧ isNumber q f.outageLen c.outage.outage)

/-- The rest of what a user expects of a run: the frame chosen in the form, and scale factors that are the numbers
typed. -/
structure RunsRest (q : Qt α) (f : Form) (c : Config α) : Prop where
  frame : c.imu.frame = f.imuFrame
  scale : (f.odoEnable = true ∨ f.nhcEnable = true) →
    isNumber q f.odoScale c.odo.scaleFactor ∧ isNumber q f.odoScaleStd c.odo.scaleFactorStd

/-- The floating-point numbers of a configuration that the form shows. -/
def shownNumbers (c : Config α) : List α :=
  [c.startTime, c.stopTime, c.gnss.levelArm 0, c.gnss.levelArm 1, c.gnss.levelArm 2, c.gnss.pitch, c.gnss.yaw,
   c.odo.odometerStd, c.odo.scaleFactor, c.odo.scaleFactorStd, c.odo.nhcStd 0, c.odo.nhcStd 1,
   c.odo.angleBv 0, c.odo.angleBv 1, c.odo.angleBv 2,
   c.odo.wheelLevelArm 0, c.odo.wheelLevelArm 1, c.odo.wheelLevelArm 2, c.zupt.zuptStd, c.zupt.zuptaStd,
   c.align.velThreshold, c.outage.start, c.outage.stop, c.outage.step, c.outage.outage]

/-- Qt reads back what it shows, for the numbers of the configuration: none of them loses a digit. -/
structure ReadsBack (q : Qt α) (c : Config α) : Prop where
  float : ∀ x ∈ shownNumbers c, q.toFloat (q.number x) = (x, true)
  int : q.toInt (q.numberI c.imu.dRate) = (c.imu.dRate, true)

/-- Qt gives 0 for a text that is not a number. -/
def failsZero [Zero α] (q : Qt α) : Prop := ∀ t, (q.toFloat t).2 = false → (q.toFloat t).1 = 0

/-- Every choice of the configuration is an item of its combo box. -/
def choosable (c : Config α) : Prop :=
  (0 ≤ c.imu.format ∧ c.imu.format < 2) ∧ (0 ≤ c.gnss.format ∧ c.gnss.format < 2) ∧
  (0 ≤ c.align.mode ∧ c.align.mode < 3)
end Verif.Spec
