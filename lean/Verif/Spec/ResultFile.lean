import Verif.Spec.Coasting
import Verif.Model.Pipeline
/-! Vocabulary for the result file of a post-processing run on inertial samples alone. -/
namespace Verif.Spec
open Verif
variable {α : Type} [Add α] [Sub α] [Mul α] [Neg α] [Div α] [Zero α] [One α] [Fl α]

/-- The samples the program navigates with: those after the first one that is not earlier than the configured start time. -/
def navigated (cfg : Config α) (samples : List (ImuRec α)) : List (Imu α) :=
  ((samples.dropWhile fun r => Fl.lt r.time cfg.startTime).drop 1).map fun r => ⟨r.time, r.gyro, r.acce⟩

/-- A configuration that makes the program navigate from given values on its inertial samples alone, read as text in the body frame of
the library: no GNSS file, start from given values, no zero-velocity updates, no non-holonomic constraint (or an odometer instead of it),
results for the centre of the sensors, a positive sampling rate. -/
structure InertialOnly (cfg : Config α) : Prop where
  noGnss : cfg.gnss.enable = false
  text : cfg.imu.format = 0
  frame : cfg.imu.frame = 0
  given : cfg.align.mode = 2
  noZupt : cfg.zupt.zuptEnable = false
  noNhc : cfg.odo.nhcEnable = false ∨ cfg.odo.enable = true
  centre : cfg.output.projectEnable = false
  rate : 0 < cfg.imu.dRate
end Verif.Spec
