import Verif.Spec.FilterFlight
import Verif.Spec.App
import Verif.Model.Pipeline
/-! Vocabulary for the result file of a post-processing run on a file of samples and a file of fixes. -/
namespace Verif.Spec
open Verif
variable {α : Type} [Add α] [Sub α] [Mul α] [Neg α] [Div α] [Zero α] [One α] [Fl α]

/-- The records the program uses: samples and fixes merged by time, those after the first one that is not earlier than the configured
start time. -/
def usedRecords (cfg : Config α) (fixes : List (GnssRec α)) (samples : List (ImuRec α)) : List (Rec α) :=
  ((merge samples fixes).dropWhile fun r => Fl.lt r.time cfg.startTime).drop 1

/-- The fixes of a seven-column file as records: single point fixes. -/
def fixRecords (fixes : List (GnssFields α)) : List (GnssRec α) := fixes.map fun x => ⟨x.time, x.lat, x.lon, x.height, x.std, 1#32⟩

/-- Whether the configured outage hides a fix. -/
def hidden (cfg : Config α) (o : Outage α) (x : GnssRec α) : Bool := cfg.outage.enable && o.isOutage x.time

/-- A fix as the filter is given it. -/
def asFix (r : GnssRec α) : Gnss α := ⟨r.lat, r.lon, r.height, r.posStd, r.time, 1⟩

/-- The calls the records stand for: samples as they are, fixes unless hidden. -/
def callsFor (hide : GnssRec α → Bool) : List (Rec α) → List (Call α)
  | [] => []
  | .imu r :: rs => .time (some ⟨r.time, r.gyro, r.acce⟩) :: callsFor hide rs
  | .gnss r :: rs => if hide r then callsFor hide rs else .gnss (some (asFix r)) :: callsFor hide rs

/-- A configuration that makes the program start from given values and navigate on a text file of samples in the body frame of the library
and a seven-column file of fixes: no zero-velocity updates, no non-holonomic constraint (or an odometer instead of it), results for the
centre of the sensors, a positive sampling rate. -/
structure WithFixes (cfg : Config α) : Prop where
  gnss : cfg.gnss.enable = true
  columns : cfg.gnss.format = 0
  text : cfg.imu.format = 0
  frame : cfg.imu.frame = 0
  given : cfg.align.mode = 2
  noZupt : cfg.zupt.zuptEnable = false
  noNhc : cfg.odo.nhcEnable = false ∨ cfg.odo.enable = true
  centre : cfg.output.projectEnable = false
  rate : 0 < cfg.imu.dRate
end Verif.Spec
