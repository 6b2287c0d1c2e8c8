import Verif.Model.OdoGen
import Verif.Spec.Rotation
/-! What a user puts into and expects of the odometer generator. -/
namespace Verif.Spec
open Verif OdoGen
variable {α : Type}

/-- A number of a navigation file written with a point: the digits before the point, the value of the rest, its value. -/
structure Decimal (α : Type) where
  whole : Int
  frac : α
  value : α

/-- The word that shows it. -/
def Decimal.word (d : Decimal α) : Word α := .dec d.whole d.frac d.value

/-- The numbers of a record: week, time, position, velocity, attitude. -/
structure NavRow (α : Type) where
  week : Int
  weekValue : α
  time : Decimal α
  lat : Decimal α
  lon : Decimal α
  height : Decimal α
  v0 : Decimal α
  v1 : Decimal α
  v2 : Decimal α
  a0 : Decimal α
  a1 : Decimal α
  a2 : Decimal α
  mode : Int
  modeValue : α
  sensors : Int
  sensorsValue : α

/-- The integers a C++ `int` holds. -/
def intRange (n : Int) : Prop := -2147483648 ≤ n ∧ n ≤ 2147483647

/-- Every number that has to be read as an integer, in part or as a whole, fits. -/
def NavRow.fits (r : NavRow α) : Prop :=
  intRange r.week ∧ intRange r.mode ∧ intRange r.lon.whole ∧ intRange r.v1.whole ∧ intRange r.a1.whole

/-- A line with the eleven numbers the generator reads. -/
def eleven (r : NavRow α) : List (Word α) :=
  [.int r.week r.weekValue, r.time.word, r.lat.word, r.lon.word, r.height.word, r.v0.word, r.v1.word, r.v2.word,
   r.a0.word, r.a1.word, r.a2.word]

/-- A line of a result file of this project: the same and two integers, fix mode and sensors. -/
def thirteen (r : NavRow α) : List (Word α) := eleven r ++ [.int r.mode r.modeValue, .int r.sensors r.sensorsValue]

/-- The elements number 0, `k`, 2`k`, … of a list. -/
def everyNth {β : Type} (k : Nat) (l : List β) : List β := (l.zipIdx.filter fun p => p.2 % k = 0).map Prod.fst

/-- The velocity in the vehicle frame for the attitude (roll, pitch, heading in degrees) and the velocity north-east-down of a row. -/
noncomputable def vehicleVelocity (roll pitch heading : ℝ) (v : V3 ℝ) : V3 ℝ :=
  (Rz (-(4 * (Real.pi / 180))) * Ry (-(2 * (Real.pi / 180))) * Rx (-(3 * (Real.pi / 180)))).mulVec
    ((Rz (heading * (Real.pi / 180)) * Ry (pitch * (Real.pi / 180)) * Rx (roll * (Real.pi / 180))).transpose.mulVec v)

/-- A line of the odometer file: time, forward speed divided by the scale factor 1.4, downward and rightward speed. -/
noncomputable def odometerLine (time roll pitch heading : ℝ) (v : V3 ℝ) : ℝ × ℝ × ℝ × ℝ :=
  let u := vehicleVelocity roll pitch heading v
  (time, u 0 / 1.4, u 2, u 1)

/-- The line that belongs to a row. -/
noncomputable def rowOdometer (r : NavRow ℝ) : ℝ × ℝ × ℝ × ℝ :=
  odometerLine r.time.value r.a0.value r.a1.value r.a2.value ![r.v0.value, r.v1.value, r.v2.value]

/-- A line made of the wrong columns: the digits of the longitude after the point as the time, the down velocity, roll and
pitch as the velocity, heading, fix mode and sensors as the attitude. -/
noncomputable def strayOdometer (r : NavRow ℝ) : ℝ × ℝ × ℝ × ℝ :=
  odometerLine r.lon.frac r.a2.value r.modeValue r.sensorsValue ![r.v2.value, r.a0.value, r.a1.value]
end Verif.Spec
