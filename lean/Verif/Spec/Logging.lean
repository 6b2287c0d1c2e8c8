import Verif.Model.Api
import Verif.Spec.Fusion
/-! What a history of API calls contains, for the recording properties (C103-C106): written with the unrecorded
API only. -/
namespace Verif.Spec.Log
variable {α : Type} [Add α] [Sub α] [Mul α] [Neg α] [Div α] [Zero α] [One α] [Fl α]

/-- The device takes the next IMU sample into the navigation filter: it navigates, or it is about to start from a
given state. -/
def absorbs (d : Dev α) : Prop :=
  d.status = ST_NAVIGATION ∨ (d.status = ST_INIT ∧ d.opt.alignMode = ALIGN_USE_GIVEN)
instance (d : Dev α) : Decidable (absorbs d) := inferInstanceAs (Decidable (_ ∨ _))

/-- The IMU samples the devices navigated with, in the order of the calls, each with what `rgioe_get_result` would
report directly after it. -/
def navigated : List (Nat × Call α) → World α → List (Imu α × NavOutput α)
  | [], _ => []
  | (h, c) :: cs, w =>
    let w' := (w.exec h c).1
    match c with
    | .time (some m) =>
      if absorbs (w.dev h) then (m, (rgioeGetResult (w'.dev h) zeroPva).2) :: navigated cs w' else navigated cs w'
    | _ => navigated cs w'

/-- The GNSS fixes given to navigating devices, in order, each with what `rgioe_get_result` would report directly
before it. -/
def navFixes : List (Nat × Call α) → World α → List (Gnss α × NavOutput α)
  | [], _ => []
  | (h, c) :: cs, w =>
    let w' := (w.exec h c).1
    match c with
    | .gnss (some m) =>
      if (w.dev h).status = ST_NAVIGATION then (m, (rgioeGetResult (w.dev h) zeroPva).2) :: navFixes cs w'
      else navFixes cs w'
    | _ => navFixes cs w'

/-- The answers to `rgioe_get_result`, in order, each with the status the device had. -/
def results : List (Nat × Call α) → World α → List (Int × NavOutput α)
  | [], _ => []
  | (h, c) :: cs, w =>
    let w' := (w.exec h c).1
    match c with
    | .getResult p => (rgioeGetStatus (w.dev h), (rgioeGetResult (w.dev h) p).2) :: results cs w'
    | _ => results cs w'

/-- The fixes given to navigating devices, in order, each with the scale of the deviations the
device's filter was started with. -/
def weighted : List (Nat × Call α) → World α → List (Gnss α × α)
  | [], _ => []
  | (h, c) :: cs, w =>
    let w' := (w.exec h c).1
    match c with
    | .gnss (some m) =>
      if (w.dev h).status = ST_NAVIGATION then (m, (w.dev h).df.opt.gnssStdScale) :: weighted cs w' else weighted cs w'
    | _ => weighted cs w'

/-- The device takes the next IMU sample into its alignment. -/
def aligns (d : Dev α) : Prop :=
  d.status = ST_ALIGN ∨ d.status = ST_ATTITUDE ∨ (d.status = ST_INIT ∧ d.opt.alignMode ≠ ALIGN_USE_GIVEN)
instance (d : Dev α) : Decidable (aligns d) := inferInstanceAs (Decidable (_ ∨ _))

/-- The IMU samples given to aligning devices that had already found roll and pitch, in order, each with the device
after it. -/
def tracked : List (Nat × Call α) → World α → List (Imu α × Dev α)
  | [], _ => []
  | (h, c) :: cs, w =>
    let w' := (w.exec h c).1
    match c with
    | .time (some m) =>
      if aligns (w.dev h) ∧ (w.dev h).am.level = true then (m, w'.dev h) :: tracked cs w' else tracked cs w'
    | _ => tracked cs w'

/-- The fixes given to aligning devices that kept an earlier fix with a deviation, in order: the earlier fix, the new
one and the device after it. -/
def compared : List (Nat × Call α) → World α → List (Gnss α × Gnss α × Dev α)
  | [], _ => []
  | (h, c) :: cs, w =>
    let w' := (w.exec h c).1
    match c with
    | .gnss (some m) =>
      if ((w.dev h).status = ST_ALIGN ∨ (w.dev h).status = ST_ATTITUDE) ∧
          Fl.eq ((w.dev h).am.gnssPre.posStd 0) 0 = false then
        ((w.dev h).am.gnssPre, m, w'.dev h) :: compared cs w'
      else compared cs w'
    | _ => compared cs w'
end Verif.Spec.Log
