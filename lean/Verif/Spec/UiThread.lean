import Verif.Model.UiThread
/-! What a user of the window program sees of a run (for C181-C185). -/
namespace Verif.Spec.UiRun
open Verif UiThread
variable {α : Type}

/-- The samples handed to the filter, in order. -/
def samples : List (Ev α) → List (Imu α)
  | [] => []
  | .time i :: l => i :: samples l
  | _ :: l => samples l

/-- The fixes handed to the filter, in order. -/
def fixes : List (Ev α) → List (Gnss α)
  | [] => []
  | .fix g :: l => g :: fixes l
  | _ :: l => fixes l

/-- The speeds handed to the filter, in order. -/
def speeds : List (Ev α) → List α
  | [] => []
  | .odo v :: l => v :: speeds l
  | _ :: l => speeds l

/-- Numerator and denominator of the numbers sent to the progress bar while the run goes on. -/
def progress : List (Ev α) → List (α × α)
  | [] => []
  | .status x y :: l => (x, y) :: progress l
  | _ :: l => progress l

/-- The run has come to its regular end. -/
def Completed (l : List (Ev α)) : Prop := Ev.done ∈ l
/-- The run has left the defined behaviour of C++. -/
def Undefined (l : List (Ev α)) : Prop := Ev.undef ∈ l
/-- The window has been told that the run failed. -/
def ToldFailure (l : List (Ev α)) : Prop := Ev.log .imuTooShort ∈ l ∨ Ev.log .alignFailed ∈ l

variable [Fl α]
/-- The IMU file reaches the start time with sample `i`, after which `l` is left. -/
def StartsAt (start : α) (file : Option (List (Imu α))) (i : Imu α) (l : List (Imu α)) : Prop :=
  ∃ pre, file = some (pre ++ i :: l) ∧ (∀ x ∈ pre, Fl.lt x.gpst start = true) ∧ Fl.lt i.gpst start = false

/-- The file exists and has a record that is not before `t`. -/
def Reaches {β : Type} (time : β → α) (t : α) (file : Option (List β)) : Prop :=
  ∃ l, file = some l ∧ ∃ x ∈ l, Fl.lt (time x) t = false
end Verif.Spec.UiRun
