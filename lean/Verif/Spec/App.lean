import Verif.Model.DataManager
/-! Specification vocabulary for the applications: merging two recorded sources. -/
namespace Verif.Spec
open Verif
variable {α : Type} [Fl α]

/-- The comparison `<` behaves like an order on the numbers satisfying `S` (IEEE: everything but NaN). -/
structure Ordered (S : α → Prop) : Prop where
  asymm : ∀ a b, S a → S b → Fl.lt a b = true → Fl.lt b a = false
  trans : ∀ a b c, S a → S b → S c → Fl.lt b a = false → Fl.lt c b = false → Fl.lt c a = false

/-- No later record is earlier than an earlier one. -/
def sortedRecs (xs : List (Rec α)) : Prop := xs.Pairwise fun a b => Fl.lt b.time a.time = false

/-- The IMU records of a sequence. -/
def imuPart (xs : List (Rec α)) : List (ImuRec α) :=
  xs.filterMap fun | .imu r => some r | .gnss _ => none
/-- The GNSS records of a sequence. -/
def gnssPart (xs : List (Rec α)) : List (GnssRec α) :=
  xs.filterMap fun | .imu _ => none | .gnss r => some r

/-- Two sources merged by time, IMU first at equal times, until one of them is used up. -/
def merge : List (ImuRec α) → List (GnssRec α) → List (Rec α)
  | [], _ => []
  | _ :: _, [] => []
  | i :: is, g :: gs =>
    if Fl.lt g.time i.time then .gnss g :: merge (i :: is) gs else .imu i :: merge is (g :: gs)
termination_by is gs => is.length + gs.length
end Verif.Spec
