import Verif.Num
/-! Model of `/repo/Src/Outage.cpp`: simulated GNSS outages. `float` parameters and `double` loop
variable are both `α`. -/
namespace Verif
variable {α : Type} [Add α] [Sub α] [Mul α] [Neg α] [Div α] [Zero α] [One α] [Fl α]

/-- `class Outage`, Outage.h:14-18. -/
structure Outage (α : Type) where
  starts : List α
  outage : α
  flagEnable : Bool

namespace Outage
/-- The loop of the constructor, Outage.cpp:17-20: `i` is the loop variable. `none`: still running
after `fuel` tests of the loop condition. -/
def loop (stop step : α) : Nat → α → Option (List α)
  | 0, _ => none
  | fuel + 1, i => if Fl.lt i stop then (loop stop step fuel (i + step)).map (i :: ·) else some []

/-- The test that disables the object, Outage.cpp:12. -/
def rejected (start stop outage step : α) : Bool :=
  (Fl.lt stop start && Fl.lt 0 stop) || Fl.lt outage 0 || Fl.lt step outage

/-- The constructor, Outage.cpp:11-21. `none`: still running after `fuel` tests of the loop condition. -/
def make (fuel : Nat) (start stop outage step : α) : Option (Outage α) :=
  if rejected start stop outage step then some ⟨[], outage, false⟩
  else (loop stop step fuel start).map fun s => ⟨s, outage, true⟩

/-- The default constructor, Outage.cpp:38-41. -/
def default : Outage α := ⟨[], 0, false⟩

/-- The search of `IsOutage`, Outage.cpp:30-35. -/
def search (outage gpst : α) : List α → Bool
  | [] => false
  | s :: ss => if Fl.le gpst (s + outage) then Fl.le s gpst else search outage gpst ss

/-- `Outage::IsOutage`, Outage.cpp:26-36. -/
def isOutage (o : Outage α) (gpst : α) : Bool :=
  if !o.flagEnable then false else search o.outage gpst o.starts
end Outage
end Verif
