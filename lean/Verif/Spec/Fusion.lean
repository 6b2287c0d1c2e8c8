import Verif.Spec.Api
/-! Vocabulary for histories of the fusion object `DataFusion` (the class behind the C API, also used
directly by the applications): its public calls, DataFusion.h:84-133. -/
namespace Verif.Spec
open Verif
variable {α : Type} [Add α] [Sub α] [Mul α] [Neg α] [Div α] [Zero α] [One α] [Fl α]

/-- A public call of `DataFusion` after `Initialize`, DataFusion.h:91-126. -/
inductive FCall (α : Type)
  | time (m : Imu α)
  | gnss (m : Gnss α)
  | pos (p : V3 α) (R : M3 α)
  | vel (v : V3 α)
  | speed (v : α)
  | height (h : α)

/-- Its effect on gravity and filter. -/
def FCall.exec (c : FCall α) (s : α × Fusion α) : α × Fusion α :=
  match c with
  | .time m => s.2.timeUpdate s.1 m
  | .gnss m => (s.1, s.2.measureGnss m)
  | .pos p R => (s.1, s.2.measurePos p R)
  | .vel v => (s.1, s.2.measureVel v)
  | .speed v => (s.1, s.2.measureForwardVel v)
  | .height h => (s.1, s.2.measureRelativeHeight h)

/-- A whole history. -/
def frun (cs : List (FCall α)) (s : α × Fusion α) : α × Fusion α := cs.foldl (fun s c => c.exec s) s

/-- The IMU samples in a history. -/
def fimus : List (FCall α) → List (Imu α)
  | [] => []
  | .time m :: cs => m :: fimus cs
  | _ :: cs => fimus cs

/-- The relative heights in a history. -/
def fheights : List (FCall α) → List α
  | [] => []
  | .height h :: cs => h :: fheights cs
  | _ :: cs => fheights cs

/-- A filter just constructed and initialised. -/
def fstart (g : α) (junk : Fusion α) (nav : NavEpoch α) (o : Opt α) : α × Fusion α :=
  (Fusion.new junk).initFusion g nav o

/-- The fix qualities that are fused: SPP, DGPS, RTK fix, RTK float (numbers as in the public header). -/
def usable (mode : Int) : Prop := mode = 1 ∨ mode = 2 ∨ mode = 4 ∨ mode = 5

/-- A history without usable fix. -/
def noFix (cs : List (FCall α)) : Prop := ∀ m, FCall.gnss m ∈ cs → ¬ usable m.mode

/-- A ZUPT is due: enabled, vehicle static, epoch number not a multiple of 8. -/
def zuptDue (o : Opt α) (epoch : Nat) (static : Prop) : Prop := o.zuptEnable ≠ 0 ∧ static ∧ epoch % 8 ≠ 0
/-- An NHC update is due: enabled, no odometer, epoch number 1 modulo 32. -/
def nhcDue (o : Opt α) (epoch : Nat) : Prop := o.nhcEnable ≠ 0 ∧ o.odoEnable = 0 ∧ epoch % 32 = 1

/-- Forget the info field of an answer. -/
def noInfo : Answer α → Answer α
  | .pva e p => .pva e { p with info := ⟨0, 0⟩ }
  | a => a

/-- A flag is set in a sensor word. -/
def has (sensors flag : BitVec 16) : Prop := sensors &&& flag ≠ 0
end Verif.Spec
