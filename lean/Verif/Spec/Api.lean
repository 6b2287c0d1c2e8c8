import Verif.Model.Api
/-! Small specification vocabulary for the API properties. -/
namespace Verif.Spec
open Verif
variable {α : Type} [Add α] [Sub α] [Mul α] [Neg α] [Div α] [Zero α] [One α] [Fl α]

/-- The IMU samples given in a history, in order. -/
def imusOf : List (Call α) → List (Imu α)
  | [] => []
  | .time (some m) :: cs => m :: imusOf cs
  | _ :: cs => imusOf cs

/-- The GNSS fixes given in a history, in order. -/
def fixesOf : List (Call α) → List (Gnss α)
  | [] => []
  | .gnss (some m) :: cs => m :: fixesOf cs
  | _ :: cs => fixesOf cs

/-- A static detector with given threshold, static width and window, fed with samples. -/
def feed (thr : α) (sw win : Int) (xs : List (Imu α)) : Smooth α :=
  xs.foldl Smooth.update (Smooth.new thr sw win)

/-- After the samples `xs` the smoothed acceleration deviation is not above the threshold. -/
def calm (thr : α) (sw win : Int) (xs : List (Imu α)) : Prop :=
  Fl.lt thr (feed thr sw win xs).getStd = false

/-- At each of the last `k` samples of `xs` the deviation was not above the threshold. -/
def calmLast (thr : α) (sw win : Int) (xs : List (Imu α)) (k : Nat) : Prop :=
  k ≤ xs.length ∧ ∀ j < k, calm thr sw win (xs.take (xs.length - j))

/-- Between two fixes the vehicle moved by more than the threshold and less than 1000 m. -/
def moved (threshold : α) (g1 g2 : Gnss α) : Prop :=
  let v := Fl.f32 (vnorm (Earth.distance6 (g2.lat * deg) (g2.lon * deg) (g1.lat * deg) (g1.lon * deg)
    g2.height g1.height))
  Fl.lt threshold v = true ∧ Fl.lt v (Fl.lit 1000) = true
end Verif.Spec
