import Verif.Spec.Fusion
import Verif.Spec.RoundedFlight
/-! Vocabulary for an instance of the C interface that navigates on its inertial sensors alone. -/
namespace Verif.Spec
open Verif Verif.Convert Matrix
variable {α : Type} [Add α] [Sub α] [Mul α] [Neg α] [Div α] [Zero α] [One α] [Fl α]

/-- The mechanization alone, initialised with given values for a given sampling rate. -/
def coastStart (junk : Ins α) (n : NavOutput α) (o : Opt α) : Ins α := ((Ins.new junk).initializePva (makeNavEpoch n o) o.dRate).2

/-- Options under which no aid is applied: zero-velocity updates off, non-holonomic constraint off or replaced by an odometer. -/
def noAids (o : Opt α) : Prop := o.zuptEnable = 0 ∧ (o.nhcEnable = 0 ∨ o.odoEnable ≠ 0)

/-- Degrees to radians. -/
noncomputable def inRad (x : ℝ) : ℝ := x * (Real.pi / 180)

/-- The rotation described by roll, pitch and yaw in degrees: body to north-east-down. -/
noncomputable def rotOf (a : V3 ℝ) : M3 ℝ := Rz (inRad (a 2)) * Ry (inRad (a 1)) * Rx (inRad (a 0))

/-- A navigation result (degrees, metres, metres per second) is within `e` of the true place, velocity and attitude. -/
structure ResultNear (e : ℝ) (n : NavOutput ℝ) (lat lon h : ℝ) (v : V3 ℝ) (C : M3 ℝ) : Prop where
  latitude : |inRad n.lat - lat| ≤ e
  longitude : |inRad n.lon - lon| ≤ e
  height : |n.height - h| ≤ e
  velocity : len (n.vn - v) ≤ e
  attitude : ∀ x, len (rotOf n.atti *ᵥ x - C *ᵥ x) ≤ e * len x

/-- From time `t` on the readings, freed of the configured biases and scale factors, give the mean angular rate and the mean specific force
over every interval to within `δ`. -/
def ReadsNear (δ : ℝ) (p : ImuPara ℝ) (dt : ℝ) (θ α : ℝ → V3 ℝ) : ℝ → List (Imu ℝ) → Prop
  | _, [] => True
  | t, m :: ms =>
    (len ((fun i => (1 - p.gsIni i) * (m.gyro i - p.gbIni i * dt)) - (θ (t + dt) - θ t)) ≤ δ * dt ∧
      len ((fun i => (1 - p.asIni i) * (m.acce i - p.abIni i * dt)) - (α (t + dt) - α t)) ≤ δ * dt) ∧
    ReadsNear δ p dt θ α (t + dt) ms
end Verif.Spec
