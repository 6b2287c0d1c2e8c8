import Verif.Spec.Rotation
/-! What an installation angle should do: turn the velocity so that the vehicle moves straight ahead. -/
namespace Verif.Spec
open Verif

/-- Cross product. -/
def turnBy (θ v : V3 ℝ) : V3 ℝ := ![θ 1 * v 2 - θ 2 * v 1, θ 2 * v 0 - θ 0 * v 2, θ 0 * v 1 - θ 1 * v 0]
/-- How far a velocity, turned by the small rotation `θ`, is from straight ahead: squared sideways plus squared vertical speed. -/
def offTrack (θ v : V3 ℝ) : ℝ := (v 1 + turnBy θ v 1) ^ 2 + (v 2 + turnBy θ v 2) ^ 2
/-- The cost of a small rotation: deviations of 10 m/s for the velocities and √0.4 for the angles. -/
noncomputable def straightCost (vs : List (V3 ℝ)) (θ : V3 ℝ) : ℝ :=
  (θ 0 ^ 2 + θ 1 ^ 2 + θ 2 ^ 2) / (2 / 5) + (vs.map fun v => offTrack θ v / 100).sum
end Verif.Spec
