import Verif.Spec.Navigation
/-! What the sensors of a vehicle at rest on the turning earth see. -/
namespace Verif.Spec
open Verif Matrix

/-- Rotation of the earth over one step of length `dt`, in the local frame. -/
noncomputable def earthTurn (lat dt : ℝ) : V3 ℝ := dt • earthRate lat
/-- The gyroscope increment of a vehicle at rest: the rotation of the earth, in body axes. -/
noncomputable def restGyro (C : M3 ℝ) (lat dt : ℝ) : V3 ℝ := Cᵀ *ᵥ earthTurn lat dt
/-- The physical accelerometer increment of a vehicle at rest: the reaction to gravity, in body axes. -/
noncomputable def gravityReaction (C : M3 ℝ) (dt g : ℝ) : V3 ℝ := Cᵀ *ᵥ ![0, 0, -(g * dt)]
/-- The accelerometer increment whose image under the mechanization balances gravity exactly: the
physical one, displaced by a quarter of the square of the turn. -/
noncomputable def restAcce (C : M3 ℝ) (lat dt g : ℝ) : V3 ℝ :=
  (1 + len (earthTurn lat dt) ^ 2 / 4)⁻¹ •
    (gravityReaction C dt g + (-(g * dt) * earthTurn lat dt 2 / 4) • restGyro C lat dt)
end Verif.Spec
