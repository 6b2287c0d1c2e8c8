import Verif.Spec.Rotation
/-! What a position quaternion stands for: the place whose vertical it turns the third axis to. -/
namespace Verif.Spec
open Verif

/-- The upward direction (earth-fixed axes) at a latitude and longitude (radians). -/
noncomputable def upward (lat lon : ℝ) : V3 ℝ := ![Real.cos lat * Real.cos lon, Real.cos lat * Real.sin lon, Real.sin lat]
/-- A unit quaternion stands for a place when it turns the third axis (down) to the downward direction of the place. -/
def standsFor (q : Quat ℝ) (lat lon : ℝ) : Prop := qsq q = 1 ∧ ∀ i, q.toRot i 2 = -(upward lat lon i)
end Verif.Spec
