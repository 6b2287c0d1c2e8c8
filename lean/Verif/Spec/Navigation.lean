import Verif.Props.Convert
/-! The navigation equations of a strapdown system in the local north-east-down frame, as a textbook gives them. -/
namespace Verif.Spec
open Verif Matrix

/-- The earth's rotation rate in rad/s. -/
noncomputable def earthW : ℝ := 7.2921151467e-5
/-- Meridian radius of curvature. -/
noncomputable def rM (lat : ℝ) : ℝ := 6378137 * (1 - 0.00669437999013) / (1 - 0.00669437999013 * Real.sin lat ^ 2) ^ (3 / 2 : ℝ)
/-- Radius of curvature of the prime vertical. -/
noncomputable def rN (lat : ℝ) : ℝ := 6378137 / Real.sqrt (1 - 0.00669437999013 * Real.sin lat ^ 2)
/-- The rotation of the earth, seen in the local frame. -/
noncomputable def earthRate (lat : ℝ) : V3 ℝ := ![earthW * Real.cos lat, 0, -earthW * Real.sin lat]
/-- The rotation of the local frame caused by moving over the ellipsoid. -/
noncomputable def transportRate (v : V3 ℝ) (lat h : ℝ) : V3 ℝ :=
  ![v 1 / (rN lat + h), -v 0 / (rM lat + h), -v 1 * Real.tan lat / (rN lat + h)]
/-- Rates of latitude, longitude and height. -/
noncomputable def posRate (v : V3 ℝ) (lat h : ℝ) : V3 ℝ :=
  ![v 0 / (rM lat + h), v 1 / ((rN lat + h) * Real.cos lat), -v 2]
/-- The cross product. -/
def xp (a b : V3 ℝ) : V3 ℝ := ![a 1 * b 2 - a 2 * b 1, a 2 * b 0 - a 0 * b 2, a 0 * b 1 - a 1 * b 0]
/-- The matrix of the cross product with a vector. -/
def xm (a : V3 ℝ) : M3 ℝ := !![0, -a 2, a 1; a 2, 0, -a 0; -a 1, a 0, 0]
/-- Acceleration relative to the earth: specific force, gravity, Coriolis. -/
noncomputable def velRate (C : M3 ℝ) (f v : V3 ℝ) (lat h g : ℝ) : V3 ℝ :=
  C *ᵥ f + ![0, 0, g] - xp ((2 : ℝ) • earthRate lat + transportRate v lat h) v
/-- Rate of the attitude matrix: body rotation minus rotation of the local frame. -/
noncomputable def attRate (C : M3 ℝ) (w v : V3 ℝ) (lat h : ℝ) : M3 ℝ :=
  C * xm w - xm (earthRate lat + transportRate v lat h) * C
end Verif.Spec
