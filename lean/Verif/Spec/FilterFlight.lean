import Verif.Spec.Coasting
import Verif.Spec.Api
/-! Vocabulary for fixes taken along a true flight. -/
namespace Verif.Spec
open Verif Matrix

/-- Earth-centred coordinates of a latitude, longitude and height over the ellipsoid. -/
noncomputable def ecef (lat lon h : ℝ) : V3 ℝ :=
  ![(rN lat + h) * Real.cos lat * Real.cos lon, (rN lat + h) * Real.cos lat * Real.sin lon, (rN lat * (1 - 0.00669437999013) + h) * Real.sin lat]

/-- The north, east and down directions at a place, as columns, in earth-centred coordinates. -/
noncomputable def nedAxes (lat lon : ℝ) : M3 ℝ :=
  !![-Real.sin lat * Real.cos lon, -Real.sin lon, -Real.cos lat * Real.cos lon;
     -Real.sin lat * Real.sin lon, Real.cos lon, -Real.cos lat * Real.sin lon;
     Real.cos lat, 0, -Real.sin lat]

/-- Where an antenna mounted at `arm` (body axes) is, in earth-centred coordinates. -/
noncomputable def antennaAt (lat lon h : ℝ) (C : M3 ℝ) (arm : V3 ℝ) : V3 ℝ := ecef lat lon h + nedAxes lat lon *ᵥ (C *ᵥ arm)

/-- Where a fix says the antenna is. -/
noncomputable def fixPlace (m : Gnss ℝ) : V3 ℝ := ecef (inRad m.lat) (inRad m.lon) m.height

open Classical in
/-- The number of usable fixes in a list of calls. -/
noncomputable def usableCount (cs : List (Call ℝ)) : ℕ := ((fixesOf cs).filter fun m => decide (usable m.mode)).length
end Verif.Spec
