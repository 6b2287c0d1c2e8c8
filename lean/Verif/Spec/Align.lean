import Verif.Spec.Navigation
/-! What alignment should deliver: displacements between fixes and the specific force of a vehicle at rest. -/
namespace Verif.Spec
open Verif Matrix

/-- Degrees to radians. -/
noncomputable def rad (x : ℝ) : ℝ := x * (Real.pi / 180)

/-- Metres north, east and up from one fix to another (radii at the new latitude, respectively at the mean latitude). -/
noncomputable def displacement (a b : Gnss ℝ) : V3 ℝ :=
  ![(rad b.lat - rad a.lat) * (rM (rad b.lat) + (b.height + a.height) / 2),
    (rad b.lon - rad a.lon) * ((rN ((rad b.lat + rad a.lat) / 2) + (b.height + a.height) / 2) * Real.cos ((rad b.lat + rad a.lat) / 2)),
    b.height - a.height]

/-- The specific force a vehicle at rest with roll `φ`, pitch `θ` and heading `ψ` measures in gravity `γ`. -/
noncomputable def restForce (γ φ θ ψ : ℝ) : V3 ℝ := (Rz ψ * Ry θ * Rx φ)ᵀ *ᵥ ![0, 0, -γ]
end Verif.Spec
