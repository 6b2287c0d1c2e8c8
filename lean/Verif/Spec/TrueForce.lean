import Verif.Spec.TrueAttitude
/-! The velocity a force gives a turning body, seen in a turning frame. -/
namespace Verif.Spec
open Verif Matrix

/-- What the program takes out of the accelerometer increment before it uses it: bias and scale factor. -/
noncomputable def forceIncrement (n : NavEpoch ℝ) (dt : ℝ) (acce : V3 ℝ) : V3 ℝ := fun i => (1 - n.as i) * (acce i - n.ab i * dt)

/-- The turn of the navigation frame over the interval ahead, at the extrapolated place and velocity. -/
noncomputable def frameAhead (s : Ins ℝ) : V3 ℝ :=
  s.dt • (earthRate (s.extrapolate.2.posMid 0) + transportRate s.extrapolate.2.vnMid (s.extrapolate.2.posMid 0) (s.extrapolate.2.posMid 2))

/-- Gravity and Coriolis acceleration over the interval ahead, at the extrapolated place, velocity before the sample. -/
noncomputable def fallAhead (s : Ins ℝ) : V3 ℝ :=
  s.dt • (![0, 0, Earth.gravity (s.extrapolate.2.posMid 0) (s.extrapolate.2.posMid 2)] -
    xp ((2 : ℝ) • earthRate (s.extrapolate.2.posMid 0) +
      transportRate s.extrapolate.2.vnMid (s.extrapolate.2.posMid 0) (s.extrapolate.2.posMid 2)) s.nav.vn)

/-- The velocity a force gives: `G u` is what the specific force `f` has added `u` seconds after `t`, in a frame that started at the attitude `A`
and turns evenly by `ζ` in the time `dt`, on a body whose attitude in space is `C`. -/
structure ForceGives (C : ℝ → M3 ℝ) (f : ℝ → V3 ℝ) (A : M3 ℝ) (ζ : V3 ℝ) (dt t : ℝ) (G : ℝ → V3 ℝ) : Prop where
  start : G 0 = 0
  grows : ∀ u i, HasDerivAt (fun u => G u i) (((turnM ((u / dt) • ζ))ᵀ *ᵥ (A *ᵥ (((C t)ᵀ * C (t + u)) *ᵥ f (t + u)))) i) u
end Verif.Spec
