import Verif.Spec.EarthAttitude
import Mathlib.Analysis.Calculus.Deriv.Basic
/-! A turning body, and gyroscopes without error on it. -/
namespace Verif.Spec
open Verif Matrix

/-- A quantity in body axes, `f`, never longer than `B` and changing no faster than `L`, with its running integral `F`, axis by axis. -/
structure Signal (f F : ℝ → V3 ℝ) (B L : ℝ) : Prop where
  angle : ∀ t i, HasDerivAt (fun u => F u i) (f t i) t
  rate : ∀ t, len (f t) ≤ B
  smooth : ∀ t u, len (f t - f u) ≤ L * |t - u|

/-- A body that turns: `C t` takes body axes at time `t` to axes that do not turn, `w t` is its angular rate in body axes, never more than `Ω`,
changing no faster than `L`, and `θ` is the running integral of the rate, axis by axis. -/
structure TurningBody (C : ℝ → M3 ℝ) (w θ : ℝ → V3 ℝ) (Ω L : ℝ) : Prop extends Signal w θ Ω L where
  rot : ∀ t, isRot (C t)
  turns : ∀ t i j, HasDerivAt (fun u => C u i j) ((C t * xm (w t)) i j) t

/-- From time `t` on the gyroscope readings, without bias and scale factor, are the integrals of the angular rate over their intervals. -/
def PerfectGyros (n : NavEpoch ℝ) (dt : ℝ) (θ : ℝ → V3 ℝ) : ℝ → List (V3 ℝ) → Prop
  | _, [] => True
  | t, w :: ws => increment n dt w = θ (t + dt) - θ t ∧ PerfectGyros n dt θ (t + dt) ws

/-- What the program kept of the interval before the first reading: nothing, or what a perfect gyroscope gave there. -/
def BeforeFirst (dt : ℝ) (θ : ℝ → V3 ℝ) (t : ℝ) (prev : V3 ℝ) : Prop := prev = 0 ∨ prev = θ t - θ (t - dt)

/-- The true attitude relative to the earth `t` seconds after the time `t0` at which the axes of earth and inertial space agreed. -/
noncomputable def trueOverEarth (C : ℝ → M3 ℝ) (t0 t : ℝ) : M3 ℝ := (turnM (earthAxisTurn t))ᵀ * C (t0 + t)
end Verif.Spec
