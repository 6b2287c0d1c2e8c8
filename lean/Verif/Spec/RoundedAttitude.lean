import Verif.Spec.RoundedReports
/-! The two-argument arctangent of a library, as an angle. -/
namespace Verif.Spec
open Verif

/-- Except at the origin, the two-argument arctangent is accurate to `u` as an angle: up to full turns (so either representation of
the half turn is allowed) and never larger than 4. -/
def AccurateAtan2 (R : Rounding) (u : ℝ) : Prop := ∀ y x : ℝ, x ≠ 0 ∨ y ≠ 0 →
  |R.atan2 y x| ≤ 4 ∧ ∃ k : ℤ, |R.atan2 y x - (Complex.arg ⟨x, y⟩ + k * (2 * Real.pi))| ≤ u * (|Complex.arg ⟨x, y⟩| + 1)
end Verif.Spec
