import Mathlib.Data.Matrix.Mul
import Mathlib.Data.Real.Basic
import Mathlib.LinearAlgebra.Matrix.NonsingularInverse
/-! The consistency test of an innovation, as the textbook has it. -/
namespace Verif.Spec
open Matrix

/-- The squared length of an innovation measured in its own deviations: `zᵀ S⁻¹ z`, where `S` is the covariance the
filter expects of it. -/
noncomputable def mahalanobis {p : Nat} (S : Matrix (Fin p) (Fin p) ℝ) (z : Fin p → ℝ) : ℝ := ∑ i, z i * (S⁻¹ *ᵥ z) i

/-- The covariance the filter expects of an innovation. -/
def expected {n p : Nat} (P : Matrix (Fin n) (Fin n) ℝ) (H : Matrix (Fin p) (Fin n) ℝ) (R : Matrix (Fin p) (Fin p) ℝ) :
    Matrix (Fin p) (Fin p) ℝ := H * P * Hᵀ + R
end Verif.Spec
