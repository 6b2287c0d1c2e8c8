import Mathlib.Analysis.InnerProductSpace.Basic
import Mathlib.LinearAlgebra.Matrix.Notation
/-! Zero-mean random quantities with finite variance, as elements of a real inner-product space: the inner product is the expected
product, so `‖x‖` is the root-mean-square value and orthogonal means uncorrelated. Nothing else about probability is used. -/
namespace Verif.Spec
open Matrix
variable {V : Type*} [NormedAddCommGroup V] [InnerProductSpace ℝ V]

/-- A matrix applied to random quantities. -/
def comb {m n : Nat} (A : Matrix (Fin m) (Fin n) ℝ) (a : Fin n → V) : Fin m → V := fun i => ∑ j, A i j • a j
/-- The matrix of covariances. -/
noncomputable def covOf {m n : Nat} (a : Fin m → V) (b : Fin n → V) : Matrix (Fin m) (Fin n) ℝ := fun i j => inner ℝ (a i) (b j)
/-- Uncorrelated with everything in a list. -/
def freshTo {n : Nat} (a : Fin n → V) (past : List V) : Prop := ∀ i, ∀ x ∈ past, inner ℝ x (a i) = 0
end Verif.Spec
