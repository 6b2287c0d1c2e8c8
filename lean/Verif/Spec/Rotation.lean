import Verif.Num
import Mathlib.LinearAlgebra.Matrix.Determinant.Basic
/-! Elementary rotations, used as an independent specification of the conversions. -/
namespace Verif.Spec
open Verif Matrix

/-- A rotation matrix: orthogonal, determinant one. -/
def isRot (C : M3 ℝ) : Prop := C * Cᵀ = 1 ∧ Cᵀ * C = 1 ∧ C.det = 1

/-- Rotation about the first axis. -/
noncomputable def Rx (t : ℝ) : M3 ℝ := !![1, 0, 0; 0, Real.cos t, -Real.sin t; 0, Real.sin t, Real.cos t]
/-- Rotation about the second axis. -/
noncomputable def Ry (t : ℝ) : M3 ℝ := !![Real.cos t, 0, Real.sin t; 0, 1, 0; -Real.sin t, 0, Real.cos t]
/-- Rotation about the third axis. -/
noncomputable def Rz (t : ℝ) : M3 ℝ := !![Real.cos t, -Real.sin t, 0; Real.sin t, Real.cos t, 0; 0, 0, 1]

/-- The squared length of a quaternion. -/
def qsq (q : Quat ℝ) : ℝ := q.w ^ 2 + q.x ^ 2 + q.y ^ 2 + q.z ^ 2

/-- How a quaternion acts on a vector: `q v q*`, written with the Hamilton product. -/
def qact (q : Quat ℝ) (v : V3 ℝ) : Quat ℝ := (q.mul ⟨0, v 0, v 1, v 2⟩).mul q.conj
/-- Length of a vector. -/
noncomputable def len (v : V3 ℝ) : ℝ := Real.sqrt (v 0 ^ 2 + v 1 ^ 2 + v 2 ^ 2)

/-- The exact quaternion of a rotation by the angle `len v` about the axis `v` (identity for `v = 0`). -/
noncomputable def rotQuat (v : V3 ℝ) : Quat ℝ :=
  ⟨Real.cos (len v / 2), Real.sin (len v / 2) / len v * v 0, Real.sin (len v / 2) / len v * v 1,
   Real.sin (len v / 2) / len v * v 2⟩
end Verif.Spec
