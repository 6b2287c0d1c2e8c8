import Verif.Num
/-! Model of `/repo/Src/DcmEstimator.cpp` and `DcmEstimator.h` (installation angles from the non-holonomic
constraint). Eigen's `JacobiSVD` is not modelled as an algorithm: every update takes what the decomposition
returned as an input (`Svd`), and the theorems assume of it only Eigen's documented contract
(`Spec.isSvd`). -/
namespace Verif
variable {α : Type} [Add α] [Sub α] [Mul α] [Neg α] [Div α] [Zero α] [One α] [Fl α]

/-- What `Eigen::JacobiSVD` returns: `matrixU()`, `singularValues()`, `matrixV()`, DcmEstimator.cpp:52-56. -/
structure Svd (α : Type) where
  U : M3 α
  s : V3 α
  V : M3 α

/-- The members, DcmEstimator.h:25-29; `error_` is written once, in the constructor. -/
structure DcmEst (α : Type) where
  DCM : M3 α
  W : M3 α
  sumVf : α
  scale : α
  error : α

/-- The constructor, DcmEstimator.cpp:59-65. -/
def DcmEst.mk0 : DcmEst α := ⟨eyeM 3, fun _ _ => 0, 0, 1, 0⟩

/-- `CalcDcmBySVD`, DcmEstimator.cpp:51-57. -/
def DcmEst.calc (e : DcmEst α) (r : Svd α) : DcmEst α :=
  { e with DCM := mmul r.V r.U.transpose, scale := r.s 0 / (e.sumVf + Fl.lit (1 / 10 ^ 30)) }

/-- `W_.col(0) += k * v`, DcmEstimator.cpp:16 and :27. -/
def addCol0 (W : M3 α) (k : α) (v : V3 α) : M3 α := fun i j => if j = 0 then W i j + k * v i else W i j

/-- What is given to the decomposition in `Update(vb)`, DcmEstimator.cpp:16. -/
def DcmEst.accNoOdo (e : DcmEst α) (vb : V3 α) : DcmEst α := { e with W := addCol0 e.W (vb 0) vb }
/-- What is given to the decomposition in `Update(vb, vv_f)`, DcmEstimator.cpp:26-27. -/
def DcmEst.accOdo (e : DcmEst α) (vb : V3 α) (vf : α) : DcmEst α :=
  { e with sumVf := e.sumVf + vf * vf, W := addCol0 e.W vf vb }

/-- One call of either `Update`, DcmEstimator.cpp:15-29; `vf = none` is the one-argument form. -/
structure DcmCall (α : Type) where
  vb : V3 α
  vf : Option α
  svd : Svd α

/-- The matrix a call decomposes, DcmEstimator.cpp:16 and :26-27. -/
def DcmEst.acc (e : DcmEst α) (c : DcmCall α) : DcmEst α :=
  match c.vf with
  | none => e.accNoOdo c.vb
  | some vf => e.accOdo c.vb vf

/-- `Update`, DcmEstimator.cpp:15-29. -/
def DcmEst.update (e : DcmEst α) (c : DcmCall α) : DcmEst α := (e.acc c).calc c.svd

/-- Any series of calls (DcmEstimator.cpp:15-29) after construction (59-65). -/
def DcmEst.run (cs : List (DcmCall α)) : DcmEst α := cs.foldl DcmEst.update DcmEst.mk0
end Verif
