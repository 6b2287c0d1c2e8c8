import Mathlib.Data.Matrix.Mul
import Mathlib.LinearAlgebra.Matrix.Notation
import Mathlib.LinearAlgebra.Matrix.NonsingularInverse
import Mathlib.Analysis.SpecialFunctions.Trigonometric.Arctan
import Mathlib.Analysis.SpecialFunctions.Trigonometric.Inverse
import Mathlib.Analysis.SpecialFunctions.Complex.Arg
import Mathlib.Analysis.SpecialFunctions.Pow.Real
/-!
The scalar type of the numeric code and the little linear algebra it takes from Eigen.

The numeric model is written once, over an arbitrary scalar type `α`. The four arithmetic operations
come from the usual Lean classes, everything else a C++ `double`/`float` can do from the class `Fl`.
Theorems about control flow, data flow and isolation are proved for *every* `α`, hence also for IEEE
arithmetic. Theorems about numbers are proved for `α = ℝ` (exact arithmetic, instance below).

Eigen (not part of /repo) is modelled by its documented meaning. The order in which Eigen sums a
matrix product is not specified; the model sums left to right.
-/
namespace Verif

/-- What `<cmath>`, literals, comparisons and casts provide; /repo/Src/RgioeMath.h:22-32 (FP64 build). -/
class Fl (α : Type) where
  /-- a numeric literal -/
  lit : ℚ → α
  /-- `_PI` / `EIGEN_PI` (RgioeDataType.h:12); exactly π at `ℝ` -/
  pi : α
  sin : α → α
  cos : α → α
  tan : α → α
  asin : α → α
  atan : α → α
  atan2 : α → α → α
  sqrt : α → α
  pow : α → α → α
  /-- `a < b` -/
  lt : α → α → Bool
  /-- `a <= b` -/
  le : α → α → Bool
  /-- `a == b` -/
  eq : α → α → Bool
  /-- `NAN` -/
  nan : α
  /-- `(float)x` widened again -/
  f32 : α → α
  /-- Eigen's `inverse()` of a fixed-size square matrix -/
  minv : {n : Nat} → Matrix (Fin n) (Fin n) α → Matrix (Fin n) (Fin n) α

/-- Exact arithmetic. `nan` has no real counterpart: it is an arbitrary value (0); no theorem about
angles uses it (the gimbal-lock branch is excluded or treated separately).
The float cast is the identity: rounding is not modelled. -/
noncomputable instance : Fl ℝ where
  lit q := (q : ℝ)
  pi := Real.pi
  sin := Real.sin
  cos := Real.cos
  tan := Real.tan
  asin := Real.arcsin
  atan := Real.arctan
  atan2 y x := Complex.arg ⟨x, y⟩
  sqrt := Real.sqrt
  pow := fun x y => x ^ y
  lt a b := @decide (a < b) (Classical.propDecidable _)
  le a b := @decide (a ≤ b) (Classical.propDecidable _)
  eq a b := @decide (a = b) (Classical.propDecidable _)
  nan := 0
  f32 := id
  minv A := A⁻¹

section
variable {α : Type} [Add α] [Sub α] [Mul α] [Neg α] [Div α] [Zero α] [One α] [Fl α]

/-- `Vec3d`, `Vec3Hp` (RgioeMath.h:34-35; the same type in the FP64 build). -/
abbrev V3 (α : Type) := Fin 3 → α
/-- `Mat3d`, `Mat3Hp` (RgioeMath.h:37-38). -/
abbrev M3 (α : Type) := Matrix (Fin 3) (Fin 3) α

/-- `Vec3d{a,b,c}`. -/
def v3 (a b c : α) : V3 α := ![a, b, c]

/-- Sum of a family, left to right, from zero. -/
def sumF {n : Nat} (f : Fin n → α) : α := (List.ofFn f).foldl (· + ·) 0

/-- Eigen: vector times scalar. -/
def vs {n : Nat} (v : Fin n → α) (c : α) : Fin n → α := fun i => v i * c
/-- Eigen: scalar times vector. -/
def sv {n : Nat} (c : α) (v : Fin n → α) : Fin n → α := fun i => c * v i
/-- Eigen: vector divided by scalar. -/
def vd {n : Nat} (v : Fin n → α) (c : α) : Fin n → α := fun i => v i / c
/-- Eigen: matrix times scalar. -/
def ms {m n : Nat} (A : Matrix (Fin m) (Fin n) α) (c : α) : Matrix (Fin m) (Fin n) α := fun i j => A i j * c
/-- Eigen: scalar times matrix. -/
def sm {m n : Nat} (c : α) (A : Matrix (Fin m) (Fin n) α) : Matrix (Fin m) (Fin n) α := fun i j => c * A i j
/-- Eigen: matrix divided by scalar. -/
def md {m n : Nat} (A : Matrix (Fin m) (Fin n) α) (c : α) : Matrix (Fin m) (Fin n) α := fun i j => A i j / c
/-- Eigen: matrix product. -/
def mmul {m k n : Nat} (A : Matrix (Fin m) (Fin k) α) (B : Matrix (Fin k) (Fin n) α) : Matrix (Fin m) (Fin n) α :=
  fun i j => sumF fun l => A i l * B l j
/-- Eigen: matrix times column vector. -/
def mvec {m k : Nat} (A : Matrix (Fin m) (Fin k) α) (v : Fin k → α) : Fin m → α :=
  fun i => sumF fun l => A i l * v l
/-- Eigen: `cross`. -/
def cross (a b : V3 α) : V3 α :=
  v3 (a 1 * b 2 - a 2 * b 1) (a 2 * b 0 - a 0 * b 2) (a 0 * b 1 - a 1 * b 0)
/-- Eigen: `squaredNorm`. -/
def sqNorm {n : Nat} (v : Fin n → α) : α := sumF fun i => v i * v i
/-- Eigen: `norm`. -/
def vnorm {n : Nat} (v : Fin n → α) : α := Fl.sqrt (sqNorm v)
/-- Eigen: `normalized` of a vector: unchanged when the squared norm is not positive. -/
def vnormalized {n : Nat} (v : Fin n → α) : Fin n → α :=
  if Fl.lt 0 (sqNorm v) then vd v (vnorm v) else v
/-- Eigen: `Identity`. -/
def eyeM (n : Nat) : Matrix (Fin n) (Fin n) α := fun i j => if i = j then 1 else 0
/-- Eigen: `asDiagonal`. -/
def diagM {n : Nat} (v : Fin n → α) : Matrix (Fin n) (Fin n) α := fun i j => if i = j then v i else 0
/-- Eigen: `M.block<p,q>(r,c) = B`. -/
def setBlock {m n p q : Nat} (M : Matrix (Fin m) (Fin n) α) (r c : Nat) (B : Matrix (Fin p) (Fin q) α) :
    Matrix (Fin m) (Fin n) α :=
  fun i j =>
    if h : r ≤ i.val ∧ i.val < r + p ∧ c ≤ j.val ∧ j.val < c + q then
      B ⟨i.val - r, by omega⟩ ⟨j.val - c, by omega⟩
    else M i j

/-- Eigen `Quaternion`, RgioeMath.h:41-42. -/
structure Quat (α : Type) where
  w : α
  x : α
  y : α
  z : α

namespace Quat
/-- Eigen: Hamilton product. -/
def mul (a b : Quat α) : Quat α :=
  ⟨a.w * b.w - a.x * b.x - a.y * b.y - a.z * b.z,
   a.w * b.x + a.x * b.w + a.y * b.z - a.z * b.y,
   a.w * b.y + a.y * b.w + a.z * b.x - a.x * b.z,
   a.w * b.z + a.z * b.w + a.x * b.y - a.y * b.x⟩
/-- Eigen: `conjugate`. -/
def conj (a : Quat α) : Quat α := ⟨a.w, -a.x, -a.y, -a.z⟩
/-- Eigen: squared norm of the coefficients. -/
def nsq (a : Quat α) : α := a.x * a.x + a.y * a.y + a.z * a.z + a.w * a.w
/-- Eigen: `normalized`: unchanged when the squared norm is not positive. -/
def normalized (a : Quat α) : Quat α :=
  if Fl.lt 0 a.nsq then
    let n := Fl.sqrt a.nsq
    ⟨a.w / n, a.x / n, a.y / n, a.z / n⟩
  else a
/-- Eigen: `toRotationMatrix` / `Mat3d(q)`. -/
def toRot (q : Quat α) : M3 α :=
  let two : α := Fl.lit 2
  let tx := two * q.x
  let ty := two * q.y
  let tz := two * q.z
  let twx := tx * q.w
  let twy := ty * q.w
  let twz := tz * q.w
  let txx := tx * q.x
  let txy := ty * q.x
  let txz := tz * q.x
  let tyy := ty * q.y
  let tyz := tz * q.y
  let tzz := tz * q.z
  !![1 - (tyy + tzz), txy - twz, txz + twy;
     txy + twz, 1 - (txx + tzz), tyz - twx;
     txz - twy, tyz + twx, 1 - (txx + tyy)]
end Quat

/-- `_deg`, RgioeDataType.h:16. -/
def deg : α := Fl.pi / Fl.lit 180
/-- `_hour`, RgioeDataType.h:13. -/
def hour : α := Fl.lit 3600
/-- `_mGal`, RgioeDataType.h:17. -/
def mGal : α := Fl.lit (1 / 100000)
/-- `_ppm`, RgioeDataType.h:18. -/
def ppm : α := Fl.lit (1 / 1000000)
end

end Verif
