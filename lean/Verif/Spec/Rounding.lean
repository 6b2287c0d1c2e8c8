import Verif.Model.Fusion
/-! Arithmetic with rounding: the reals, with every operation followed by a rounding. -/
namespace Verif.Spec
open Verif

/-- A rounding and library functions. What is not constrained below may be anything. -/
structure Rounding where
  rnd : ℝ → ℝ
  sin : ℝ → ℝ
  cos : ℝ → ℝ
  tan : ℝ → ℝ
  asin : ℝ → ℝ
  atan : ℝ → ℝ
  atan2 : ℝ → ℝ → ℝ
  pow : ℝ → ℝ → ℝ
  f32 : ℝ → ℝ
  nan : ℝ
  minv : {n : Nat} → Matrix (Fin n) (Fin n) ℝ → Matrix (Fin n) (Fin n) ℝ

/-- Numbers computed with. -/
structure RR (R : Rounding) where
  v : ℝ
namespace RR
variable {R : Rounding}
instance : Add (RR R) := ⟨fun a b => ⟨R.rnd (a.v + b.v)⟩⟩
instance : Sub (RR R) := ⟨fun a b => ⟨R.rnd (a.v - b.v)⟩⟩
instance : Mul (RR R) := ⟨fun a b => ⟨R.rnd (a.v * b.v)⟩⟩
noncomputable instance : Div (RR R) := ⟨fun a b => ⟨R.rnd (a.v / b.v)⟩⟩
instance : Neg (RR R) := ⟨fun a => ⟨-a.v⟩⟩
instance : Zero (RR R) := ⟨⟨0⟩⟩
instance : One (RR R) := ⟨⟨1⟩⟩
noncomputable instance : Fl (RR R) where
  lit q := ⟨R.rnd (q : ℝ)⟩
  pi := ⟨R.rnd Real.pi⟩
  sin a := ⟨R.sin a.v⟩
  cos a := ⟨R.cos a.v⟩
  tan a := ⟨R.tan a.v⟩
  asin a := ⟨R.asin a.v⟩
  atan a := ⟨R.atan a.v⟩
  atan2 a b := ⟨R.atan2 a.v b.v⟩
  sqrt a := ⟨R.rnd (Real.sqrt a.v)⟩
  pow a b := ⟨R.pow a.v b.v⟩
  lt a b := @decide (a.v < b.v) (Classical.propDecidable _)
  le a b := @decide (a.v ≤ b.v) (Classical.propDecidable _)
  eq a b := @decide (a.v = b.v) (Classical.propDecidable _)
  nan := ⟨R.nan⟩
  f32 a := ⟨R.f32 a.v⟩
  minv A := fun i j => ⟨R.minv (fun i j => (A i j).v) i j⟩
end RR

/-- Every operation is off by at most `u` relative to its result plus `u`: this covers IEEE single and double precision with
gradual underflow as long as nothing overflows, and fixed-point numbers. Sine and cosine are off by at most `u`. -/
structure Accurate (R : Rounding) (u : ℝ) : Prop where
  pos : 0 ≤ u
  small : u ≤ 1 / 1000000
  rnd : ∀ x, |R.rnd x - x| ≤ u * (|x| + 1)
  sin : ∀ x, |R.sin x - Real.sin x| ≤ u
  cos : ∀ x, |R.cos x - Real.cos x| ≤ u

/-- The squared length of a computed quaternion. -/
def rsq {R : Rounding} (q : Quat (RR R)) : ℝ := q.w.v ^ 2 + q.x.v ^ 2 + q.y.v ^ 2 + q.z.v ^ 2
end Verif.Spec
