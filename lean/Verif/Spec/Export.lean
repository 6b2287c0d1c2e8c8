import Verif.Model.Export
import Mathlib.Algebra.Order.Round
import Mathlib.Data.Int.Log
import Mathlib.Data.Real.Basic
import Mathlib.Data.Real.Archimedean
/-! Specification vocabulary for the exports (C114-C118). -/
namespace Verif.Spec.Csv
open Verif.Crc

/-- A text cut at every occurrence of a separator: `fields c "a,b,"` is `["a", "b", ""]`. -/
def fields (sep : Byte) : List Byte → List (List Byte)
  | [] => [[]]
  | b :: l =>
    if b = sep then [] :: fields sep l
    else match fields sep l with
      | [] => [[b]]
      | f :: r => (b :: f) :: r

/-- The table in a CSV text: lines cut at newlines, cells at commas. -/
def csvTable (t : List Byte) : List (List (List Byte)) :=
  (fields 0x0A t).map (fields 0x2C)

/-- A text that can be a CSV cell. -/
def plain (t : List Byte) : Prop := (0x2C : Byte) ∉ t ∧ (0x0A : Byte) ∉ t

/-- A number rounded to six significant decimal digits: what a C++ stream prints by default. (Exact ties go up
here, to even in the C library.) -/
noncomputable def sig6 (x : ℝ) : ℝ :=
  let s : ℝ := (10 : ℝ) ^ (5 - Int.log 10 |x|)
  round (x * s) / s

/-- The number a normal IEEE 754 double with these bits denotes. -/
noncomputable def ieee64 (u : BitVec 64) : ℝ :=
  (if u.toNat / 2 ^ 63 = 1 then -1 else 1) * (2 : ℝ) ^ ((u.toNat / 2 ^ 52 % 2048 : ℕ) - 1023 : ℤ) *
    (1 + ((u.toNat % 2 ^ 52 : ℕ) : ℝ) / 2 ^ 52)

/-- Entry in row `r` and column `c` of a column-major matrix with `rows` rows. -/
def entry {D : Type} (rows : Nat) (mem : List D) (r c : Nat) : Option D := mem[c * rows + r]?

end Verif.Spec.Csv
