import Verif.Types
import Mathlib.Data.Rat.Defs
/-! How a user reads the result file: lines, words between spaces, decimal numbers. -/
namespace Verif.Spec
open Verif

/-- The pieces of a text between the occurrences of a character. -/
def pieces (c : Char) : List Char → List (List Char)
  | [] => [[]]
  | x :: xs => if x = c then [] :: pieces c xs else
    match pieces c xs with
    | w :: ws => (x :: w) :: ws
    | [] => [[x]]

/-- The pieces that are not empty. -/
def wordsAt (c : Char) (t : List Char) : List (List Char) := (pieces c t).filter (· ≠ [])

/-- The number written by decimal digits. -/
def digitsValue (t : List Char) : Nat := t.foldl (fun n c => 10 * n + (c.toNat - 48)) 0

/-- Digits only, at least one. -/
def allDigits (t : List Char) : Bool := t != [] && t.all Char.isDigit

/-- An unsigned decimal number: digits, or digits, a point and digits. -/
def readUnsigned (t : List Char) : Option ℚ :=
  match pieces '.' t with
  | [i] => if allDigits i then some (digitsValue i) else none
  | [i, f] => if allDigits i && allDigits f then some (digitsValue i + digitsValue f / 10 ^ f.length) else none
  | _ => none

/-- A decimal number. -/
def readNumber (t : List Char) : Option ℚ :=
  match t with
  | '-' :: u => (readUnsigned u).map (- ·)
  | _ => readUnsigned t

/-- The numbers of every line of a text. -/
def readTable (t : List Char) : List (List (Option ℚ)) := (wordsAt '\n' t).map fun l => (wordsAt ' ' l).map readNumber

/-- The columns of a result and the number of digits after the point each is promised with. -/
def columns (r : NavOutput ℝ) : List (ℝ × Nat) :=
  [(r.week, 0), (r.gpst, 6), (r.lat, 12), (r.lon, 12), (r.height, 4), (r.vn 0, 6), (r.vn 1, 6), (r.vn 2, 6),
   (r.atti 0, 6), (r.atti 1, 6), (r.atti 2, 6), (r.info.gnssMode.toNat, 0), (r.info.sensors.toNat, 0)]

/-- `v` is `x` to `d` digits after the point. -/
def shows (v : Option ℚ) (x : ℝ) (d : Nat) : Prop := ∃ q : ℚ, v = some q ∧ |(q : ℝ) - x| ≤ 1 / 2 / 10 ^ d
end Verif.Spec
