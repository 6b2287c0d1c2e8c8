import Verif.Types
import Mathlib.Algebra.Order.Floor.Ring
import Mathlib.Algebra.Order.Archimedean.Real.Basic
/-! The characters of the result file: `operator<<(ostream, NavOutput)`, App/AppCommon/FileIO.cpp:50-69, and
`PvaWriter::Write` with `NavAscii`, FileIO.cpp:448-461. Numbers are real numbers: infinities, not-a-numbers and the
sign of a negative zero, which `fmt` prints as such, are not covered. -/
namespace Verif.ResultLine
open Verif

/-- Rounding of `fmt` ("{:.4f}", FileIO.cpp:52): the nearest integer, the even one when two are equally near. -/
noncomputable def nearest (x : ℝ) : Int :=
  if x - ⌊x⌋ < 1 / 2 then ⌊x⌋ else if 1 / 2 < x - ⌊x⌋ then ⌊x⌋ + 1 else if ⌊x⌋ % 2 = 0 then ⌊x⌋ else ⌊x⌋ + 1

/-- A decimal digit as `fmt` prints it, FileIO.cpp:51. -/
def digit (n : Nat) : Char := Char.ofNat (48 + n % 10)

/-- A natural number in decimal, without leading zeros ("{:d}", FileIO.cpp:52). -/
def natText (n : Nat) : List Char := if n < 10 then [digit n] else natText (n / 10) ++ [digit n]
termination_by n

/-- The last `d` decimal digits of `n`: the part after the point of "{:.4f}", FileIO.cpp:52. -/
def fracText : Nat → Nat → List Char
  | 0, _ => []
  | d + 1, n => fracText d (n / 10) ++ [digit n]

/-- "{:d}", FileIO.cpp:52. -/
def intText (n : Int) : List Char := (if n < 0 then ['-'] else []) ++ natText n.natAbs

/-- "{:.4f}" with `d` digits after the point, FileIO.cpp:52; the sign is that of the number, also when it rounds to
zero. -/
noncomputable def fixedText (d : Nat) (x : ℝ) : List Char :=
  let n := (nearest (x * 10 ^ d)).natAbs
  (if x < 0 then ['-'] else []) ++ natText (n / 10 ^ d) ++ ['.'] ++ fracText d (n % 10 ^ d)

/-- The width of "{:10.6f}", FileIO.cpp:52: numbers are aligned to the right. -/
def padLeft (w : Nat) (t : List Char) : List Char := List.replicate (w - t.length) ' ' ++ t

/-- The thirteen fields of a line, FileIO.cpp:51-67: "{:4d} {:2f} {:.12f} {:.12f} {:.4f} {:10.6f} {:10.6f} {:10.6f}
{:10.6f} {:10.6f} {:10.6f} {:d} {:d}". -/
noncomputable def fieldTexts (r : NavOutput ℝ) : List (List Char) :=
  [padLeft 4 (intText r.week), padLeft 2 (fixedText 6 r.gpst), fixedText 12 r.lat, fixedText 12 r.lon, fixedText 4 r.height,
   padLeft 10 (fixedText 6 (r.vn 0)), padLeft 10 (fixedText 6 (r.vn 1)), padLeft 10 (fixedText 6 (r.vn 2)),
   padLeft 10 (fixedText 6 (r.atti 0)), padLeft 10 (fixedText 6 (r.atti 1)), padLeft 10 (fixedText 6 (r.atti 2)),
   intText r.info.gnssMode.toNat, intText r.info.sensors.toNat]

/-- Fields with one space between two of them (the format string, FileIO.cpp:52). -/
def spaced : List (List Char) → List Char
  | [] => []
  | [f] => f
  | f :: fs => f ++ ' ' :: spaced fs

/-- One `ofs << result << '\n'`, FileIO.cpp:451. -/
noncomputable def line (r : NavOutput ℝ) : List Char := spaced (fieldTexts r) ++ ['\n']

/-- The file after the results were written one after the other, FileIO.cpp:448-461. -/
noncomputable def fileText (rs : List (NavOutput ℝ)) : List Char := rs.flatMap line
end Verif.ResultLine
