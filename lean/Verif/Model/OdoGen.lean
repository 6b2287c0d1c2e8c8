import Verif.Types
import Verif.Model.Convert
/-! Model of the program `DataGenerator`, Tools/DataGenerator.cpp, which makes an odometer file out of a navigation file.

Modelled: the extraction of every number with the end and failure flags of the stream, the loop, the numbers handed
to `fmt::format`. Not modelled: numbers with an exponent, the digits printed for a number, and the overflow of
the counter `cnt` after 2^31 records. -/
namespace Verif.OdoGen
open Verif
variable {α : Type} [Add α] [Sub α] [Mul α] [Neg α] [Div α] [Zero α] [One α] [Fl α]

/-- A word of the file as the extractions of DataGenerator.cpp:17-18 see it: an integer, a decimal number with digits
before the point (`n`) and after it (`frac`, the value of the point and what follows), what is left of a decimal number
when the digits before the point were taken, or something that is no number. -/
inductive Word (α : Type)
  | int (n : Int) (x : α)
  | dec (n : Int) (frac x : α)
  | rest (frac : α)
  | bad

/-- The `ifstream` of DataGenerator.cpp:54: the words left, whether white space follows the last, the flags. -/
structure In (α : Type) where
  words : List (Word α)
  wsEnd : Bool
  eof : Bool
  fail : Bool

/-- What `is >> nav.week`, DataGenerator.cpp:17, stores for the integer `n`: the nearest number an `int` holds. -/
def storedInt (n : Int) : Int := max (-2147483648) (min n 2147483647)

/-- Whether `is >> nav.week`, DataGenerator.cpp:17, fails for the integer `n`: an `int` does not hold it. -/
def tooLarge (n : Int) : Bool := decide (n < -2147483648 ∨ 2147483647 < n)

/-- `is >> nav.week`, DataGenerator.cpp:17, for an `int` holding `old` (libstdc++, C++11): a stream that is not good
fails; at the end nothing is stored; something without digits stores 0; a number outside the range stores
the nearest one and fails; the digits before a point are taken and the rest is left. -/
def In.int (s : In α) (old : Int) : Int × In α :=
  if s.eof || s.fail then (old, { s with fail := true })
  else match s.words with
    | [] => (old, { s with eof := true, fail := true })
    | .bad :: _ => (0, { s with fail := true })
    | .rest _ :: _ => (0, { s with fail := true })
    | .int n _ :: ws =>
      (storedInt n, { s with words := ws, eof := ws.isEmpty && !s.wsEnd, fail := tooLarge n })
    | .dec n f _ :: ws =>
      (storedInt n, { s with words := .rest f :: ws, fail := tooLarge n })

/-- `is >> nav.gpst` and the like, DataGenerator.cpp:17-18, for a floating-point number holding `old`. -/
def In.num (s : In α) (old : α) : α × In α :=
  if s.eof || s.fail then (old, { s with fail := true })
  else match s.words with
    | [] => (old, { s with eof := true, fail := true })
    | .bad :: _ => (0, { s with fail := true })
    | .int _ x :: ws => (x, { s with words := ws, eof := ws.isEmpty && !s.wsEnd })
    | .dec _ _ x :: ws => (x, { s with words := ws, eof := ws.isEmpty && !s.wsEnd })
    | .rest x :: ws => (x, { s with words := ws, eof := ws.isEmpty && !s.wsEnd })

/-- `operator>>(ifstream, NavOutput)`, DataGenerator.cpp:16-20. -/
def In.nav (s : In α) (o : NavOutput α) : NavOutput α × In α :=
  let (week, s) := s.int o.week
  let (gpst, s) := s.num o.gpst
  let (lat, s) := s.num o.lat
  let (lon, s) := s.num o.lon
  let (height, s) := s.num o.height
  let (v0, s) := s.num (o.vn 0)
  let (v1, s) := s.num (o.vn 1)
  let (v2, s) := s.num (o.vn 2)
  let (a0, s) := s.num (o.atti 0)
  let (a1, s) := s.num (o.atti 1)
  let (a2, s) := s.num (o.atti 2)
  ({ o with week := week, gpst := gpst, lat := lat, lon := lon, height := height, vn := v3 v0 v1 v2, atti := v3 a0 a1 a2 }, s)

/-- `Cbv`, DataGenerator.cpp:62,65-66. -/
def cbv : M3 α := Convert.eulerToDcm (v3 (-(Fl.lit 3 * deg)) (-(Fl.lit 2 * deg)) (-(Fl.lit 4 * deg)))

/-- The four numbers of a line, DataGenerator.cpp:71-80: time, forward speed divided by `scale`, third and second
component of the velocity in the vehicle frame. -/
def odo (nav : NavOutput α) : α × α × α × α :=
  let cbn : M3 α := Convert.eulerToDcm (v3 (nav.atti 0 * deg) (nav.atti 1 * deg) (nav.atti 2 * deg))
  let vb := mvec cbn.transpose (v3 (nav.vn 0) (nav.vn 1) (nav.vn 2))
  let vv := mvec cbv vb
  (nav.gpst, vv 0 / Fl.lit (14 / 10), vv 2, vv 1)

/-- The loop, DataGenerator.cpp:67-82: the lines written and whether the loop ended, within `fuel` rounds. -/
def loop : Nat → Nat → NavOutput α → In α → List (α × α × α × α) × Bool
  | 0, _, _, s => ([], s.eof)
  | fuel + 1, cnt, nav, s =>
    if s.eof then ([], true)
    else
      let r := s.nav nav
      let more := loop fuel (cnt + 1) r.1 r.2
      (if cnt % 10 = 0 then odo r.1 :: more.1 else more.1, more.2)

/-- `main` with one argument, DataGenerator.cpp:54-86, after `fuel` rounds of its loop: `file` is the content of the
navigation file, nothing when it cannot be opened (reported, DataGenerator.cpp:57-59, and then continued with the failed stream); `junk` is
the uninitialised `nav`. -/
def main (fuel : Nat) (junk : NavOutput α) (file : Option (List (Word α) × Bool)) : List (α × α × α × α) × Bool :=
  match file with
  | none => loop fuel 0 junk ⟨[], false, false, true⟩
  | some (ws, wsEnd) => loop fuel 0 junk ⟨ws, wsEnd, false, false⟩
end Verif.OdoGen
