import Verif.Num
import Verif.Model.Earth
import Mathlib.Algebra.Order.Floor.Ring
import Mathlib.Algebra.Order.Archimedean.Real.Basic
/-! Model of the accuracy check Tools/ErrorAnalyse.py with Tools/ErrorAnalyser.py and Tools/Earth.py, over the real numbers
(rounding is not modelled). A file is the list of its rows; the columns are those of Tools/ErrorAnalyse.py:28. Of the errors, those of the
position, on which the exit status depends, and those of the heading are modelled. -/
namespace Verif.ErrAnalysis
open Verif

/-- Smallest element (`np.histogram` without a range, ErrorAnalyser.py:46). -/
noncomputable def minOf : List ℝ → ℝ
  | [] => 0
  | x :: xs => xs.foldl min x

/-- Largest element, ErrorAnalyser.py:46. -/
noncomputable def maxOf : List ℝ → ℝ
  | [] => 0
  | x :: xs => xs.foldl max x

/-- Lower end of the histogram (`np.histogram`, ErrorAnalyser.py:46: a range of length zero is widened by a half on both sides). -/
noncomputable def lowEnd (xs : List ℝ) : ℝ := if minOf xs = maxOf xs then minOf xs - 1 / 2 else minOf xs

/-- Upper end of the histogram, ErrorAnalyser.py:46. -/
noncomputable def highEnd (xs : List ℝ) : ℝ := if minOf xs = maxOf xs then maxOf xs + 1 / 2 else maxOf xs

/-- `self.edges[i]`, ErrorAnalyser.py:46. -/
noncomputable def edge (b : Nat) (xs : List ℝ) (i : Nat) : ℝ := lowEnd xs + i * ((highEnd xs - lowEnd xs) / b)

/-- `self.pdf[i]`, ErrorAnalyser.py:46: the number of values in bin `i`; the last bin includes its upper edge. -/
noncomputable def pdf (b : Nat) (xs : List ℝ) (i : Nat) : Nat :=
  xs.countP fun x => @decide (edge b xs i ≤ x ∧ (x < edge b xs (i + 1) ∨ (i + 1 = b ∧ x ≤ edge b xs (i + 1)))) (Classical.propDecidable _)

/-- `self.cdf[i]`, ErrorAnalyser.py:47. -/
noncomputable def cdf (b : Nat) (xs : List ℝ) : Nat → Nat
  | 0 => pdf b xs 0
  | i + 1 => cdf b xs i + pdf b xs (i + 1)

/-- `interp1d(x, y)(q)` for non-decreasing `x` of length `len` (scipy, linear): an exception outside the range, otherwise the
segment whose upper end is the first element that is not below `q`. ErrorAnalyser.py:56-58,160-165. -/
noncomputable def interp (len : Nat) (x y : Nat → ℝ) (q : ℝ) : Option ℝ :=
  if @decide (q < x 0 ∨ x (len - 1) < q) (Classical.propDecidable _) then none
  else
    let i := (List.range len).countP fun k => @decide (x k < q) (Classical.propDecidable _)
    let hi := max 1 (min i (len - 1))
    let lo := hi - 1
    some ((y hi - y lo) / (x hi - x lo) * (q - x lo) + y lo)

/-- `Error.__set_sigma`, ErrorAnalyser.py:52-62, for the absolute values `xs` of the errors: both zero when an interpolation raises. -/
noncomputable def sigmas (b : Nat) (xs : List ℝ) : ℝ × ℝ :=
  let x := fun i => (cdf b xs i : ℝ)
  let y := fun i => edge b xs (i + 1)
  match interp b x y (6826 / 10000 * x (b - 1)), interp b x y (9544 / 10000 * x (b - 1)) with
  | some s1, some s2 => (s1, s2)
  | _, _ => (0, 0)

/-- A row of a navigation file: time, latitude, longitude (degrees), height, heading (degrees). ErrorAnalyse.py:28. -/
structure Row where
  time : ℝ
  lat : ℝ
  lon : ℝ
  height : ℝ
  yaw : ℝ

/-- `interp1d` of a column of the reference at a time, ErrorAnalyser.py:164-165. -/
noncomputable def refAt (ref : List Row) (col : Row → ℝ) (t : ℝ) : Option ℝ :=
  interp ref.length (fun i => ((ref[i]?).map Row.time).getD 0) (fun i => ((ref[i]?).map col).getD 0) t

/-- The rows of the target that are used, ErrorAnalyser.py:135-137: those after the first and before the last instant of the reference. -/
noncomputable def common (ref target : List Row) : List Row :=
  target.filter fun r => match ref.head?, ref.getLast? with
    | some a, some z => @decide (r.time < z.time ∧ a.time < r.time) (Classical.propDecidable _)
    | _, _ => false

/-- The errors east, north, up of a row, ErrorAnalyser.py:179-193 with `dE`, `dN` of Earth.py:36-42. -/
noncomputable def rowError (ref : List Row) (r : Row) : Option (ℝ × ℝ × ℝ) := do
  let lat ← refAt ref Row.lat r.time
  let lon ← refAt ref Row.lon r.time
  let h ← refAt ref Row.height r.time
  let e := (r.lon * Real.pi / 180 - lon * Real.pi / 180) * Earth.RN (lat * Real.pi / 180) * Real.cos (lat * Real.pi / 180)
  let n := (r.lat * Real.pi / 180 - lat * Real.pi / 180) * Earth.RM (r.lat * Real.pi / 180)
  some (e, n, r.height - h)

/-- The bins, ErrorAnalyser.py:122-123. -/
def binsOf (target : List Row) : Nat := max (target.length / 500) 100

/-- The plane and the space errors, ErrorAnalyser.py:194-203. -/
noncomputable def planeErrors (es : List (ℝ × ℝ × ℝ)) : List ℝ := es.map fun e => Real.sqrt (e.1 ^ 2 + e.2.1 ^ 2)
/-- See `planeErrors`, ErrorAnalyser.py:199-203. -/
noncomputable def spaceErrors (es : List (ℝ × ℝ × ℝ)) : List ℝ := es.map fun e => Real.sqrt (e.1 ^ 2 + e.2.1 ^ 2 + e.2.2 ^ 2)

/-- The exit status for the errors of the rows, ErrorAnalyse.py:74-81. -/
noncomputable def verdict (thr2 thr3 : ℝ) (b : Nat) (es : List (ℝ × ℝ × ℝ)) : Nat :=
  if @decide (thr3 < (sigmas b ((spaceErrors es).map abs)).2) (Classical.propDecidable _) then 1
  else if @decide (thr2 < (sigmas b ((planeErrors es).map abs)).2) (Classical.propDecidable _) then 1
  else 0

/-- The exit status of `ErrorAnalyse.py config thr2 thr3`, ErrorAnalyse.py:21-81: without common rows the analysis is given up and
printing the table of what is missing raises, which the interpreter reports with the status 1. -/
noncomputable def exitStatus (thr2 thr3 : ℝ) (ref target : List Row) : Nat :=
  match (common ref target).mapM (rowError ref) with
  | none => 1
  | some [] => 1
  | some es => verdict thr2 thr3 (binsOf target) es

/-- `while d > 180: d -= 360` and `while d < -180: d += 360`, ErrorAnalyser.py:155-158,216-219: the least numbers of rounds that end
the loops. -/
noncomputable def wrap (d : ℝ) : ℝ :=
  let d := d - 360 * (⌈(d - 180) / 360⌉₊ : ℝ)
  d + 360 * (⌈(-180 - d) / 360⌉₊ : ℝ)

/-- The headings of the reference without jumps, ErrorAnalyser.py:152-158. -/
noncomputable def unwrapFrom (prev : ℝ) : List ℝ → List ℝ
  | [] => []
  | y :: ys => (prev + wrap (y - prev)) :: unwrapFrom (prev + wrap (y - prev)) ys

/-- All headings of the reference, ErrorAnalyser.py:152-158. -/
noncomputable def unwrap : List ℝ → List ℝ
  | [] => []
  | y :: ys => y :: unwrapFrom y ys

/-- `a[a < 0] += 360; a[a > 360] -= 360`, ErrorAnalyser.py:167-171. -/
noncomputable def fold360 (a : ℝ) : ℝ :=
  let a := if @decide (a < 0) (Classical.propDecidable _) then a + 360 else a
  if @decide (360 < a) (Classical.propDecidable _) then a - 360 else a

/-- The heading error of a row, ErrorAnalyser.py:152-171,212-220. -/
noncomputable def yawError (ref : List Row) (r : Row) : Option ℝ :=
  let ys := unwrap (ref.map Row.yaw)
  (interp ref.length (fun i => ((ref[i]?).map Row.time).getD 0) (fun i => (ys[i]?).getD 0) r.time).map fun y =>
    wrap (fold360 r.yaw - fold360 y)
end Verif.ErrAnalysis
