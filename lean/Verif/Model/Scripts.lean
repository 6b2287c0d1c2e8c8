import Mathlib.Data.Rat.Floor
import Mathlib.Algebra.Order.Floor.Ring
/-! Model of the plotting scripts Tools/show_nav.py (`showBias`) and Tools/show_sensors.py: what each reads from the table of
numbers `np.loadtxt` makes of the result file, and what it hands to the plots. The plots themselves are not modelled. -/
namespace Verif.Scripts

/-- The table `np.loadtxt` returns, show_nav.py:12, show_sensors.py:22: rows of equal length. A file of one line gives
a vector and one without lines an empty vector, for which `[:, 1]` raises. -/
abbrev Table := List (List ℚ)

/-- `t[:, k]`: raises (`none`) unless there are two rows and every row has the column. show_nav.py:13,29, show_sensors.py:50. -/
def column (t : Table) (k : Nat) : Option (List ℚ) := if t.length < 2 then none else t.mapM fun r => r[k]?

/-- `t[:, lo:hi]`: columns that do not exist are left out. show_nav.py:15,22. -/
def slice (t : Table) (lo hi : Nat) : Option Table := if t.length < 2 then none else some (t.map fun r => (r.drop lo).take (hi - lo))

/-- The plots of `showBias` in order, show_nav.py:9-32: the curves of gyroscope bias, of accelerometer bias, and of the odometer scale;
whether the script gets to showing them. -/
def showBias (t : Table) : List Table × Bool :=
  match column t 1 with
  | none => ([], false)
  | some _ =>
    match slice t 11 14 with
    | none => ([], false)
    | some g =>
      match slice t 14 17 with
      | none => ([g], false)
      | some a =>
        match column t 19 with
        | none => ([g, a], false)
        | some s => ([g, a, s.map fun x => [x]], true)

/-- `int(x) & bit > 0` for a power of two, show_sensors.py:38-48 (`int` rounds towards zero; of a negative number Python takes the
two's complement). -/
def hasBit (x : ℚ) (k : Nat) : Bool := (if 0 ≤ x then ⌊x⌋ else ⌈x⌉) / 2 ^ k % 2 == 1

/-- The bits of `sensor_idx`, show_sensors.py:23-30, in the order of the plot: IMU, GNSS, odometer, ZUPT, NHC, pressure. -/
def sensorBits : List Nat := [0, 1, 2, 3, 4, 7]

/-- The rows that have a bit, show_sensors.py:37-49, or nothing when a row has no such column (`d[24]` raises). -/
def indexed (t : Table) (col bit : Nat) : Option (List Nat) := do
  let xs ← t.mapM fun r => r[col]?
  some ((List.range xs.length).filter fun i => hasBit (xs.getD i 0) bit)

/-- `show_sensors`, show_sensors.py:20-66: for every sensor the times marked. -/
def showSensors (t : Table) : Option (List (List ℚ)) := do
  let is ← sensorBits.mapM (indexed t 24)
  let times ← column t 1
  some (is.map fun ix => ix.map fun i => times.getD i 0)
end Verif.Scripts
