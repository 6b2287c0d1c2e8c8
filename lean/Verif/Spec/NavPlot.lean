import Verif.Types
/-! What the viewer of results ought to show (for C186-C190). -/
namespace Verif.Spec.Viewer
open Verif
variable {α : Type}

/-- A figure: the track (longitude, latitude), or three curves over time with the title of their axis. -/
inductive Figure (τ α : Type)
  | nothing
  | track (points : List (α × α))
  | three (title : τ) (curves : Fin 3 → List (α × α))

/-- The track of a list of results. -/
def trackOf (rs : List (NavOutput α)) : List (α × α) := rs.map fun r => (r.lon, r.lat)

/-- A quantity over time. -/
def overTime (f : NavOutput α → α) (rs : List (NavOutput α)) : List (α × α) := rs.map fun r => (r.gpst, f r)

/-- The result has the values of the eleven leading columns of a line of numbers: week, time, latitude, longitude, height,
velocity, attitude. -/
def hasColumns (wk : α → Int) (l : List α) (r : NavOutput α) : Prop :=
  (l[0]?).map wk = some r.week ∧ l[1]? = some r.gpst ∧ l[2]? = some r.lat ∧ l[3]? = some r.lon ∧ l[4]? = some r.height ∧
  (∀ i : Fin 3, l[5 + i.val]? = some (r.vn i)) ∧ ∀ i : Fin 3, l[8 + i.val]? = some (r.atti i)

/-- A text file whose lines are these, the last one with or without a line end. -/
def fileOf (lines : List (List α)) (lineEnd : Bool) : List (List (Option α)) :=
  lines.map (fun l => l.map some) ++ if lineEnd then [[]] else []
end Verif.Spec.Viewer
