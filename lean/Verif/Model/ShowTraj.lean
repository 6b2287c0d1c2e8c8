import Verif.Model.Convert
/-! Model of `/repo/Tools/showTraj.cpp`: what is read and what is drawn. The file is the list of the texts between its line ends
(the last one is empty when the file ends with a line end), each a list of words; `none` is a word that is no number.
The window and the calls of OpenGL are not modelled. The program is commented out in `Tools/CMakeLists.txt:10-17`. -/
namespace Verif.ShowTraj
open Verif.Convert
variable {α : Type} [Add α] [Sub α] [Mul α] [Neg α] [Div α] [Zero α] [One α] [Fl α]

/-- The words of a line (`buffer`, showTraj.cpp:42-45,52-53). -/
abbrev Line (α : Type) := List (Option α)

/-- `ss >> week >> time >> … >> az`, showTraj.cpp:46,54: from variable `k` on. A word that is no number sets its variable to
zero (C++11) and ends the extraction; variables for which the line has no word keep their value. -/
def fill (k : Nat) : Line α → (Fin 11 → α) → (Fin 11 → α)
  | [], r => r
  | some x :: ws, r => if k < 11 then fill (k + 1) ws (fun i => if i.val = k then x else r i) else r
  | none :: _, r => fun i => if i.val = k then 0 else r i

/-- `Euler2Quaternion`, showTraj.cpp:20-25. -/
def euler2Quat (e : V3 α) : Quat α :=
  let h : α → α := fun x => x / Fl.lit 2
  let z : Quat α := ⟨Fl.cos (h (e 2)), 0, 0, Fl.sin (h (e 2))⟩
  let y : Quat α := ⟨Fl.cos (h (e 1)), 0, Fl.sin (h (e 1)), 0⟩
  let x : Quat α := ⟨Fl.cos (h (e 0)), Fl.sin (h (e 0)), 0, 0⟩
  (z.mul y).mul x

/-- A pose `Twr`, showTraj.cpp:60-62: rotation and translation. -/
structure Pose (α : Type) where
  rot : Quat α
  pos : V3 α

/-- The earth-fixed position of the variables, showTraj.cpp:47-48,55-56. -/
def place (r : Fin 11 → α) : V3 α := llaToXyz (v3 (r 2 * deg) (r 3 * deg) (r 4))

/-- The pose of the variables, showTraj.cpp:55-62. -/
def pose (pos0 : V3 α) (r : Fin 11 → α) : Pose α :=
  { rot := euler2Quat (v3 (r 10 * deg) (r 9 * deg) (r 8 * deg))
    pos := place r - pos0 }

/-- The loop, showTraj.cpp:51-63: one pose per remaining line, the empty one after the last line end included. -/
def loop (pos0 : V3 α) : List (Line α) → (Fin 11 → α) → List (Pose α)
  | [], _ => []
  | l :: ls, r => pose pos0 (fill 0 l r) :: loop pos0 ls (fill 0 l r)

/-- `main`, showTraj.cpp:43-64: the variables are uninitialised at first (`junk`); the first line gives the origin only. -/
def poses (junk : Fin 11 → α) : List (Line α) → List (Pose α)
  | [] => []
  | l :: ls => loop (place (fill 0 l junk)) ls (fill 0 l junk)

/-- Element `i` of the `std::vector` (`poses[i]`, showTraj.cpp:91,113); `none` is an access out of range. -/
def elem (ps : List (Pose α)) (i : Nat) : Option (Pose α) := ps[i]?

/-- The lines drawn between poses, showTraj.cpp:110-117; `none`: an access out of range. -/
def segments (ps : List (Pose α)) : Option (List (V3 α × V3 α)) :=
  (List.range ps.length).mapM fun i => (elem ps i).bind fun a => (elem ps (i + 1)).map fun b => (a.pos, b.pos)

/-- The first axis drawn at a pose: from `Ow` to `Xw`, showTraj.cpp:92-98; the rotation acts by its matrix. -/
def xAxis (p : Pose α) : V3 α × V3 α := (p.pos, mvec p.rot.toRot (v3 (Fl.lit (1 / 10)) 0 0) + p.pos)
end Verif.ShowTraj
