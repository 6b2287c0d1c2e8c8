import Verif.Spec.Rounding
import Verif.Spec.TrueFlight
import Mathlib.Tactic.DeriveFintype
/-! Arithmetic with rounding, all library functions accurate, and a flight computed with it. -/
namespace Verif.Spec
open Verif Matrix

/-- As `Accurate`, and the other library functions used by the mechanization have the same accuracy. -/
structure AccurateLib (R : Rounding) (u : ℝ) : Prop extends Accurate R u where
  tan : ∀ x, |R.tan x - Real.tan x| ≤ u * (|Real.tan x| + 1)
  atan : ∀ x, |R.atan x - Real.arctan x| ≤ u * (|Real.arctan x| + 1)
  atan2 : ∀ y x, 0 < x → |R.atan2 y x - Complex.arg ⟨x, y⟩| ≤ u * (|Complex.arg ⟨x, y⟩| + 1)
  pow : ∀ x y, 0 < x → |R.pow x y - x ^ y| ≤ u * (|x ^ y| + 1)

/-- The numbers of the state of the mechanization that it reads: position, velocity, last velocity increment, attitude (matrix and quaternion), position quaternion,
sampling interval, last readings, biases and scale factors. -/
inductive Slot where
  | pos (j : Fin 3) | vn (j : Fin 3) | dvn (j : Fin 3) | cbn (j k : Fin 3) | qbn (j : Fin 4) | qne (j : Fin 4) | dt
  | gyroPre (j : Fin 3) | accePre (j : Fin 3) | gb (j : Fin 3) | ab (j : Fin 3) | gs (j : Fin 3) | as (j : Fin 3)
  deriving Fintype, DecidableEq

/-- One of the four numbers of a quaternion. -/
def partQ {α : Type} (q : Quat α) : Fin 4 → α
  | 0 => q.w
  | 1 => q.x
  | 2 => q.y
  | 3 => q.z

/-- One number of the state. -/
def Slot.of {α : Type} (s : Ins α) : Slot → α
  | .pos j => s.nav.pos j
  | .vn j => s.nav.vn j
  | .dvn j => s.nav.dvn j
  | .cbn j k => s.nav.Cbn j k
  | .qbn j => partQ s.nav.Qbn j
  | .qne j => partQ s.nav.Qne j
  | .dt => s.dt
  | .gyroPre j => s.gyroPre j
  | .accePre j => s.accePre j
  | .gb j => s.nav.gb j
  | .ab j => s.nav.ab j
  | .gs j => s.nav.gs j
  | .as j => s.nav.as j

/-- Every number of the state is off from the exact one by at most `x`. -/
def Within {R : Rounding} (x : ℝ) (S : Ins ℝ) (s : Ins (RR R)) : Prop := ∀ a : Slot, |(a.of s).v - a.of S| ≤ x

/-- The readings as real numbers. -/
def valsImu {R : Rounding} (m : Imu (RR R)) : Imu ℝ := ⟨m.gpst.v, fun i => (m.gyro i).v, fun i => (m.acce i).v⟩

/-- The mechanization over a list of samples, in any arithmetic. -/
def run {α : Type} [Add α] [Sub α] [Mul α] [Neg α] [Div α] [Zero α] [One α] [Fl α] (g : α) (s : Ins α) (ms : List (Imu α)) : α × Ins α :=
  ms.foldl (fun p m => p.2.forwardImu p.1 m) (g, s)

/-- The device starts with errors of at most `e` in every quantity, freshly initialised, and the numbers in it are off by at most `b` rounding units more. -/
structure StartsRounded {R : Rounding} (e b u : ℝ) (S : Ins ℝ) (s : Ins (RR R)) (lat lon h : ℝ → ℝ) (v : ℝ → V3 ℝ) (C : ℝ → M3 ℝ) : Prop where
  near : StartsNear e S lat lon h v C
  written : Within (b * u) S s
  biases : ∀ j, |S.nav.gb j| ≤ b ∧ |S.nav.ab j| ≤ b ∧ |S.nav.gs j| ≤ b ∧ |S.nav.as j| ≤ b
end Verif.Spec
