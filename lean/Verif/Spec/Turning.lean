import Verif.Spec.Navigation
import Verif.Spec.Rotation
import Verif.Model.Ins
/-! What a sequence of small turns does to an attitude, exactly. -/
namespace Verif.Spec
open Verif Matrix

/-- The matrix of the rotation by the angle `len v` about the axis `v` (Rodrigues' formula; the identity for `v = 0`). -/
noncomputable def turnM (v : V3 ℝ) : M3 ℝ :=
  1 + (Real.sin (len v) / len v) • xm v + ((1 - Real.cos (len v)) / len v ^ 2) • (xm v * xm v)

/-- One sample interval: how the navigation frame turns against inertial space, and how the body does. -/
structure Turn where
  frame : V3 ℝ
  body : V3 ℝ

/-- The attitude matrix (body to navigation frame) after one interval: the body turns, and the frame turns away below it. -/
noncomputable def Turn.applyTo (t : Turn) (C : M3 ℝ) : M3 ℝ := (turnM t.frame)ᵀ * C * turnM t.body

/-- The turn of the body over an interval, from the corrected gyroscope increments of this and the previous interval
(two-sample coning correction). -/
noncomputable def bodyTurn (prev cur : V3 ℝ) : V3 ℝ := fun i => cur i + xp prev cur i / 12

/-- The gyroscope increment without the estimated bias and scale factor. -/
noncomputable def increment (n : NavEpoch ℝ) (dt : ℝ) (gyro : V3 ℝ) : V3 ℝ := fun i => (1 - n.gs i) * (gyro i - n.gb i * dt)

/-- The turn of the navigation frame between two epochs: earth rate and transport rate at the mean velocity and height and at the
latitude half an interval after the second epoch (the latitude the code uses, C142). -/
noncomputable def navFrameTurn (dt : ℝ) (a b : NavEpoch ℝ) : V3 ℝ :=
  let lat := b.pos 0 + (b.pos 0 - a.pos 0) / 2
  fun i => (earthRate lat i + transportRate (fun j => (a.vn j + b.vn j) / 2) lat ((a.pos 2 + b.pos 2) / 2) i) * dt

/-- The epochs of a run of the mechanization over a list of samples; the first number is the gravity kept by the program. -/
noncomputable def flight (g : ℝ) (s : Ins ℝ) (ms : List (Imu ℝ)) : ℝ × Ins ℝ := ms.foldl (fun p m => p.2.forwardImu p.1 m) (g, s)

/-- The turns of the run, one per sample, read off its epochs, its samples and the increment before the first one. -/
noncomputable def flightTurns : ℝ → Ins ℝ → V3 ℝ → List (Imu ℝ) → List Turn
  | _, _, _, [] => []
  | g, s, prev, m :: ms =>
    let next := s.forwardImu g m
    let cur := increment s.nav s.dt m.gyro
    ⟨navFrameTurn s.dt s.nav next.2.nav, bodyTurn prev cur⟩ :: flightTurns next.1 next.2 cur ms

/-- How far a turn of this size is from what the truncated series of the code computes, at most. -/
noncomputable def seriesError (v : V3 ℝ) : ℝ := len v ^ 9 / 14000000
end Verif.Spec
