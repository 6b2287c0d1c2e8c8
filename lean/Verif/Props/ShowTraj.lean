import Verif.Model.ShowTraj
import Verif.Lemmas.Rotation
import Verif.Lemmas.Real
import Mathlib.Tactic.FinCases
import Mathlib.Tactic.Linarith
/-! # C178: the trajectory viewer draws the trajectory

Violated: it reads past its list of poses, repeats the last one, and swaps roll and heading. -/
namespace Verif.Props
open Verif Verif.Convert Verif.Spec Matrix ShowTraj

/-- A record of the result file: the eleven numbers the viewer reads. -/
abbrev TrajRecord := Fin 11 → ℝ
/-- The line of a record. -/
def trajLine (r : TrajRecord) : Line ℝ := List.ofFn fun i => some (r i)
/-- A file of records, every line ended. -/
def trajFile (rs : List TrajRecord) : List (Line ℝ) := rs.map trajLine ++ [[]]

theorem fill_line (r j : TrajRecord) : fill 0 (trajLine r) j = r := by
  funext i
  simp only [trajLine, List.ofFn_succ, List.ofFn_zero, fill]
  fin_cases i <;> simp [fill]

theorem loop_file (o : V3 ℝ) (rs : List TrajRecord) (last : TrajRecord) :
    loop o (rs.map trajLine ++ [[]]) last = rs.map (pose o) ++ [pose o (rs.getLastD last)] := by
  induction rs generalizing last with
  | nil => rfl
  | cons r rs ih =>
    rw [List.map_cons, List.cons_append, loop, fill_line, ih r, List.map_cons, List.cons_append]
    have e : (r :: rs).getLastD last = rs.getLastD r := by rw [List.getLastD_cons]
    rw [e]

/-- **C178, what is read.** From a file of records, every line ended, the viewer makes a pose of every record but the first (the
origin), and one more of the last record. -/
theorem C178_poses_partial (junk : TrajRecord) (r : TrajRecord) (rs : List TrajRecord) :
    poses junk (trajFile (r :: rs)) = rs.map (pose (place r)) ++ [pose (place r) (rs.getLastD r)] := by
  unfold trajFile
  rw [List.map_cons, List.cons_append, poses, fill_line, loop_file]

/-- **C178 fails.** Whatever is drawn, the viewer accesses an element that does not exist, in every frame, unless there is
nothing to draw. -/
theorem C178_out_of_range (ps : List (Pose ℝ)) : segments ps = none ↔ ps ≠ [] := by
  constructor
  · rintro h rfl
    simp [segments] at h
  · intro h
    unfold segments
    have hl : 0 < ps.length := List.length_pos_iff.2 h
    obtain ⟨n, hn⟩ : ∃ n, ps.length = n + 1 := ⟨ps.length - 1, by omega⟩
    rw [hn, List.range_succ, List.mapM_append]
    have e : elem ps (n + 1) = none := by unfold elem; rw [List.getElem?_eq_none]; omega
    have e2 : (List.mapM (fun i => (elem ps i).bind fun a => (elem ps (i + 1)).map fun b => (a.pos, b.pos)) [n]) = none := by
      simp [e]
    rw [e2]
    cases List.mapM (fun i => (elem ps i).bind fun a => (elem ps (i + 1)).map fun b => (a.pos, b.pos)) (List.range n) <;> rfl

theorem C178_every_file (junk : TrajRecord) (r : TrajRecord) (rs : List TrajRecord) :
    segments (poses junk (trajFile (r :: rs))) = none := by
  rw [C178_out_of_range, C178_poses_partial]
  simp

/-- **C178 fails for the axes.** The rotation drawn turns by the roll about the vertical and by the heading about the first axis
(columns 9, 10 and 11 of the file are roll, pitch and heading in degrees). -/
theorem C178_rotation (o : V3 ℝ) (r : TrajRecord) : (pose o r).rot.toRot =
    Rz (r 8 * (Real.pi / 180)) * Ry (r 9 * (Real.pi / 180)) * Rx (r 10 * (Real.pi / 180)) := by
  have e : (deg : ℝ) = Real.pi / 180 := by simp only [deg, pi_real, lit_real]; push_cast; ring
  have h : (pose o r).rot = ((qz (r 8 * deg)).mul (qy (r 9 * deg))).mul (qx (r 10 * deg)) := by
    have h2 : ((2 : ℚ) : ℝ) = 2 := by norm_num
    simp only [pose, euler2Quat, qz, qy, qx, cos_real, sin_real, lit_real, h2]
    rfl
  have hu : qsq (pose o r).rot = 1 := by
    rw [h, qsq_mul, qsq_mul, (qsq_q _).1, (qsq_q _).2.1, (qsq_q _).2.2]; norm_num
  rw [toRot_eq _ hu, h, rotH_mul, rotH_mul, rotH_qx, rotH_qy, rotH_qz, e]

/-- The first axis of a level vehicle is drawn in one direction whatever its heading. -/
theorem C178_heading_not_shown (o : V3 ℝ) (r : TrajRecord) (h8 : r 8 = 0) (h9 : r 9 = 0) :
    xAxis (pose o r) = ((pose o r).pos, ![1 / 10, 0, 0] + (pose o r).pos) := by
  unfold xAxis
  rw [C178_rotation, h8, h9, mvec_real]
  congr 2
  have hv : (v3 (Fl.lit (1 / 10)) 0 0 : V3 ℝ) = ![1 / 10, 0, 0] := by
    funext i; fin_cases i
    · show ((1 / 10 : ℚ) : ℝ) = 1 / 10
      norm_num
    · rfl
    · rfl
  have hR : Rz (0 * (Real.pi / 180)) * Ry (0 * (Real.pi / 180)) = 1 := by
    ext i j; fin_cases i <;> fin_cases j <;> simp [Rz, Ry, Matrix.mul_apply, Fin.sum_univ_three]
  rw [hv, hR, Matrix.one_mul]
  funext i
  fin_cases i <;> simp [Rx, mulVec, dotProduct, Fin.sum_univ_three]

/-- **C178, where the points are.** The point drawn for a record lies at the difference of the earth-fixed positions of the record
and of the first one. -/
theorem C178_points_partial (r s : TrajRecord) :
    (pose (place r) s).pos = llaToXyz (v3 (s 2 * deg) (s 3 * deg) (s 4)) - llaToXyz (v3 (r 2 * deg) (r 3 * deg) (r 4)) := rfl

/-- A file of three records: two poses and the last again. -/
example (junk a b c : TrajRecord) : (poses junk (trajFile [a, b, c])).length = 3 := by
  rw [C178_poses_partial]; rfl
end Verif.Props
