import Verif.Model.OldTools
import Verif.Props.Api
import Verif.Props.Reports
import Verif.Lemmas.Rotation
import Mathlib.Tactic.Ring
import Mathlib.Tactic.FinCases
import Mathlib.Tactic.NormNum
/-! # C191-C193: the tools on sample and result files -/
namespace Verif.Props
open Verif Verif.OldTools Verif.UiThread Verif.Spec
section anyScalar
variable {α : Type} [Add α] [Sub α] [Mul α] [Neg α] [Div α] [Zero α] [One α] [Fl α]

/-- A loop whose block keeps nothing but the record variable. -/
theorem whileOk_map {β γ : Type} (u : β → β) (w : β → γ) (l : List β) : ∀ x,
    whileOk (fun (_ : Unit) i => ((), u i, w i)) l () x = l.map w ++ [w ((l.map u).getLastD x)] := by
  induction l with
  | nil => intro x; rfl
  | cons y l ih => intro x; simp only [whileOk, ih, List.map_cons, List.cons_append, List.getLastD_cons]

theorem fix_shape {β : Type} (u : β → β) (x : β) (f : Option (List β)) :
    (let r := (Rd.new f).readNext; readerLoop (fun (_ : Unit) i => ((), u i, u i)) r.2 () (r.1.getD x)) =
    match f with
    | none => []
    | some [] => []
    | some (y :: l) => l.map u ++ [u ((l.map u).getLastD y)] := by
  rcases f with _ | _ | ⟨y, l⟩
  · rfl
  · rfl
  · simp only [Rd.new, Rd.readNext, readerLoop, if_true, Option.getD_some]
    exact whileOk_map u u l y

/-- C191 is violated: the file `IMUFix` writes lacks the first sample and has the last one a second time, once more a second
earlier; the samples between are each moved by one second. Nothing is written for a missing or empty file. -/
theorem C191_fixed_file_partial (x y : Imu α) (l : List (Imu α)) :
    imuFix x (some (y :: l)) = l.map shiftImu ++ [shiftImu ((l.map shiftImu).getLastD y)] ∧
    imuFix x none = [] ∧ imuFix x (some []) = [] :=
  ⟨fix_shape shiftImu x (some (y :: l)), fix_shape shiftImu x none, fix_shape shiftImu x (some [])⟩

/-- The same of the odometer file and of the rotated file: what is done to a record is done twice to the last one. -/
theorem C191_other_files_partial (x y : Imu α) (l : List (Imu α)) (v w : Odo α) (m : List (Odo α)) :
    imuRotate x (some (y :: l)) = l.map rotateImu ++ [rotateImu ((l.map rotateImu).getLastD y)] ∧
    odoFix v (some (w :: m)) = m.map (fun v => { v with gpst := v.gpst - 1 }) ++
      [{ (m.map fun v => { v with gpst := v.gpst - 1 }).getLastD w with
         gpst := ((m.map fun v => ({ v with gpst := v.gpst - 1 } : Odo α)).getLastD w).gpst - 1 }] :=
  ⟨fix_shape rotateImu x (some (y :: l)), fix_shape (fun v : Odo α => { v with gpst := v.gpst - 1 }) v (some (w :: m))⟩

/-- The detector after the samples so far, as the tool sets it up. -/
def detector (xs : List (Imu α)) : Smooth α := feed (Fl.lit (5 / 1000000000)) 2 10 xs

/-- The line a user expects after the samples so far, the last of them `m`. -/
def lineAfter (xs : List (Imu α)) (m : Imu α) : ZeroLine α := ⟨m.gpst, (detector xs).getStd, (detector xs).isStatic⟩

theorem zero_lines (l : List (Imu α)) : ∀ (pre : List (Imu α)) (x : Imu α),
    whileOk (fun (s : Smooth α) i => (s.update i, i, (⟨i.gpst, (s.update i).getStd, (s.update i).isStatic⟩ : ZeroLine α))) l (detector pre) x =
      ((List.range l.length).map fun k => lineAfter (pre ++ l.take (k + 1)) ((l[k]?).getD x)) ++
        [lineAfter (pre ++ l ++ [l.getLastD x]) (l.getLastD x)] := by
  induction l with
  | nil =>
    intro pre x
    simp only [whileOk, List.length_nil, List.range_zero, List.map_nil, List.nil_append, List.append_nil, List.getLastD_nil, lineAfter,
      detector, feed, List.foldl_append, List.foldl_cons, List.foldl_nil]
  | cons y l ih =>
    intro pre x
    have hd : (detector pre).update y = detector (pre ++ [y]) := by
      simp only [detector, feed, List.foldl_append, List.foldl_cons, List.foldl_nil]
    simp only [whileOk]
    rw [hd, ih (pre ++ [y]) y, List.length_cons, List.range_succ_eq_map, List.map_cons, List.map_map, List.cons_append, List.getLastD_cons,
      List.append_assoc pre [y] l, List.singleton_append]
    congr 1
    congr 1
    apply List.map_congr_left
    intro k hk
    have hk' : k < l.length := List.mem_range.1 hk
    simp [List.getElem?_eq_getElem hk']

/-- C192: the first lines of the detector's output are one per sample, in order, each with the time of its sample and the state of the
detector after the samples up to it; the mark is set exactly if at this and the two samples before the deviation was not above
5e-9. Violated by one line: the last sample is counted and written a second time. Nothing is written for a missing file. -/
theorem C192_lines_partial (x : Imu α) (l : List (Imu α)) :
    ∃ front back, zeroDetector x (some l) = front ++ [back] ∧ front.length = l.length ∧
      (∀ k m, l[k]? = some m → ∃ z, front[k]? = some z ∧ z.time = m.gpst ∧ z.std = (detector (l.take (k + 1))).getStd ∧
        (z.static = true ↔ calmLast (Fl.lit (5 / 1000000000)) 2 10 (l.take (k + 1)) 3)) ∧
      back = lineAfter (l ++ [l.getLastD x]) (l.getLastD x) ∧ zeroDetector x none = [] := by
  have h : zeroDetector x (some l) = whileOk (fun (s : Smooth α) i => (s.update i, i,
      (⟨i.gpst, (s.update i).getStd, (s.update i).isStatic⟩ : ZeroLine α))) l (detector []) x := rfl
  refine ⟨(List.range l.length).map fun k => lineAfter (l.take (k + 1)) ((l[k]?).getD x), _, ?_, by simp, ?_, rfl, rfl⟩
  · rw [h, zero_lines]; rfl
  · intro k m hk
    have hlt : k < l.length := (List.getElem?_eq_some_iff.1 hk).1
    refine ⟨lineAfter (l.take (k + 1)) m, ?_, rfl, rfl, ?_⟩
    · rw [List.getElem?_map, List.getElem?_range hlt, Option.map_some, hk, Option.getD_some]
    · have hne : l.take (k + 1) ≠ [] := by
        intro hc
        rw [List.take_eq_nil_iff] at hc
        rcases hc with hc | hc
        · omega
        · rw [hc] at hlt; simp at hlt
      refine (C33_static_criterion (Fl.lit (5 / 1000000000) : α) 2 10 (l.take (k + 1)) (.inl hne)).1.trans ⟨?_, ?_⟩
      · rintro ⟨n, hn, h1, h2⟩
        have hn' : 3 ≤ n := by omega
        exact ⟨hn'.trans h1, fun j hj => h2 j (lt_of_lt_of_le hj hn')⟩
      · intro h3
        exact ⟨3, by norm_num, h3⟩

/-- C193 is violated: the file written has one row for each result of the binary file, in order (the rows of C162), and the row of the last
result again; for a file without results it has one row of uninitialised memory. -/
theorem C193_rows_partial (enc : α → List (BitVec 8)) (x : NavOutput α) (rs : List (NavOutput α)) :
    saveNavToBin enc x (some rs) = matrixFile enc rs ++ matrixFile enc [rs.getLastD x] ∧ saveNavToBin enc x none = [] := by
  refine ⟨?_, rfl⟩
  unfold saveNavToBin
  simp only [Rd.new, readerLoop, if_true]
  rw [whileOk_map (fun n : NavOutput α => n) (fun n => (navToDouble n).bytes enc)]
  simp [matrixFile, List.flatMap]
end anyScalar

/-- C191, the times in exact arithmetic: from the second sample to the last each time is one second less; the last line is two seconds
before the last sample. -/
theorem C191_times (x y z : Imu ℝ) (l : List (Imu ℝ)) :
    (imuFix x (some (y :: (l ++ [z])))).map Imu.gpst = (l ++ [z]).map (fun i => i.gpst - 1) ++ [z.gpst - 2] := by
  rw [(C191_fixed_file_partial x y (l ++ [z])).1]
  simp [shiftImu, Function.comp_def]
  ring

/-- C191, the rotated file: the rotation changes no length, and the last line is turned twice. -/
theorem C191_rotation (i : Imu ℝ) :
    (rotateImu i).gpst = i.gpst - 1 ∧ (rotateImu i).gyro = Matrix.mulVec (Rx (75 * (Real.pi / 180))) i.gyro ∧
    (rotateImu i).acce = Matrix.mulVec (Rx (75 * (Real.pi / 180))) i.acce := by
  have h : (Convert.eulerToDcm (v3 (Fl.lit 75 * deg) (0 * deg) (0 * deg)) : M3 ℝ) = Rx (75 * (Real.pi / 180)) := by
    rw [eulerToDcm_eq]
    have hz : (Rz 0 : M3 ℝ) = 1 := by unfold Rz; ext a b; fin_cases a <;> fin_cases b <;> simp
    have hy : (Ry 0 : M3 ℝ) = 1 := by unfold Ry; ext a b; fin_cases a <;> fin_cases b <;> simp
    simp [v3, deg, hz, hy]
  refine ⟨rfl, ?_, ?_⟩
  · show mvec _ _ = _
    rw [mvec_real, h]
  · show mvec _ _ = _
    rw [mvec_real, h]

example : (imuFix ⟨0, 0, 0⟩ (some [⟨10, 0, 0⟩, ⟨11, 0, 0⟩, ⟨12, 0, 0⟩])).map Imu.gpst = [(10 : ℝ), 11, 10] := by
  have := C191_times ⟨0, 0, 0⟩ ⟨10, 0, 0⟩ ⟨12, 0, 0⟩ [⟨11, 0, 0⟩]
  rw [show [(⟨10, 0, 0⟩ : Imu ℝ), ⟨11, 0, 0⟩, ⟨12, 0, 0⟩] = ⟨10, 0, 0⟩ :: ([⟨11, 0, 0⟩] ++ [⟨12, 0, 0⟩]) from rfl, this]
  norm_num
end Verif.Props
