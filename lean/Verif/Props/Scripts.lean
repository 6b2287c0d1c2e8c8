import Verif.Model.Scripts
import Verif.Props.ResultLine
import Mathlib.Tactic.Ring
import Mathlib.Tactic.NormNum
import Mathlib.Tactic.Linarith
import Mathlib.Tactic.IntervalCases
/-! The plotting scripts and the result file. -/
namespace Verif.Props
open Verif Verif.Spec Verif.ResultLine Verif.Scripts

/-- The table `np.loadtxt` makes of a text: nothing when a word is no number. -/
def loadTable (t : List Char) : Option Table := (readTable t).mapM fun l => l.mapM id

theorem mapM_id_shows (vs : List (Option ℚ)) (cs : List (ℝ × Nat)) (h : List.Forall₂ (fun v (c : ℝ × Nat) => shows v c.1 c.2) vs cs) :
    ∃ qs : List ℚ, vs.mapM id = some qs ∧ vs = qs.map some := by
  induction h with
  | nil => exact ⟨[], rfl, rfl⟩
  | cons h _ ih =>
    obtain ⟨q, hq, _⟩ := h
    obtain ⟨qs, h1, h2⟩ := ih
    refine ⟨q :: qs, ?_, ?_⟩
    · rw [List.mapM_cons, hq, h1]; rfl
    · rw [hq, h2]; rfl

/-- Every result file is a table, with a row for every result, of thirteen columns that show the result. -/
theorem load_result (rs : List (NavOutput ℝ)) : ∃ t, loadTable (fileText rs) = some t ∧
    List.Forall₂ (fun row r => List.Forall₂ (fun v (c : ℝ × Nat) => shows (some v) c.1 c.2) row (columns r)) t rs := by
  have h := C154_read_back rs
  unfold loadTable
  generalize readTable (fileText rs) = tt at h
  induction h with
  | nil => exact ⟨[], rfl, .nil⟩
  | @cons vs r vss rs hv _ ih =>
    obtain ⟨qs, h1, h2⟩ := mapM_id_shows _ _ hv
    obtain ⟨t, ht, hf⟩ := ih
    refine ⟨qs :: t, ?_, .cons ?_ hf⟩
    · rw [List.mapM_cons, h1, ht]; rfl
    · rw [h2, List.forall₂_map_left_iff] at hv; exact hv

theorem load_width {t : Table} {rs : List (NavOutput ℝ)}
    (h : List.Forall₂ (fun row r => List.Forall₂ (fun v (c : ℝ × Nat) => shows (some v) c.1 c.2) row (columns r)) t rs) :
    t.length = rs.length ∧ ∀ row ∈ t, row.length = 13 := by
  induction h with
  | nil => simp
  | cons hv _ ih =>
    refine ⟨by simp [ih.1], ?_⟩
    intro row hr
    rcases List.mem_cons.1 hr with rfl | hr
    · rw [hv.length_eq]; rfl
    · exact ih.2 row hr

theorem mapM_none_of_short (t : Table) (k : Nat) (hne : t ≠ []) (h : ∀ row ∈ t, row.length ≤ k) : (t.mapM fun r => r[k]?) = none := by
  match t, hne with
  | row :: t, _ =>
    rw [List.mapM_cons, List.getElem?_eq_none (h row (by simp))]
    rfl

/-- C171, the violation: `show_sensors.py` raises for every result file there is: the flags are in the thirteenth column, the
script takes the twenty-fifth. -/
theorem C171_sensors_never_shown (rs : List (NavOutput ℝ)) : ∃ t, loadTable (fileText rs) = some t ∧ showSensors t = none := by
  obtain ⟨t, ht, hf⟩ := load_result rs
  refine ⟨t, ht, ?_⟩
  obtain ⟨_, hw⟩ := load_width hf
  by_cases hne : t = []
  · subst hne
    simp [showSensors, column]
  · have : indexed t 24 0 = none := by
      unfold indexed
      rw [mapM_none_of_short t 24 hne (fun row hr => by rw [hw row hr]; norm_num)]
      rfl
    unfold showSensors sensorBits
    rw [List.mapM_cons, this]
    rfl

/-- C171, the violation: of every result file with two results or more `showBias` draws the positioning mode and the sensor flags as
gyroscope bias, draws nothing as accelerometer bias, and then raises for want of the odometer's column. -/
theorem C171_mode_and_flags_as_bias (rs : List (NavOutput ℝ)) (h2 : 2 ≤ rs.length) : ∃ t g, loadTable (fileText rs) = some t ∧
    showBias t = ([g, t.map fun _ => []], false) ∧
    List.Forall₂ (fun row (r : NavOutput ℝ) => ∃ m f : ℚ, row = [m, f] ∧
      shows (some m) r.info.gnssMode.toNat 0 ∧ shows (some f) r.info.sensors.toNat 0) g rs := by
  obtain ⟨t, ht, hf⟩ := load_result rs
  obtain ⟨hl, hw⟩ := load_width hf
  refine ⟨t, t.map fun r => (r.drop 11).take 3, ht, ?_, ?_⟩
  · have hl2 : ¬ t.length < 2 := by omega
    have hne : t ≠ [] := by rintro rfl; simp at hl2
    have c1 : ∃ c, column t 1 = some c := by
      unfold column
      rw [if_neg hl2]
      clear hf ht hl hl2 hne
      induction t with
      | nil => exact ⟨[], rfl⟩
      | cons row t ih =>
        obtain ⟨c, hc⟩ := ih (fun r hr => hw r (List.mem_cons_of_mem _ hr))
        have := hw row (by simp)
        rw [List.mapM_cons, hc, List.getElem?_eq_getElem (by omega)]
        exact ⟨_, rfl⟩
    obtain ⟨c, hc⟩ := c1
    have c19 : column t 19 = none := by
      unfold column
      rw [if_neg hl2]
      exact mapM_none_of_short t 19 hne (fun row hr => by rw [hw row hr]; norm_num)
    unfold showBias
    rw [hc]
    dsimp only
    have s1 : slice t 11 14 = some (t.map fun r => (r.drop 11).take 3) := by unfold slice; rw [if_neg hl2]
    have s2 : slice t 14 17 = some (t.map fun _ => []) := by
      unfold slice
      rw [if_neg hl2]
      congr 1
      refine List.map_congr_left fun row hr => ?_
      rw [List.drop_eq_nil_of_le (by rw [hw row hr]; norm_num)]
      rfl
    rw [s1]
    dsimp only
    rw [s2]
    dsimp only
    rw [c19]
  · rw [List.forall₂_map_left_iff]
    refine hf.imp fun row r hv => ?_
    have hlen : row.length = 13 := hv.length_eq
    obtain ⟨a0, a1, a2, a3, a4, a5, a6, a7, a8, a9, a10, m, f, rfl⟩ :
        ∃ a0 a1 a2 a3 a4 a5 a6 a7 a8 a9 a10 m f, row = [a0, a1, a2, a3, a4, a5, a6, a7, a8, a9, a10, m, f] := by
      match row, hlen with
      | [a0, a1, a2, a3, a4, a5, a6, a7, a8, a9, a10, m, f], _ => exact ⟨a0, a1, a2, a3, a4, a5, a6, a7, a8, a9, a10, m, f, rfl⟩
    refine ⟨m, f, rfl, ?_, ?_⟩
    · have := List.forall₂_iff_get.1 hv
      exact this.2 11 (by simp) (by simp [columns])
    · have := List.forall₂_iff_get.1 hv
      exact this.2 12 (by simp) (by simp [columns])

theorem mapM_some_of_wide (t : Table) (k : Nat) (h : ∀ row ∈ t, k < row.length) :
    (t.mapM fun r => r[k]?) = some (t.map fun r => r.getD k 0) := by
  induction t with
  | nil => rfl
  | cons row t ih =>
    have h0 := h row (by simp)
    rw [List.mapM_cons, ih (fun r hr => h r (by simp [hr])), List.getElem?_eq_getElem h0]
    simp [List.getD_eq_getElem?_getD, List.getElem?_eq_getElem h0]

/-- C171, what the bias plot needs: of a table of at least two rows the script gets to showing its three plots when every row has at
least twenty numbers, and then draws columns 11 to 13, 14 to 16 and 19 (from zero). -/
theorem C171_bias_plot_partial (t : Table) (h2 : 2 ≤ t.length) (hw : ∀ row ∈ t, 20 ≤ row.length) :
    showBias t = ([t.map fun r => (r.drop 11).take 3, t.map fun r => (r.drop 14).take 3, t.map fun r => [r.getD 19 0]], true) := by
  have hl2 : ¬ t.length < 2 := by omega
  unfold showBias column slice
  simp only [if_neg hl2]
  rw [mapM_some_of_wide t 1 (fun r hr => by have := hw r hr; omega), mapM_some_of_wide t 19 (fun r hr => by have := hw r hr; omega)]
  simp only [List.map_map]
  rfl

/-- C171: of a file of no or one line nothing is drawn and nothing shown. -/
theorem C171_bias_plot_short (t : Table) (h2 : t.length < 2) : showBias t = ([], false) := by
  unfold showBias column
  rw [if_pos h2]

/-- A table of two rows of twenty numbers meets C171's hypotheses, and its plots differ. -/
example : let t : Table := [(List.range 20).map fun k => (k : ℚ), (List.range 20).map fun k => (2 * k : ℚ)]
    2 ≤ t.length ∧ (∀ row ∈ t, 20 ≤ row.length) ∧ (showBias t).1.getD 2 [] = [[19], [38]] := by
  dsimp only
  refine ⟨by simp, by simp, ?_⟩
  rw [C171_bias_plot_partial _ (by simp) (by simp)]
  simp [List.range_succ]
  norm_num

theorem hasBit_nat (n k : Nat) : hasBit (n : ℚ) k = n.testBit k := by
  unfold hasBit
  rw [if_pos (by positivity)]
  have e : ⌊(n : ℚ)⌋ = (n : ℤ) := by simp
  rw [e, Nat.testBit_eq_decide_div_mod_eq, Bool.eq_iff_iff]
  simp only [beq_iff_eq, decide_eq_true_eq]
  constructor
  · intro h; exact_mod_cast h
  · intro h; exact_mod_cast h

theorem mapM_col (t : Table) (k : Nat) {β : Type} (f : β → ℚ) (rows : List β) (h : List.Forall₂ (fun row r => row[k]? = some (f r)) t rows) :
    (t.mapM fun r => r[k]?) = some (rows.map f) := by
  induction h with
  | nil => rfl
  | cons h _ ih => rw [List.mapM_cons, h, ih]; rfl

theorem filter_index {β : Type} (rows : List β) (p : β → Bool) (f : β → ℚ) (q : Nat → Bool) (g : Nat → ℚ)
    (h : ∀ i (hi : i < rows.length), q i = p rows[i] ∧ g i = f rows[i]) :
    ((List.range rows.length).filter q).map g = (rows.filter p).map f := by
  induction rows generalizing q g with
  | nil => rfl
  | cons r rows ih =>
    rw [List.length_cons, List.range_succ_eq_map, List.filter_cons, List.filter_cons]
    have h0 := h 0 (by simp)
    simp only [List.getElem_cons_zero] at h0
    have ih' := ih (fun i => q (i + 1)) (fun i => g (i + 1)) (fun i hi => h (i + 1) (Nat.succ_lt_succ hi))
    have e : ((List.map Nat.succ (List.range rows.length)).filter q).map g =
        ((List.range rows.length).filter fun i => q (i + 1)).map fun i => g (i + 1) := by
      rw [List.filter_map, List.map_map]; rfl
    rw [h0.1]
    split
    · rw [List.map_cons, List.map_cons, h0.2, e, ih']
    · rw [e, ih']

/-- C171, the part that holds: of a table that has the time in its second and the flags in its twenty-fifth column the script marks,
for IMU, GNSS, odometer, zero velocity, non-holonomic and pressure in this order, the times whose flags have bit 0, 1, 2, 3, 4, 7. -/
theorem C171_marked_times_partial (t : Table) (rows : List (ℚ × Nat)) (h2 : 2 ≤ rows.length)
    (h : List.Forall₂ (fun row (r : ℚ × Nat) => row[1]? = some r.1 ∧ row[24]? = some (r.2 : ℚ)) t rows) :
    showSensors t = some ([0, 1, 2, 3, 4, 7].map fun k => (rows.filter fun r => r.2.testBit k).map fun r => r.1) := by
  have hl : ¬ t.length < 2 := by rw [h.length_eq]; omega
  have h1 := mapM_col t 1 (fun r : ℚ × Nat => r.1) rows (h.imp fun _ _ x => x.1)
  have h24 := mapM_col t 24 (fun r : ℚ × Nat => (r.2 : ℚ)) rows (h.imp fun _ _ x => x.2)
  have hi : ∀ k, indexed t 24 k = some ((List.range rows.length).filter fun i => hasBit ((rows.map fun r => (r.2 : ℚ)).getD i 0) k) := by
    intro k
    unfold indexed
    rw [h24]
    simp
  have hm : sensorBits.mapM (indexed t 24) = some (sensorBits.map fun k =>
      (List.range rows.length).filter fun i => hasBit ((rows.map fun r => (r.2 : ℚ)).getD i 0) k) := by
    unfold sensorBits
    simp only [List.mapM_cons, List.mapM_nil, hi]
    rfl
  have hc : column t 1 = some (rows.map fun r => r.1) := by unfold column; rw [if_neg hl, h1]
  unfold showSensors
  rw [hm, hc]
  simp only [Option.bind_eq_bind, Option.bind_some, Option.some.injEq, List.map_map]
  unfold sensorBits
  refine List.map_congr_left fun k _ => ?_
  refine filter_index rows (fun r => r.2.testBit k) (fun r => r.1) _ _ ?_
  intro i hi
  have e1 : (rows.map fun r => (r.2 : ℚ)).getD i 0 = (rows[i].2 : ℚ) := by
    rw [List.getD_eq_getElem?_getD, List.getElem?_map, List.getElem?_eq_getElem hi]; rfl
  have e2 : (rows.map fun r => r.1).getD i 0 = rows[i].1 := by
    rw [List.getD_eq_getElem?_getD, List.getElem?_map, List.getElem?_eq_getElem hi]; rfl
  exact ⟨by rw [e1, hasBit_nat], e2⟩

/-- The hypothesis is met by a table of two rows of twenty-five columns. -/
example : List.Forall₂ (fun row (r : ℚ × Nat) => row[1]? = some r.1 ∧ row[24]? = some (r.2 : ℚ))
    [List.replicate 24 5 ++ [3], List.replicate 24 6 ++ [129]] [(5, 3), (6, 129)] := by
  refine .cons ⟨by simp, by simp⟩ (.cons ⟨by simp, by simp⟩ .nil)
end Verif.Props
