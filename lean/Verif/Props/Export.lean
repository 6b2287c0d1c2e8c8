import Verif.Spec.Export
import Verif.Props.Recorder
import Mathlib.Tactic.Linarith
import Mathlib.Tactic.NormNum
import Mathlib.Tactic.Ring
import Mathlib.Data.List.Induction
/-! C114, C115, C116: what the CSV and Mat exports contain. -/
namespace Verif.Props
open Verif.Crc Verif.Recorder Verif.Loader Verif.Export Verif.Spec.Rec Verif.Spec.Csv

private theorem fields_ne (sep : Byte) (l : List Byte) : fields sep l ≠ [] := by
  cases l with
  | nil => simp [fields]
  | cons b l =>
    simp only [fields]
    split
    · simp
    · split <;> simp

private theorem fields_cut (sep : Byte) (a b : List Byte) (h : sep ∉ a) :
    fields sep (a ++ sep :: b) = a :: fields sep b := by
  induction a with
  | nil => simp [fields]
  | cons x a ih =>
    simp only [List.mem_cons, not_or] at h
    simp only [List.cons_append, fields, ih h.2]
    rw [if_neg (Ne.symm h.1)]

private theorem fields_cells {β : Type} (f : β → List Byte) (l : List β) (h : ∀ x ∈ l, (0x2C : Byte) ∉ f x) :
    fields 0x2C (l.flatMap fun x => cell (f x)) = l.map f ++ [[]] := by
  induction l with
  | nil => rfl
  | cons x l ih =>
    simp only [List.flatMap_cons, cell, comma, List.append_assoc, List.singleton_append, List.map_cons,
      List.cons_append]
    rw [fields_cut _ _ _ (h x (by simp))]
    congr 1
    exact ih (fun y hy => h y (by simp [hy]))

private theorem nl_cells {β : Type} (f : β → List Byte) (l : List β) (h : ∀ x ∈ l, (0x0A : Byte) ∉ f x) :
    (0x0A : Byte) ∉ l.flatMap fun x => cell (f x) := by
  simp only [List.mem_flatMap, not_exists, not_and]
  intro x hx
  simp only [cell, comma, List.mem_append, List.mem_singleton, not_or]
  exact ⟨h x hx, by decide⟩

private theorem fields_lines {β : Type} (f : β → List Byte) (l : List β) (h : ∀ x ∈ l, (0x0A : Byte) ∉ f x) :
    fields 0x0A (l.flatMap fun x => f x ++ [newline]) = l.map f ++ [[]] := by
  induction l with
  | nil => rfl
  | cons x l ih =>
    simp only [List.flatMap_cons, newline, List.append_assoc, List.singleton_append, List.map_cons,
      List.cons_append]
    rw [fields_cut _ _ _ (h x (by simp))]
    congr 1
    exact ih (fun y hy => h y (by simp [hy]))

private theorem plain_time : plain (text "time") := by unfold plain; decide

/-- The table of an exported dataset, for any dataset whose cells can be read. -/
private theorem table_csvFile {F : Type} (pr : Print F) (d : DataSet F) (rows : List (List F))
    (hr : csvRows d = some rows) (hn : ∀ n ∈ d.names, plain (cstr n)) (ht : ∀ u, plain (pr.time u))
    (hv : ∀ v, plain (pr.value v)) :
    ∃ t, csvFile pr d = some t ∧
      csvTable t = ((text "time" :: d.names.map cstr) ++ [[]]) ::
        ((d.time.zip rows).map fun r => (pr.time r.1 :: r.2.map pr.value) ++ [[]]) ++ [[[]]] := by
  refine ⟨_, by unfold csvFile; rw [hr]; rfl, ?_⟩
  have hhead : csvHead d = (((text "time" :: d.names.map cstr)).flatMap fun x => cell x) ++ [newline] := by
    simp [csvHead, List.flatMap_cons, List.flatMap_map]
  have hline : ∀ r : U64 × List F, csvLine pr r.1 r.2 =
      ((pr.time r.1 :: r.2.map pr.value).flatMap fun x => cell x) ++ [newline] := by
    intro r; simp [csvLine, List.flatMap_cons, List.flatMap_map]
  have e : csvHead d ++ (d.time.zip rows).flatMap (fun r => csvLine pr r.1 r.2)
      = (((text "time" :: d.names.map cstr) :: (d.time.zip rows).map fun r => pr.time r.1 :: r.2.map pr.value)).flatMap
          fun cs => (cs.flatMap fun x => cell x) ++ [newline] := by
    rw [List.flatMap_cons, List.flatMap_map, hhead]
    congr 1
    exact List.flatMap_congr fun r _ => hline r
  rw [e, csvTable]
  have hplain : ∀ cs ∈ ((text "time" :: d.names.map cstr) :: (d.time.zip rows).map fun r =>
      pr.time r.1 :: r.2.map pr.value), ∀ x ∈ cs, plain x := by
    intro cs hcs x hx
    simp only [List.mem_cons, List.mem_map] at hcs
    rcases hcs with rfl | ⟨r, _, rfl⟩
    · simp only [List.mem_cons, List.mem_map] at hx
      rcases hx with rfl | ⟨n, hn', rfl⟩
      · exact plain_time
      · exact hn n hn'
    · simp only [List.mem_cons, List.mem_map] at hx
      rcases hx with rfl | ⟨v, _, rfl⟩
      · exact ht _
      · exact hv _
  rw [fields_lines (fun cs : List (List Byte) => cs.flatMap fun x => cell x) _
    (fun cs hcs => nl_cells (fun x => x) cs fun x hx => (hplain cs hcs x hx).2)]
  rw [List.map_append, List.map_map]
  have h1 : ∀ cs ∈ ((text "time" :: d.names.map cstr) :: (d.time.zip rows).map fun r =>
      pr.time r.1 :: r.2.map pr.value), (fields 0x2C ∘ fun cs => cs.flatMap fun x => cell x) cs = cs ++ [[]] := by
    intro cs hcs
    have := fields_cells (fun x => x) cs (fun x hx => (hplain cs hcs x hx).1)
    simpa using this
  rw [List.map_congr_left h1]
  simp [fields]

/-- C114. Take any recording made with a dataset table. For every dataset that has messages in it, the CSV
export of the loaded dataset, cut at newlines and commas, is exactly: a heading with `time` and the item names;
then, in recording order, one line per message with its printed time and its printed values; every line ends
with an empty cell and the file with an empty line. -/
theorem C114_csv_is_the_recording {F : Type} (ops : FloatOps F) (pr : Print F) (cfg : UMap SetCfg) (hok : CfgOk cfg)
    (hdr : List Byte) (hw : writeHeader cfg = some hdr) (ms : List Msg) (hne : ms ≠ [])
    (hsz : ∀ m ∈ ms, m.size < 2 ^ 32) (hfit : ∀ m ∈ ms, Fits cfg m)
    (hname : ∀ e ∈ cfg, ∀ i ∈ e.2.items, plain (cstr i.name))
    (ht : ∀ u, plain (pr.time u)) (hv : ∀ v, plain (pr.value v)) :
    ∃ s, (∀ fuel, 5 + ms.length ≤ fuel → loadFile ops (recording hdr ms) fuel fresh = .finished s) ∧
      ∀ e ∈ cfg, (∃ m ∈ ms, m.id = e.1) →
        ∃ d t, mfind e.1 s.data = some d ∧ csvFile pr d = some t ∧
          csvTable t = ((text "time" :: e.2.items.map fun i => cstr i.name) ++ [[]]) ::
            ((ms.filter fun m => decide (m.id = e.1)).map fun m =>
              (pr.time m.time :: m.vals.map fun v => pr.value (value ops v)) ++ [[]]) ++ [[[]]] := by
  obtain ⟨s, h1, _, hcf, h4, _, _⟩ := C05_C08_recording_loads ops cfg hok hdr hw ms hne hsz
    (fun m hm => Or.inl (hfit m hm))
  refine ⟨s, h1, ?_⟩
  intro e he ⟨m, hm, hid⟩
  have hh := h4 e he
  unfold Holds at hh
  rw [if_neg (by intro h; rw [List.filter_eq_nil_iff] at h; exact h m hm (by simpa using hid))] at hh
  obtain ⟨d, hd, htime, hrows⟩ := hh
  have hst : stateOf (loadFile ops (recording hdr ms) (5 + ms.length) fresh) = some s := by
    rw [h1 _ (le_refl _)]; rfl
  obtain ⟨c, hc, _, _, hnm⟩ := C06_labelled ops _ _ s hst (e.1, d) (mfind_some_mem _ _ _ hd)
  have hce : c = e.2 := by
    have := mfind_mem cfg hok.sorted e he
    rw [hcf] at hc
    simp only at hc
    rw [this] at hc
    simpa using hc.symm
  subst hce
  obtain ⟨t, h5, h6⟩ := table_csvFile pr d _ hrows (by
    intro n hn
    rw [hnm] at hn
    simp only [List.mem_map] at hn
    obtain ⟨i, hi, rfl⟩ := hn
    exact hname e he i hi) ht hv
  refine ⟨d, t, hd, h5, ?_⟩
  rw [h6, hnm, htime, List.map_map, List.zip_map', List.map_map]
  simp [Function.comp_def]

/-- The item names of the built-in table can be CSV cells; the other hypotheses of C114 hold for the messages shown
at C05. -/
example : (∀ e ∈ builtin, ∀ i ∈ e.2.items, plain (cstr i.name)) ∧ plain (text "345600") := by
  unfold plain; decide +kernel

/-! ### C115 -/

private theorem log10_eq (x : ℝ) (k : ℤ) (h1 : (10 : ℝ) ^ k ≤ x) (h2 : x < (10 : ℝ) ^ (k + 1)) :
    Int.log 10 |x| = k := by
  have hp : (0 : ℝ) < x := lt_of_lt_of_le (zpow_pos (by norm_num) k) h1
  rw [abs_of_pos hp]
  have a : k ≤ Int.log 10 x := (Int.zpow_le_iff_le_log (by norm_num) hp).1 (by exact_mod_cast h1)
  have b : Int.log 10 x < k + 1 := (Int.lt_zpow_iff_log_lt (by norm_num) hp).1 (by exact_mod_cast h2)
  omega

/-- C115, what the export keeps. Two times of the same decade `[10^k, 10^(k+1))` that print the same differ by at
most one unit of the sixth digit. -/
theorem C115_resolution_partial (k : ℤ) (x y : ℝ) (hx : (10 : ℝ) ^ k ≤ x ∧ x < (10 : ℝ) ^ (k + 1))
    (hy : (10 : ℝ) ^ k ≤ y ∧ y < (10 : ℝ) ^ (k + 1)) (h : sig6 x = sig6 y) : |x - y| ≤ (10 : ℝ) ^ (k - 5) := by
  have hs : (0 : ℝ) < (10 : ℝ) ^ (5 - k) := zpow_pos (by norm_num) _
  have hinv : (10 : ℝ) ^ (k - 5) * (10 : ℝ) ^ (5 - k) = 1 := by
    rw [← zpow_add₀ (by norm_num)]; norm_num
  unfold sig6 at h
  rw [log10_eq x k hx.1 hx.2, log10_eq y k hy.1 hy.2] at h
  simp only at h
  have h2 := div_left_inj' (ne_of_gt hs) |>.1 h
  have a := abs_sub_round (x * (10 : ℝ) ^ (5 - k))
  have b := abs_sub_round (y * (10 : ℝ) ^ (5 - k))
  rw [h2] at a
  have c : |x * (10 : ℝ) ^ (5 - k) - y * (10 : ℝ) ^ (5 - k)| ≤ 1 := by
    rw [abs_le] at a b ⊢
    constructor <;> linarith [a.1, a.2, b.1, b.2]
  rw [← sub_mul, abs_mul, abs_of_pos hs] at c
  calc |x - y| = (|x - y| * (10 : ℝ) ^ (5 - k)) * (10 : ℝ) ^ (k - 5) := by
        rw [mul_assoc, mul_comm ((10 : ℝ) ^ (5 - k)), hinv, mul_one]
    _ ≤ 1 * (10 : ℝ) ^ (k - 5) := by
        exact mul_le_mul_of_nonneg_right c (le_of_lt (zpow_pos (by norm_num) _))
    _ = _ := one_mul _

/-- C115. From the second day of a GPS week on, the time column holds whole seconds: every time in
`[100000, 1000000)` prints as the nearest integer. -/
theorem C115_whole_seconds (x : ℝ) (h1 : 100000 ≤ x) (h2 : x < 1000000) : sig6 x = round x := by
  unfold sig6
  rw [log10_eq x 5 (by norm_num; exact h1) (by norm_num; exact h2)]
  norm_num

/-- C115 fails: all samples within half a second of a full second get the same time cell, whatever the printing
of the rounded number. -/
theorem C115_times_collapse {F : Type} (pr : Print F) (show6 : ℝ → Text)
    (hp : ∀ u, pr.time u = show6 (sig6 (ieee64 u))) (n : ℤ) (u v : U64)
    (hu : 100000 ≤ ieee64 u ∧ ieee64 u < 1000000 ∧ n - 1 / 2 ≤ ieee64 u ∧ ieee64 u < n + 1 / 2)
    (hv : 100000 ≤ ieee64 v ∧ ieee64 v < 1000000 ∧ n - 1 / 2 ≤ ieee64 v ∧ ieee64 v < n + 1 / 2) :
    pr.time u = pr.time v := by
  have key : ∀ x : ℝ, 100000 ≤ x ∧ x < 1000000 ∧ (n : ℝ) - 1 / 2 ≤ x ∧ x < n + 1 / 2 → sig6 x = n := by
    intro x ⟨a, b, c, d⟩
    rw [C115_whole_seconds x a b]
    have : round x = n := by
      rw [round_eq, Int.floor_eq_iff]
      constructor <;> linarith
    rw [this]
  rw [hp, hp, key _ hu, key _ hv]

/-- The two samples of the witness: times 345600.25 s and 345600.375 s. -/
theorem C115_reachable : ieee64 0x4115180100000000 = 345600.25 ∧ ieee64 0x4115180180000000 = 345600.375 := by
  constructor
  · have h : (0x4115180100000000 : BitVec 64).toNat = 0x4115180100000000 := by decide
    unfold ieee64
    rw [h]
    norm_num
  · have h : (0x4115180180000000 : BitVec 64).toNat = 0x4115180180000000 := by decide
    unfold ieee64
    rw [h]
    norm_num

/-- C115 on a file: a recording of two AHRS messages 125 ms apart with equal angles exports a table whose two data
lines are identical. -/
theorem C115_violation (show6 : ℝ → Text) (val : ℝ → Text) (h6 : ∀ x, plain (show6 x)) (hv : ∀ x, plain (val x))
    (ops : FloatOps ℝ) :
    ∃ (hdr : List Byte) (m m' : Msg), writeHeader builtin = some hdr ∧ ieee64 m'.time - ieee64 m.time = 1 / 8 ∧
      ∃ s d t line, loadFile ops (recording hdr [m, m']) 7 fresh = .finished s ∧
        mfind 0x160027 s.data = some d ∧
        csvFile ⟨fun u => show6 (sig6 (ieee64 u)), val⟩ d = some t ∧
        csvTable t = [[text "time", text "roll", text "pitch", text "heading", []], line, line, [[]]] := by
  have hw : ∃ hdr, writeHeader builtin = some hdr := by
    have h : (writeHeader builtin).isSome := by decide +kernel
    exact Option.isSome_iff_exists.1 h
  obtain ⟨hdr, hw⟩ := hw
  set e : U32 × SetCfg := ((0x160027 : U32), mkSet "ahrs" [(8,"roll"),(8,"pitch"),(8,"heading")]) with he
  have hmem : e ∈ builtin := by rw [he]; decide +kernel
  set m : Msg := ⟨0x160027, 0x4115180100000000, List.replicate 3 (.f32 2)⟩ with hm
  set m' : Msg := ⟨0x160027, 0x4115180180000000, List.replicate 3 (.f32 2)⟩ with hm'
  have hfit : ∀ x ∈ [m, m'], Fits builtin x := by
    intro x hx
    simp only [List.mem_cons, List.not_mem_nil, or_false] at hx
    rcases hx with rfl | rfl
    · exact ⟨e, hmem, rfl, by rw [he, hm]; decide +kernel⟩
    · exact ⟨e, hmem, rfl, by rw [he, hm']; decide +kernel⟩
  have hsz : ∀ x ∈ [m, m'], x.size < 2 ^ 32 := by
    intro x hx
    simp only [List.mem_cons, List.not_mem_nil, or_false] at hx
    rcases hx with rfl | rfl
    · rw [hm]; decide +kernel
    · rw [hm']; decide +kernel
  obtain ⟨s, h1, h2⟩ := C114_csv_is_the_recording ops ⟨fun u => show6 (sig6 (ieee64 u)), val⟩ builtin builtin_ok
    hdr hw [m, m'] (by simp) hsz hfit (by unfold plain; decide +kernel) (fun u => h6 _) hv
  obtain ⟨d, t, h3, h4, h5⟩ := h2 e hmem ⟨m, by simp, rfl⟩
  have hcol := C115_times_collapse (⟨fun u => show6 (sig6 (ieee64 u)), val⟩ : Print ℝ) show6 (fun _ => rfl) 345600
    m.time m'.time (by rw [hm]; simp only; rw [C115_reachable.1]; norm_num)
    (by rw [hm']; simp only; rw [C115_reachable.2]; norm_num)
  refine ⟨hdr, m, m', hw, by rw [hm, hm']; simp only; rw [C115_reachable.1, C115_reachable.2]; norm_num,
    s, d, t, show6 (sig6 (ieee64 m.time)) :: (m.vals.map fun v => val (value ops v)) ++ [[]], h1 7 (by simp), h3,
    h4, ?_⟩
  rw [h5]
  have hn : (e.2.items.map fun i => cstr i.name) = [text "roll", text "pitch", text "heading"] := by
    rw [he]; decide +kernel
  have hf : ([m, m'].filter fun x => decide (x.id = e.1)) = [m, m'] := by
    rw [he, hm, hm']; rfl
  rw [hn, hf]
  simp only [] at hcol
  simp only [List.map_cons, List.map_nil, hcol]
  rfl

/-! ### C116 -/

private theorem getElem_flat {β : Type} (n : Nat) : ∀ (l : List (List β)) (j i : Nat), (∀ c ∈ l, c.length = n) →
    i < n → (l.flatMap fun c => c)[j * n + i]? = (l[j]?).bind fun c => c[i]? := by
  intro l
  induction l with
  | nil => intro j i _ _; simp
  | cons c l ih =>
    intro j i h hi
    have hc : c.length = n := h c (by simp)
    rw [List.flatMap_cons]
    cases j with
    | zero =>
      rw [Nat.zero_mul, Nat.zero_add, List.getElem?_append_left (by rw [hc]; exact hi)]
      simp
    | succ j =>
      rw [List.getElem?_append_right (by rw [hc]; calc n ≤ (j+1) * n := by nlinarith
                                                    _ ≤ _ := Nat.le_add_right _ _), hc]
      have : (j + 1) * n + i - n = j * n + i := by rw [Nat.succ_mul]; omega
      rw [this, ih j i (fun c' hc' => h c' (by simp [hc'])) hi]
      simp

private theorem column_copy {F : Type} (col : List F) (n : Nat) (h : col.length = n) :
    (List.range n).mapM (fun i => col[i]?) = some col := by
  subst h
  induction col using List.reverseRecOn with
  | nil => rfl
  | append_singleton l a ih =>
    rw [List.length_append, List.length_singleton, List.range_succ, List.mapM_append]
    have : (List.range l.length).mapM (fun i => (l ++ [a])[i]?) = some l := by
      rw [← ih]
      have hcg : ∀ L : List Nat, (∀ i ∈ L, i < l.length) →
          L.mapM (fun i => (l ++ [a])[i]?) = L.mapM (fun i => l[i]?) := by
        intro L hL
        induction L with
        | nil => rfl
        | cons x L ih' =>
          rw [List.mapM_cons, List.mapM_cons, List.getElem?_append_left (hL x (by simp)),
            ih' (fun i hi => hL i (by simp [hi]))]
      rw [hcg _ (by simp), ih]
    rw [this]
    simp

private theorem columns_copy {F : Type} (n : Nat) (data : List (List F)) (h : ∀ c ∈ data, c.length = n) :
    ((List.range data.length).mapM fun j => do
      let col ← data[j]?
      (List.range n).mapM fun i => col[i]?) = some data := by
  have hcg : ∀ L : List Nat, (∀ j ∈ L, j < data.length) →
      (L.mapM fun j => do
        let col ← data[j]?
        (List.range n).mapM fun i => col[i]?) = L.mapM (fun j => data[j]?) := by
    intro L hL
    induction L with
    | nil => rfl
    | cons x L ih =>
      have hx := hL x (by simp)
      rw [List.mapM_cons, List.mapM_cons, ih (fun i hi => hL i (by simp [hi])), List.getElem?_eq_getElem hx]
      simp only [Option.bind_eq_bind, Option.bind_some]
      rw [column_copy _ n (h _ (List.getElem_mem hx))]
      rfl
  rw [hcg _ (by simp), column_copy data _ rfl]

/-- C116, the matrix. For every dataset of a loaded file the exported matrix has one row per message and one column
more than there are items; its first column is the times and column `j + 1` is item `j`, row `i` belonging to
message `i`. -/
theorem C116_matrix {F D : Type} (dbl : U64 → D) (ofF : F → D) (s : State F) (h : Rectangular s)
    (e : U32 × DataSet F) (he : e ∈ s.data) :
    ∃ v, matVar dbl ofF e.2 = some v ∧ v.rows = e.2.time.length ∧ v.cols = e.2.names.length + 1 ∧
      v.mem.length = v.rows * v.cols ∧
      ∀ i, i < v.rows → entry v.rows v.mem i 0 = (e.2.time[i]?).map dbl ∧
        ∀ j, j < e.2.names.length →
          entry v.rows v.mem i (j + 1) = ((e.2.data[j]?).bind fun c => c[i]?).map ofF ∧
          ((e.2.data[j]?).bind fun c => c[i]?).isSome := by
  obtain ⟨h1, h2, h3⟩ := h e he
  have hsub : e.2.subCnt.toNat = e.2.data.length := h2.symm
  have hv : matVar dbl ofF e.2 = some ⟨(text "time" :: e.2.names.map cstr).take e.2.data.length, e.2.time.length,
      e.2.data.length + 1, e.2.time.map dbl ++ e.2.data.flatMap fun c => c.map ofF⟩ := by
    unfold matVar
    rw [if_neg (by rw [hsub, h1]; simp)]
    simp only [hsub]
    rw [columns_copy _ _ h3]
    rfl
  have hflat : (e.2.data.flatMap fun c => c.map ofF) = (e.2.data.map fun c => c.map ofF).flatMap fun c => c := by
    rw [List.flatMap_map]
  have hlen : ∀ c ∈ (e.2.data.map fun c => c.map ofF), c.length = e.2.time.length := by
    intro c hc
    simp only [List.mem_map] at hc
    obtain ⟨c', hc', rfl⟩ := hc
    rw [List.length_map, h3 c' hc']
  have hlf : ∀ l : List (List D), (∀ c ∈ l, c.length = e.2.time.length) →
      (l.flatMap fun c => c).length = l.length * e.2.time.length := by
    intro l hl
    induction l with
    | nil => simp
    | cons a l ih =>
      rw [List.flatMap_cons, List.length_append, ih (fun c hc => hl c (by simp [hc])), hl a (by simp),
        List.length_cons]
      ring
  refine ⟨_, hv, rfl, by simp only; rw [h1], ?_, ?_⟩
  · simp only
    rw [hflat, List.length_append, hlf _ hlen, List.length_map, List.length_map]
    ring
  · intro i hi
    simp only at hi
    refine ⟨?_, ?_⟩
    · simp only [entry, Nat.zero_mul, Nat.zero_add]
      rw [List.getElem?_append_left (by simpa using hi), List.getElem?_map]
    · intro j hj
      rw [← h1] at hj
      have hcol : (e.2.data[j]?) = some e.2.data[j] := List.getElem?_eq_getElem hj
      have hci : i < (e.2.data[j]).length := by rw [h3 _ (List.getElem_mem hj)]; exact hi
      refine ⟨?_, ?_⟩
      · simp only [entry]
        rw [List.getElem?_append_right (by
          rw [List.length_map]
          calc e.2.time.length ≤ (j + 1) * e.2.time.length := by nlinarith
            _ ≤ _ := Nat.le_add_right _ _)]
        have : (j + 1) * e.2.time.length + i - (e.2.time.map dbl).length = j * e.2.time.length + i := by
          rw [List.length_map, Nat.succ_mul]; omega
        rw [this, hflat, getElem_flat _ _ _ _ hlen hi, List.getElem?_map, hcol]
        simp
      · rw [hcol]
        simp [hci]

/-- C116 fails for the names: the exported list of column names never has one name per column; the last item's name
is always missing. -/
theorem C116_last_name_missing {F D : Type} (dbl : U64 → D) (ofF : F → D) (d : DataSet F) (v : MatVar D)
    (hv : matVar dbl ofF d = some v) :
    v.names.length + 1 = v.cols ∧ v.names = (text "time" :: d.names.map cstr).dropLast := by
  unfold matVar at hv
  split at hv
  · cases hv
  · rename_i hsub
    simp only [Option.bind_eq_bind, Option.bind_eq_some_iff, Option.some.injEq] at hv
    obtain ⟨cols, _, rfl⟩ := hv
    simp only [ne_eq, not_not] at hsub
    constructor
    · simp [hsub]
    · simp only [hsub]
      rw [List.dropLast_eq_take]
      simp

/-- A dataset the export accepts: two messages of two items. Columns `time`, `a`, `b`, names `time`, `a`. -/
example : matVar (D := Int) (fun u => u.toNat) (fun f => f)
    (⟨1, 2, nameField "s", [nameField "a", nameField "b"], [[10, 11], [20, 21]], [5, 6]⟩ : DataSet Int)
    = some ⟨[text "time", text "a"], 2, 3, [5, 6, 10, 11, 20, 21]⟩ := by decide +kernel

end Verif.Props
