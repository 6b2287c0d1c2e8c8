import Verif.Spec.Ui
import Verif.Props.Config
import Verif.Spec.Examples
import Mathlib.Tactic.SplitIfs
import Mathlib.Tactic.Tauto
/-! The configuration window. -/
namespace Verif.Props
open Verif Verif.Spec
variable {α : Type} [Add α] [Sub α] [Mul α] [Neg α] [Div α] [Zero α] [One α] [Fl α]

theorem para_fields (files : String → Option (Config.ParaFile α)) (c : Config α) :
    (Config.loadImuPara files c).2 = { c with imu := { c.imu with para := (Config.loadImuPara files c).2.imu.para } } := by
  unfold Config.loadImuPara
  cases files c.imu.parameterPath with
  | none => rfl
  | some p => dsimp only; cases Config.readPara p <;> rfl

theorem pair_true {q : Qt α} {t : String} (h : (q.toFloat t).2 = true) : q.toFloat t = ((q.toFloat t).1, true) := by
  rw [← h]

theorem checked_runs (q : Qt α) (f : Form) (c : Config α) (p : ImuPara α)
    (h : ∀ t ∈ f.checked q, t.2 = true) :
    RunsForm q f { f.read q c with imu := { (f.read q c).imu with para := p } } := by
  simp only [Form.checked, List.forall_mem_append, List.forall_mem_cons] at h
  obtain ⟨⟨⟨⟨⟨⟨⟨⟨⟨⟨a1, a2, a3, -⟩, b0, b1, b2, -⟩, ant⟩, od⟩, nh⟩, wh⟩, zu⟩, za⟩, al⟩, ou⟩ := h
  refine ⟨⟨pair_true a1, pair_true a2⟩, rfl, ⟨rfl, rfl, rfl⟩, ?_, ⟨rfl, rfl⟩, ?_, ⟨rfl, ?_⟩, ⟨rfl, ?_⟩, ⟨rfl, ?_⟩, ?_,
    ⟨rfl, ?_⟩, ⟨rfl, ?_⟩, ⟨rfl, ?_⟩, ⟨rfl, ?_⟩⟩
  · show q.toInt f.imuRate = ((q.toInt f.imuRate).1, true)
    rw [← a3]
  · intro i
    fin_cases i
    · exact pair_true b0
    · exact pair_true b1
    · exact pair_true b2
  · intro e
    simp only [e, if_true, List.forall_mem_cons] at ant
    simp only [Form.read, e, if_true]
    exact ⟨pair_true ant.1, pair_true ant.2.1⟩
  · intro e
    simp only [e, if_true, List.forall_mem_cons] at od
    simp only [Form.read, e, if_true]
    exact ⟨trivial, pair_true od.1⟩
  · intro e i
    simp only [e, if_true, List.forall_mem_cons] at nh
    simp only [Form.read, e, if_true]
    fin_cases i
    · exact pair_true nh.1
    · exact pair_true nh.2.1
  · intro e i
    have e2 : (f.odoEnable || f.nhcEnable) = true := by simpa using e
    simp only [e2, if_true, List.forall_mem_cons] at wh
    simp only [Form.read, e2, if_true]
    obtain ⟨w0, w1, w2, w3, w4, w5, -⟩ := wh
    fin_cases i
    · exact ⟨pair_true w0, pair_true w3⟩
    · exact ⟨pair_true w1, pair_true w4⟩
    · exact ⟨pair_true w2, pair_true w5⟩
  · intro e
    simp only [e, if_true, List.forall_mem_cons] at zu
    simp only [Form.read, e, if_true]
    exact pair_true zu.1
  · intro e
    simp only [e, if_true, List.forall_mem_cons] at za
    simp only [Form.read, e, if_true]
    exact pair_true za.1
  · intro e
    simp only [e, if_true, List.forall_mem_cons] at al
    simp only [Form.read, e, if_true]
    exact pair_true al.1
  · intro e
    simp only [e, if_true, List.forall_mem_cons] at ou
    simp only [Form.read, e, if_true]
    exact ⟨pair_true ou.1, pair_true ou.2.1, pair_true ou.2.2.1, pair_true ou.2.2.2.1⟩

/-- No text is wrong. -/
theorem wrong_nil (l : List (String × Bool)) :
    (l.filter (fun t => !t.2)).map (fun t => LogLine.invalid t.1) = [] ↔ ∀ t ∈ l, t.2 = true := by
  simp only [List.map_eq_nil_iff, List.filter_eq_nil_iff]
  constructor
  · intro h t ht
    have := h t ht
    revert this
    cases t.2 <;> simp
  · intro h t ht
    simp [h t ht]

/-- C146, exactly when a run is started: every text the window checks is a number and the parameter file can be
read. Then exactly one run is started, and nothing is logged; otherwise none is started, the log names every text
that was rejected, and the form is as it was. -/
theorem C146_start (q : Qt α) (files : String → Option (Config.ParaFile α)) (w : Window α) :
    (w.start q files).form = w.form ∧
    (((∀ t ∈ w.form.checked q, t.2 = true) ∧ (Config.loadImuPara files (w.form.read q w.cfg)).1 = true) →
      (∃ c, (w.start q files).threads = w.threads ++ [c]) ∧ (w.start q files).log = w.log) ∧
    (¬ ((∀ t ∈ w.form.checked q, t.2 = true) ∧ (Config.loadImuPara files (w.form.read q w.cfg)).1 = true) →
      (w.start q files).threads = w.threads ∧
      (∀ t ∈ w.form.checked q, t.2 = false → LogLine.invalid t.1 ∈ (w.start q files).log) ∧
      (LogLine.badForm ∈ (w.start q files).log ∨ LogLine.badPara ∈ (w.start q files).log)) := by
  unfold Window.start
  dsimp only
  by_cases h : ((w.form.checked q).filter (fun t => !t.2)).map (fun t => LogLine.invalid t.1) = []
  · have h' := (wrong_nil _).1 h
    rw [if_neg (by simpa using h)]
    cases hp : (Config.loadImuPara files (w.form.read q w.cfg)).1
    · rw [if_neg (by simp)]
      refine ⟨rfl, fun k => by simp at k, fun _ => ⟨rfl, fun t ht e => by simp [h' t ht] at e, ?_⟩⟩
      exact Or.inr (by simp)
    · rw [if_pos rfl]
      exact ⟨rfl, fun _ => ⟨⟨_, rfl⟩, rfl⟩, fun k => absurd ⟨h', rfl⟩ k⟩
  · have h' : ¬ ∀ t ∈ w.form.checked q, t.2 = true := fun k => h ((wrong_nil _).2 k)
    rw [if_pos h]
    refine ⟨rfl, fun k => absurd k.1 h', fun _ => ⟨rfl, ?_, Or.inl (by simp)⟩⟩
    intro t ht e
    simp only [List.mem_append, List.mem_map, List.mem_filter]
    exact Or.inl (Or.inr ⟨t, ⟨ht, by simp [e]⟩, rfl⟩)

/-- One press of Start: no run, or one run with what the form shows. -/
theorem start_runs (q : Qt α) (files : String → Option (Config.ParaFile α)) (w : Window α) :
    (w.start q files).threads = w.threads ∨
    ∃ c, (w.start q files).threads = w.threads ++ [c] ∧ RunsForm q w.form c ∧ c.imu.frame = w.cfg.imu.frame := by
  unfold Window.start
  dsimp only
  by_cases h : ((w.form.checked q).filter (fun t => !t.2)).map (fun t => LogLine.invalid t.1) = []
  · rw [if_neg (by simpa using h)]
    split_ifs
    · refine Or.inr ⟨_, rfl, ?_, ?_⟩
      · rw [para_fields]
        exact checked_runs q w.form w.cfg _ ((wrong_nil _).1 h)
      · rw [para_fields]; rfl
    · exact Or.inl rfl
  · rw [if_pos h]
    exact Or.inl rfl

/-- C145 (part): over every history of the window, every run that was started uses what the form showed when Start
was pressed, for everything the form asks except the IMU frame and the odometer scale factors, and all the numbers
asked were numbers. -/
theorem C145_runs_form_partial (q : Qt α) (es : List (Window.Event α)) : ∀ (w w2 : Window α),
    w.run q es = some w2 → ∀ c ∈ w2.threads, c ∈ w.threads ∨
      ∃ es1 files es2 w1, es = es1 ++ .start files :: es2 ∧ w.run q es1 = some w1 ∧ RunsForm q w1.form c := by
  induction es with
  | nil => intro w w2 h c hc; cases h; exact Or.inl hc
  | cons e es ih =>
    intro w w2 h c hc
    unfold Window.run at h
    cases hs : w.step q e with
    | none => rw [hs] at h; simp at h
    | some w1 =>
      rw [hs] at h
      rcases ih w1 w2 h c hc with k | ⟨es1, files, es2, w3, he, hr, hf⟩
      · cases e with
        | edit f => cases hs; exact Or.inl k
        | clearLog => cases hs; exact Or.inl k
        | openFile files doc =>
          simp only [Window.step, Window.openFile] at hs
          split at hs
          · simp at hs
          · split at hs
            · simp at hs
            · cases hs; exact Or.inl k
        | start files =>
          simp only [Window.step, Option.some.injEq] at hs
          subst hs
          rcases start_runs q files w with e1 | ⟨d, e1, hd, -⟩
          · rw [e1] at k; exact Or.inl k
          · rw [e1, List.mem_append, List.mem_singleton] at k
            rcases k with k | k
            · exact Or.inl k
            · exact Or.inr ⟨[], files, es, w, rfl, rfl, k ▸ hd⟩
      · refine Or.inr ⟨e :: es1, files, es2, w3, by rw [he]; rfl, ?_, hf⟩
        unfold Window.run
        rw [hs]
        exact hr

/-- C145, first violation: the IMU frame of a run is that of the configuration held before, whatever the frame box
shows. -/
theorem C145_frame_ignored (q : Qt α) (files : String → Option (Config.ParaFile α)) (w : Window α) :
    (w.start q files).cfg.imu.frame = w.cfg.imu.frame ∧
    ∀ c ∈ (w.start q files).threads, c ∈ w.threads ∨ c.imu.frame = w.cfg.imu.frame := by
  constructor
  · unfold Window.start
    dsimp only
    split_ifs
    · rfl
    · show (Config.loadImuPara files _).2.imu.frame = _
      rw [para_fields]; rfl
    · show (Config.loadImuPara files _).2.imu.frame = _
      rw [para_fields]; rfl
  · intro c hc
    rcases start_runs q files w with e1 | ⟨d, e1, -, hd⟩
    · rw [e1] at hc; exact Or.inl hc
    · rw [e1, List.mem_append, List.mem_singleton] at hc
      rcases hc with k | k
      · exact Or.inl k
      · exact Or.inr (k ▸ hd)

/-- C145, second violation: a scale factor text that is no number does not stop the run; the run uses scale factor
0. -/
theorem C145_scale_silent (q : Qt α) (hq : failsZero q) (files : String → Option (Config.ParaFile α)) (w : Window α)
    (bad : (q.toFloat w.form.odoScale).2 = false) (on : w.form.odoEnable = true)
    (ok : ∀ t ∈ w.form.checked q, t.2 = true) (para : (Config.loadImuPara files (w.form.read q w.cfg)).1 = true) :
    ∃ c, (w.start q files).threads = w.threads ++ [c] ∧ c.odo.scaleFactor = 0 := by
  unfold Window.start
  dsimp only
  rw [if_neg (by simpa using (wrong_nil _).2 ok), if_pos para]
  refine ⟨_, rfl, ?_⟩
  rw [para_fields]
  show (Form.read q w.form w.cfg).odo.scaleFactor = 0
  simp only [Form.read, on, Bool.true_or, if_true]
  exact hq _ bad

/-- C146, the violation: a rejected Start still replaces the configuration: a start time that is not a number
becomes 0, and Save writes that 0. -/
theorem C146_rejected_changes (q : Qt α) (hq : failsZero q) (files : String → Option (Config.ParaFile α))
    (w : Window α) (toInt : α → Int) (bad : (q.toFloat w.form.startTime).2 = false) :
    (w.start q files).threads = w.threads ∧
    ((w.start q files).saveFile toInt) .startTime = some (.num 0) := by
  have hx : ¬ ∀ t ∈ w.form.checked q, t.2 = true := by
    intro h
    have := h (w.form.startTime, (q.toFloat w.form.startTime).2) (by simp [Form.checked])
    simp [bad] at this
  unfold Window.start
  dsimp only
  rw [if_pos (by simpa using fun k => hx ((wrong_nil _).1 k))]
  refine ⟨rfl, ?_⟩
  show some (Val.num (q.toFloat w.form.startTime).1) = _
  rw [hq _ bad]

theorem para_again (files : String → Option (Config.ParaFile α)) (c : Config α)
    (h : (Config.loadImuPara files c).1 = true) :
    Config.loadImuPara files (Config.loadImuPara files c).2 = (true, (Config.loadImuPara files c).2) := by
  have hp := para_fields files c
  have e : (Config.loadImuPara files c).2.imu.parameterPath = c.imu.parameterPath := by rw [hp]
  unfold Config.loadImuPara at h ⊢
  cases hf : files c.imu.parameterPath with
  | none => rw [hf] at h; simp at h
  | some p =>
    rw [hf] at h
    dsimp only at h ⊢
    cases hr : Config.readPara p with
    | none => rw [hr] at h; simp at h
    | some x => simp [hf, hr]

theorem fin3_all {p : Fin 3 → Prop} (h0 : p 0) (h1 : p 1) (h2 : p 2) : ∀ i, p i := by
  intro i; fin_cases i <;> assumption
theorem fin2_all {p : Fin 2 → Prop} (h0 : p 0) (h1 : p 1) : ∀ i, p i := by
  intro i; fin_cases i <;> assumption

theorem checked_shown (q : Qt α) (c : Config α) (hq : ReadsBack q c) :
    ∀ t ∈ (Form.ofConfig q c).checked q, t.2 = true := by
  have h := hq.float
  simp only [shownNumbers, List.forall_mem_cons] at h
  have ri := hq.int
  simp only [Form.checked, Form.ofConfig, List.forall_mem_append, List.forall_mem_cons, h, ri, true_and]
  simp only [List.not_mem_nil, false_imp_iff, implies_true, and_true]
  refine ⟨⟨⟨⟨⟨⟨⟨?_, ?_⟩, ?_⟩, ?_⟩, ?_⟩, ?_⟩, ?_⟩, ?_⟩ <;> split_ifs <;> simp

theorem read_shown (q : Qt α) (c : Config α) (hq : ReadsBack q c) (hc : choosable c) :
    (Form.ofConfig q c).read q c = c := by
  obtain ⟨h1, h2, h3⟩ := hc
  have e1 : Form.combo 2 c.imu.format = c.imu.format := if_pos h1
  have e2 : Form.combo 2 c.gnss.format = c.gnss.format := if_pos h2
  have e3 : Form.combo 3 c.align.mode = c.align.mode := if_pos h3
  have h := hq.float
  have ri := hq.int
  simp only [shownNumbers, List.forall_mem_cons] at h
  obtain ⟨s0, s1, a0, a1, a2, pp, py, os, sf, ss, n0, n1, b0, b1, b2, w0, w1, w2, zs, za, vt, o1, o2, o3, o4, -⟩ := h
  have ea : ∀ i, q.toFloat (q.number (c.gnss.levelArm i)) = (c.gnss.levelArm i, true) := fin3_all a0 a1 a2
  have eb : ∀ i, q.toFloat (q.number (c.odo.angleBv i)) = (c.odo.angleBv i, true) := fin3_all b0 b1 b2
  have ew : ∀ i, q.toFloat (q.number (c.odo.wheelLevelArm i)) = (c.odo.wheelLevelArm i, true) := fin3_all w0 w1 w2
  have en : ∀ i, q.toFloat (q.number (c.odo.nhcStd i)) = (c.odo.nhcStd i, true) := fin2_all n0 n1
  have ef : Form.float3 q (fun i => q.number (c.gnss.levelArm i)) = c.gnss.levelArm := by
    funext i; simp only [Form.float3, ea]
  simp only [Form.read, Form.ofConfig, ef, s0, s1, pp, py, os, sf, ss, zs, za, vt, o1, o2, o3, o4, eb, ew,
    en, ri, e1, e2, e3, ite_self]

/-- C147 (part): if Qt reads back what it shows and the choices are items of the boxes, opening a configuration file
and pressing Start runs exactly the configuration of the file, provided its parameter file can be read. -/
theorem C147_open_start_partial (q : Qt α) (files : String → Option (Config.ParaFile α))
    (y : Yaml α) (w w1 : Window α) (h : w.openFile q files (some y) = some w1) (hq : ReadsBack q w1.cfg) (hc : choosable w1.cfg)
    (hp : (Config.loadImuPara files w1.cfg).1 = true) :
    Config.loadFrom files w.cfg y = some w1.cfg ∧
    (w1.start q files).threads = w.threads ++ [(Config.loadImuPara files w1.cfg).2] ∧
    (w1.start q files).cfg = (Config.loadImuPara files w1.cfg).2 := by
  simp only [Window.openFile] at h
  cases hl : Config.loadFrom files w.cfg y with
  | none => rw [hl] at h; simp at h
  | some c =>
    rw [hl] at h
    simp only [Option.some.injEq] at h
    subst h
    refine ⟨rfl, ?_⟩
    unfold Window.start
    dsimp only at hc hp hq ⊢
    rw [if_neg (by simpa using (wrong_nil _).2 (checked_shown q c hq)), read_shown q c hq hc, if_pos hp]
    exact ⟨rfl, rfl⟩

/-- C147, first violation: a format that is not an item of its box (2 or more, which the configuration files use)
is replaced by the number -1 when the opened configuration is started. -/
theorem C147_format_lost (q : Qt α) (files : String → Option (Config.ParaFile α))
    (y : Yaml α) (w w1 : Window α) (h : w.openFile q files (some y) = some w1) (hf : 2 ≤ w1.cfg.gnss.format)
    (c : Config α) (hc : c ∈ (w1.start q files).threads) : c ∈ w.threads ∨ c.gnss.format = -1 := by
  simp only [Window.openFile] at h
  cases hl : Config.loadFrom files w.cfg y with
  | none => rw [hl] at h; simp at h
  | some d =>
    rw [hl] at h
    simp only [Option.some.injEq] at h
    subst h
    rcases start_runs q files { w with cfg := d, form := Form.ofConfig q d } with e1 | ⟨x, e1, hd, -⟩
    · rw [e1] at hc; exact Or.inl hc
    · rw [e1, List.mem_append, List.mem_singleton] at hc
      rcases hc with k | k
      · exact Or.inl k
      · subst k
        refine Or.inr (hd.gnss.2.trans ?_)
        show Form.combo 2 d.gnss.format = -1
        exact if_neg (by dsimp only at hf; omega)

/-- C147, second violation: Qt shows a number with six significant digits, hence a number between 100000 and 1000000
as an integer; then an opened start time in this range that is not an integer (seconds of the week usually are in
this range) is never the start time of the run. -/
theorem C147_time_rounded (q : Qt ℝ)
    (six : ∀ x : ℝ, 100000 ≤ x → x < 1000000 → ∃ n : ℤ, (q.toFloat (q.number x)).1 = n)
    (files : String → Option (Config.ParaFile ℝ)) (y : Yaml ℝ) (w w1 : Window ℝ)
    (h : w.openFile q files (some y) = some w1)
    (lo : 100000 ≤ w1.cfg.startTime) (hi : w1.cfg.startTime < 1000000) (frac : ¬ ∃ n : ℤ, w1.cfg.startTime = n)
    (c : Config ℝ) (hc : c ∈ (w1.start q files).threads) : c ∈ w.threads ∨ c.startTime ≠ w1.cfg.startTime := by
  simp only [Window.openFile] at h
  cases hl : Config.loadFrom files w.cfg y with
  | none => rw [hl] at h; simp at h
  | some d =>
    rw [hl] at h
    simp only [Option.some.injEq] at h
    subst h
    rcases start_runs q files { w with cfg := d, form := Form.ofConfig q d } with e1 | ⟨x, e1, hd, -⟩
    · rw [e1] at hc; exact Or.inl hc
    · rw [e1, List.mem_append, List.mem_singleton] at hc
      rcases hc with k | k
      · exact Or.inl k
      · subst k
        refine Or.inr fun e => frac ?_
        obtain ⟨n, hn⟩ := six d.startTime lo hi
        have ht : q.toFloat (q.number d.startTime) = (c.startTime, true) := hd.times.1
        rw [ht] at hn
        exact ⟨n, by rw [← e]; exact hn⟩

/-- C148, the violation: Save writes the stored configuration; after any number of edits of the form (and clearings
of the log) the file is the one Save would have written before them. -/
theorem C148_save_ignores_form (q : Qt α) (toInt : α → Int) (es : List (Window.Event α)) : ∀ (w : Window α),
    (∀ e ∈ es, e = .clearLog ∨ ∃ f, e = .edit f) →
    ∃ w2, w.run q es = some w2 ∧ w2.saveFile toInt = w.saveFile toInt := by
  induction es with
  | nil => exact fun w _ => ⟨w, rfl, rfl⟩
  | cons e es ih =>
    intro w h
    have ht := fun x hx => h x (List.mem_cons_of_mem _ hx)
    rcases h e List.mem_cons_self with rfl | ⟨f, rfl⟩
    · exact ih w.clearLog ht
    · exact ih { w with form := f } ht

/-- C148 (part): after a Start, accepted or rejected, the file contains what the form shows, for every box and text
that is a number. -/
theorem C148_save_after_start_partial (q : Qt α) (files : String → Option (Config.ParaFile α)) (w : Window α)
    (toInt : α → Int) :
    let doc := (w.start q files).saveFile toInt
    doc .startTime = some (.num (q.toFloat w.form.startTime).1) ∧
    doc .stopTime = some (.num (q.toFloat w.form.stopTime).1) ∧
    doc .imuPath = some (.str w.form.imuPath) ∧ doc .imuRate = some (.int (q.toInt w.form.imuRate).1) ∧
    doc .imuFormat = some (.int w.form.imuFormat) ∧ doc .gnssPath = some (.str w.form.gnssPath) ∧
    doc .gnssFormat = some (.int w.form.gnssFormat) ∧
    (∀ i, doc (.gnssArm i) = some (.num (q.toFloat (w.form.gnssArm i)).1)) ∧
    doc .odoEnable = some (.bool w.form.odoEnable) ∧ doc .odoNhc = some (.bool w.form.nhcEnable) ∧
    doc .zuptEnable = some (.bool w.form.zuptEnable) ∧ doc .zuptaEnable = some (.bool w.form.zuptaEnable) ∧
    doc .alignMode = some (.int w.form.alignMode) ∧ doc .outageEnable = some (.bool w.form.outageEnable) ∧
    doc .outPath = some (.str w.form.outputPath) := by
  have key : ∃ p, (w.start q files).cfg =
      { w.form.read q w.cfg with imu := { (w.form.read q w.cfg).imu with para := p } } := by
    unfold Window.start
    dsimp only
    split_ifs
    · exact ⟨_, rfl⟩
    · exact ⟨_, para_fields _ _⟩
    · exact ⟨_, para_fields _ _⟩
  obtain ⟨p, hp⟩ := key
  simp only [Window.saveFile, hp]
  exact ⟨rfl, rfl, rfl, rfl, rfl, rfl, rfl, fun _ => rfl, rfl, rfl, rfl, rfl, rfl, rfl, rfl⟩

/-- C148: opening the file that Save wrote, and cancelling the Open dialog, both end the program by an exception. -/
theorem C148_open_ends (q : Qt α) (files : String → Option (Config.ParaFile α)) (w w2 : Window α)
    (toInt : α → Int) (rest : List (Window.Event α)) :
    w2.run q (.openFile files (some (w.saveFile toInt)) :: rest) = none ∧
    w2.run q (.openFile files none :: rest) = none := by
  constructor
  · unfold Window.run
    simp only [Window.step, Window.openFile, Window.saveFile, C63_saved_never_loads]
  · rfl

/-! The hypotheses are met: a Qt that shows numbers by their length, and forms with and without errors. -/

/-- A form all of whose texts are `t`, everything ticked, frame box at its second item. -/
def fullForm (t : String) : Form :=
  { imuPath := "i", imuFormat := 0, imuFrame := 1, imuRate := t, imuParaPath := "p", gnssPath := "g", gnssFormat := 1
    gnssArm := fun _ => t, doubleAntenna := true, antennaPitch := t, antennaYaw := t, odoEnable := true, odoPath := "o"
    odoStd := t, odoScale := "x", odoScaleStd := t, nhcEnable := true, nhcStd := fun _ => t, angleBv := fun _ => t
    odoArm := fun _ => t, zuptEnable := true, zuptStd := t, zuptaEnable := true, zuptaStd := t, alignMode := 0
    velThreshold := t, outageEnable := true, outageStart := t, outageStop := t, outageStep := t, outageLen := t
    startTime := t, stopTime := t, outputPath := "r" }

/-- Only the text "1" is a number. -/
def oneQt : Qt ℝ :=
  { toFloat := fun t => if t = "1" then (1, true) else (0, false)
    toInt := fun t => if t = "1" then (1, true) else (0, false), number := fun _ => "1", numberI := fun _ => "1" }

/-- A parameter file with every number present. -/
def paraFile : Config.ParaFile ℝ :=
  { arw := some 1, vrw := some 1, gbStd := fun _ => some 1, gsStd := fun _ => some 1, asStd := fun _ => some 1
    abStd := fun _ => some 1, gbIni := fun _ => some 1, gsIni := fun _ => some 1, abIni := fun _ => some 1
    asIni := fun _ => some 1, gtCorr := some 1, atCorr := some 1 }

theorem fullForm_checked : ∀ t ∈ (fullForm "1").checked oneQt, t.2 = true := by
  simp [Form.checked, fullForm, oneQt]

theorem fullForm_para (c : Config ℝ) :
    (Config.loadImuPara (fun _ => some paraFile) ((fullForm "1").read oneQt c)).1 = true := by
  simp [Config.loadImuPara, Config.readPara, paraFile, Config.opt3]

/-- A run is started although the scale factor text is "x"; the frame box at 1, the stored frame 0. -/
example (c : Config ℝ) (h : c.imu.frame = 0) :
    ∃ d, ((⟨c, fullForm "1", [], []⟩ : Window ℝ).start oneQt (fun _ => some paraFile)).threads = [d] ∧
      RunsForm oneQt (fullForm "1") d ∧ ¬ RunsRest oneQt (fullForm "1") d := by
  rcases start_runs oneQt (fun _ => some paraFile) ⟨c, fullForm "1", [], []⟩ with e | ⟨d, e, hd, hf⟩
  · have := (C146_start oneQt (fun _ => some paraFile) ⟨c, fullForm "1", [], []⟩).2.1
      ⟨fullForm_checked, fullForm_para c⟩
    obtain ⟨⟨x, hx⟩, -⟩ := this
    rw [e] at hx
    simp at hx
  · refine ⟨d, e, hd, fun k => ?_⟩
    have := k.frame
    rw [hf, h] at this
    simp [fullForm] at this
example : failsZero oneQt := by
  intro t
  simp only [oneQt]
  split_ifs <;> simp
example : (oneQt.toFloat (fullForm "1").odoScale).2 = false := by simp [oneQt, fullForm]
/-- A rejected form. -/
example : (oneQt.toFloat (fullForm "z").startTime).2 = false := by simp [oneQt, fullForm]
/-- A configuration all of whose numbers are 1. -/
noncomputable def onesConfig : Config ℝ :=
  { startTime := 1, stopTime := 1, enableRts := false
    gnss := ⟨true, "g", 1, fun _ => 0, true, fun _ => 1, 1, 1, 1⟩, imu := ⟨"i", 0, 0, 1, "p", (Ex.opt 0).imuPara⟩
    odo := ⟨true, "o", 1, true, fun _ => 1, fun _ => 1, fun _ => 1, 1, 1⟩, zupt := ⟨true, true, 1, 1, 1, 1, 1⟩
    align := ⟨0, 1, zeroPva⟩, outage := ⟨true, 1, 1, 1, 1⟩, output := ⟨"r", 1, false, fun _ => 0, fun _ => 0⟩
    press := ⟨false, "", 1⟩ }
example : ReadsBack oneQt onesConfig := by
  constructor
  · simp [shownNumbers, onesConfig, oneQt]
  · simp [onesConfig, oneQt]
/-- The form shows start time 1 (text "1"), the file says 0. -/
example : ∃ w2, (⟨{ onesConfig with startTime := 0 }, fullForm "z", [], []⟩ : Window ℝ).run oneQt [.edit (fullForm "1")] = some w2 ∧
    isNumber oneQt w2.form.startTime 1 ∧ w2.saveFile (fun _ => 0) .startTime = some (.num 0) :=
  ⟨_, rfl, by simp [isNumber, oneQt, fullForm], rfl⟩
example : choosable onesConfig := by simp [choosable, onesConfig]
/-- Qt's rounding, here with every number shown as "1". -/
example : ∀ x : ℝ, 100000 ≤ x → x < 1000000 → ∃ n : ℤ, (oneQt.toFloat (oneQt.number x)).1 = n :=
  fun _ _ _ => ⟨1, by simp [oneQt]⟩
end Verif.Props
