import Verif.Model.NavPlot
import Verif.Spec.NavPlot
import Verif.Spec.Examples
/-! # C186-C190: the viewer of results -/
namespace Verif.Props
open Verif Verif.NavPlot Verif.Spec.Viewer
variable {α : Type}

/-- What is on the window. -/
def onWindow (w : Window α) : List (Figure Title α) :=
  (match w.track with | none => [] | some p => [.track p]) ++
  (match w.bias 0, w.bias 1, w.bias 2 with
   | none, none, none => []
   | a, b, c => [.three (w.yTitle.getD .north) fun i => (match i with | 0 => a | 1 => b | 2 => c).getD []])

/-- The invariant of the window. -/
def ShowsData (w : Window α) : Prop :=
  (onWindow w = [] ∧ w.navdata = []) ∨
  (onWindow w = [.track (trackOf w.navdata)] ∧ w.xRange = none ∧ w.yTitle = some .north) ∨
  ∃ t d e, onWindow w = [.three t fun i => overTime (fun r => value t r i) w.navdata] ∧ w.yTitle = some t ∧
    w.navdata.head? = some d ∧ w.navdata.getLast? = some e ∧ w.xRange = some (d.gpst, e.gpst)

theorem showTrack_shows (w : Window α) (h : ShowsData w ∨ w.navdata ≠ []) : ShowsData w.showTrack := by
  unfold Window.showTrack
  split
  · next e => exact h.resolve_right (fun hn => hn e)
  · right; left; exact ⟨rfl, rfl, rfl⟩

theorem showThree_shows (t : Title) (w : Window α) (h : ShowsData w) : ShowsData (w.showThree t) := by
  unfold Window.showThree
  split
  · exact h
  · next d ds e =>
    right; right
    refine ⟨t, d, (d :: ds).getLastD d, ?_, rfl, ?_, ?_, rfl⟩
    · simp only [onWindow, Window.clear, Option.getD_some, List.nil_append]
      congr 2
      funext i
      rw [e]
      fin_cases i <;> rfl
    · show w.navdata.head? = _
      rw [e]; rfl
    · show w.navdata.getLast? = _
      rw [e, List.getLastD_cons, List.getLast?_cons]
      cases hd : ds.getLast? with
      | none => rw [List.getLast?_eq_none_iff] at hd; subst hd; rfl
      | some x => rw [List.getLastD_eq_getLast?, hd]

theorem binaryRecords_ne (r : NavOutput α) (rs : List (NavOutput α)) : binaryRecords r rs ≠ [] := by
  cases rs <;> simp [binaryRecords]

theorem step_shows [Zero α] (wk : α → Int) (w : Window α) (e : Event α) (h : ShowsData w) : ShowsData (w.step wk e) := by
  cases e with
  | drop p f => exact h
  | track => exact showTrack_shows w (.inl h)
  | three t => exact showThree_shows t w h
  | «open» mem p f =>
    unfold Window.step Window.open
    dsimp only
    cases formatOf (extension p) with
    | none => exact h
    | some fm =>
      dsimp only
      cases fm with
      | doubleMatrix => exact h
      | binary =>
        rcases f with _ | ⟨_ | _⟩
        · exact h
        · exact h
        · exact showTrack_shows _ (.inr (binaryRecords_ne _ _))
      | ascii =>
        rcases f with _ | ⟨ls | _⟩
        · exact h
        · show ShowsData (Window.showTrack _)
          by_cases hn : w.navdata ++ asciiRecords wk mem.turn 0 ls = []
          · apply showTrack_shows
            left
            have h1 : asciiRecords wk mem.turn 0 ls = [] := (List.append_eq_nil_iff.1 hn).2
            have : ({ w with navdata := w.navdata ++ asciiRecords wk mem.turn 0 ls } : Window α) = w := by
              rw [h1, List.append_nil]
            show ShowsData ({ w with navdata := w.navdata ++ asciiRecords wk mem.turn 0 ls } : Window α)
            rw [this]; exact h
          · exact showTrack_shows _ (.inr hn)
        · exact h

/-- C186: after every history of opened and dropped files and menu entries, at most one figure is on the window, and it
shows the data held now: nothing while there is no data, or the track, or three curves of the chosen quantity over time with
its title, the time axis running from the first to the last of the data. -/
theorem C186_one_figure [Zero α] (wk : α → Int) (es : List (Event α)) : ShowsData (Window.run wk es Window.new) := by
  have : ∀ (w : Window α), ShowsData w → ShowsData (Window.run wk es w) := by
    induction es with
    | nil => exact fun w h => h
    | cons e es ih => exact fun w h => ih _ (step_shows wk w e h)
  exact this _ (.inl ⟨rfl, rfl⟩)

theorem extension_of (p e : List Char) (h : '.' ∉ e) : extension (p ++ '.' :: e) = e := by
  unfold extension
  have hr : (p ++ '.' :: e).reverse = e.reverse ++ '.' :: p.reverse := by simp
  rw [hr, List.takeWhile_append_of_pos (by
    intro x hx; simp only [ne_eq, decide_eq_true_eq]; rintro rfl; exact h (List.mem_reverse.1 hx))]
  simp

theorem extension_none (p : List Char) (h : '.' ∉ p) : extension p = p := by
  unfold extension
  have : p.reverse.takeWhile (· ≠ '.') = p.reverse := by
    have := List.takeWhile_append_of_pos (p := fun x : Char => decide (x ≠ '.')) (l₁ := p.reverse) (l₂ := []) (by
      intro x hx; simp only [ne_eq, decide_eq_true_eq]; rintro rfl; exact h (List.mem_reverse.1 hx))
    simpa using this
  rw [this, List.reverse_reverse]

/-- Filling a result from numbers only. -/
theorem fill_append [Zero α] (wk : α → Int) (l : List α) : ∀ (m : Line α) (k : Nat) (n : NavOutput α),
    fill wk k (l.map some ++ m) n = fill wk (k + l.length) m (fill wk k (l.map some) n) := by
  induction l with
  | nil => intro m k n; rfl
  | cons x xs ih =>
    intro m k n
    simp only [List.map_cons, List.cons_append, List.length_cons, fill]
    rw [ih, Nat.add_right_comm, Nat.add_assoc]

/-- Columns from the twelfth on touch the biases only. -/
structure SameFront (a b : NavOutput α) : Prop where
  week : a.week = b.week
  gpst : a.gpst = b.gpst
  lat : a.lat = b.lat
  lon : a.lon = b.lon
  height : a.height = b.height
  vn : a.vn = b.vn
  atti : a.atti = b.atti

theorem set_front (wk : α → Int) (n : NavOutput α) (k : Nat) (hk : 11 ≤ k) (x : α) : SameFront (NavPlot.set wk n k x) n := by
  unfold NavPlot.set
  split <;> first | omega | exact ⟨rfl, rfl, rfl, rfl, rfl, rfl, rfl⟩

theorem fill_front [Zero α] (wk : α → Int) (l : List α) : ∀ (k : Nat) (_ : 11 ≤ k) (n : NavOutput α),
    SameFront (fill wk k (l.map some) n) n := by
  induction l with
  | nil => intro k _ n; exact ⟨rfl, rfl, rfl, rfl, rfl, rfl, rfl⟩
  | cons x xs ih =>
    intro k hk n
    have h1 := ih (k + 1) (by omega) (NavPlot.set wk n k x)
    have h2 := set_front wk n k hk x
    exact ⟨h1.week.trans h2.week, h1.gpst.trans h2.gpst, h1.lat.trans h2.lat, h1.lon.trans h2.lon, h1.height.trans h2.height,
      h1.vn.trans h2.vn, h1.atti.trans h2.atti⟩

theorem fill_columns [Zero α] (wk : α → Int) (l : List α) (hl : 11 ≤ l.length) (n : NavOutput α) :
    hasColumns wk l (fill wk 0 (l.map some) n) := by
  obtain ⟨a0, a1, a2, a3, a4, a5, a6, a7, a8, a9, a10, m, rfl⟩ :
      ∃ a0 a1 a2 a3 a4 a5 a6 a7 a8 a9 a10 m, l = a0 :: a1 :: a2 :: a3 :: a4 :: a5 :: a6 :: a7 :: a8 :: a9 :: a10 :: m := by
    rcases l with _ | ⟨a0, _ | ⟨a1, _ | ⟨a2, _ | ⟨a3, _ | ⟨a4, _ | ⟨a5, _ | ⟨a6, _ | ⟨a7, _ | ⟨a8, _ | ⟨a9, _ | ⟨a10, m⟩⟩⟩⟩⟩⟩⟩⟩⟩⟩⟩ <;>
      first
        | (exfalso; simp at hl; done)
        | exact ⟨_, _, _, _, _, _, _, _, _, _, _, _, rfl⟩
  have h := fill_front wk m 11 (le_refl _) (fill wk 0 ([a0, a1, a2, a3, a4, a5, a6, a7, a8, a9, a10].map some) n)
  have e : fill wk 0 ((a0 :: a1 :: a2 :: a3 :: a4 :: a5 :: a6 :: a7 :: a8 :: a9 :: a10 :: m).map some) n =
      fill wk 11 (m.map some) (fill wk 0 ([a0, a1, a2, a3, a4, a5, a6, a7, a8, a9, a10].map some) n) := rfl
  rw [e]
  unfold hasColumns
  rw [h.week, h.gpst, h.lat, h.lon, h.height, h.vn, h.atti]
  refine ⟨rfl, rfl, rfl, rfl, rfl, ?_, ?_⟩ <;> intro i <;> fin_cases i <;> rfl

theorem ascii_append [Zero α] (wk : α → Int) (junk : Nat → NavOutput α) (a b : List (Line α)) : ∀ k,
    asciiRecords wk junk k (a ++ b) = asciiRecords wk junk k a ++ asciiRecords wk junk (k + a.length) b := by
  induction a with
  | nil => intro k; rfl
  | cons l ls ih =>
    intro k
    simp only [List.cons_append, asciiRecords, List.length_cons]
    rw [ih, Nat.add_right_comm, Nat.add_assoc]

theorem ascii_columns [Zero α] (wk : α → Int) (junk : Nat → NavOutput α) (ls : List (List α)) (h : ∀ l ∈ ls, 11 ≤ l.length) : ∀ k,
    List.Forall₂ (hasColumns wk) ls (asciiRecords wk junk k (ls.map fun l => l.map some)) := by
  induction ls with
  | nil => intro k; exact .nil
  | cons l ls ih =>
    intro k
    exact .cons (fill_columns wk l (h l (by simp)) _) (ih (fun x hx => h x (by simp [hx])) (k + 1))

/-- A path with one of the endings of text files. -/
def textPath (path : List Char) : Prop := ∃ p, path = p ++ ".nav".toList ∨ path = p ++ ".rst".toList
/-- A path with one of the endings of binary files. -/
def binaryPath (path : List Char) : Prop := ∃ p, path = p ++ ".bin".toList ∨ path = p ++ ".navbin".toList

theorem textPath_format (path : List Char) (h : textPath path) : formatOf (extension path) = some .ascii := by
  obtain ⟨p, rfl | rfl⟩ := h
  · have := extension_of p "nav".toList (by decide)
    show formatOf (extension (p ++ '.' :: "nav".toList)) = _
    rw [this]; decide
  · have := extension_of p "rst".toList (by decide)
    show formatOf (extension (p ++ '.' :: "rst".toList)) = _
    rw [this]; decide

theorem binaryPath_format (path : List Char) (h : binaryPath path) : formatOf (extension path) = some .binary := by
  obtain ⟨p, rfl | rfl⟩ := h
  · have := extension_of p "bin".toList (by decide)
    show formatOf (extension (p ++ '.' :: "bin".toList)) = _
    rw [this]; decide
  · have := extension_of p "navbin".toList (by decide)
    show formatOf (extension (p ++ '.' :: "navbin".toList)) = _
    rw [this]; decide

theorem showTrack_data (w : Window α) : w.showTrack.navdata = w.navdata := by
  unfold Window.showTrack; split <;> rfl

theorem showTrack_track (w : Window α) (h : w.navdata ≠ []) : w.showTrack.track = some (trackOf w.navdata) := by
  unfold Window.showTrack; rw [if_neg h]; rfl

theorem open_text [Zero α] (wk : α → Int) (mem : Memory α) (w : Window α) (path : List Char) (hp : textPath path) (ls : List (Line α)) :
    w.open wk mem path (some (.text ls)) =
      Window.showTrack { w with navdata := w.navdata ++ asciiRecords wk mem.turn 0 ls } := by
  unfold Window.open; rw [textPath_format path hp]; rfl

theorem open_binary [Zero α] (wk : α → Int) (mem : Memory α) (w : Window α) (path : List Char) (hp : binaryPath path)
    (rs : List (NavOutput α)) :
    w.open wk mem path (some (.records rs)) = Window.showTrack { w with navdata := binaryRecords mem.nav rs } := by
  unfold Window.open; rw [binaryPath_format path hp]; rfl

/-- C187, the part that holds: opening a text file of complete lines that does not end with a line end, in a window without data,
gives one result per line, in order, with the values of the line's first eleven columns, and draws their track. -/
theorem C187_records_partial [Zero α] (wk : α → Int) (mem : Memory α) (w : Window α) (path : List Char) (hp : textPath path)
    (ls : List (List α)) (h : ∀ l ∈ ls, 11 ≤ l.length) (h0 : w.navdata = []) :
    List.Forall₂ (hasColumns wk) ls (w.open wk mem path (some (.text (fileOf ls false)))).navdata ∧
    (ls ≠ [] → (w.open wk mem path (some (.text (fileOf ls false)))).track =
      some (trackOf (w.open wk mem path (some (.text (fileOf ls false)))).navdata)) := by
  rw [open_text wk mem w path hp, showTrack_data]
  have e : fileOf ls false = ls.map fun l => l.map some := by simp [fileOf]
  rw [e, h0]
  have hf := ascii_columns wk mem.turn ls h 0
  refine ⟨hf, fun hne => showTrack_track _ ?_⟩
  intro hc
  have := hf.length_eq
  rw [show asciiRecords wk mem.turn 0 (ls.map fun l => l.map some) = [] from hc] at this
  exact hne (List.length_eq_zero_iff.1 this)

/-- C187 is violated by every file that ends with a line end, as the library's result files do: a further point is drawn from
uninitialised memory. -/
theorem C187_line_end [Zero α] (wk : α → Int) (mem : Memory α) (w : Window α) (path : List Char) (hp : textPath path)
    (ls : List (List α)) (h : ∀ l ∈ ls, 11 ≤ l.length) (h0 : w.navdata = []) :
    ∃ rs, List.Forall₂ (hasColumns wk) ls rs ∧
      (w.open wk mem path (some (.text (fileOf ls true)))).navdata = rs ++ [mem.turn ls.length] ∧
      (w.open wk mem path (some (.text (fileOf ls true)))).track =
        some (trackOf rs ++ [((mem.turn ls.length).lon, (mem.turn ls.length).lat)]) := by
  refine ⟨_, ascii_columns wk mem.turn ls h 0, ?_⟩
  have e : asciiRecords wk mem.turn 0 (fileOf ls true) =
      asciiRecords wk mem.turn 0 (ls.map fun l => l.map some) ++ [mem.turn ls.length] := by
    simp only [fileOf, if_true, ascii_append, List.length_map, Nat.zero_add]
    rfl
  rw [open_text wk mem w path hp, showTrack_data]
  have e2 : ({ w with navdata := w.navdata ++ asciiRecords wk mem.turn 0 (fileOf ls true) } : Window α).navdata =
      asciiRecords wk mem.turn 0 (ls.map fun l => l.map some) ++ [mem.turn ls.length] := by
    show w.navdata ++ _ = _
    rw [h0, e, List.nil_append]
  refine ⟨e2, ?_⟩
  rw [showTrack_track _ (by rw [e2]; simp), e2]
  simp [trackOf]

/-- C187 is violated when a second text file is opened: its results are appended to those of the first, and one track is drawn
through both. -/
theorem C187_appends [Zero α] (wk : α → Int) (mem : Memory α) (w : Window α) (path : List Char) (hp : textPath path)
    (ls : List (Line α)) (h0 : w.navdata ≠ []) :
    ∃ new, (w.open wk mem path (some (.text ls))).navdata = w.navdata ++ new ∧
      (w.open wk mem path (some (.text ls))).track = some (trackOf w.navdata ++ trackOf new) := by
  refine ⟨asciiRecords wk mem.turn 0 ls, ?_⟩
  rw [open_text wk mem w path hp, showTrack_data]
  refine ⟨rfl, ?_⟩
  rw [showTrack_track _ (by simp [h0])]
  simp [trackOf]

/-- The curves of the three axes after choosing a plot over time. -/
theorem three_curve (t : Title) (w : Window α) (h : w.navdata ≠ []) (i : Fin 3) :
    (w.showThree t).bias i = some (overTime (fun r => value t r i) w.navdata) := by
  unfold Window.showThree
  split
  · next e => exact absurd e h
  · next d ds e => rw [e]; rfl

/-- A line of the library's result files: thirteen columns, the last two the GNSS mode and the sensor flags. -/
theorem fill_result [Zero α] (wk : α → Int) (front : List α) (hf : front.length = 11) (mode flags : α) (n : NavOutput α) (r : NavOutput α)
    (hr : r = fill wk 0 ((front ++ [mode, flags]).map some) n) :
    r.gb 0 = mode ∧ r.gb 1 = flags ∧ r.gb 2 = n.gb 2 ∧ r.ab = n.ab ∧ r.gs = n.gs ∧ r.as = n.as := by
  rcases front with _ | ⟨a0, _ | ⟨a1, _ | ⟨a2, _ | ⟨a3, _ | ⟨a4, _ | ⟨a5, _ | ⟨a6, _ | ⟨a7, _ | ⟨a8, _ | ⟨a9, _ | ⟨a10, _ | ⟨a11, m⟩⟩⟩⟩⟩⟩⟩⟩⟩⟩⟩⟩ <;>
    first
      | (exfalso; simp at hf; done)
      | (subst hr; exact ⟨rfl, rfl, rfl, rfl, rfl, rfl⟩)

/-- C188 is violated by every result file of the library: the curve drawn as gyroscope bias x is the GNSS mode, that of y the sensor
flags; the third, and all three curves of the accelerometer biases and of both scale factors, are uninitialised memory. -/
theorem C188_mode_as_bias [Zero α] (wk : α → Int) (mem : Memory α) (w : Window α) (path : List Char) (hp : textPath path) (h0 : w.navdata = [])
    (l : List α) (hl : l.length = 11) (mode flags : α) (e : Window α)
    (he : e = w.open wk mem path (some (.text (fileOf [l ++ [mode, flags]] false)))) (t : α) (ht : l[1]? = some t) :
    (e.showThree .gyroBias).bias 0 = some [(t, mode)] ∧ (e.showThree .gyroBias).bias 1 = some [(t, flags)] ∧
    (e.showThree .gyroBias).bias 2 = some [(t, (mem.turn 0).gb 2)] ∧
    (∀ i, (e.showThree .acceBias).bias i = some [(t, (mem.turn 0).ab i)]) ∧
    (∀ i, (e.showThree .gyroScale).bias i = some [(t, (mem.turn 0).gs i)]) ∧
    ∀ i, (e.showThree .acceScale).bias i = some [(t, (mem.turn 0).as i)] := by
  have hd : e.navdata = [fill wk 0 ((l ++ [mode, flags]).map some) (mem.turn 0)] := by
    rw [he, open_text wk mem w path hp, showTrack_data, h0]; rfl
  have hne : e.navdata ≠ [] := by rw [hd]; simp
  obtain ⟨g0, g1, g2, ga, gs, gas⟩ := fill_result wk l hl mode flags (mem.turn 0) _ rfl
  have hc := (fill_columns wk (l ++ [mode, flags]) (by simp [hl]) (mem.turn 0)).2.1
  rw [List.getElem?_append_left (by omega), ht, Option.some.injEq] at hc
  refine ⟨?_, ?_, ?_, fun i => ?_, fun i => ?_, fun i => ?_⟩ <;> rw [three_curve _ _ hne, hd] <;>
    simp only [overTime, List.map_cons, List.map_nil, value, ← hc, g0, g1, g2, ga, gs, gas]

/-- The same for whole files. -/
theorem C188_whole_files [Zero α] (wk : α → Int) (mem : Memory α) (w : Window α) (path : List Char) (hp : textPath path) (h0 : w.navdata = [])
    (ls : List (List α × α × α)) (hl : ∀ l ∈ ls, l.1.length = 11) (hne : ls ≠ []) (e : Window α)
    (he : e = w.open wk mem path (some (.text (fileOf (ls.map fun l => l.1 ++ [l.2.1, l.2.2]) false)))) :
    ∃ c0 c1, (e.showThree .gyroBias).bias 0 = some c0 ∧ (e.showThree .gyroBias).bias 1 = some c1 ∧
      c0.map Prod.snd = ls.map (fun l => l.2.1) ∧ c1.map Prod.snd = ls.map (fun l => l.2.2) := by
  have hd : e.navdata = asciiRecords wk mem.turn 0 ((ls.map fun l => l.1 ++ [l.2.1, l.2.2]).map fun l => l.map some) := by
    rw [he, open_text wk mem w path hp, showTrack_data, h0]; simp [fileOf]
  have key : ∀ k, (asciiRecords wk mem.turn k ((ls.map fun l => l.1 ++ [l.2.1, l.2.2]).map fun l => l.map some)).map (fun r => r.gb 0) =
        ls.map (fun l => l.2.1) ∧
      (asciiRecords wk mem.turn k ((ls.map fun l => l.1 ++ [l.2.1, l.2.2]).map fun l => l.map some)).map (fun r => r.gb 1) =
        ls.map (fun l => l.2.2) := by
    clear hd he hne
    induction ls with
    | nil => intro k; exact ⟨rfl, rfl⟩
    | cons x xs ih =>
      intro k
      obtain ⟨g0, g1, -⟩ := fill_result wk x.1 (hl x (by simp)) x.2.1 x.2.2 (mem.turn k) _ rfl
      have := ih (fun y hy => hl y (by simp [hy])) (k + 1)
      simp only [List.map_cons, asciiRecords, g0, g1, this.1, this.2, and_self]
  have hdne : e.navdata ≠ [] := by
    intro hc
    have := (key 0).1
    rw [← hd, hc] at this
    exact hne (List.map_eq_nil_iff.1 this.symm)
  refine ⟨_, _, three_curve _ _ hdne 0, three_curve _ _ hdne 1, ?_, ?_⟩
  · rw [← (key 0).1, ← hd]; simp [overTime, value, Function.comp_def]
  · rw [← (key 0).2, ← hd]; simp [overTime, value, Function.comp_def]

/-- C188, the part that holds: in a file with the biases in columns twelve to seventeen the curves are the biases. -/
theorem C188_seventeen_columns_partial [Zero α] (wk : α → Int) (l : List α) (hl : l.length = 17) (n r : NavOutput α)
    (hr : r = fill wk 0 (l.map some) n) :
    (∀ i : Fin 3, l[11 + i.val]? = some (value .gyroBias r i)) ∧ ∀ i : Fin 3, l[14 + i.val]? = some (value .acceBias r i) := by
  rcases l with _ | ⟨a0, _ | ⟨a1, _ | ⟨a2, _ | ⟨a3, _ | ⟨a4, _ | ⟨a5, _ | ⟨a6, _ | ⟨a7, _ | ⟨a8, _ | ⟨a9, _ | ⟨a10, _ | ⟨a11, _ | ⟨a12, _ | ⟨a13, _ | ⟨a14, _ | ⟨a15, _ | ⟨a16, _ | ⟨a17, m⟩⟩⟩⟩⟩⟩⟩⟩⟩⟩⟩⟩⟩⟩⟩⟩⟩⟩ <;>
    first
      | (exfalso; simp at hl; done)
      | (subst hr; constructor <;> intro i <;> fin_cases i <;> rfl)

theorem binary_eq (last : NavOutput α) (rs : List (NavOutput α)) : binaryRecords last rs = rs ++ [rs.getLastD last] := by
  induction rs generalizing last with
  | nil => rfl
  | cons r rs ih => rw [binaryRecords, ih, List.cons_append, List.getLastD_cons]

/-- C189 is violated: opening a binary file of results gives its results and the last one again (for a file without results: one
result from uninitialised memory); data of files opened before are dropped. -/
theorem C189_last_twice_partial [Zero α] (wk : α → Int) (mem : Memory α) (w : Window α) (path : List Char) (hp : binaryPath path)
    (rs : List (NavOutput α)) :
    (w.open wk mem path (some (.records rs))).navdata = rs ++ [rs.getLastD mem.nav] ∧
    (w.open wk mem path (some (.records rs))).track = some (trackOf rs ++ trackOf [rs.getLastD mem.nav]) ∧
    ∀ i, (w.open wk mem path (some (.records rs))).bias i = none := by
  have hb := binary_eq mem.nav rs
  have hne : ({ w with navdata := binaryRecords mem.nav rs } : Window α).navdata ≠ [] := binaryRecords_ne _ _
  rw [open_binary wk mem w path hp, showTrack_data]
  refine ⟨hb, ?_, ?_⟩
  · rw [showTrack_track _ hne]
    show some (trackOf (binaryRecords mem.nav rs)) = _
    rw [hb]; simp [trackOf]
  · intro i
    unfold Window.showTrack
    rw [if_neg hne]; rfl

/-- C190, the part that holds: a path that is not there, a path with an ending that is not known, and a result file in matrix
format leave the window as it is. -/
theorem C190_unreadable_partial [Zero α] (wk : α → Int) (mem : Memory α) (w : Window α) (p : List Char) :
    w.open wk mem p none = w ∧
    (∀ f, (∀ e ∈ ["nav", "rst", "bin", "navbin"], extension p ≠ e.toList) → w.open wk mem p f = w) ∧
    (∀ q f, '.' ∉ q → w.open wk mem (p ++ '.' :: q) f = w ∨ q ∈ ["nav".toList, "rst".toList, "bin".toList, "navbin".toList]) := by
  have key : ∀ (x : List Char) f, (∀ e ∈ ["nav", "rst", "bin", "navbin"], extension x ≠ e.toList) → w.open wk mem x f = w := by
    intro x f h
    have h1 := h "nav" (by simp)
    have h2 := h "rst" (by simp)
    have h3 := h "bin" (by simp)
    have h4 := h "navbin" (by simp)
    unfold Window.open formatOf
    rw [if_neg h1, if_neg h2, if_neg h3, if_neg h4]
    by_cases h5 : extension x = "navmat".toList
    · rw [if_pos h5]; rfl
    · rw [if_neg h5]
  refine ⟨?_, key p, fun q f hq => ?_⟩
  · unfold Window.open
    cases formatOf (extension p) with
    | none => rfl
    | some f => cases f <;> rfl
  · by_cases hm : q ∈ ["nav".toList, "rst".toList, "bin".toList, "navbin".toList]
    · exact .inr hm
    · left
      apply key
      rw [extension_of p q hq]
      rintro e he rfl
      apply hm
      simp only [List.mem_cons, List.not_mem_nil, or_false] at he ⊢
      rcases he with rfl | rfl | rfl | rfl <;> simp

/-- C190 is violated: a file dropped on the window, which accepts it, is never shown: whatever the history, leaving out the drops
gives the same window. -/
theorem C190_dropped_files_ignored [Zero α] (wk : α → Int) (es : List (Event α)) (w : Window α) :
    Window.run wk es w = Window.run wk (es.filter fun e => match e with | .drop _ _ => false | _ => true) w := by
  induction es generalizing w with
  | nil => rfl
  | cons e es ih =>
    cases e <;> simp only [List.filter_cons, Bool.false_eq_true, if_true, if_false]
    · exact ih _
    · exact ih w
    · exact ih _
    · exact ih _

/-- A result of zeros. -/
def zeroResult : NavOutput Int :=
  ⟨0, 0, 0, 0, 0, 0, 0, 0, 0, 0, ⟨0, 0⟩, 0, 0, 0, 0, 0⟩

/-- A file called `nav`, without a point, is opened as text; one in a directory with a point in its name is not. -/
example : formatOf (extension "nav".toList) = some .ascii ∧ formatOf (extension "run.1/nav".toList) = none := by decide

example : textPath "out/result.rst".toList ∧ binaryPath "a.b.navbin".toList := ⟨⟨"out/result".toList, .inr rfl⟩, ⟨"a.b".toList, .inr rfl⟩⟩
example : (Window.run (fun x : Int => x) [.open ⟨zeroResult, fun _ => zeroResult⟩ "a.rst".toList
    (some (.text (fileOf [[2200, 5, 30, 114, 20, 0, 0, 0, 0, 0, 0, 4, 1]] false))), .three .gyroBias] Window.new).bias 0 = some [(5, 4)] := by rfl
end Verif.Props
