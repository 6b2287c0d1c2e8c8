import Verif.Spec.UiThread
import Verif.Lemmas.Real
import Verif.Props.Post
import Mathlib.Tactic.Linarith
import Mathlib.Tactic.NormNum
import Mathlib.Tactic.SplitIfs
import Mathlib.Tactic.Positivity
/-! C181-C185: the processing thread of the window program. -/
namespace Verif.Props
open Verif UiThread Spec.UiRun
variable {α : Type} [Add α] [Sub α] [Mul α] [Neg α] [Div α] [Zero α] [One α] [Fl α]

section lists
variable {α : Type}
theorem uiSamples_append (a b : List (Ev α)) : samples (a ++ b) = samples a ++ samples b := by
  induction a with
  | nil => rfl
  | cons x a ih => cases x <;> simp [samples, ih]
theorem uiFixes_append (a b : List (Ev α)) : fixes (a ++ b) = fixes a ++ fixes b := by
  induction a with
  | nil => rfl
  | cons x a ih => cases x <;> simp [fixes, ih]
theorem uiProgress_append (a b : List (Ev α)) : progress (a ++ b) = progress a ++ progress b := by
  induction a with
  | nil => rfl
  | cons x a ih => cases x <;> simp [progress, ih]
end lists

/-- Everything the loop reads has a value. -/
def UiGood (c : Config α) (s : St α) : Prop :=
  (s.gr.ok = true → s.gnss.isSome) ∧ (c.odo.enable = true → ∃ r v, s.od = some r ∧ s.vel = some v)

/-- What an odometer or GNSS part adds to the list of events. -/
def uiGnssEvs (c : Config α) (o : Outage α) (t : α) (s : St α) : List (Ev α) :=
  match s.gr.ok, s.gnss with
  | true, some g => if near c.imu.dRate g.gpst t then (if c.outage.enable && o.isOutage g.gpst then [] else [.fix g]) else []
  | _, _ => []

theorem uiGnssPart_some (c : Config α) (o : Outage α) (t : α) (s : St α) (h : UiGood c s) :
    ∃ s1, gnssPart c o t s = some (uiGnssEvs c o t s, s1) ∧ UiGood c s1 ∧ s1.od = s.od ∧ s1.vel = s.vel ∧
      (s1 = s ∨ ∃ g, s.gr.ok = true ∧ s.gnss = some g ∧ near c.imu.dRate g.gpst t = true ∧ s1.gr = (s.gr.readUntil Gnss.gpst t).2 ∧ s1.gnss = (s.gr.readUntil Gnss.gpst t).1.or s.gnss) ∧
      ((∀ g, s.gr.ok = true → s.gnss = some g → near c.imu.dRate g.gpst t = false) → s1 = s) := by
  unfold gnssPart uiGnssEvs
  by_cases hok : s.gr.ok = true
  · obtain ⟨g, hg⟩ := Option.isSome_iff_exists.1 (h.1 hok)
    rw [if_pos hok, hg, hok]
    dsimp only
    by_cases hn : near c.imu.dRate g.gpst t = true
    · rw [if_pos hn, if_pos hn]
      refine ⟨_, rfl, ⟨?_, h.2⟩, rfl, rfl, Or.inr ⟨g, rfl, rfl, hn, rfl, rfl⟩, fun hh => ?_⟩
      · intro _
        cases (s.gr.readUntil Gnss.gpst t).1 <;> simp
      · have := hh g rfl rfl
        rw [hn] at this
        exact absurd this (by decide)
    · rw [if_neg hn, if_neg hn]
      exact ⟨s, rfl, h, rfl, rfl, Or.inl rfl, fun _ => rfl⟩
  · rw [if_neg hok]
    have : s.gr.ok = false := by simpa using hok
    rw [this]
    exact ⟨s, rfl, h, rfl, rfl, Or.inl rfl, fun _ => rfl⟩

theorem uiOdoPart_some (c : Config α) (t : α) (s : St α) (h : UiGood c s) :
    ∃ e s1, odoPart c t s = some (e, s1) ∧ UiGood c s1 ∧ s1.gr = s.gr ∧ s1.gnss = s.gnss ∧
      samples e = [] ∧ fixes e = [] ∧ progress e = [] ∧ (∀ x ∈ e, x ≠ Ev.undef) := by
  unfold odoPart
  split_ifs with he
  · obtain ⟨r, v, hr, hv⟩ := h.2 he
    rw [hr]
    dsimp only
    split_ifs with hok
    · rw [hv]
      dsimp only
      split_ifs with hn
      · refine ⟨_, _, rfl, ⟨h.1, fun _ => ?_⟩, rfl, rfl, rfl, rfl, rfl, by simp⟩
        cases hq : (r.readUntil Odo.gpst t).1 with
        | none => exact ⟨_, v, rfl, by simp⟩
        | some w => exact ⟨_, w, rfl, by simp⟩
      · exact ⟨_, s, rfl, h, rfl, rfl, rfl, rfl, rfl, by simp⟩
    · exact ⟨_, s, rfl, h, rfl, rfl, rfl, rfl, rfl, by simp⟩
  · exact ⟨_, s, rfl, h, rfl, rfl, rfl, rfl, rfl, by simp⟩

/-- The samples the loop takes: each is taken when the one before it lets the loop go on. -/
def uiSpan (c : Config α) : List (Imu α) → α → List (Imu α)
  | [], _ => []
  | i :: l, t => if goOn c t then i :: uiSpan c l i.gpst else []

/-- One turn of the loop. -/
theorem uiLoop_cons (c : Config α) (o : Outage α) (i : Imu α) (l : List (Imu α)) (t : α) (s : St α) (h : UiGood c s)
    (hg : goOn c t = true) : ∃ e s1 s2, gnssPart c o i.gpst s = some (uiGnssEvs c o i.gpst s, s1) ∧ UiGood c s2 ∧
      s2.gr = s1.gr ∧ s2.gnss = s1.gnss ∧ samples e = [] ∧ fixes e = [] ∧ progress e = [] ∧ (∀ x ∈ e, x ≠ Ev.undef) ∧
      loop c o (i :: l) t s = .time i :: (uiGnssEvs c o i.gpst s ++ e ++ .line ::
        .status (ofI 100 * (i.gpst - c.startTime)) (c.stopTime - c.startTime) :: loop c o l i.gpst s2) := by
  obtain ⟨s1, h1, g1, _⟩ := uiGnssPart_some c o i.gpst s h
  obtain ⟨e, s2, h2, g2, a, b, x, y, z, w⟩ := uiOdoPart_some c i.gpst s1 g1
  refine ⟨e, s1, s2, h1, g2, a, b, x, y, z, w, ?_⟩
  rw [loop, if_pos hg, h1]
  dsimp only
  rw [h2]

theorem uiGnssEvs_spec (c : Config α) (o : Outage α) (t : α) (s : St α) :
    samples (uiGnssEvs c o t s) = [] ∧ progress (uiGnssEvs c o t s) = [] ∧ ∀ x ∈ uiGnssEvs c o t s, x ≠ Ev.undef := by
  unfold uiGnssEvs
  split
  · split_ifs <;> simp [samples, progress]
  · simp [samples, progress]

theorem uiLoop_all (c : Config α) (o : Outage α) (l : List (Imu α)) (t : α) (s : St α) (h : UiGood c s) :
    samples (loop c o l t s) = uiSpan c l t ∧
    progress (loop c o l t s) = (uiSpan c l t).map (fun i => (ofI 100 * (i.gpst - c.startTime), c.stopTime - c.startTime)) ∧
    (∀ x ∈ loop c o l t s, x ≠ Ev.undef) ∧ Ev.done ∈ loop c o l t s := by
  induction l generalizing t s with
  | nil => simp [loop, uiSpan, finish, samples, progress]
  | cons i l ih =>
    by_cases hg : goOn c t = true
    · obtain ⟨e, s1, s2, _, g2, _, _, x, _, z, w, he⟩ := uiLoop_cons c o i l t s h hg
      obtain ⟨a1, a2, a3⟩ := uiGnssEvs_spec c o i.gpst s
      obtain ⟨b1, b2, b3, b4⟩ := ih i.gpst s2 g2
      rw [he, uiSpan, if_pos hg]
      refine ⟨?_, ?_, ?_, ?_⟩
      · simp [samples, uiSamples_append, a1, x, b1]
      · simp [progress, uiProgress_append, a2, z, b2]
      · intro y hy
        simp only [List.mem_cons, List.mem_append] at hy
        rcases hy with rfl | (hy | hy) | rfl | rfl | hy
        · simp
        · exact a3 y hy
        · exact w y hy
        · simp
        · simp
        · exact b3 y hy
      · simp [b4]
    · rw [loop, if_neg hg, uiSpan, if_neg hg]
      simp [finish, samples, progress]

/-! The start of a run. -/

theorem uiSeek_some {β : Type} (time : β → α) (t : α) (ok : Bool) (pre : List β) (x : β) (l : List β)
    (hp : ∀ y ∈ pre, Fl.lt (time y) t = true) (hx : Fl.lt (time x) t = false) :
    Rd.seek time t ok (pre ++ x :: l) = (some x, ⟨l, ok⟩) := by
  induction pre with
  | nil => simp [Rd.seek, hx]
  | cons y p ih =>
    rw [List.cons_append, Rd.seek, if_pos (hp y (by simp))]
    exact ih fun z hz => hp z (by simp [hz])

theorem uiSeek_cases {β : Type} (time : β → α) (t : α) (ok : Bool) (l : List β) :
    (∃ pre x r, l = pre ++ x :: r ∧ (∀ y ∈ pre, Fl.lt (time y) t = true) ∧ Fl.lt (time x) t = false ∧
      Rd.seek time t ok l = (some x, ⟨r, ok⟩)) ∨
    ((∀ y ∈ l, Fl.lt (time y) t = true) ∧ Rd.seek time t ok l = (none, ⟨[], false⟩)) := by
  induction l with
  | nil => exact Or.inr ⟨by simp, rfl⟩
  | cons y l ih =>
    cases hy : Fl.lt (time y) t with
    | false => exact Or.inl ⟨[], y, l, rfl, by simp, hy, by simp [Rd.seek, hy]⟩
    | true =>
      rcases ih with ⟨pre, x, r, rfl, hp, hx, hs⟩ | ⟨hp, hs⟩
      · refine Or.inl ⟨y :: pre, x, r, rfl, ?_, hx, ?_⟩
        · simpa [hy] using hp
        · rw [Rd.seek, if_pos hy]
          exact hs
      · refine Or.inr ⟨by simpa [hy] using hp, ?_⟩
        rw [Rd.seek, if_pos hy, hs]

/-- A reader just opened and moved to `t`: either it has found a record, or the file does not reach `t`. -/
theorem uiOpen {β : Type} (time : β → α) (t : α) (f : Option (List β)) :
    (∃ pre x r, f = some (pre ++ x :: r) ∧ (∀ y ∈ pre, Fl.lt (time y) t = true) ∧ Fl.lt (time x) t = false ∧
      (Rd.new f).readUntil time t = (some x, ⟨r, true⟩)) ∨
    (¬ Reaches time t f ∧ (Rd.new f).readUntil time t = (none, ⟨[], false⟩)) := by
  cases f with
  | none => exact Or.inr ⟨fun ⟨l, h, _⟩ => (by cases h), rfl⟩
  | some l =>
    rcases uiSeek_cases time t true l with ⟨pre, x, r, rfl, hp, hx, hs⟩ | ⟨hp, hs⟩
    · exact Or.inl ⟨pre, x, r, rfl, hp, hx, by simpa [Rd.new, Rd.readUntil] using hs⟩
    · refine Or.inr ⟨?_, by simpa [Rd.new, Rd.readUntil] using hs⟩
      rintro ⟨l', h, x, hx, hxt⟩
      cases h
      rw [hp x hx] at hxt
      cases hxt

/-- The odometer is switched off, or its file reaches `t`. -/
def UiOdoReady (c : Config α) (f : Files α) (t : α) : Prop := c.odo.enable = true → Reaches Odo.gpst t f.odo

theorem uiOpenOdo (c : Config α) (f : Files α) (t : α) :
    (UiOdoReady c f t ∧ ∃ r v, openOdo c f t = some (r, v) ∧ (c.odo.enable = true → ∃ r' v', r = some r' ∧ v = some v')) ∨
    (¬ UiOdoReady c f t ∧ openOdo c f t = none) := by
  unfold openOdo UiOdoReady
  by_cases he : c.odo.enable = true
  · rw [if_pos he]
    rcases uiOpen Odo.gpst t f.odo with ⟨pre, x, r, hf, hp, hx, hs⟩ | ⟨hn, hs⟩
    · rw [hs]
      exact Or.inl ⟨fun _ => ⟨_, hf, x, by simp, hx⟩, _, _, rfl, fun _ => ⟨_, _, rfl, rfl⟩⟩
    · rw [hs]
      exact Or.inr ⟨fun h => hn (h he), rfl⟩
  · rw [if_neg he]
    exact Or.inl ⟨fun h => absurd h he, _, _, rfl, fun h => absurd h he⟩

theorem uiRun_started {σ : Type} (c : Config α) (o : Outage α) (a : AlignObj α σ) (f : Files α) (i : Imu α) (l : List (Imu α))
    (h : StartsAt c.startTime f.imu i l) : run c o a f =
      (if ((Rd.new f.gnss).readUntil Gnss.gpst i.gpst).1.isSome then [] else [.log .gnssTooShort]) ++
        match openOdo c f i.gpst with
        | none => []
        | some (r, v) => startAt c o a i l ⟨((Rd.new f.gnss).readUntil Gnss.gpst i.gpst).2, ((Rd.new f.gnss).readUntil Gnss.gpst i.gpst).1, r, v⟩ := by
  obtain ⟨pre, hf, hp, hi⟩ := h
  unfold run
  have : (Rd.new f.imu).readUntil Imu.gpst c.startTime = (some i, ⟨l, true⟩) := by
    rw [hf]
    simpa [Rd.new, Rd.readUntil] using uiSeek_some Imu.gpst c.startTime true pre i l hp hi
  have hok : (Rd.new f.imu).ok = true := by rw [hf]; rfl
  dsimp only
  rw [hok, this]
  rfl

theorem uiProcess (c : Config α) (o : Outage α) (l : List (Imu α)) (t : α) (s : St α) (h : UiGood c s) :
    ∃ s', UiGood c s' ∧ s'.gr = s.gr ∧ s'.gnss = s.gnss ∧ process c o l t s = .log .alignDone :: loop c o l t s' := by
  unfold process
  by_cases he : c.odo.enable = true
  · obtain ⟨r, v, hr, hv⟩ := h.2 he
    rw [if_pos he, hr]
    refine ⟨{ s with od := some (r.readUntil Odo.gpst t).2, vel := (r.readUntil Odo.gpst t).1.or s.vel }, ⟨h.1, fun _ => ?_⟩, rfl, rfl, rfl⟩
    cases (r.readUntil Odo.gpst t).1 with
    | none => exact ⟨_, v, rfl, by simp [hv]⟩
    | some w => exact ⟨_, w, rfl, by simp⟩
  · rw [if_neg he]
    exact ⟨s, h, rfl, rfl, rfl⟩

/-- A run with given start values, IMU and odometer files reaching the start: a message about GNSS perhaps, then the loop. -/
theorem uiRun_given {σ : Type} (c : Config α) (o : Outage α) (a : AlignObj α σ) (f : Files α) (i : Imu α) (l : List (Imu α))
    (h : StartsAt c.startTime f.imu i l) (hm : c.align.mode = ALIGN_USE_GIVEN) (ho : UiOdoReady c f i.gpst) :
    ∃ s m, UiGood c s ∧ s.gr = ((Rd.new f.gnss).readUntil Gnss.gpst i.gpst).2 ∧
      s.gnss = ((Rd.new f.gnss).readUntil Gnss.gpst i.gpst).1 ∧ (m = [] ∨ m = [.log .gnssTooShort]) ∧
      run c o a f = m ++ .log .alignDone :: loop c o l i.gpst s := by
  rw [uiRun_started c o a f i l h]
  rcases uiOpenOdo c f i.gpst with ⟨_, r, v, he, hrv⟩ | ⟨hn, _⟩
  · rw [he]
    dsimp only
    have hgood : UiGood c ⟨((Rd.new f.gnss).readUntil Gnss.gpst i.gpst).2, ((Rd.new f.gnss).readUntil Gnss.gpst i.gpst).1, r, v⟩ := by
      refine ⟨fun hk => ?_, hrv⟩
      rcases uiOpen Gnss.gpst i.gpst f.gnss with ⟨_, _, _, _, _, _, hs⟩ | ⟨_, hs⟩
      · rw [hs]; rfl
      · rw [hs] at hk; cases hk
    obtain ⟨s', g', a1, a2, hp⟩ := uiProcess c o l i.gpst _ hgood
    refine ⟨s', if ((Rd.new f.gnss).readUntil Gnss.gpst i.gpst).1.isSome then [] else [.log .gnssTooShort], g', a1, a2, ?_, ?_⟩
    · split_ifs <;> simp
    · have hst : ∀ s, startAt c o a i l s = process c o l i.gpst s := fun s => by
        rw [startAt, if_neg (by rw [hm]; decide), if_pos hm]
      rw [hst, hp]
  · exact absurd ho hn

/-! ## C181 -/

theorem uiSpan_closed (c : Config α) (l : List (Imu α)) (t : α) (hs : Fl.lt 0 c.startTime = true)
    (h0 : Fl.le c.stopTime 0 = false) : uiSpan c l t =
      if Fl.lt t c.stopTime then l.takeWhile (fun i => Fl.lt i.gpst c.stopTime) ++ (l.dropWhile (fun i => Fl.lt i.gpst c.stopTime)).take 1
      else [] := by
  have hg : ∀ t, goOn c t = Fl.lt t c.stopTime := fun t => by simp [goOn, hs, h0]
  induction l generalizing t with
  | nil => simp [uiSpan]
  | cons i l ih =>
    rw [uiSpan, hg, ih]
    cases h1 : Fl.lt t c.stopTime with
    | false => rfl
    | true =>
      cases h2 : Fl.lt i.gpst c.stopTime with
      | false => simp [h2]
      | true => simp [h2]

/-- C181. A run with given start values, a start time and a stop time above zero: the filter gets the samples after the
first one that reaches the start time, up to and including the first that reaches the stop time (not up to the last
before it). -/
theorem C181_span_partial {σ : Type} (c : Config α) (o : Outage α) (a : AlignObj α σ) (f : Files α) (i : Imu α) (l : List (Imu α))
    (h : StartsAt c.startTime f.imu i l) (hm : c.align.mode = ALIGN_USE_GIVEN) (ho : UiOdoReady c f i.gpst)
    (hs : Fl.lt 0 c.startTime = true) (h0 : Fl.le c.stopTime 0 = false) (hi : Fl.lt i.gpst c.stopTime = true) :
    samples (run c o a f) = l.takeWhile (fun i => Fl.lt i.gpst c.stopTime) ++
      (l.dropWhile (fun i => Fl.lt i.gpst c.stopTime)).take 1 := by
  obtain ⟨s, m, hg, _, _, hmm, hr⟩ := uiRun_given c o a f i l h hm ho
  rw [hr, uiSamples_append]
  have : samples m = [] := by rcases hmm with rfl | rfl <;> rfl
  rw [this, List.nil_append, samples, (uiLoop_all c o l i.gpst s hg).1, uiSpan_closed c l i.gpst hs h0, hi]
  · rfl
  · intro i h; cases h

/-- C181. Without a stop time (zero or below) every sample after the first one that reaches the start time is used. -/
theorem C181_open_end {σ : Type} (c : Config α) (o : Outage α) (a : AlignObj α σ) (f : Files α) (i : Imu α) (l : List (Imu α))
    (h : StartsAt c.startTime f.imu i l) (hm : c.align.mode = ALIGN_USE_GIVEN) (ho : UiOdoReady c f i.gpst)
    (h0 : Fl.le c.stopTime 0 = true) : samples (run c o a f) = l ∧ Completed (run c o a f) := by
  obtain ⟨s, m, hg, _, _, hmm, hr⟩ := uiRun_given c o a f i l h hm ho
  have hl := uiLoop_all c o l i.gpst s hg
  refine ⟨?_, ?_⟩
  · rw [hr, uiSamples_append]
    have : samples m = [] := by rcases hmm with rfl | rfl <;> rfl
    rw [this, List.nil_append, samples, hl.1]
    · have hsp : ∀ (l : List (Imu α)) t, uiSpan c l t = l := by
        intro l
        induction l with
        | nil => intro t; rfl
        | cons i l ih => intro t; rw [uiSpan, if_pos (by simp [goOn, h0]), ih]
      exact hsp l _
    · intro i h; cases h
  · rw [hr, Completed]
    simp [hl.2.2.2]

/-- C181 (violated). With a stop time but no start time (zero or below: from the beginning) the run reports success and
has used no sample, whatever the files. -/
theorem C181_no_start_time {σ : Type} (c : Config α) (o : Outage α) (a : AlignObj α σ) (f : Files α) (i : Imu α) (l : List (Imu α))
    (h : StartsAt c.startTime f.imu i l) (hm : c.align.mode = ALIGN_USE_GIVEN) (ho : UiOdoReady c f i.gpst)
    (hs : Fl.lt 0 c.startTime = false) (h0 : Fl.le c.stopTime 0 = false) :
    samples (run c o a f) = [] ∧ Completed (run c o a f) := by
  obtain ⟨s, m, hg, _, _, hmm, hr⟩ := uiRun_given c o a f i l h hm ho
  have hl := uiLoop_all c o l i.gpst s hg
  refine ⟨?_, ?_⟩
  · rw [hr, uiSamples_append]
    have : samples m = [] := by rcases hmm with rfl | rfl <;> rfl
    rw [this, List.nil_append, samples, hl.1]
    · cases l with
      | nil => rfl
      | cons j l => rw [uiSpan, if_neg (by simp [goOn, hs, h0])]
    · intro i h; cases h
  · rw [hr, Completed]
    simp [hl.2.2.2]

/-- Only samples of the rest of the file are used. -/
theorem uiSamples_mem {σ : Type} (c : Config α) (o : Outage α) (a : AlignObj α σ) (f : Files α) (i : Imu α) (l : List (Imu α))
    (h : StartsAt c.startTime f.imu i l) (hm : c.align.mode = ALIGN_USE_GIVEN) (ho : UiOdoReady c f i.gpst) :
    ∀ j ∈ samples (run c o a f), j ∈ l := by
  obtain ⟨s, m, hg, _, _, hmm, hr⟩ := uiRun_given c o a f i l h hm ho
  have e1 : samples m = [] := by rcases hmm with rfl | rfl <;> rfl
  have e3 : ∀ x, samples (Ev.log .alignDone :: x : List (Ev α)) = samples x := fun _ => rfl
  rw [hr, uiSamples_append, e1, e3, (uiLoop_all c o l i.gpst s hg).1]
  have hsub : ∀ (l : List (Imu α)) t, ∀ j ∈ uiSpan c l t, j ∈ l := by
    intro l
    induction l with
    | nil => intro t j hj; exact hj
    | cons k l ih =>
      intro t j hj
      rw [uiSpan] at hj
      split_ifs at hj
      · rcases List.mem_cons.1 hj with rfl | hj
        · simp
        · exact List.mem_cons_of_mem _ (ih _ _ hj)
      · cases hj
  exact hsub l _

/-! ## C182 -/

/-- C182. The numbers sent while a run goes on: one per sample, a hundred times the time since the start over the length
of the run. -/
theorem C182_numbers {σ : Type} (c : Config α) (o : Outage α) (a : AlignObj α σ) (f : Files α) (i : Imu α) (l : List (Imu α))
    (h : StartsAt c.startTime f.imu i l) (hm : c.align.mode = ALIGN_USE_GIVEN) (ho : UiOdoReady c f i.gpst) :
    progress (run c o a f) =
      (samples (run c o a f)).map (fun i => (ofI 100 * (i.gpst - c.startTime), c.stopTime - c.startTime)) := by
  obtain ⟨s, m, hg, _, _, hmm, hr⟩ := uiRun_given c o a f i l h hm ho
  have hl := uiLoop_all c o l i.gpst s hg
  rw [hr, uiSamples_append, uiProgress_append]
  have e1 : samples m = [] := by rcases hmm with rfl | rfl <;> rfl
  have e2 : progress m = [] := by rcases hmm with rfl | rfl <;> rfl
  have e3 : ∀ x, samples (Ev.log .alignDone :: x : List (Ev α)) = samples x := fun _ => rfl
  have e4 : ∀ x, progress (Ev.log .alignDone :: x : List (Ev α)) = progress x := fun _ => rfl
  rw [e1, e2, e3, e4, hl.1, hl.2.1]
  rfl

/-! ## C184, C185 -/

theorem uiRun_cases {σ : Type} (c : Config α) (o : Outage α) (a : AlignObj α σ) (f : Files α) :
    (f.imu = none ∧ run c o a f = []) ∨
    (f.imu ≠ none ∧ ¬ Reaches Imu.gpst c.startTime f.imu ∧ run c o a f = [.log .imuTooShort]) ∨
    ∃ i l, StartsAt c.startTime f.imu i l := by
  cases hf : f.imu with
  | none => exact Or.inl ⟨rfl, by simp [run, hf, Rd.new]⟩
  | some l =>
    right
    have := uiOpen Imu.gpst c.startTime (some l)
    rcases this with ⟨pre, x, r, h1, h2, h3, _⟩ | ⟨h1, h2⟩
    · exact Or.inr ⟨x, r, pre, h1, h2, h3⟩
    · refine Or.inl ⟨by simp, h1, ?_⟩
      unfold run
      have hok : (Rd.new f.imu).ok = true := by rw [hf]; rfl
      dsimp only
      rw [hok, hf, h2]
      rfl

theorem uiAlign_undef {σ : Type} (c : Config α) (a : AlignObj α σ) (l : List (Imu α)) (i : Imu α) (gr : Rd (Gnss α)) (g : Gnss α) (s : σ) :
    alignLoop c a l i gr (some g) s ≠ .undef := by
  induction l generalizing i gr g s with
  | nil =>
    unfold alignLoop
    dsimp only
    rcases gr with ⟨rs, k⟩
    cases rs with
    | nil => simp only [Rd.readNext]; split_ifs <;> simp
    | cons g' rs => simp only [Rd.readNext]; split_ifs <;> simp
  | cons j l ih =>
    unfold alignLoop
    dsimp only
    rcases gr with ⟨rs, k⟩
    cases rs with
    | nil =>
      simp only [Rd.readNext]
      split_ifs
      · simp
      · simp
      · exact ih _ _ _ _
    | cons g' rs =>
      simp only [Rd.readNext]
      split_ifs
      · simp
      · exact ih j ⟨rs, k⟩ g' _
      · simp
      · exact ih _ _ _ _

/-- What a run does after the files have been opened. -/
theorem uiStart_cases {σ : Type} (c : Config α) (o : Outage α) (a : AlignObj α σ) (i : Imu α) (l : List (Imu α)) (s : St α)
    (h : UiGood c s) :
    (c.align.mode = ALIGN_MOVING ∧ s.gnss = none ∧ startAt c o a i l s = [.undef]) ∨
    (startAt c o a i l s = [.log .alignFailed]) ∨
    (c.align.mode ≠ ALIGN_MOVING ∧ c.align.mode ≠ ALIGN_USE_GIVEN ∧ startAt c o a i l s = []) ∨
    ((c.align.mode = ALIGN_MOVING ∧ s.gnss ≠ none ∨ c.align.mode = ALIGN_USE_GIVEN) ∧
      Ev.done ∈ startAt c o a i l s ∧ Ev.undef ∉ startAt c o a i l s) := by
  unfold startAt
  by_cases hm : c.align.mode = ALIGN_MOVING
  · rw [if_pos hm]
    cases hg : s.gnss with
    | none =>
      left
      refine ⟨hm, rfl, ?_⟩
      cases l <;> simp [alignLoop]
    | some g =>
      right
      have h1 := uiAlign_undef c a l i s.gr g a.init
      cases hr : alignLoop c a l i s.gr (some g) a.init with
      | undef => exact absurd hr h1
      | failed => exact Or.inl rfl
      | ok l' t gr g' =>
        right; right
        have hgood : UiGood c { s with gr := gr, gnss := some g' } := ⟨fun _ => rfl, h.2⟩
        obtain ⟨s', hs', _, _, hp⟩ := uiProcess c o l' t _ hgood
        have hl := uiLoop_all c o l' t s' hs'
        refine ⟨Or.inl ⟨hm, by simp⟩, ?_, ?_⟩
        · show Ev.done ∈ process c o l' t _
          rw [hp]; simp [hl.2.2.2]
        · show Ev.undef ∉ process c o l' t _
          rw [hp]
          intro hu
          rcases List.mem_cons.1 hu with hu | hu
          · cases hu
          · exact hl.2.2.1 _ hu rfl
  · rw [if_neg hm]
    by_cases hg : c.align.mode = ALIGN_USE_GIVEN
    · rw [if_pos hg]
      right; right; right
      obtain ⟨s', hs', _, _, hp⟩ := uiProcess c o l i.gpst s h
      have hl := uiLoop_all c o l i.gpst s' hs'
      refine ⟨Or.inr hg, ?_, ?_⟩
      · rw [hp]; simp [hl.2.2.2]
      · rw [hp]
        intro hu
        rcases List.mem_cons.1 hu with hu | hu
        · cases hu
        · exact hl.2.2.1 _ hu rfl
    · rw [if_neg hg]
      exact Or.inr (Or.inr (Or.inl ⟨hm, hg, rfl⟩))

/-- All ways in which a run that has a first sample can go. -/
theorem uiRun_outcomes {σ : Type} (c : Config α) (o : Outage α) (a : AlignObj α σ) (f : Files α) (i : Imu α) (l : List (Imu α))
    (h : StartsAt c.startTime f.imu i l) :
    (¬ UiOdoReady c f i.gpst ∧ (run c o a f = [] ∨ run c o a f = [.log .gnssTooShort])) ∨
    (UiOdoReady c f i.gpst ∧ (
      (c.align.mode = ALIGN_MOVING ∧ ¬ Reaches Gnss.gpst i.gpst f.gnss ∧ Ev.undef ∈ run c o a f ∧ Ev.done ∉ run c o a f) ∨
      ((c.align.mode ≠ ALIGN_MOVING ∨ Reaches Gnss.gpst i.gpst f.gnss) ∧ Ev.undef ∉ run c o a f ∧
        (Ev.log .alignFailed ∈ run c o a f ∨
          (c.align.mode ≠ ALIGN_MOVING ∧ c.align.mode ≠ ALIGN_USE_GIVEN ∧ (run c o a f = [] ∨ run c o a f = [.log .gnssTooShort])) ∨
          ((c.align.mode = ALIGN_MOVING ∨ c.align.mode = ALIGN_USE_GIVEN) ∧ Ev.done ∈ run c o a f))))) := by
  rw [uiRun_started c o a f i l h]
  have hm0 : ∀ b : Bool, ∃ m : List (Ev α), (m = [] ∨ m = [.log .gnssTooShort]) ∧ (if b then [] else [.log .gnssTooShort]) = m := by
    intro b; cases b
    · exact ⟨_, Or.inr rfl, rfl⟩
    · exact ⟨_, Or.inl rfl, rfl⟩
  obtain ⟨m, hm1, hm2⟩ := hm0 ((Rd.new f.gnss).readUntil Gnss.gpst i.gpst).1.isSome
  rw [hm2]
  rcases uiOpenOdo c f i.gpst with ⟨hr, r, v, he, hrv⟩ | ⟨hn, he⟩
  · right
    refine ⟨hr, ?_⟩
    rw [he]
    dsimp only
    have hgn : ((Rd.new f.gnss).readUntil Gnss.gpst i.gpst).1 = none ↔ ¬ Reaches Gnss.gpst i.gpst f.gnss := by
      rcases uiOpen Gnss.gpst i.gpst f.gnss with ⟨_, x, _, h1, _, h3, hs⟩ | ⟨h1, hs⟩
      · rw [hs]; exact ⟨fun h => (by cases h), fun h => absurd ⟨_, h1, x, by simp, h3⟩ h⟩
      · rw [hs]; exact ⟨fun _ => h1, fun _ => rfl⟩
    have hgood : UiGood c ⟨((Rd.new f.gnss).readUntil Gnss.gpst i.gpst).2, ((Rd.new f.gnss).readUntil Gnss.gpst i.gpst).1, r, v⟩ := by
      refine ⟨fun hk => ?_, hrv⟩
      rcases uiOpen Gnss.gpst i.gpst f.gnss with ⟨_, _, _, _, _, _, hs⟩ | ⟨_, hs⟩
      · rw [hs]; rfl
      · rw [hs] at hk; cases hk
    have hun : Ev.undef ∉ m := by rcases hm1 with rfl | rfl <;> simp
    have hdn : Ev.done ∉ m := by rcases hm1 with rfl | rfl <;> simp
    rcases uiStart_cases c o a i l _ hgood with ⟨k1, k2, k3⟩ | k3 | ⟨k1, k2, k3⟩ | ⟨k1, k2, k3⟩
    · left
      refine ⟨k1, hgn.1 k2, ?_, ?_⟩
      · rw [k3]; simp
      · rw [k3]; simp [hdn]
    · right
      refine ⟨?_, ?_, Or.inl ?_⟩
      · by_contra hc
        push Not at hc
        have k4 := k3
        rw [startAt, if_pos hc.1] at k4
        have : ((Rd.new f.gnss).readUntil Gnss.gpst i.gpst).1 = none := hgn.2 hc.2
        rw [this] at k4
        revert k4
        cases l <;> simp [alignLoop]
      · rw [k3]; simp [hun]
      · rw [k3]; simp
    · right
      refine ⟨Or.inl k1, ?_, Or.inr (Or.inl ⟨k1, k2, ?_⟩)⟩
      · rw [k3]; simpa using hun
      · rw [k3]; simpa using hm1
    · right
      refine ⟨?_, ?_, Or.inr (Or.inr ⟨?_, ?_⟩)⟩
      · rcases k1 with ⟨_, k1⟩ | k1
        · right
          by_contra hc
          exact k1 (hgn.2 hc)
        · left
          rw [k1]; decide
      · intro hu
        rcases List.mem_append.1 hu with hu | hu
        · exact hun hu
        · exact k3 hu
      · rcases k1 with k1 | k1
        · exact Or.inl k1.1
        · exact Or.inr k1
      · exact List.mem_append_right _ k2
  · left
    refine ⟨hn, ?_⟩
    rw [he]
    simpa using hm1

/-- C184. A run that neither completes nor leaves defined behaviour has told the window so, except in three cases: the IMU
file is missing, the odometer file is missing or too short, or the alignment mode is not supported. -/
theorem C184_told_partial {σ : Type} (c : Config α) (o : Outage α) (a : AlignObj α σ) (f : Files α)
    (hc : ¬ Completed (run c o a f)) (hu : ¬ Undefined (run c o a f)) (hi : f.imu ≠ none)
    (ho : ∀ i l, StartsAt c.startTime f.imu i l → UiOdoReady c f i.gpst)
    (hm : c.align.mode = ALIGN_MOVING ∨ c.align.mode = ALIGN_USE_GIVEN) : ToldFailure (run c o a f) := by
  rcases uiRun_cases c o a f with ⟨h, _⟩ | ⟨_, _, h⟩ | ⟨i, l, h⟩
  · exact absurd h hi
  · left; rw [h]; simp
  · rcases uiRun_outcomes c o a f i l h with ⟨h1, _⟩ | ⟨_, ⟨_, _, h1, _⟩ | ⟨_, _, h1 | ⟨h1, h2, _⟩ | ⟨_, h1⟩⟩⟩
    · exact absurd (ho i l h) h1
    · exact absurd h1 hu
    · exact Or.inr h1
    · rcases hm with hm | hm
      · exact absurd hm h1
      · exact absurd hm h2
    · exact absurd h1 hc

/-- C184 (violated). In these three cases the run ends without a result and the window is told at most that there are no
fixes: with no IMU file it is told nothing at all. -/
theorem C184_silent {σ : Type} (c : Config α) (o : Outage α) (a : AlignObj α σ) (f : Files α) :
    (f.imu = none → run c o a f = []) ∧
    (∀ i l, StartsAt c.startTime f.imu i l →
      (¬ UiOdoReady c f i.gpst ∨ c.align.mode ≠ ALIGN_MOVING ∧ c.align.mode ≠ ALIGN_USE_GIVEN) →
      ¬ Completed (run c o a f) ∧ ¬ ToldFailure (run c o a f) ∧ ∀ e ∈ run c o a f, e = .log .gnssTooShort) := by
  constructor
  · intro h
    simp [run, h, Rd.new]
  · intro i l h hor
    have key : run c o a f = [] ∨ run c o a f = [.log .gnssTooShort] := by
      rw [uiRun_started c o a f i l h]
      have hmm : ∀ b : Bool, (if b then [] else [.log .gnssTooShort] : List (Ev α)) = [] ∨ (if b then [] else [.log .gnssTooShort] : List (Ev α)) = [.log .gnssTooShort] := by
        intro b; cases b <;> simp
      rcases hor with hn | ⟨h1, h2⟩
      · rcases uiOpenOdo c f i.gpst with ⟨hr, _⟩ | ⟨_, he⟩
        · exact absurd hr hn
        · rw [he]; rw [List.append_nil]; exact hmm _
      · have hst : ∀ s, startAt c o a i l s = [] := fun s => by rw [startAt, if_neg h1, if_neg h2]
        rcases openOdo c f i.gpst with _ | ⟨r, v⟩
        · rw [List.append_nil]; exact hmm _
        · dsimp only
          rw [hst]
          rw [List.append_nil]; exact hmm _
    unfold Completed ToldFailure
    rcases key with k | k <;> rw [k] <;> simp

/-- C185. Unless moving alignment is chosen, no run reads a variable that has no value or follows a null pointer,
whatever the files and settings. -/
theorem C185_defined_partial {σ : Type} (c : Config α) (o : Outage α) (a : AlignObj α σ) (f : Files α)
    (hm : c.align.mode ≠ ALIGN_MOVING) : ¬ Undefined (run c o a f) := by
  unfold Undefined
  rcases uiRun_cases c o a f with ⟨_, h⟩ | ⟨_, _, h⟩ | ⟨i, l, h⟩
  · rw [h]; simp
  · rw [h]; simp
  · rcases uiRun_outcomes c o a f i l h with ⟨_, h1 | h1⟩ | ⟨_, ⟨h1, _⟩ | ⟨_, h1, _⟩⟩
    · rw [h1]; simp
    · rw [h1]; simp
    · exact absurd h1 hm
    · exact h1

/-- C185 (violated). With moving alignment a run that gets that far reads the uninitialised time of the fix exactly when
the GNSS file is missing or ends before the first sample. -/
theorem C185_moving {σ : Type} (c : Config α) (o : Outage α) (a : AlignObj α σ) (f : Files α) (i : Imu α) (l : List (Imu α))
    (h : StartsAt c.startTime f.imu i l) (hm : c.align.mode = ALIGN_MOVING) (ho : UiOdoReady c f i.gpst) :
    Undefined (run c o a f) ↔ ¬ Reaches Gnss.gpst i.gpst f.gnss := by
  rcases uiRun_outcomes c o a f i l h with ⟨h1, _⟩ | ⟨_, ⟨_, h1, h2, _⟩ | ⟨h1, h2, _⟩⟩
  · exact absurd ho h1
  · exact ⟨fun _ => h1, fun _ => h2⟩
  · refine ⟨fun hu => absurd hu h2, fun hn => ?_⟩
    rcases h1 with h1 | h1
    · exact absurd hm h1
    · exact absurd h1 hn

/-! ## C183 -/

theorem uiLoop_missed (c : Config α) (o : Outage α) (l : List (Imu α)) (t : α) (s : St α) (h : UiGood c s)
    (hn : ∀ g, s.gr.ok = true → s.gnss = some g → ∀ i ∈ uiSpan c l t, near c.imu.dRate g.gpst i.gpst = false) :
    fixes (loop c o l t s) = [] := by
  induction l generalizing t s with
  | nil => rfl
  | cons i l ih =>
    by_cases hg : goOn c t = true
    · obtain ⟨e, s1, s2, h1, g2, a1, a2, _, y, _, _, he⟩ := uiLoop_cons c o i l t s h hg
      rw [uiSpan, if_pos hg] at hn
      obtain ⟨s1', q1, _, _, _, _, q2⟩ := uiGnssPart_some c o i.gpst s h
      have hs : s1' = s := q2 fun g k1 k2 => hn g k1 k2 i (by simp)
      rw [q1] at h1
      have hs1 : s1' = s1 := by simpa using h1
      have hev : uiGnssEvs c o i.gpst s = [] := by
        unfold uiGnssEvs
        split
        · rename_i g k1 k2
          rw [if_neg (by rw [hn g k1 k2 i (by simp)]; decide)]
        · rfl
      rw [he, hev]
      have : fixes (loop c o l i.gpst s2) = [] := by
        refine ih i.gpst s2 g2 ?_
        rw [a1, a2, ← hs1, hs]
        intro g k1 k2 j hj
        exact hn g k1 k2 j (by simp [hj])
      simp [fixes, uiFixes_append, y, this]
    · rw [loop, if_neg hg]
      rfl

/-- C183 (violated). Only the first fix that is not before the first sample is looked at until it has been used: when no
sample comes within one interval of it, no fix at all is used in the whole run. -/
theorem C183_first_missed {σ : Type} (c : Config α) (o : Outage α) (a : AlignObj α σ) (f : Files α) (i : Imu α) (l : List (Imu α))
    (h : StartsAt c.startTime f.imu i l) (hm : c.align.mode = ALIGN_USE_GIVEN) (ho : UiOdoReady c f i.gpst)
    (pre : List (Gnss α)) (g : Gnss α) (rest : List (Gnss α)) (hf : f.gnss = some (pre ++ g :: rest))
    (hp : ∀ x ∈ pre, Fl.lt x.gpst i.gpst = true) (hg : Fl.lt g.gpst i.gpst = false)
    (hn : ∀ j ∈ l, near c.imu.dRate g.gpst j.gpst = false) : fixes (run c o a f) = [] := by
  obtain ⟨s, m, hgd, h1, h2, hmm, hr⟩ := uiRun_given c o a f i l h hm ho
  have hs : (Rd.new f.gnss).readUntil Gnss.gpst i.gpst = (some g, ⟨rest, true⟩) := by
    rw [hf]
    simpa [Rd.new, Rd.readUntil] using uiSeek_some Gnss.gpst i.gpst true pre g rest hp hg
  rw [hr, uiFixes_append]
  have e1 : fixes m = [] := by rcases hmm with rfl | rfl <;> rfl
  have e2 : ∀ x, fixes (Ev.log .alignDone :: x : List (Ev α)) = fixes x := fun _ => rfl
  rw [e1, e2, List.nil_append]
  refine uiLoop_missed c o l i.gpst s hgd ?_
  intro g' _ k2 j hj
  rw [h2, hs] at k2
  cases k2
  have hsub : ∀ (l : List (Imu α)) t, ∀ j ∈ uiSpan c l t, j ∈ l := by
    intro l
    induction l with
    | nil => intro t j hj; exact hj
    | cons k l ih =>
      intro t j hj
      rw [uiSpan] at hj
      split_ifs at hj
      · rcases List.mem_cons.1 hj with rfl | hj
        · simp
        · exact List.mem_cons_of_mem _ (ih _ _ hj)
      · cases hj
  exact hn j (hsub l _ j hj)

/-! ## Order -/

/-- What the loop can still use of a file. -/
def uiLeft {β : Type} (r : Rd β) (x : Option β) : List β := if r.ok then x.toList ++ r.recs else []

theorem uiLeft_read {β : Type} (time : β → α) (t : α) (r : Rd β) (x : Option β) (hok : r.ok = true) :
    (uiLeft (r.readUntil time t).2 ((r.readUntil time t).1.or x)).Sublist r.recs := by
  have : r.readUntil time t = Rd.seek time t true r.recs := by simp [Rd.readUntil, hok]
  rw [this]
  rcases uiSeek_cases time t true r.recs with ⟨pre, y, q, hl, _, _, hs⟩ | ⟨_, hs⟩
  · rw [hs, hl]
    simp only [uiLeft, Option.some_or, if_true]
    exact List.sublist_append_right _ _
  · rw [hs]
    simp [uiLeft]

theorem uiGnss_order (c : Config α) (o : Outage α) (t : α) (s s1 : St α) (e : List (Ev α)) (h : gnssPart c o t s = some (e, s1)) :
    (fixes e ++ uiLeft s1.gr s1.gnss).Sublist (uiLeft s.gr s.gnss) ∧ speeds e = [] ∧ s1.od = s.od ∧ s1.vel = s.vel := by
  unfold gnssPart at h
  split_ifs at h with hok
  · split at h
    · cases h
    · rename_i g hg
      have h0 : uiLeft s.gr s.gnss = g :: s.gr.recs := by simp [uiLeft, hok, hg]
      have hsub := uiLeft_read Gnss.gpst t s.gr s.gnss hok
      by_cases hn : near c.imu.dRate g.gpst t = true
      · rw [if_pos hn] at h
        dsimp only at h
        by_cases hx : (c.outage.enable && o.isOutage g.gpst) = true
        · rw [if_pos hx] at h
          cases Option.some.inj h
          refine ⟨?_, rfl, rfl, rfl⟩
          rw [h0]
          exact hsub.trans (List.sublist_cons_self _ _)
        · rw [if_neg hx] at h
          cases Option.some.inj h
          refine ⟨?_, rfl, rfl, rfl⟩
          rw [h0]
          exact hsub.cons_cons g
      · rw [if_neg hn] at h
        cases Option.some.inj h
        exact ⟨List.Sublist.refl _, rfl, rfl, rfl⟩
  · have h' := Option.some.inj h
    cases h'
    exact ⟨List.Sublist.refl _, rfl, rfl, rfl⟩

theorem uiOdo_order (c : Config α) (t : α) (s s1 : St α) (e : List (Ev α)) (r : Rd (Odo α)) (hr : s.od = some r)
    (h : odoPart c t s = some (e, s1)) :
    ∃ r1, s1.od = some r1 ∧ (speeds e ++ (uiLeft r1 s1.vel).map Odo.forward).Sublist ((uiLeft r s.vel).map Odo.forward) ∧
      fixes e = [] ∧ s1.gr = s.gr ∧ s1.gnss = s.gnss := by
  unfold odoPart at h
  rw [hr] at h
  dsimp only at h
  split_ifs at h with he hok
  · split at h
    · cases h
    · rename_i v hv
      split_ifs at h with hn
      · have h' := Option.some.inj h
        cases h'
        refine ⟨_, rfl, ?_, rfl, rfl, rfl⟩
        have := (uiLeft_read Odo.gpst t r s.vel hok).map Odo.forward
        have h0 : uiLeft r s.vel = v :: r.recs := by simp [uiLeft, hok, hv]
        rw [h0, List.map_cons]
        exact this.cons_cons _
      · cases Option.some.inj h
        exact ⟨r, hr, List.Sublist.refl _, rfl, rfl, rfl⟩
  · cases Option.some.inj h
    exact ⟨r, hr, List.Sublist.refl _, rfl, rfl, rfl⟩
  · cases Option.some.inj h
    exact ⟨r, hr, List.Sublist.refl _, rfl, rfl, rfl⟩

theorem uiOdo_off (c : Config α) (t : α) (s s1 : St α) (e : List (Ev α)) (hr : s.od = none)
    (h : odoPart c t s = some (e, s1)) : e = [] ∧ s1 = s := by
  unfold odoPart at h
  rw [hr] at h
  dsimp only at h
  split_ifs at h
  cases Option.some.inj h
  exact ⟨rfl, rfl⟩

theorem uiSpeeds_append {α : Type} (a b : List (Ev α)) : speeds (a ++ b) = speeds a ++ speeds b := by
  induction a with
  | nil => rfl
  | cons x a ih => cases x <;> simp [speeds, ih]

/-- The speeds that can still be used. -/
def uiLeftOdo (s : St α) : List α := match s.od with
  | none => []
  | some r => (uiLeft r s.vel).map Odo.forward

theorem uiLoop_order (c : Config α) (o : Outage α) (l : List (Imu α)) (t : α) (s : St α) :
    (fixes (loop c o l t s)).Sublist (uiLeft s.gr s.gnss) ∧ (speeds (loop c o l t s)).Sublist (uiLeftOdo s) := by
  induction l generalizing t s with
  | nil => exact ⟨List.nil_sublist _, List.nil_sublist _⟩
  | cons i l ih =>
    rw [loop]
    split_ifs with hg
    · cases h1 : gnssPart c o i.gpst s with
      | none => exact ⟨List.nil_sublist _, List.nil_sublist _⟩
      | some p =>
        obtain ⟨e1, s1⟩ := p
        obtain ⟨k1, k2, k3, k4⟩ := uiGnss_order c o i.gpst s s1 e1 h1
        dsimp only
        cases h2 : odoPart c i.gpst s1 with
        | none =>
          dsimp only
          have f1 : fixes (Ev.time i :: (e1 ++ [.undef])) = fixes e1 := by simp [fixes, uiFixes_append]
          have f2 : speeds (Ev.time i :: (e1 ++ [.undef])) = [] := by simp [speeds, uiSpeeds_append, k2]
          rw [f1, f2]
          exact ⟨(List.sublist_append_left _ _).trans k1, List.nil_sublist _⟩
        | some p =>
          obtain ⟨e2, s2⟩ := p
          dsimp only
          have f1 : ∀ x : List (Ev α), ∀ a b, fixes (Ev.time i :: (e1 ++ e2 ++ .line :: .status a b :: x)) = fixes e1 ++ (fixes e2 ++ fixes x) := by
            intro x a b; simp [fixes, uiFixes_append]
          have f2 : ∀ x : List (Ev α), ∀ a b, speeds (Ev.time i :: (e1 ++ e2 ++ .line :: .status a b :: x)) = speeds e2 ++ speeds x := by
            intro x a b; simp [speeds, uiSpeeds_append, k2]
          rw [f1, f2]
          obtain ⟨i1, i2⟩ := ih i.gpst s2
          cases ho : s1.od with
          | none =>
            obtain ⟨rfl, rfl⟩ := uiOdo_off c i.gpst s1 s2 e2 ho h2
            refine ⟨(List.Sublist.append_left ?_ _).trans k1, ?_⟩
            · simpa [fixes] using i1
            · have : uiLeftOdo s = uiLeftOdo s2 := by unfold uiLeftOdo; rw [k3, k4]
              rw [this]
              simpa [speeds] using i2
          | some r =>
            obtain ⟨r1, q1, q2, q3, q4, q5⟩ := uiOdo_order c i.gpst s1 s2 e2 r ho h2
            refine ⟨(List.Sublist.append_left ?_ _).trans k1, ?_⟩
            · rw [q3, List.nil_append, ← q4, ← q5]
              exact i1
            · have e3 : uiLeftOdo s = (uiLeft r s1.vel).map Odo.forward := by unfold uiLeftOdo; rw [← k3, ← k4, ho]
              have e4 : uiLeftOdo s2 = (uiLeft r1 s2.vel).map Odo.forward := by unfold uiLeftOdo; rw [q1]
              rw [e3]
              rw [e4] at i2
              exact (List.Sublist.append_left i2 _).trans q2
    · exact ⟨List.nil_sublist _, List.nil_sublist _⟩

theorem uiProcess_order (c : Config α) (o : Outage α) (l : List (Imu α)) (t : α) (s : St α) (hod : ∀ r, s.od = some r → r.ok = true) :
    (fixes (process c o l t s)).Sublist (uiLeft s.gr s.gnss) ∧ (speeds (process c o l t s)).Sublist (uiLeftOdo s) := by
  have e1 : ∀ x, fixes (Ev.log .alignDone :: x : List (Ev α)) = fixes x := fun _ => rfl
  have e2 : ∀ x, speeds (Ev.log .alignDone :: x : List (Ev α)) = speeds x := fun _ => rfl
  unfold process
  rw [e1, e2]
  split_ifs
  · cases hr : s.od with
    | none => exact ⟨List.nil_sublist _, List.nil_sublist _⟩
    | some r =>
      obtain ⟨i1, i2⟩ := uiLoop_order c o l t { s with od := some (r.readUntil Odo.gpst t).2, vel := (r.readUntil Odo.gpst t).1.or s.vel }
      refine ⟨i1, i2.trans ?_⟩
      have h1 := (uiLeft_read Odo.gpst t r s.vel (hod r hr)).map Odo.forward
      have h2 : (r.recs.map Odo.forward).Sublist (uiLeftOdo s) := by
        unfold uiLeftOdo
        rw [hr]
        simp only [uiLeft, hod r hr, if_true]
        exact (List.sublist_append_right _ _).map _
      exact h1.trans h2
  · exact uiLoop_order c o l t s

theorem uiAlign_order {σ : Type} (c : Config α) (a : AlignObj α σ) (l : List (Imu α)) (i : Imu α) (gr : Rd (Gnss α)) (g : Gnss α) (s : σ)
    (l' : List (Imu α)) (t : α) (gr' : Rd (Gnss α)) (g' : Gnss α) (h : alignLoop c a l i gr (some g) s = .ok l' t gr' g') :
    (g' :: gr'.recs).Sublist (g :: gr.recs) := by
  induction l generalizing i gr g s with
  | nil =>
    unfold alignLoop at h
    dsimp only at h
    rcases gr with ⟨rs, k⟩
    cases rs with
    | nil =>
      simp only [Rd.readNext] at h
      split_ifs at h
      cases h
      exact List.Sublist.refl _
    | cons x rs =>
      simp only [Rd.readNext] at h
      split_ifs at h
      · cases h
        exact List.sublist_cons_self _ _
      · cases h
        exact List.Sublist.refl _
  | cons j l ih =>
    unfold alignLoop at h
    dsimp only at h
    rcases gr with ⟨rs, k⟩
    cases rs with
    | nil =>
      simp only [Rd.readNext] at h
      split_ifs at h
      · cases h
        exact List.Sublist.refl _
      · exact ih _ _ _ _ h
    | cons x rs =>
      simp only [Rd.readNext] at h
      split_ifs at h
      · cases h
        exact List.sublist_cons_self _ _
      · exact (ih _ _ _ _ h).trans (List.sublist_cons_self _ _)
      · cases h
        exact List.Sublist.refl _
      · exact ih _ _ _ _ h

/-- C183. In every run, whatever the files, settings and alignment, the fixes used are fixes of the GNSS file in the
order of the file, each at most once, and the same holds of the speeds and the odometer file. -/
theorem C183_in_order {σ : Type} (c : Config α) (o : Outage α) (a : AlignObj α σ) (f : Files α) :
    (fixes (run c o a f)).Sublist (f.gnss.getD []) ∧ (speeds (run c o a f)).Sublist ((f.odo.getD []).map Odo.forward) := by
  rcases uiRun_cases c o a f with ⟨_, h⟩ | ⟨_, _, h⟩ | ⟨i, l, h⟩
  · rw [h]; exact ⟨List.nil_sublist _, List.nil_sublist _⟩
  · rw [h]; exact ⟨List.nil_sublist _, List.nil_sublist _⟩
  · rw [uiRun_started c o a f i l h, uiFixes_append, uiSpeeds_append]
    have hm : ∀ b : Bool, fixes (if b then [] else [.log .gnssTooShort] : List (Ev α)) = [] ∧ speeds (if b then [] else [.log .gnssTooShort] : List (Ev α)) = [] := by
      intro b; cases b <;> exact ⟨rfl, rfl⟩
    rw [(hm _).1, (hm _).2, List.nil_append, List.nil_append]
    have hgl : (uiLeft ((Rd.new f.gnss).readUntil Gnss.gpst i.gpst).2 ((Rd.new f.gnss).readUntil Gnss.gpst i.gpst).1).Sublist (f.gnss.getD []) := by
      rcases uiOpen Gnss.gpst i.gpst f.gnss with ⟨pre, x, r, h1, _, _, hs⟩ | ⟨_, hs⟩
      · rw [hs, h1]
        simp only [uiLeft, if_true, Option.toList, Option.getD_some]
        exact List.sublist_append_right _ _
      · rw [hs]
        exact List.nil_sublist _
    have hgd : ∀ g, ((Rd.new f.gnss).readUntil Gnss.gpst i.gpst).1 = some g →
        (g :: ((Rd.new f.gnss).readUntil Gnss.gpst i.gpst).2.recs).Sublist (f.gnss.getD []) := by
      intro g hg
      rcases uiOpen Gnss.gpst i.gpst f.gnss with ⟨pre, x, r, h1, _, _, hs⟩ | ⟨_, hs⟩
      · rw [hs] at hg ⊢
        cases hg
        rw [h1]
        exact List.sublist_append_right _ _
      · rw [hs] at hg
        cases hg
    cases ho : openOdo c f i.gpst with
    | none => exact ⟨List.nil_sublist _, List.nil_sublist _⟩
    | some p =>
      obtain ⟨r, v⟩ := p
      dsimp only
      have hol : (∀ r', r = some r' → r'.ok = true) ∧ ∀ gr gn, (uiLeftOdo (⟨gr, gn, r, v⟩ : St α)).Sublist ((f.odo.getD []).map Odo.forward) := by
        unfold openOdo at ho
        split_ifs at ho
        · rcases uiOpen Odo.gpst i.gpst f.odo with ⟨pre, x, q, h1, _, _, hs⟩ | ⟨_, hs⟩
          · rw [hs] at ho
            cases Option.some.inj ho
            refine ⟨fun r' hr => by cases hr; rfl, fun gr gn => ?_⟩
            rw [h1]
            simp only [uiLeftOdo, uiLeft, if_true, Option.toList, Option.getD_some]
            exact (List.sublist_append_right _ _).map _
          · rw [hs] at ho
            cases ho
        · cases Option.some.inj ho
          exact ⟨fun r' hr => (by cases hr), fun gr gn => List.nil_sublist _⟩
      unfold startAt
      split_ifs with hm1 hm2
      · cases ha : alignLoop c a l i ((Rd.new f.gnss).readUntil Gnss.gpst i.gpst).2 ((Rd.new f.gnss).readUntil Gnss.gpst i.gpst).1 a.init with
        | undef => exact ⟨List.nil_sublist _, List.nil_sublist _⟩
        | failed => exact ⟨List.nil_sublist _, List.nil_sublist _⟩
        | ok l' t gr g =>
          dsimp only
          obtain ⟨i1, i2⟩ := uiProcess_order c o l' t ⟨gr, some g, r, v⟩ hol.1
          refine ⟨i1.trans ?_, i2.trans (hol.2 _ _)⟩
          cases hg : ((Rd.new f.gnss).readUntil Gnss.gpst i.gpst).1 with
          | none =>
            rw [hg] at ha
            exfalso
            revert ha
            cases l <;> simp [alignLoop]
          | some g0 =>
            rw [hg] at ha
            have h1 := uiAlign_order c a l i _ g0 a.init l' t gr g ha
            have h2 : (uiLeft gr (some g)).Sublist (g :: gr.recs) := by
              unfold uiLeft
              split_ifs
              · exact List.Sublist.refl _
              · exact List.nil_sublist _
            exact h2.trans (h1.trans (hgd g0 hg))
      · obtain ⟨i1, i2⟩ := uiProcess_order c o l i.gpst ⟨_, _, r, v⟩ hol.1
        exact ⟨i1.trans hgl, i2.trans (hol.2 _ _)⟩
      · exact ⟨List.nil_sublist _, List.nil_sublist _⟩

/-! ## Exact arithmetic -/

theorem uiNear_real (rate : Int) (a b : ℝ) : near rate a b = true ↔ |a - b| < 1 / (rate : ℝ) := by
  unfold near OldSt.fabs
  rw [lt_real]
  have : (ofI rate : ℝ) = rate := by simp [ofI]
  rw [this]
  by_cases h : a - b < 0
  · rw [if_pos (by rw [lt_real]; exact h), abs_of_neg h]
  · rw [if_neg (by rw [lt_real]; exact h), abs_of_nonneg (not_lt.1 h)]

/-- The stamps of the samples grow by at most one interval `1 / rate` from one to the next. -/
def SamplesRegular (rate : Int) (t : ℝ) (l : List (Imu ℝ)) : Prop :=
  List.IsChain (fun a b => a ≤ b ∧ b ≤ a + 1 / (rate : ℝ)) (t :: l.map Imu.gpst)

/-- Fixes come at least two intervals apart, in order. -/
def FixesApart (rate : Int) (gs : List (Gnss ℝ)) : Prop :=
  List.IsChain (fun a b => a.gpst + 2 / (rate : ℝ) ≤ b.gpst) gs

open Classical in
/-- The fixes of `gs` that some sample of `l` reaches within one interval, without those in an outage. -/
noncomputable def uiDueFixes (c : Config ℝ) (o : Outage ℝ) (l : List (Imu ℝ)) (gs : List (Gnss ℝ)) : List (Gnss ℝ) :=
  gs.filter fun g => decide ((∃ i ∈ l, g.gpst - 1 / (c.imu.dRate : ℝ) < i.gpst) ∧
    ¬ (c.outage.enable = true ∧ o.isOutage g.gpst = true))

theorem uiRegular_tail {rate : Int} {t : ℝ} {i : Imu ℝ} {l : List (Imu ℝ)} (h : SamplesRegular rate t (i :: l)) :
    t ≤ i.gpst ∧ i.gpst ≤ t + 1 / (rate : ℝ) ∧ SamplesRegular rate i.gpst l := by
  unfold SamplesRegular at h
  rw [List.map_cons, List.isChain_cons_cons] at h
  exact ⟨h.1.1, h.1.2, h.2⟩

theorem uiApart_all {rate : Int} (hr : 0 < rate) {g : Gnss ℝ} {rs : List (Gnss ℝ)} (h : FixesApart rate (g :: rs)) :
    ∀ x ∈ rs, g.gpst + 2 / (rate : ℝ) ≤ x.gpst := by
  induction rs generalizing g with
  | nil => simp
  | cons y rs ih =>
    unfold FixesApart at h
    rw [List.isChain_cons_cons] at h
    intro x hx
    rcases List.mem_cons.1 hx with rfl | hx
    · exact h.1
    · have := ih h.2 x hx
      have h2 : (0 : ℝ) < 2 / (rate : ℝ) := by positivity
      linarith [h.1]

theorem uiDueFixes_congr (c : Config ℝ) (o : Outage ℝ) (l l' : List (Imu ℝ)) (gs : List (Gnss ℝ))
    (h : ∀ g ∈ gs, (∃ i ∈ l, g.gpst - 1 / (c.imu.dRate : ℝ) < i.gpst) ↔ (∃ i ∈ l', g.gpst - 1 / (c.imu.dRate : ℝ) < i.gpst)) :
    uiDueFixes c o l gs = uiDueFixes c o l' gs := by
  unfold uiDueFixes
  refine List.filter_congr fun g hg => decide_eq_decide.2 ?_
  rw [h g hg]

theorem uiDueFixes_nil (c : Config ℝ) (o : Outage ℝ) (gs : List (Gnss ℝ)) : uiDueFixes c o [] gs = [] := by
  unfold uiDueFixes
  simp

theorem uiLoop_fixes (c : Config ℝ) (o : Outage ℝ) (hr : 0 < c.imu.dRate) (l : List (Imu ℝ)) (t : ℝ) (s : St ℝ) (hgd : UiGood c s)
    (g : Gnss ℝ) (rs : List (Gnss ℝ)) (h1 : s.gr = ⟨rs, true⟩) (h2 : s.gnss = some g) (ht : t < g.gpst)
    (hl : SamplesRegular c.imu.dRate t l) (ha : FixesApart c.imu.dRate (g :: rs)) :
    fixes (loop c o l t s) = uiDueFixes c o (uiSpan c l t) (g :: rs) := by
  have hh : (0 : ℝ) < 1 / (c.imu.dRate : ℝ) := by positivity
  have h2h : (2 : ℝ) / (c.imu.dRate : ℝ) = 2 * (1 / (c.imu.dRate : ℝ)) := by ring
  induction l generalizing t s g rs with
  | nil => rw [uiSpan, uiDueFixes_nil]; rfl
  | cons i l ih =>
    obtain ⟨k1, k2, k3⟩ := uiRegular_tail hl
    by_cases hg : goOn c t = true
    · obtain ⟨e, s1, s2, q1, g2, a1, a2, _, y, _, _, he⟩ := uiLoop_cons c o i l t s hgd hg
      obtain ⟨s1', q3, q4, _, _, q5, q6⟩ := uiGnssPart_some c o i.gpst s hgd
      rw [q3] at q1
      have hs1 : s1' = s1 := by simpa using q1
      rw [uiSpan, if_pos hg, he]
      have hall := uiApart_all hr ha
      by_cases hn : near c.imu.dRate g.gpst i.gpst = true
      · have hn' := (uiNear_real _ _ _).1 hn
        rw [abs_lt] at hn'
        have hev : uiGnssEvs c o i.gpst s = (if c.outage.enable && o.isOutage g.gpst then [] else [.fix g]) := by
          unfold uiGnssEvs
          rw [h1, h2]
          simp only [hn, if_true]
        have hrest : fixes (loop c o l i.gpst s2) = uiDueFixes c o (uiSpan c l i.gpst) rs := by
          have hgr : s2.gr = (s.gr.readUntil Gnss.gpst i.gpst).2 ∧ s2.gnss = (s.gr.readUntil Gnss.gpst i.gpst).1.or s.gnss := by
            rw [a1, a2, ← hs1]
            unfold gnssPart at q3
            rw [if_pos (by rw [h1]), h2] at q3
            dsimp only at q3
            rw [if_pos hn] at q3
            have := congrArg Prod.snd (Option.some.inj q3)
            dsimp only at this
            rw [← this, h2]
            exact ⟨rfl, rfl⟩
          rw [h1] at hgr
          cases rs with
          | nil =>
            have : s2.gr.ok = false := by rw [hgr.1]; rfl
            rw [uiLoop_missed c o l i.gpst s2 g2 (fun _ hk => by rw [this] at hk; cases hk)]
            rfl
          | cons g' rs' =>
            have hg' := hall g' (by simp)
            have hlt : Fl.lt g'.gpst i.gpst = false := by
              rw [Bool.eq_false_iff, ne_eq, lt_real]
              intro hc
              linarith
            have hsk : Rd.readUntil Gnss.gpst i.gpst (⟨g' :: rs', true⟩ : Rd (Gnss ℝ)) = (some g', ⟨rs', true⟩) := by
              simp [Rd.readUntil, Rd.seek, hlt]
            rw [hsk] at hgr
            refine ih i.gpst s2 g2 g' rs' hgr.1 hgr.2 (by linarith) k3 ?_
            exact ha.tail
        have hcong : uiDueFixes c o (i :: uiSpan c l i.gpst) (g :: rs) =
            (if c.outage.enable && o.isOutage g.gpst then [] else [g]) ++ uiDueFixes c o (uiSpan c l i.gpst) rs := by
          have : uiDueFixes c o (uiSpan c l i.gpst) rs = uiDueFixes c o (i :: uiSpan c l i.gpst) rs := by
            refine uiDueFixes_congr _ _ _ _ _ fun x hx => ?_
            constructor
            · rintro ⟨j, hj, hlt⟩
              exact ⟨j, by simp [hj], hlt⟩
            · rintro ⟨j, hj, hlt⟩
              rcases List.mem_cons.1 hj with rfl | hj
              · have := hall x hx
                linarith
              · exact ⟨j, hj, hlt⟩
          rw [this]
          unfold uiDueFixes
          rw [List.filter_cons]
          have hex : ∃ j ∈ i :: uiSpan c l i.gpst, g.gpst - 1 / (c.imu.dRate : ℝ) < j.gpst := ⟨i, by simp, by linarith⟩
          by_cases hout : c.outage.enable = true ∧ o.isOutage g.gpst = true
          · rw [if_neg (by rw [decide_eq_true_eq]; exact fun h => h.2 hout), hout.1, hout.2]
            rfl
          · rw [if_pos (by rw [decide_eq_true_eq]; exact ⟨hex, hout⟩), if_neg (by simpa using hout)]
            rfl
        rw [hcong, hev]
        cases hb : (c.outage.enable && o.isOutage g.gpst) <;> simp [fixes, uiFixes_append, y, hrest]
      · have hn' : ¬ |g.gpst - i.gpst| < 1 / (c.imu.dRate : ℝ) := fun h => hn ((uiNear_real _ _ _).2 h)
        have hlow : i.gpst ≤ g.gpst - 1 / (c.imu.dRate : ℝ) := by
          by_contra hc
          refine hn' (abs_lt.2 ⟨by linarith, by linarith⟩)
        have hsame : s1' = s := q6 fun g' _ hg' => by
          rw [h2] at hg'
          cases hg'
          simpa using hn
        have hev : uiGnssEvs c o i.gpst s = [] := by
          unfold uiGnssEvs
          rw [h1, h2]
          simp only [hn, Bool.false_eq_true, if_false]
        have hrest := ih i.gpst s2 g2 g rs (by rw [a1, ← hs1, hsame, h1]) (by rw [a2, ← hs1, hsame, h2]) (by linarith) k3 ha
        have : uiDueFixes c o (uiSpan c l i.gpst) (g :: rs) = uiDueFixes c o (i :: uiSpan c l i.gpst) (g :: rs) := by
          refine uiDueFixes_congr _ _ _ _ _ fun x hx => ?_
          have hx' : g.gpst ≤ x.gpst := by
            rcases List.mem_cons.1 hx with rfl | hx
            · exact le_refl _
            · have := hall x hx
              linarith
          constructor
          · rintro ⟨j, hj, hlt⟩
            exact ⟨j, by simp [hj], hlt⟩
          · rintro ⟨j, hj, hlt⟩
            rcases List.mem_cons.1 hj with rfl | hj
            · linarith
            · exact ⟨j, hj, hlt⟩
        rw [hev, ← this, ← hrest]
        simp [fixes, uiFixes_append, y]
    · rw [loop, if_neg hg, uiSpan, if_neg hg, uiDueFixes_nil]
      rfl

/-- C183. Samples at most one interval apart, fixes at least two intervals apart and none with the very stamp of the
first sample: every fix after the first sample that the run reaches is used once, in order, except those in an outage. -/
theorem C183_each_once_partial {σ : Type} (c : Config ℝ) (o : Outage ℝ) (a : AlignObj ℝ σ) (f : Files ℝ) (i : Imu ℝ) (l : List (Imu ℝ))
    (h : StartsAt c.startTime f.imu i l) (hm : c.align.mode = ALIGN_USE_GIVEN) (ho : UiOdoReady c f i.gpst)
    (hr : 0 < c.imu.dRate) (hl : SamplesRegular c.imu.dRate i.gpst l) (gs : List (Gnss ℝ)) (hf : f.gnss = some gs)
    (ha : FixesApart c.imu.dRate gs) (hne : ∀ g ∈ gs, g.gpst ≠ i.gpst) :
    fixes (run c o a f) = uiDueFixes c o (samples (run c o a f)) (gs.filter fun g => Fl.lt i.gpst g.gpst) := by
  obtain ⟨s, m, hgd, h1, h2, hmm, hrn⟩ := uiRun_given c o a f i l h hm ho
  have e1 : fixes m = [] := by rcases hmm with rfl | rfl <;> rfl
  have e2 : ∀ x, fixes (Ev.log .alignDone :: x : List (Ev ℝ)) = fixes x := fun _ => rfl
  have e3 : samples m = [] := by rcases hmm with rfl | rfl <;> rfl
  have e4 : ∀ x, samples (Ev.log .alignDone :: x : List (Ev ℝ)) = samples x := fun _ => rfl
  rw [hrn, uiFixes_append, uiSamples_append, e1, e2, e3, e4, List.nil_append, List.nil_append, (uiLoop_all c o l i.gpst s hgd).1]
  rcases uiOpen Gnss.gpst i.gpst f.gnss with ⟨pre, g, rs, k1, k2, k3, k4⟩ | ⟨k1, k2⟩
  · rw [hf] at k1
    have hgs : gs = pre ++ g :: rs := Option.some.inj k1
    have hgt : i.gpst < g.gpst := by
      have hle : ¬ g.gpst < i.gpst := by rw [← lt_real, k3]; decide
      exact lt_of_le_of_ne (not_lt.1 hle) (hne g (by rw [hgs]; simp)).symm
    have ha' : FixesApart c.imu.dRate (g :: rs) := by
      unfold FixesApart at ha ⊢
      rw [hgs] at ha
      exact ha.right_of_append
    rw [k4] at h1 h2
    rw [uiLoop_fixes c o hr l i.gpst s hgd g rs h1 h2 hgt hl ha']
    congr 1
    rw [hgs, List.filter_append]
    have p1 : pre.filter (fun g => Fl.lt i.gpst g.gpst) = [] := by
      rw [List.filter_eq_nil_iff]
      intro x hx
      have := (lt_real _ _).1 (k2 x hx)
      rw [lt_real]
      linarith
    have p2 : (g :: rs).filter (fun g => Fl.lt i.gpst g.gpst) = g :: rs := by
      rw [List.filter_eq_self]
      intro x hx
      rw [lt_real]
      rcases List.mem_cons.1 hx with rfl | hx
      · exact hgt
      · have := uiApart_all hr ha' x hx
        have h2 : (0 : ℝ) < 2 / (c.imu.dRate : ℝ) := by positivity
        linarith
    rw [p1, p2]
    rfl
  · rw [k2] at h1
    have : s.gr.ok = false := by rw [h1]
    rw [uiLoop_missed c o l i.gpst s hgd (fun _ hk => by rw [this] at hk; cases hk)]
    have hn : gs.filter (fun g => Fl.lt i.gpst g.gpst) = [] := by
      rw [List.filter_eq_nil_iff]
      intro x hx hc
      refine k1 ⟨gs, hf, x, hx, ?_⟩
      rw [lt_real] at hc
      rw [Bool.eq_false_iff, ne_eq, lt_real]
      linarith
    rw [hn]
    rfl

/-- C183 (violated). When a fix has the very stamp of the first sample and the samples are one interval or more apart, no
fix is used in the whole run (exact arithmetic), however many follow. -/
theorem C183_on_the_grid {σ : Type} (c : Config ℝ) (o : Outage ℝ) (a : AlignObj ℝ σ) (f : Files ℝ) (i : Imu ℝ) (l : List (Imu ℝ))
    (h : StartsAt c.startTime f.imu i l) (hm : c.align.mode = ALIGN_USE_GIVEN) (ho : UiOdoReady c f i.gpst)
    (hl : ∀ j ∈ l, i.gpst + 1 / (c.imu.dRate : ℝ) ≤ j.gpst)
    (pre : List (Gnss ℝ)) (g : Gnss ℝ) (rest : List (Gnss ℝ)) (hf : f.gnss = some (pre ++ g :: rest))
    (hp : ∀ x ∈ pre, x.gpst < i.gpst) (hg : g.gpst = i.gpst) : fixes (run c o a f) = [] := by
  refine C183_first_missed c o a f i l h hm ho pre g rest hf (fun x hx => by rw [lt_real]; exact hp x hx)
    (by rw [Bool.eq_false_iff, ne_eq, lt_real, hg]; exact lt_irrefl _) ?_
  intro j hj
  rw [Bool.eq_false_iff, ne_eq, uiNear_real, hg]
  have := hl j hj
  intro hc
  rw [abs_lt] at hc
  linarith

/-- C182. A run between a start and a later stop time, both above zero: the progress sent with a sample before the stop
time lies between 0 and 100. -/
theorem C182_percent_partial {σ : Type} (c : Config ℝ) (o : Outage ℝ) (a : AlignObj ℝ σ) (f : Files ℝ) (i : Imu ℝ) (l : List (Imu ℝ))
    (h : StartsAt c.startTime f.imu i l) (hm : c.align.mode = ALIGN_USE_GIVEN) (ho : UiOdoReady c f i.gpst)
    (hl : ∀ j ∈ l, i.gpst ≤ j.gpst) (j : Imu ℝ) (hj : j ∈ samples (run c o a f)) (hs : j.gpst < c.stopTime) :
    (100 * (j.gpst - c.startTime), c.stopTime - c.startTime) ∈ progress (run c o a f) ∧
    0 ≤ 100 * (j.gpst - c.startTime) / (c.stopTime - c.startTime) ∧
    100 * (j.gpst - c.startTime) / (c.stopTime - c.startTime) < 100 := by
  have h100 : (ofI 100 : ℝ) = 100 := by simp [ofI]
  have hmem := uiSamples_mem c o a f i l h hm ho j hj
  have hge : c.startTime ≤ i.gpst := by
    obtain ⟨_, _, _, h3⟩ := h
    rw [Bool.eq_false_iff, ne_eq, lt_real] at h3
    exact not_lt.1 h3
  have hij := hl j hmem
  refine ⟨?_, ?_, ?_⟩
  · rw [C182_numbers c o a f i l h hm ho, List.mem_map]
    exact ⟨j, hj, by rw [h100]⟩
  · apply div_nonneg <;> linarith
  · rw [div_lt_iff₀ (by linarith)]
    linarith

/-- C182 (violated). The sample that reaches the stop time, which is used as well, sends 100 or more; without a stop time
the progress sent for every sample is zero or negative; with stop time equal to start time the division is by zero. -/
theorem C182_out_of_range {σ : Type} (c : Config ℝ) (o : Outage ℝ) (a : AlignObj ℝ σ) (f : Files ℝ) (i : Imu ℝ) (l : List (Imu ℝ))
    (h : StartsAt c.startTime f.imu i l) (hm : c.align.mode = ALIGN_USE_GIVEN) (ho : UiOdoReady c f i.gpst)
    (hl : ∀ j ∈ l, i.gpst ≤ j.gpst) (j : Imu ℝ) (hj : j ∈ samples (run c o a f)) :
    ∃ x y, (x, y) ∈ progress (run c o a f) ∧
      (c.startTime < c.stopTime → c.stopTime ≤ j.gpst → 100 ≤ x / y) ∧
      (c.stopTime ≤ 0 → 0 < c.startTime → x / y ≤ 0 ∧ (c.startTime < j.gpst → x / y < 0)) ∧
      (c.stopTime = c.startTime → y = 0) := by
  have h100 : (ofI 100 : ℝ) = 100 := by simp [ofI]
  have hmem := uiSamples_mem c o a f i l h hm ho j hj
  have hge : c.startTime ≤ i.gpst := by
    obtain ⟨_, _, _, h3⟩ := h
    rw [Bool.eq_false_iff, ne_eq, lt_real] at h3
    exact not_lt.1 h3
  have hij := hl j hmem
  refine ⟨100 * (j.gpst - c.startTime), c.stopTime - c.startTime, ?_, ?_, ?_, ?_⟩
  · rw [C182_numbers c o a f i l h hm ho, List.mem_map]
    exact ⟨j, hj, by rw [h100]⟩
  · intro h1 h2
    rw [le_div_iff₀ (by linarith)]
    linarith
  · intro h1 h2
    refine ⟨?_, fun h3 => ?_⟩
    · apply div_nonpos_of_nonneg_of_nonpos <;> linarith
    · apply div_neg_of_pos_of_neg <;> linarith
  · intro h1
    linarith

/-! ## Concrete cases -/

/-- Given start values, one sample per second, no odometer; start and stop time as arguments. -/
noncomputable def uiCfg (start stop : ℝ) (mode : Int) : Config ℝ :=
  { demoCfg with startTime := start, stopTime := stop, imu := { demoCfg.imu with dRate := 1 }, align := { demoCfg.align with mode := mode }, odo := { demoCfg.odo with enable := false }, outage := { demoCfg.outage with enable := false } }
/-- A sample at time `t`. -/
noncomputable def uiImu (t : ℝ) : Imu ℝ := ⟨t, zero3, zero3⟩
/-- A fix at time `t`. -/
noncomputable def uiGnss (t : ℝ) : Gnss ℝ := ⟨0, 0, 0, zero3, t, 4⟩
/-- Samples at 1, 2, ..., 6 seconds. -/
noncomputable def uiSix : List (Imu ℝ) := [uiImu 1, uiImu 2, uiImu 3, uiImu 4, uiImu 5, uiImu 6]
/-- An alignment that never ends. -/
def uiNever : AlignObj ℝ Unit := ⟨(), fun _ _ => (), fun _ _ => (), fun _ => false⟩

theorem uiSix_starts (start : ℝ) (h1 : 1 < start) (h2 : start ≤ 2) :
    StartsAt start (some uiSix) (uiImu 2) [uiImu 3, uiImu 4, uiImu 5, uiImu 6] := by
  refine ⟨[uiImu 1], rfl, ?_, ?_⟩
  · intro x hx
    rw [List.mem_singleton.1 hx, lt_real]
    exact h1
  · rw [Bool.eq_false_iff, ne_eq, lt_real]
    exact not_lt.2 h2

theorem uiCfg_odo (a b : ℝ) (m : Int) (f : Files ℝ) (t : ℝ) : UiOdoReady (uiCfg a b m) f t := fun h => (by cases h)

/-- C181: from 2 to 4 seconds the samples at 3 and 4 are used; from 2 to 4.5 those at 3, 4 and 5, the last of which lies
after the stop time. -/
example (g : Option (List (Gnss ℝ))) :
    samples (run (uiCfg 2 4 ALIGN_USE_GIVEN) Outage.default uiNever ⟨some uiSix, g, none⟩) = [uiImu 3, uiImu 4] := by
  rw [C181_span_partial (uiCfg 2 4 ALIGN_USE_GIVEN) Outage.default uiNever ⟨some uiSix, g, none⟩ (uiImu 2) _ (uiSix_starts 2 (by norm_num) (by norm_num)) rfl (uiCfg_odo _ _ _ _ _)
    (by rw [lt_real]; norm_num [uiCfg]) (by rw [Bool.eq_false_iff, ne_eq, le_real]; norm_num [uiCfg]) (by rw [lt_real]; norm_num [uiCfg, uiImu])]
  have h3 : Fl.lt (uiImu 3).gpst (4 : ℝ) = true := by rw [lt_real]; norm_num [uiImu]
  have h4 : Fl.lt (uiImu 4).gpst (4 : ℝ) = false := by rw [Bool.eq_false_iff, ne_eq, lt_real]; norm_num [uiImu]
  have hs : (uiCfg 2 4 ALIGN_USE_GIVEN).stopTime = 4 := rfl
  rw [hs]
  simp [h3, h4]

/-- C181: without a start time nothing is used. -/
example (g : Option (List (Gnss ℝ))) :
    samples (run (uiCfg 0 4 ALIGN_USE_GIVEN) Outage.default uiNever ⟨some uiSix, g, none⟩) = [] := by
  refine (C181_no_start_time _ _ _ _ (uiImu 1) [uiImu 2, uiImu 3, uiImu 4, uiImu 5, uiImu 6] ⟨[], rfl, by simp, ?_⟩ rfl (uiCfg_odo _ _ _ _ _)
    ?_ ?_).1
  · rw [Bool.eq_false_iff, ne_eq, lt_real]; norm_num [uiCfg, uiImu]
  · rw [Bool.eq_false_iff, ne_eq, lt_real]; norm_num [uiCfg]
  · rw [Bool.eq_false_iff, ne_eq, le_real]; norm_num [uiCfg]

/-- C182: without a stop time the progress sent with the sample at 3 seconds is negative. -/
example (g : Option (List (Gnss ℝ))) :
    ∃ x y, (x, y) ∈ progress (run (uiCfg 2 0 ALIGN_USE_GIVEN) Outage.default uiNever ⟨some uiSix, g, none⟩) ∧ x / y < 0 := by
  have hst := uiSix_starts 2 (by norm_num) (by norm_num)
  have hall := (C181_open_end (uiCfg 2 0 ALIGN_USE_GIVEN) Outage.default uiNever ⟨some uiSix, g, none⟩ (uiImu 2) _ hst rfl (uiCfg_odo _ _ _ _ _)
    (by rw [le_real]; exact le_refl _)).1
  obtain ⟨x, y, h1, _, h3, _⟩ := C182_out_of_range (uiCfg 2 0 ALIGN_USE_GIVEN) Outage.default uiNever ⟨some uiSix, g, none⟩ (uiImu 2) _ hst rfl (uiCfg_odo _ _ _ _ _)
    (by intro j hj; simp at hj; rcases hj with rfl | rfl | rfl | rfl <;> norm_num [uiImu]) (uiImu 3) (by rw [hall]; simp)
  exact ⟨x, y, h1, (h3 (le_refl _) (by norm_num [uiCfg])).2 (by norm_num [uiCfg, uiImu])⟩

/-- C182: halfway through a run from 2 to 6 seconds the progress is 50. -/
example (g : Option (List (Gnss ℝ))) :
    ((200 : ℝ), (4 : ℝ)) ∈ progress (run (uiCfg 2 6 ALIGN_USE_GIVEN) Outage.default uiNever ⟨some uiSix, g, none⟩) := by
  have hst := uiSix_starts 2 (by norm_num) (by norm_num)
  have hs : (uiCfg 2 6 ALIGN_USE_GIVEN).stopTime = 6 := rfl
  have hsam := C181_span_partial (uiCfg 2 6 ALIGN_USE_GIVEN) Outage.default uiNever ⟨some uiSix, g, none⟩ (uiImu 2) _ hst rfl (uiCfg_odo _ _ _ _ _)
    (by rw [lt_real]; norm_num [uiCfg]) (by rw [Bool.eq_false_iff, ne_eq, le_real]; norm_num [uiCfg]) (by rw [lt_real]; norm_num [uiCfg, uiImu])
  have h3 : Fl.lt (uiImu 3).gpst (6 : ℝ) = true := by rw [lt_real]; norm_num [uiImu]
  have h4 : Fl.lt (uiImu 4).gpst (6 : ℝ) = true := by rw [lt_real]; norm_num [uiImu]
  have := (C182_percent_partial (uiCfg 2 6 ALIGN_USE_GIVEN) Outage.default uiNever ⟨some uiSix, g, none⟩ (uiImu 2) _ hst rfl (uiCfg_odo _ _ _ _ _)
    (by intro j hj; simp at hj; rcases hj with rfl | rfl | rfl | rfl <;> norm_num [uiImu]) (uiImu 4) (by rw [hsam, hs]; simp [h3, h4])
    (by norm_num [uiCfg, uiImu])).1
  have e1 : (100 : ℝ) * ((uiImu 4).gpst - (uiCfg 2 6 ALIGN_USE_GIVEN).startTime) = 200 := by norm_num [uiImu, uiCfg]
  have e2 : (uiCfg 2 6 ALIGN_USE_GIVEN).stopTime - (uiCfg 2 6 ALIGN_USE_GIVEN).startTime = 4 := by norm_num [uiCfg]
  rwa [e1, e2] at this

/-- C183: fixes at 2.5 and 5 seconds, samples every second: both are used. -/
example : fixes (run (uiCfg 2 0 ALIGN_USE_GIVEN) Outage.default uiNever ⟨some uiSix, some [uiGnss (5 / 2), uiGnss 5], none⟩) = [uiGnss (5 / 2), uiGnss 5] := by
  have hst := uiSix_starts 2 (by norm_num) (by norm_num)
  have hall := (C181_open_end (uiCfg 2 0 ALIGN_USE_GIVEN) Outage.default uiNever ⟨some uiSix, some [uiGnss (5 / 2), uiGnss 5], none⟩ (uiImu 2) _ hst rfl (uiCfg_odo _ _ _ _ _)
    (by rw [le_real]; exact le_refl _)).1
  have hd : (uiCfg 2 0 ALIGN_USE_GIVEN).imu.dRate = 1 := rfl
  rw [C183_each_once_partial (uiCfg 2 0 ALIGN_USE_GIVEN) Outage.default uiNever ⟨some uiSix, some [uiGnss (5 / 2), uiGnss 5], none⟩ (uiImu 2) _ hst rfl (uiCfg_odo _ _ _ _ _) (by rw [hd]; norm_num)
    (by rw [hd]; norm_num [SamplesRegular, uiImu]) [uiGnss (5 / 2), uiGnss 5] rfl (by rw [hd]; norm_num [FixesApart, uiGnss])
    (by intro g hg; simp at hg; rcases hg with rfl | rfl <;> norm_num [uiGnss, uiImu]), hall]
  have h1 : Fl.lt (uiImu 2).gpst (uiGnss (5 / 2)).gpst = true := by rw [lt_real]; norm_num [uiGnss, uiImu]
  have h2 : Fl.lt (uiImu 2).gpst (uiGnss 5).gpst = true := by rw [lt_real]; norm_num [uiGnss, uiImu]
  have ho : (uiCfg 2 0 ALIGN_USE_GIVEN).outage.enable = false := rfl
  simp only [List.filter_cons, h1, h2, uiDueFixes, hd, ho, if_true, List.filter_nil]
  norm_num [uiImu, uiGnss]

/-- C183: fixes at every full second, samples at every full second: none is used. -/
example : fixes (run (uiCfg 2 0 ALIGN_USE_GIVEN) Outage.default uiNever
    ⟨some uiSix, some [uiGnss 1, uiGnss 2, uiGnss 3, uiGnss 4, uiGnss 5], none⟩) = [] :=
  C183_on_the_grid _ _ _ _ (uiImu 2) _ (uiSix_starts 2 (by norm_num) (by norm_num)) rfl (uiCfg_odo _ _ _ _ _)
    (by intro j hj; simp at hj; rcases hj with rfl | rfl | rfl | rfl <;> norm_num [uiImu, uiCfg]) [uiGnss 1] (uiGnss 2) _ rfl
    (by intro x hx; rw [List.mem_singleton.1 hx]; norm_num [uiGnss, uiImu]) rfl

/-- C184: an alignment that does not end is reported. -/
example : ToldFailure (run (uiCfg 2 0 ALIGN_MOVING) Outage.default uiNever ⟨some [uiImu 2], some [uiGnss 2, uiGnss 3], none⟩) := by
  have hst : StartsAt (uiCfg 2 0 ALIGN_MOVING).startTime (some [uiImu 2]) (uiImu 2) [] :=
    ⟨[], rfl, by simp, by rw [Bool.eq_false_iff, ne_eq, lt_real]; norm_num [uiCfg, uiImu]⟩
  have hund : ¬ Undefined (run (uiCfg 2 0 ALIGN_MOVING) Outage.default uiNever ⟨some [uiImu 2], some [uiGnss 2, uiGnss 3], none⟩) := by
    rw [C185_moving (uiCfg 2 0 ALIGN_MOVING) Outage.default uiNever _ (uiImu 2) [] hst rfl (uiCfg_odo _ _ _ _ _), not_not]
    exact ⟨_, rfl, uiGnss 2, by simp, by rw [Bool.eq_false_iff, ne_eq, lt_real]; norm_num [uiGnss, uiImu]⟩
  refine C184_told_partial _ _ _ _ ?_ hund (by simp) (fun _ _ _ => uiCfg_odo _ _ _ _ _) (Or.inl rfl)
  intro hc
  have hr := uiRun_started (uiCfg 2 0 ALIGN_MOVING) Outage.default uiNever ⟨some [uiImu 2], some [uiGnss 2, uiGnss 3], none⟩ (uiImu 2) [] hst
  have hlt : Fl.lt (uiGnss 2).gpst (uiImu 2).gpst = false := by rw [Bool.eq_false_iff, ne_eq, lt_real]; norm_num [uiGnss, uiImu]
  have ho : openOdo (uiCfg 2 0 ALIGN_MOVING) ⟨some [uiImu 2], some [uiGnss 2, uiGnss 3], none⟩ (uiImu 2).gpst = some (none, none) := rfl
  have hm : (uiCfg 2 0 ALIGN_MOVING).align.mode = ALIGN_MOVING := rfl
  have hn : near (uiCfg 2 0 ALIGN_MOVING).imu.dRate (uiGnss 2).gpst (uiImu 2).gpst = true := by
    rw [uiNear_real]; norm_num [uiCfg, uiGnss, uiImu]
  unfold Completed at hc
  rw [hr, ho] at hc
  revert hc
  simp [Rd.new, Rd.readUntil, Rd.seek, hlt, startAt, hm, alignLoop, hn, Rd.readNext, uiNever]

/-- C184, C185: no IMU file: silence. Moving alignment without a GNSS file: undefined. -/
example : run (uiCfg 2 0 ALIGN_MOVING) Outage.default uiNever ⟨none, some [uiGnss 2], none⟩ = [] ∧
    Undefined (run (uiCfg 2 0 ALIGN_MOVING) Outage.default uiNever ⟨some uiSix, none, none⟩) := by
  refine ⟨(C184_silent _ _ _ _).1 rfl, ?_⟩
  rw [C185_moving (uiCfg 2 0 ALIGN_MOVING) Outage.default uiNever ⟨some uiSix, none, none⟩ (uiImu 2) _ (uiSix_starts 2 (by norm_num) (by norm_num)) rfl (uiCfg_odo _ _ _ _ _)]
  rintro ⟨l, h, _⟩
  cases h
end Verif.Props
