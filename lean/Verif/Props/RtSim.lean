import Verif.Spec.RtSim
import Verif.Lemmas.Real
import Mathlib.Data.List.Induction
import Mathlib.Tactic.SplitIfs
/-! The replay player and the real-time simulation node (every arithmetic). -/
namespace Verif.Props
open Verif Verif.Spec Verif.RtSim
variable {α : Type} [Add α] [Sub α] [Mul α] [Neg α] [Div α] [Zero α] [One α] [Fl α]

/-- The path as the player builds it up. -/
def foldedPath (isInt : α → Bool) (rs : List (Raw α)) : List (Pose α) :=
  match rstRecs rs with
  | [] => []
  | x :: xs => (x :: xs).foldl (fun ps y => if isInt y.gpst then
      pushPose ps (poseOf (v3 x.lat x.lon x.height) y.lat y.lon y.height y.atti) else ps) []

theorem folded_drop (f : RstRec α → Pose α) (isInt : α → Bool) (ys : List (RstRec α)) :
    ys.foldl (fun ps y => if isInt y.gpst then pushPose ps (f y) else ps) [] =
      ((ys.filter fun y => isInt y.gpst).map f).drop (((ys.filter fun y => isInt y.gpst).map f).length / 10001 * 10001) := by
  induction ys using List.reverseRecOn with
  | nil => simp
  | append_singleton ys y ih =>
    rw [List.foldl_append]
    simp only [List.foldl_cons, List.foldl_nil, List.filter_append, List.map_append]
    rw [ih]
    by_cases hy : isInt y.gpst = true
    · rw [if_pos hy]
      have e : [y].filter (fun y => isInt y.gpst) = [y] := by simp [hy]
      rw [e]
      generalize (List.filter (fun y => isInt y.gpst) ys).map f = l
      simp only [List.map_cons, List.map_nil]
      unfold pushPose
      simp only [List.length_append, List.length_drop, List.length_cons, List.length_nil]
      split_ifs with h
      · have h1 : l.length % 10001 = 10000 := by omega
        have h2 : (l.length + (0 + 1)) / 10001 * 10001 = l.length + 1 := by omega
        rw [h2, List.drop_eq_nil_of_le]
        simp
      · have h2 : (l.length + (0 + 1)) / 10001 * 10001 = l.length / 10001 * 10001 := by omega
        rw [h2, List.drop_append_of_le_length (by omega)]
    · rw [if_neg hy]
      have e : [y].filter (fun y => isInt y.gpst) = [] := by simp [hy]
      rw [e]
      simp

theorem folded_shown (isInt : α → Bool) (rs : List (Raw α)) : foldedPath isInt rs = shownPath isInt rs := by
  unfold foldedPath shownPath
  cases rstRecs rs with
  | nil => rfl
  | cons x xs => exact folded_drop (shownPose x) isInt (x :: xs)

/-- The path members after the records `pre`. -/
structure PathInv (c : PCfg α) (pre : List (Raw α)) (p : Player α) : Prop where
  poses : p.poses = foldedPath c.isInt pre
  set : p.baseSet = !(rstRecs pre).isEmpty
  base : ∀ x xs, rstRecs pre = x :: xs → p.base = v3 x.lat x.lon x.height

theorem rstRecs_snoc (pre : List (Raw α)) (r : Raw α) : rstRecs (pre ++ [r]) = rstRecs pre ++ rstRecs [r] := by
  unfold rstRecs; rw [List.filterMap_append]

theorem shown_other (c : PCfg α) (pre : List (Raw α)) (r : Raw α) (h : rstRecs [r] = []) :
    foldedPath c.isInt (pre ++ [r]) = foldedPath c.isInt pre := by
  unfold foldedPath
  rw [rstRecs_snoc, h, List.append_nil]

theorem path_other (c : PCfg α) (pre : List (Raw α)) (r : Raw α) (h : rstRecs [r] = []) (p q : Player α)
    (hp : PathInv c pre p) (h1 : q.poses = p.poses) (h2 : q.baseSet = p.baseSet) (h3 : q.base = p.base) :
    PathInv c (pre ++ [r]) q := by
  refine ⟨?_, ?_, ?_⟩
  · rw [h1, hp.poses, shown_other c pre r h]
  · rw [h2, hp.set, rstRecs_snoc, h, List.append_nil]
  · intro x xs hx
    rw [rstRecs_snoc, h, List.append_nil] at hx
    rw [h3]; exact hp.base x xs hx

theorem path_rst (c : PCfg α) (pre : List (Raw α)) (t lat lon h : α) (atti : V3 α) (p : Player α) (hp : PathInv c pre p)
    (hr : p.raw = ⟨t, .rst lat lon h atti⟩) : PathInv c (pre ++ [⟨t, .rst lat lon h atti⟩]) (p.toPose c lat lon h atti) := by
  obtain ⟨y, hy⟩ : ∃ y : RstRec α, y = ⟨t, lat, lon, h, atti⟩ := ⟨_, rfl⟩
  have hone : rstRecs [(⟨t, .rst lat lon h atti⟩ : Raw α)] = [y] := by rw [hy]; rfl
  have hraw : p.raw.gpst = t := by rw [hr]
  cases hl : rstRecs pre with
  | nil =>
    have hb : p.baseSet = false := by rw [hp.set, hl]; rfl
    have hps : p.poses = [] := by rw [hp.poses]; unfold foldedPath; rw [hl]
    have hn : rstRecs (pre ++ [⟨t, .rst lat lon h atti⟩]) = [y] := by rw [rstRecs_snoc, hl, hone]; rfl
    unfold Player.toPose
    dsimp only
    rw [hb, hraw]
    simp only [Bool.false_eq_true, if_false]
    refine ⟨?_, ?_, ?_⟩
    · unfold foldedPath
      rw [hn]
      simp only [List.foldl_cons, List.foldl_nil, hy]
      split_ifs
      · dsimp only; rw [hps]
      · exact hps
    · rw [hn]; split_ifs <;> rfl
    · intro x xs hx
      rw [hn] at hx
      obtain ⟨rfl, rfl⟩ := List.cons.inj hx
      rw [hy]
      split_ifs <;> rfl
  | cons x xs =>
    have hb : p.baseSet = true := by rw [hp.set, hl]; rfl
    have hbase := hp.base x xs hl
    have hn : rstRecs (pre ++ [⟨t, .rst lat lon h atti⟩]) = x :: (xs ++ [y]) := by rw [rstRecs_snoc, hl, hone]; rfl
    have hps : p.poses = (x :: xs).foldl (fun ps y => if c.isInt y.gpst then
      pushPose ps (poseOf (v3 x.lat x.lon x.height) y.lat y.lon y.height y.atti) else ps) [] := by
      rw [hp.poses]; unfold foldedPath; rw [hl]
    unfold Player.toPose
    dsimp only
    rw [hb, hraw]
    simp only [if_true]
    refine ⟨?_, ?_, ?_⟩
    · unfold foldedPath
      rw [hn]
      show _ = ((x :: xs) ++ [y]).foldl _ _
      rw [List.foldl_append, ← hps]
      simp only [List.foldl_cons, List.foldl_nil, hy]
      split_ifs
      · dsimp only; rw [hbase]
      · rfl
    · rw [hn]; split_ifs <;> exact hb
    · intro x' xs' hx
      rw [hn] at hx
      obtain ⟨rfl, _⟩ := List.cons.inj hx
      split_ifs <;> exact hbase

/-- Publishing a record: the messages of the specification, and the path members follow. -/
theorem publish_ok (c : PCfg α) (pre : List (Raw α)) (p : Player α) (hp : PathInv c pre p) :
    PathInv c (pre ++ [p.raw]) (p.publish c) ∧ (p.publish c).out = p.out ++ messages c (pre ++ [p.raw]) p.raw ∧
    (p.publish c).file = p.file ∧ (p.publish c).running = p.running ∧ (p.publish c).gpstStart = p.gpstStart := by
  obtain ⟨r, hr⟩ : ∃ r, r = p.raw := ⟨_, rfl⟩
  rw [← hr]
  obtain ⟨t, b⟩ := r
  have hb : p.raw.body = b := by rw [← hr]
  have ht : p.raw.gpst = t := by rw [← hr]
  unfold Player.publish
  rw [hb]
  cases b with
  | imu g a =>
    exact ⟨path_other c pre _ rfl p _ hp rfl rfl rfl, by simp only [messages, ht]; rfl, rfl, rfl, rfl⟩
  | gnss lat lon h sd mode =>
    exact ⟨path_other c pre _ rfl p _ hp rfl rfl rfl, by simp only [messages, ht], rfl, rfl, rfl⟩
  | vel vh vl ah al =>
    exact ⟨path_other c pre _ rfl p _ hp rfl rfl rfl, by simp only [messages, ht], rfl, rfl, rfl⟩
  | bmp => exact ⟨path_other c pre _ rfl p _ hp rfl rfl rfl, by simp [messages], rfl, rfl, rfl⟩
  | other n => exact ⟨path_other c pre _ rfl p _ hp rfl rfl rfl, by simp [messages], rfl, rfl, rfl⟩
  | rst lat lon h atti =>
    have k := path_rst c pre t lat lon h atti p hp hr.symm
    have e : (p.toPose c lat lon h atti).out = p.out ∧ (p.toPose c lat lon h atti).file = p.file ∧
        (p.toPose c lat lon h atti).running = p.running ∧ (p.toPose c lat lon h atti).gpstStart = p.gpstStart := by
      unfold Player.toPose
      dsimp only
      split_ifs <;> exact ⟨rfl, rfl, rfl, rfl⟩
    refine ⟨⟨k.poses, k.set, k.base⟩, ?_, e.2.1, e.2.2.1, e.2.2.2⟩
    show (p.toPose c lat lon h atti).out ++ [Msg.path (p.toPose c lat lon h atti).poses] = _
    rw [e.1, k.poses, folded_shown]; rfl

/-- The player stands before publishing `r`, has published `pre`, and `rs` follow in the file. -/
structure Playing (c : PCfg α) (pre : List (Raw α)) (r : Raw α) (rs : List (Raw α)) (p : Player α) : Prop where
  path : PathInv c pre p
  run : p.running = true
  raw : p.raw = r
  file : p.file = rs
  started : Fl.le p.gpstStart 0 = false
  out : p.out = publication c [] pre

theorem publication_snoc (c : PCfg α) (l pre : List (Raw α)) (r : Raw α) :
    publication c l (pre ++ [r]) = publication c l pre ++ messages c (l ++ pre ++ [r]) r := by
  induction pre generalizing l with
  | nil => simp [publication]
  | cons x xs ih => simp [publication, ih, List.append_assoc]

theorem tick_run (c : PCfg α) (t : α) (p : Player α) (h1 : p.running = true) (h2 : Fl.le p.gpstStart 0 = false) :
    ∃ el : α, p.tick c t = (if (({ p with elapse := el } : Player α).publish c).read.1 then
      (({ p with elapse := el } : Player α).publish c).read.2 else (({ p with elapse := el } : Player α).publish c).read.2.close) := by
  unfold Player.tick
  rw [if_neg (by simp [h1]), if_neg (by simp [h2])]
  exact ⟨_, rfl⟩

theorem tick_playing (c : PCfg α) (t : α) (pre : List (Raw α)) (r r' : Raw α) (rs : List (Raw α)) (p : Player α)
    (h : Playing c pre r (r' :: rs) p) : Playing c (pre ++ [r]) r' rs (p.tick c t) := by
  obtain ⟨el, hel⟩ := tick_run c t p h.run h.started
  rw [hel]
  have k := publish_ok c pre { p with elapse := el } ⟨h.path.poses, h.path.set, h.path.base⟩
  obtain ⟨k1, k2, k3, k4, k5⟩ := k
  obtain ⟨q, hq⟩ : ∃ q, q = ({ p with elapse := el } : Player α).publish c := ⟨_, rfl⟩
  rw [← hq] at k1 k2 k3 k4 k5 ⊢
  have hraw : ({ p with elapse := el } : Player α).raw = r := h.raw
  rw [hraw] at k1 k2
  have hfile : q.file = r' :: rs := k3.trans h.file
  unfold Player.read
  rw [hfile]
  simp only [if_true]
  exact ⟨⟨k1.poses, k1.set, k1.base⟩, k4.trans h.run, rfl, rfl, by rw [show _ = _ from k5]; exact h.started,
    by rw [publication_snoc]; exact k2.trans (by rw [show ({ p with elapse := el } : Player α).out = _ from h.out]; rfl)⟩

theorem tick_last (c : PCfg α) (t : α) (pre : List (Raw α)) (r : Raw α) (p : Player α)
    (h : Playing c pre r [] p) : (p.tick c t).running = false ∧
      (p.tick c t).out = publication c [] (pre ++ [r]) ++ [.imu (-1) ⟨zero3, zero3⟩] := by
  obtain ⟨el, hel⟩ := tick_run c t p h.run h.started
  rw [hel]
  have k := publish_ok c pre { p with elapse := el } ⟨h.path.poses, h.path.set, h.path.base⟩
  obtain ⟨k1, k2, k3, k4, k5⟩ := k
  obtain ⟨q, hq⟩ : ∃ q, q = ({ p with elapse := el } : Player α).publish c := ⟨_, rfl⟩
  rw [← hq] at k1 k2 k3 k4 k5 ⊢
  have hraw : ({ p with elapse := el } : Player α).raw = r := h.raw
  rw [hraw] at k1 k2
  have hfile : q.file = [] := k3.trans h.file
  unfold Player.read
  rw [hfile]
  refine ⟨rfl, ?_⟩
  show q.out ++ _ = _
  rw [publication_snoc, k2, show ({ p with elapse := el } : Player α).out = _ from h.out]; rfl

theorem ticks_stopped (c : PCfg α) (ts : List α) (p : Player α) (h : p.running = false) : ticks c ts p = p := by
  induction ts with
  | nil => rfl
  | cons t ts ih =>
    have : p.tick c t = p := by unfold Player.tick; rw [h]; rfl
    unfold ticks at ih ⊢
    rw [List.foldl_cons, this]; exact ih

theorem play_from (c : PCfg α) (ts : List α) (pre : List (Raw α)) (r : Raw α) (rs : List (Raw α)) (p : Player α)
    (h : Playing c pre r rs p) :
    (ticks c ts p).out = publication c [] (pre ++ (r :: rs).take ts.length) ++
      (if rs.length < ts.length then [.imu (-1) ⟨zero3, zero3⟩] else []) := by
  induction ts generalizing pre r rs p with
  | nil => simp [ticks, h.out]
  | cons t ts ih =>
    cases rs with
    | nil =>
      obtain ⟨h1, h2⟩ := tick_last c t pre r p h
      have : ticks c (t :: ts) p = p.tick c t := ticks_stopped c ts _ h1
      rw [this, h2]
      simp
    | cons r' rs =>
      have := ih (pre ++ [r]) r' rs _ (tick_playing c t pre r r' rs p h)
      show (ticks c ts (p.tick c t)).out = _
      rw [this]
      simp [List.append_assoc]

/-- A player that still waits for the first record with a positive time. -/
structure Searching (c : PCfg α) (rs : List (Raw α)) (p : Player α) : Prop where
  path : PathInv c [] p
  run : p.running = true
  file : p.file = rs
  wait : Fl.le p.gpstStart 0 = true
  out : p.out = []

theorem search_from (c : PCfg α) (ts : List α) (rs : List (Raw α)) (p : Player α) (h : Searching c rs p) :
    (ticks c ts p).out =
      publication c [] ((rs.dropWhile fun r => Fl.le r.gpst 0).take (ts.length - ((rs.takeWhile fun r => Fl.le r.gpst 0).length + 1))) ++
      (if rs.length < ts.length then [.imu (-1) ⟨zero3, zero3⟩] else []) := by
  induction ts generalizing rs p with
  | nil => simp [ticks, h.out, publication]
  | cons t ts ih =>
    show (ticks c ts (p.tick c t)).out = _
    cases rs with
    | nil =>
      have e : (p.tick c t).running = false ∧ (p.tick c t).out = [.imu (-1) ⟨zero3, zero3⟩] := by
        unfold Player.tick Player.read
        rw [h.run, h.wait, h.file]
        refine ⟨rfl, ?_⟩
        show p.out ++ _ = _
        rw [h.out]; rfl
      rw [ticks_stopped c ts _ e.1, e.2]
      simp [publication]
    | cons r rs =>
      have e : p.tick c t = { p with file := rs, raw := r, gpstStart := r.gpst, start := t } := by
        unfold Player.tick Player.read
        rw [h.run, h.wait, h.file]
        rfl
      rw [e]
      cases hr : Fl.le r.gpst 0 with
      | true =>
        have := ih rs { p with file := rs, raw := r, gpstStart := r.gpst, start := t }
          ⟨⟨h.path.poses, h.path.set, h.path.base⟩, h.run, rfl, hr, h.out⟩
        rw [this]
        simp only [List.dropWhile_cons, List.takeWhile_cons, hr, if_true, List.length_cons, Nat.add_sub_add_right,
          Nat.add_lt_add_iff_right]
      | false =>
        have := play_from c ts [] r rs { p with file := rs, raw := r, gpstStart := r.gpst, start := t }
          ⟨⟨h.path.poses, h.path.set, h.path.base⟩, h.run, rfl, rfl, hr, by simp [publication, h.out]⟩
        rw [this]
        simp [List.dropWhile_cons, List.takeWhile_cons, hr]

/-- C139: after any number of timer events, whatever their times, the player has published exactly the messages of the records from the
first positive time on, one record per event and in the order of the file, and, once the file is used up, one end
marker; nothing after it. -/
theorem C139_playback (hz : Fl.le (0 : α) 0 = true) (c : PCfg α) (rs : List (Raw α)) (base : V3 α) (now : α) (times : List α) :
    let lead := rs.takeWhile fun r => Fl.le r.gpst 0
    let rest := rs.dropWhile fun r => Fl.le r.gpst 0
    (ticks c times (Player.new rs base now)).out =
      publication c [] (rest.take (times.length - (lead.length + 1))) ++
      (if rs.length < times.length then [.imu (-1) ⟨zero3, zero3⟩] else []) :=
  search_from c times rs _ ⟨⟨rfl, rfl, by intro x xs h; simp [rstRecs] at h⟩, rfl, rfl, hz, rfl⟩

/-- C139: the whole file, given enough events. -/
theorem C139_whole_file (hz : Fl.le (0 : α) 0 = true) (c : PCfg α) (rs : List (Raw α)) (base : V3 α) (now : α) (times : List α)
    (h : rs.length < times.length) :
    (ticks c times (Player.new rs base now)).out =
      publication c [] (rs.dropWhile fun r => Fl.le r.gpst 0) ++ [.imu (-1) ⟨zero3, zero3⟩] := by
  rw [C139_playback hz, if_pos h]
  congr 2
  apply List.take_of_length_le
  have := congrArg List.length (List.takeWhile_append_dropWhile (p := fun r : Raw α => Fl.le r.gpst 0) (l := rs))
  rw [List.length_append] at this
  omega

/-- A file with a leading record without time, a fix and a barometer record: only the fix and the end marker come out. -/
example (c : PCfg ℝ) (b sd : V3 ℝ) :
    (ticks c [1, 2, 3, 4] (Player.new [⟨-1, .bmp⟩, ⟨5, .gnss 1 2 3 sd 4⟩, ⟨6, .bmp⟩] b 0)).out =
      [.gnss 5 1 2 3 sd 4, .imu (-1) ⟨zero3, zero3⟩] := by
  have h0 : Fl.le (0 : ℝ) 0 = true := by simp
  have h1 : Fl.le (-1 : ℝ) 0 = true := by simp
  have h5 : Fl.le (5 : ℝ) 0 = false := by
    rw [Bool.eq_false_iff]; intro h; rw [le_real] at h; norm_num at h
  rw [C139_whole_file h0 _ _ _ _ _ (by simp)]
  simp [List.dropWhile_cons, h1, h5, publication, messages]

/-- C139, the violation: neither the times of the events, nor `real_time`, nor `speed_up` change what is published at which event. -/
theorem C139_speed_is_ignored (hz : Fl.le (0 : α) 0 = true) (c : PCfg α) (rt : Bool) (speed : Int) (rs : List (Raw α))
    (base base' : V3 α) (now now' : α) (times times' : List α) (h : times.length = times'.length) :
    (ticks { c with realTime := rt, speedUp := speed } times' (Player.new rs base' now')).out =
    (ticks c times (Player.new rs base now)).out := by
  have hp : ∀ pre l, publication { c with realTime := rt, speedUp := speed } pre l = publication c pre l := by
    intro pre l
    induction l generalizing pre with
    | nil => rfl
    | cons r l ih =>
      simp only [publication, ih]
      congr 1
  rw [C139_playback hz, C139_playback hz, hp, h]

/-- C139: a path never holds more than ten thousand poses. -/
theorem C139_path_bounded (isInt : α → Bool) (rs : List (Raw α)) : (shownPath isInt rs).length ≤ 10000 := by
  unfold shownPath
  cases rstRecs rs with
  | nil => simp
  | cons x xs =>
    dsimp only
    rw [List.length_drop]
    omega

/-! The simulation node. -/

/-- Fixes used for navigation. -/
def fixesUsed (us : List (Use α)) : List (Gnss α) := us.filterMap fun u => match u with | .setPos m => some m | _ => none
/-- Samples used, in alignment or navigation. -/
def samplesUsed (us : List (Use α)) : List (Imu α) :=
  us.filterMap fun u => match u with | .alignLevel m => some m | .time m => some m | _ => none
/-- Samples received. -/
def samplesSent (evs : List (Ev α)) : List (Imu α) :=
  evs.filterMap fun e => match e with | .imu t m => some { gpst := t - 1, gyro := m.gyro, acce := m.acce } | _ => none

theorem run_snoc (e : Engine α) (evs : List (Ev α)) (ev : Ev α) (n : Node α) :
    n.run e (evs ++ [ev]) = (n.run e evs).bind fun m => m.step e ev := by
  induction evs generalizing n with
  | nil =>
    simp only [List.nil_append, Node.run, Option.bind_some]
    cases n.step e ev <;> rfl
  | cons x xs ih =>
    simp only [List.cons_append, Node.run]
    cases n.step e x with
    | none => rfl
    | some m => exact ih m

/-- One event uses at most one thing, and never a fix. -/
theorem step_used (e : Engine α) (n m : Node α) (ev : Ev α) (h : n.step e ev = some m) : fixesUsed m.used = fixesUsed n.used := by
  rcases ev with ⟨t, x⟩ | x | ⟨a, b⟩ | _
  · simp only [Node.step, Option.some.injEq] at h; rw [← h]
  · simp only [Node.step, Option.some.injEq] at h; rw [← h]
  · simp only [Node.step, Option.some.injEq] at h; rw [← h]
  · simp only [Node.step, Node.main] at h
    have ap : ∀ u : Use α, (∀ x, u ≠ .setPos x) → fixesUsed (n.used ++ [u]) = fixesUsed n.used := by
      intro u hu
      unfold fixesUsed
      rw [List.filterMap_append]
      cases u <;> simp at hu ⊢
    split at h
    · split at h <;> simp only [Option.some.injEq] at h <;> rw [← h]
      exact ap _ (by intro x; simp)
    · split at h <;> simp only [Option.some.injEq] at h <;> rw [← h]
      exact ap _ (by intro x; simp)
    · split at h
      · simp at h
      · simp only [Option.some.injEq] at h; rw [← h]
    · split at h <;> simp only [Option.some.injEq] at h <;> rw [← h]
      exact ap _ (by intro x; simp)
    · split at h <;> simp only [Option.some.injEq] at h <;> rw [← h]
      exact ap _ (by intro x; simp)
    · simp only [Option.some.injEq] at h; rw [← h]

/-- C140, the violation: whatever arrives and whatever the engine does, no schedule ever hands a fix to the navigation. -/
theorem C140_no_fix_is_used (e : Engine α) (evs : List (Ev α)) (n : Node α) (h : Node.new.run e evs = some n) :
    fixesUsed n.used = [] := by
  induction evs using List.reverseRecOn generalizing n with
  | nil =>
    simp only [Node.run, Option.some.injEq] at h
    rw [← h]; rfl
  | append_singleton evs ev ih =>
    rw [run_snoc] at h
    cases hm : (Node.new : Node α).run e evs with
    | none => rw [hm] at h; simp at h
    | some m =>
      rw [hm] at h
      rw [step_used e m n ev h]
      exact ih m hm

/-- C140, the violation: the node holds one fix only. A fix that another one follows before the main thread looked is lost: alignment never sees it. -/
theorem C140_waiting_fix_is_replaced (e : Engine α) (evs rest : List (Ev α)) (a b : Gnss α) (mid : List (Ev α)) (hmid : ∀ ev ∈ mid, ev ≠ .main ∧ ∀ x, ev ≠ .gnss x)
    (n : Node α) (h : Node.new.run e (evs ++ .gnss a :: (mid ++ .gnss b :: rest)) = some n) :
    Node.new.run e (evs ++ (mid ++ .gnss b :: rest)) = some n := by
  have app : ∀ (a b : List (Ev α)) (m : Node α), m.run e (a ++ b) = (m.run e a).bind fun k => k.run e b := by
    intro a
    induction a with
    | nil => intro b m; rfl
    | cons x xs ih =>
      intro b m
      simp only [List.cons_append, Node.run]
      cases m.step e x with
      | none => rfl
      | some k => exact ih b k
  have short : ∀ (l : List (Ev α)) (m : Node α), Node.new.run e l = some m → m.gnssQ.length ≤ 1 := by
    intro l
    induction l using List.reverseRecOn with
    | nil =>
      intro m hm
      simp only [Node.run, Option.some.injEq] at hm
      rw [← hm]; simp [Node.new]
    | append_singleton l ev ih =>
      intro m hm
      rw [run_snoc] at hm
      cases hk : (Node.new : Node α).run e l with
      | none => rw [hk] at hm; simp at hm
      | some k =>
        rw [hk, Option.bind_some] at hm
        have ik := ih k hk
        rcases ev with ⟨t, x⟩ | x | ⟨c, d⟩ | _
        · simp only [Node.step, Option.some.injEq] at hm; rw [← hm]; exact ik
        · simp only [Node.step, Option.some.injEq] at hm; rw [← hm]
          show (pushCap 1 k.gnssQ x).length ≤ 1
          unfold pushCap
          split
          · rw [List.length_append, List.length_singleton]; omega
          · rw [List.length_append, List.length_tail, List.length_singleton]; omega
        · simp only [Node.step, Option.some.injEq] at hm; rw [← hm]; exact ik
        · simp only [Node.step, Node.main] at hm
          split at hm
          · split at hm <;> simp only [Option.some.injEq] at hm <;> rw [← hm] <;> exact ik
          · split at hm
            · simp only [Option.some.injEq] at hm; rw [← hm]; exact ik
            · rename_i hq
              simp only [Option.some.injEq] at hm; rw [← hm]
              rw [hq] at ik
              simp only [List.length_cons] at ik ⊢
              omega
          · split at hm
            · simp at hm
            · simp only [Option.some.injEq] at hm; rw [← hm]; exact ik
          · split at hm <;> simp only [Option.some.injEq] at hm <;> rw [← hm] <;> exact ik
          · split at hm <;> simp only [Option.some.injEq] at hm <;> rw [← hm] <;> exact ik
          · simp only [Option.some.injEq] at hm; rw [← hm]; exact ik
  have skip : ∀ (l : List (Ev α)), (∀ ev ∈ l, ev ≠ .main ∧ ∀ x, ev ≠ .gnss x) → ∀ (m : Node α) (q : List (Gnss α)),
      ({ m with gnssQ := q } : Node α).run e l = (m.run e l).map fun k => { k with gnssQ := q } := by
    intro l
    induction l with
    | nil => intro _ m q; rfl
    | cons x xs ih =>
      intro hl m q
      have hx := hl x List.mem_cons_self
      simp only [Node.run]
      rcases x with ⟨t, x⟩ | x | ⟨c, d⟩ | _
      · exact ih (fun ev he => hl ev (List.mem_cons_of_mem _ he)) { m with imuQ := pushCap 10 m.imuQ (sampleOf t x) } q
      · exact absurd rfl (hx.2 x)
      · exact ih (fun ev he => hl ev (List.mem_cons_of_mem _ he)) { m with velQ := pushCap 10 m.velQ (c, d) } q
      · exact absurd rfl hx.1
  rw [app] at h ⊢
  cases hk : (Node.new : Node α).run e evs with
  | none => rw [hk] at h; simp at h
  | some k =>
    rw [hk] at h
    simp only [Option.bind_some] at h ⊢
    have hq := short evs k hk
    have e1 : k.run e (.gnss a :: (mid ++ .gnss b :: rest)) = ({ k with gnssQ := pushCap 1 k.gnssQ a } : Node α).run e (mid ++ .gnss b :: rest) := rfl
    rw [e1, app, skip mid hmid] at h
    rw [app]
    cases hm : k.run e mid with
    | none => rw [hm] at h; simp at h
    | some j =>
      have hj : j.gnssQ = k.gnssQ := by
        have := skip mid hmid k k.gnssQ
        rw [show ({ k with gnssQ := k.gnssQ } : Node α) = k from rfl, hm] at this
        simp only [Option.map_some, Option.some.injEq] at this
        rw [this]
      rw [hm] at h
      simp only [Option.map_some, Option.bind_some, Node.run, Node.step] at h ⊢
      rw [hj, ← h]
      have push : ∀ x : Gnss α, pushCap 1 k.gnssQ x = [x] := by
        intro x
        unfold pushCap
        cases hg : k.gnssQ with
        | nil => rfl
        | cons y ys =>
          rw [hg] at hq
          have : ys = [] := by cases ys with | nil => rfl | cons _ _ => simp at hq
          rw [this]; rfl
      have push1 : pushCap 1 [a] b = [b] := rfl
      rw [push a, push b, push1]

/-- C140, the violation: when the main loop finds the GNSS buffer empty it reads from it, which is undefined. -/
theorem C140_empty_buffer_is_undefined (e : Engine α) (evs rest : List (Ev α)) (n : Node α) (h : Node.new.run e evs = some n)
    (hp : n.pc = .navGnss) (hq : n.gnssQ = []) : (Node.new : Node α).run e (evs ++ .main :: rest) = none := by
  have app : ∀ (a b : List (Ev α)) (m : Node α), m.run e (a ++ b) = (m.run e a).bind fun k => k.run e b := by
    intro a
    induction a with
    | nil => intro b m; rfl
    | cons x xs ih =>
      intro b m
      simp only [List.cons_append, Node.run]
      cases m.step e x with
      | none => rfl
      | some k => exact ih b k
  rw [app, h]
  simp only [Option.bind_some, Node.run, Node.step, Node.main, hp, hq]
  rfl

/-- Every node reachable without a fix ever arriving has an empty GNSS buffer. -/
theorem no_fix_no_buffer (e : Engine α) (evs : List (Ev α)) (hn : ∀ m, Ev.gnss m ∉ evs) (n : Node α)
    (h : Node.new.run e evs = some n) : n.gnssQ = [] ∧ n.pc ≠ .navVel ∧ n.pc ≠ .navImu ∧ n.pc ≠ .ended := by
  induction evs using List.reverseRecOn generalizing n with
  | nil =>
    simp only [Node.run, Option.some.injEq] at h
    rw [← h]
    refine ⟨rfl, ?_, ?_, ?_⟩ <;> (simp [Node.new])
  | append_singleton evs ev ih =>
    rw [run_snoc] at h
    cases hm : (Node.new : Node α).run e evs with
    | none => rw [hm] at h; simp at h
    | some m =>
      rw [hm] at h
      obtain ⟨i1, i2, i3, i4⟩ := ih (fun x hx => hn x (List.mem_append_left _ hx)) m hm
      simp only [Option.bind_some] at h
      rcases ev with ⟨t, x⟩ | x | ⟨a, b⟩ | _
      · simp only [Node.step, Option.some.injEq] at h; rw [← h]; exact ⟨i1, i2, i3, i4⟩
      · exact absurd (List.mem_append_right _ List.mem_cons_self) (hn x)
      · simp only [Node.step, Option.some.injEq] at h; rw [← h]; exact ⟨i1, i2, i3, i4⟩
      · simp only [Node.step, Node.main, i1] at h
        split at h
        · split at h <;> simp only [Option.some.injEq] at h <;> rw [← h]
          · exact ⟨rfl, by simp, by simp, by simp⟩
          · refine ⟨rfl, ?_, ?_, ?_⟩ <;> (dsimp only; split_ifs <;> simp)
        · simp only [Option.some.injEq] at h; rw [← h]; exact ⟨rfl, by simp, by simp, by simp⟩
        · simp at h
        · rename_i hpc; exact absurd hpc i2
        · rename_i hpc; exact absurd hpc i3
        · rename_i hpc; exact absurd hpc i4

/-- C140: without GNSS messages the first turn of the main loop is undefined, in every schedule. -/
theorem C140_without_fixes_undefined (e : Engine α) (evs : List (Ev α)) (hn : ∀ m, Ev.gnss m ∉ evs) (n : Node α)
    (h : Node.new.run e evs = some n) (hp : n.pc = .navGnss) (rest : List (Ev α)) :
    (Node.new : Node α).run e (evs ++ .main :: rest) = none :=
  C140_empty_buffer_is_undefined e evs rest n h hp (no_fix_no_buffer e evs hn n h).1

/-- A schedule that gets there: one sample with which the alignment ends. -/
example (m : Meas α) (t : α) : ∃ n : Node α, Node.new.run ⟨fun _ => true, fun _ => false⟩ [.imu t m, .main] = some n ∧ n.pc = .navGnss :=
  ⟨_, rfl, rfl⟩

/-- Two fixes and a wheel speed in between, the main thread not looking: the second is used for alignment. -/
example (a b : Gnss α) (x y : α) : ∃ n : Node α, Node.new.run ⟨fun _ => false, fun _ => false⟩ ([] ++ .gnss a :: ([.vel x y] ++ .gnss b :: [.main, .main])) = some n ∧
    n.used = [.alignGnss b] := ⟨_, rfl, rfl⟩

theorem pushCap_cases {β : Type} (k : Nat) (q : List β) (x : β) :
    pushCap k q x = q ++ [x] ∨ pushCap k q x = q.tail ++ [x] ∧ k ≤ q.length := by
  unfold pushCap
  split_ifs with h
  · exact Or.inl rfl
  · exact Or.inr ⟨rfl, by omega⟩

theorem samplesSent_snoc (evs : List (Ev α)) (ev : Ev α) : samplesSent (evs ++ [ev]) = samplesSent evs ++ samplesSent [ev] := by
  unfold samplesSent; rw [List.filterMap_append]
theorem samplesUsed_snoc (us : List (Use α)) (u : Use α) : samplesUsed (us ++ [u]) = samplesUsed us ++ samplesUsed [u] := by
  unfold samplesUsed; rw [List.filterMap_append]

/-- One event of the main thread moves at most the first waiting sample to the used ones. -/
theorem main_samples (e : Engine α) (n m : Node α) (h : n.main e = some m) :
    samplesUsed m.used ++ m.imuQ = samplesUsed n.used ++ n.imuQ := by
  unfold Node.main at h
  split at h
  · split at h
    · simp only [Option.some.injEq] at h; rw [← h]
    · rename_i x q hq
      simp only [Option.some.injEq] at h; rw [← h]
      show samplesUsed (n.used ++ [.alignLevel x]) ++ q = _
      rw [samplesUsed_snoc, hq]; simp [samplesUsed]
  · split at h
    · simp only [Option.some.injEq] at h; rw [← h]
    · simp only [Option.some.injEq] at h; rw [← h]
      show samplesUsed (n.used ++ [_]) ++ n.imuQ = _
      rw [samplesUsed_snoc]; simp [samplesUsed]
  · split at h
    · simp at h
    · simp only [Option.some.injEq] at h; rw [← h]
  · split at h
    · simp only [Option.some.injEq] at h; rw [← h]
    · simp only [Option.some.injEq] at h; rw [← h]
      show samplesUsed (n.used ++ [_]) ++ n.imuQ = _
      rw [samplesUsed_snoc]; simp [samplesUsed]
  · split at h
    · simp only [Option.some.injEq] at h; rw [← h]
    · rename_i x q hq
      simp only [Option.some.injEq] at h; rw [← h]
      show samplesUsed (n.used ++ [.time x]) ++ q = _
      rw [samplesUsed_snoc, hq]; simp [samplesUsed]
  · simp only [Option.some.injEq] at h; rw [← h]

/-- C140, what holds: samples are used in the order received, each at most once, dated one second back. -/
theorem C140_samples_in_order_partial (e : Engine α) (evs : List (Ev α)) (n : Node α) (h : Node.new.run e evs = some n) :
    (samplesUsed n.used ++ n.imuQ).Sublist (samplesSent evs) ∧ n.imuQ.length ≤ 10 := by
  induction evs using List.reverseRecOn generalizing n with
  | nil =>
    simp only [Node.run, Option.some.injEq] at h
    rw [← h]
    exact ⟨List.Sublist.refl _, by simp [Node.new]⟩
  | append_singleton evs ev ih =>
    rw [run_snoc] at h
    cases hm : (Node.new : Node α).run e evs with
    | none => rw [hm] at h; simp at h
    | some m =>
      rw [hm] at h
      obtain ⟨i1, i2⟩ := ih m hm
      simp only [Option.bind_some] at h
      rw [samplesSent_snoc]
      rcases ev with ⟨t, x⟩ | x | ⟨a, b⟩ | _
      · simp only [Node.step, Option.some.injEq] at h
        rw [← h]
        dsimp only
        rcases pushCap_cases 10 m.imuQ (sampleOf t x) with hp | ⟨hp, hl⟩ <;> rw [hp]
        · refine ⟨?_, ?_⟩
          · rw [← List.append_assoc]
            exact List.Sublist.append i1 (List.Sublist.refl _)
          · have : pushCap 10 m.imuQ (sampleOf t x) = m.imuQ ++ [sampleOf t x] := hp
            unfold pushCap at this
            split_ifs at this with hlt
            · simp; omega
            · have := congrArg List.length this
              simp at this
              omega
        · refine ⟨?_, ?_⟩
          · rw [← List.append_assoc]
            exact List.Sublist.append ((List.Sublist.append (List.Sublist.refl _) (List.tail_sublist _)).trans i1) (List.Sublist.refl _)
          · simp; omega
      · simp only [Node.step, Option.some.injEq] at h
        rw [← h]
        simp only [samplesSent, List.filterMap_cons, List.filterMap_nil, List.append_nil]
        exact ⟨i1, i2⟩
      · simp only [Node.step, Option.some.injEq] at h
        rw [← h]
        simp only [samplesSent, List.filterMap_cons, List.filterMap_nil, List.append_nil]
        exact ⟨i1, i2⟩
      · have k := main_samples e m n h
        have hl : n.imuQ.length ≤ m.imuQ.length := by
          have h' : m.main e = some n := h
          unfold Node.main at h'
          split at h'
          · split at h' <;> rename_i hq <;> simp only [Option.some.injEq] at h' <;> rw [← h'] <;> rw [hq] <;> simp
          · split at h' <;> simp only [Option.some.injEq] at h' <;> rw [← h']
          · split at h'
            · simp at h'
            · simp only [Option.some.injEq] at h'; rw [← h']
          · split at h' <;> simp only [Option.some.injEq] at h' <;> rw [← h']
          · split at h' <;> rename_i hq <;> simp only [Option.some.injEq] at h' <;> rw [← h'] <;> rw [hq] <;> simp
          · simp only [Option.some.injEq] at h'; rw [← h']
        rw [k]
        simp only [samplesSent, List.filterMap_cons, List.filterMap_nil, List.append_nil]
        exact ⟨i1, le_trans hl i2⟩

/-- C140, the violation: the eleventh sample that has to wait pushes the first one out. -/
theorem C140_samples_lost (e : Engine α) (t : α) (m : Meas α) (m' : Meas α) :
    ∃ n, (Node.new : Node α).run e (Ev.imu t m :: List.replicate 10 (.imu t m')) = some n ∧ n.used = [] ∧
    n.imuQ = List.replicate 10 (sampleOf t m') := by
  simp [Node.run, Node.step, pushCap, Node.new, List.replicate]

/-- C140, the violation: the end marker of the player is a sample like any other, dated minus two (here it is used to navigate). -/
theorem C140_end_marker_is_a_sample (e : Engine α) (n : Node α) (hp : n.pc = .navImu) (hq : n.imuQ = []) :
    ∃ k, n.run e [.imu (-1) ⟨zero3, zero3⟩, .main] = some k ∧
      k.used = n.used ++ [.time { gpst := -1 - 1, gyro := zero3, acce := zero3 }] := by
  simp only [Node.run, Node.step, Option.bind_some, Node.main, hp, hq, pushCap]
  exact ⟨_, rfl, rfl⟩

/-- C141, the violation: the velocity deviations of the debug message are those of the attitude, and only the others are right. -/
theorem C141_debug_velocity_deviation_partial (nav : NavOutput α) : (debugOf nav).velStd = nav.attiStd ∧ (debugOf nav).posStd = nav.posStd ∧
    (debugOf nav).attiStd = nav.attiStd ∧ (debugOf nav).gb = nav.gb ∧ (debugOf nav).ab = nav.ab := ⟨rfl, rfl, rfl, rfl, rfl⟩

/-- C141, a result whose velocity deviations are not those published. -/
theorem C141_violation (nav : NavOutput α) (h : nav.vnStd ≠ nav.attiStd) : (debugOf nav).velStd ≠ nav.vnStd := fun e => h e.symm
end Verif.Props
