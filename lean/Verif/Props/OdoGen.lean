import Verif.Spec.OdoGen
import Verif.Lemmas.Real
import Verif.Lemmas.Rotation
import Mathlib.Tactic.FinCases
import Mathlib.Tactic.Ring
import Mathlib.Tactic.NormNum
import Mathlib.Tactic.LinearCombination
/-! C165: the odometer generator. -/
namespace Verif.Props
open Verif Verif.Spec Verif.OdoGen
set_option linter.unusedSectionVars false
section anyScalar
variable {α : Type} [Add α] [Sub α] [Mul α] [Neg α] [Div α] [Zero α] [One α] [Fl α]

/-- The number a word shows. -/
def wordValue : Word α → Option α
  | .int _ x => some x
  | .dec _ _ x => some x
  | .rest x => some x
  | .bad => none

theorem odo_num {w : Word α} {x : α} (h : wordValue w = some x) (ws : List (Word α)) (e : Bool) (old : α) :
    In.num ⟨w :: ws, e, false, false⟩ old = (x, ⟨ws, e, ws.isEmpty && !e, false⟩) := by
  cases w with
  | int n y => cases h; rfl
  | dec n f y => cases h; rfl
  | rest y => cases h; rfl
  | bad => cases h

theorem odo_num' {w : Word α} {x : α} (h : wordValue w = some x) (w' : Word α) (ws : List (Word α)) (e : Bool) (old : α) :
    In.num ⟨w :: w' :: ws, e, false, false⟩ old = (x, ⟨w' :: ws, e, false, false⟩) := odo_num h _ e old

/-- A record read from eleven numbers. -/
def setRow (o : NavOutput α) (week : Int) (x : Fin 10 → α) : NavOutput α :=
  { o with week := week, gpst := x 0, lat := x 1, lon := x 2, height := x 3, vn := v3 (x 4) (x 5) (x 6), atti := v3 (x 7) (x 8) (x 9) }

theorem odo_seq {s s0 s1 s2 s3 s4 s5 s6 s7 s8 s9 s10 : In α} {o : NavOutput α} {wk : Int} {x0 x1 x2 x3 x4 x5 x6 x7 x8 x9 : α}
    (h0 : s.int o.week = (wk, s0)) (h1 : s0.num o.gpst = (x0, s1)) (h2 : s1.num o.lat = (x1, s2)) (h3 : s2.num o.lon = (x2, s3))
    (h4 : s3.num o.height = (x3, s4)) (h5 : s4.num (o.vn 0) = (x4, s5)) (h6 : s5.num (o.vn 1) = (x5, s6))
    (h7 : s6.num (o.vn 2) = (x6, s7)) (h8 : s7.num (o.atti 0) = (x7, s8)) (h9 : s8.num (o.atti 1) = (x8, s9))
    (h10 : s9.num (o.atti 2) = (x9, s10)) :
    s.nav o = ({ o with week := wk, gpst := x0, lat := x1, lon := x2, height := x3, vn := v3 x4 x5 x6, atti := v3 x7 x8 x9 }, s10) := by
  unfold In.nav
  rw [h0]; dsimp only
  rw [h1]; dsimp only
  rw [h2]; dsimp only
  rw [h3]; dsimp only
  rw [h4]; dsimp only
  rw [h5]; dsimp only
  rw [h6]; dsimp only
  rw [h7]; dsimp only
  rw [h8]; dsimp only
  rw [h9]; dsimp only
  rw [h10]

/-- Ten numbers after the integer. -/
theorem odo_full {s : In α} {o : NavOutput α} {wk : Int} {w : Fin 10 → Word α} {x : Fin 10 → α} {ws : List (Word α)} {e : Bool}
    (h0 : s.int o.week = (wk, ⟨List.ofFn w ++ ws, e, false, false⟩)) (hw : ∀ i, wordValue (w i) = some (x i)) :
    s.nav o = (setRow o wk x, ⟨ws, e, ws.isEmpty && !e, false⟩) := by
  have hl : List.ofFn w ++ ws = w 0 :: w 1 :: w 2 :: w 3 :: w 4 :: w 5 :: w 6 :: w 7 :: w 8 :: w 9 :: ws := rfl
  rw [hl] at h0
  exact odo_seq h0 (odo_num' (hw 0) _ _ _ _) (odo_num' (hw 1) _ _ _ _) (odo_num' (hw 2) _ _ _ _) (odo_num' (hw 3) _ _ _ _)
    (odo_num' (hw 4) _ _ _ _) (odo_num' (hw 5) _ _ _ _) (odo_num' (hw 6) _ _ _ _) (odo_num' (hw 7) _ _ _ _)
    (odo_num' (hw 8) _ _ _ _) (odo_num (hw 9) _ _ _)

theorem stored_fits {n : Int} (h : intRange n) : storedInt n = n ∧ tooLarge n = false := by
  obtain ⟨h1, h2⟩ := h
  unfold storedInt tooLarge
  exact ⟨by omega, decide_eq_false (by omega)⟩

theorem odo_int (n : Int) (h : intRange n) (x : α) (w : Word α) (ws : List (Word α)) (e : Bool) (old : Int) :
    In.int ⟨.int n x :: w :: ws, e, false, false⟩ old = (n, ⟨w :: ws, e, false, false⟩) := by
  obtain ⟨h1, h2⟩ := stored_fits h
  show (storedInt n, (⟨w :: ws, e, false, tooLarge n⟩ : In α)) = _
  rw [h1, h2]

theorem odo_dec (d : Decimal α) (h : intRange d.whole) (ws : List (Word α)) (e : Bool) (old : Int) :
    In.int ⟨d.word :: ws, e, false, false⟩ old = (d.whole, ⟨.rest d.frac :: ws, e, false, false⟩) := by
  obtain ⟨h1, h2⟩ := stored_fits h
  show (storedInt d.whole, (⟨.rest d.frac :: ws, e, false, tooLarge d.whole⟩ : In α)) = _
  rw [h1, h2]

/-! ## A stream that has ended or failed -/

theorem odo_num_stuck (s : In α) (old : α) (h : s.eof || s.fail) : s.num old = (old, { s with fail := true }) := by
  unfold In.num; rw [if_pos h]

theorem v3_self (v : V3 α) : v3 (v 0) (v 1) (v 2) = v := by funext i; fin_cases i <;> rfl

theorem odo_stuck_after (s : In α) (o : NavOutput α) (wk : Int) (s0 : In α) (h0 : s.int o.week = (wk, s0)) (hf : s0.fail = true) :
    s.nav o = ({ o with week := wk }, s0) := by
  have hs : ∀ old : α, s0.num old = (old, s0) := by
    intro old
    rw [odo_num_stuck s0 old (by rw [hf]; simp)]
    cases s0; simp_all
  rw [odo_seq h0 (hs _) (hs _) (hs _) (hs _) (hs _) (hs _) (hs _) (hs _) (hs _) (hs _), v3_self, v3_self]

/-- The end of the file: nothing is stored. -/
theorem odo_end (o : NavOutput α) (e : Bool) : In.nav ⟨[], e, false, false⟩ o = (o, ⟨[], e, true, true⟩) :=
  odo_stuck_after _ o o.week _ rfl rfl

theorem odo_failed (ws : List (Word α)) (e : Bool) (o : NavOutput α) :
    In.nav ⟨ws, e, false, true⟩ o = (o, ⟨ws, e, false, true⟩) := odo_stuck_after _ o o.week _ rfl rfl

/-! ## A record the file does not have all numbers of -/

theorem odo_keeps_eof (s : In α) (old : α) (h : s.eof = true) : (s.num old).2.eof = true := by
  rw [odo_num_stuck s old (by rw [h]; rfl)]; exact h

/-- `k` extractions. -/
def numTimes : Nat → In α → In α
  | 0, s => s
  | k + 1, s => numTimes k (s.num 0).2

theorem odo_num_state (s : In α) (a b : α) : (s.num a).2 = (s.num b).2 := by
  unfold In.num
  split_ifs with h
  · rfl
  · cases s.words with
    | nil => rfl
    | cons w ws => cases w <;> rfl

theorem numTimes_eof (k : Nat) (s : In α) (h : s.eof = true) : (numTimes k s).eof = true := by
  induction k generalizing s with
  | zero => exact h
  | succ k ih => exact ih _ (odo_keeps_eof s 0 h)

theorem numTimes_short (k : Nat) (ws : List (Word α)) (e : Bool) (hv : ∀ w ∈ ws, wordValue w ≠ none) (hk : ws.length < k) :
    (numTimes k ⟨ws, e, false, false⟩).eof = true := by
  induction k generalizing ws with
  | zero => omega
  | succ k ih =>
    cases ws with
    | nil => exact numTimes_eof k _ rfl
    | cons w ws =>
      obtain ⟨x, hx⟩ := Option.ne_none_iff_exists'.1 (hv w (by simp))
      unfold numTimes
      rw [odo_num hx]
      by_cases he : (ws.isEmpty && !e) = true
      · exact numTimes_eof k _ he
      · rw [Bool.not_eq_true] at he
        rw [he]
        exact ih ws (fun w hw => hv w (by simp [hw])) (by simpa using hk)

theorem odo_nav_state (s : In α) (o : NavOutput α) : (s.nav o).2 = numTimes 10 (s.int o.week).2 := by
  rw [odo_seq (s := s) (o := o) (Prod.eta _).symm (Prod.eta _).symm (Prod.eta _).symm (Prod.eta _).symm (Prod.eta _).symm
    (Prod.eta _).symm (Prod.eta _).symm (Prod.eta _).symm (Prod.eta _).symm (Prod.eta _).symm (Prod.eta _).symm]
  show (((((((((((s.int o.week).2.num _).2.num _).2.num _).2.num _).2.num _).2.num _).2.num _).2.num _).2.num _).2.num _).2 = _
  simp only [numTimes]
  simp only [odo_num_state _ _ (0 : α)]

theorem odo_short {s : In α} {o : NavOutput α} {wk : Int} {ws : List (Word α)} {e : Bool}
    (h0 : s.int o.week = (wk, ⟨ws, e, false, false⟩)) (hv : ∀ w ∈ ws, wordValue w ≠ none) (hk : ws.length < 10) :
    (s.nav o).2.eof = true := by
  rw [odo_nav_state, h0]
  exact numTimes_short 10 ws e hv hk

/-! ## The loop -/

theorem loop_succ (fuel cnt : Nat) (o : NavOutput α) (s : In α) :
    loop (fuel + 1) cnt o s = if s.eof then ([], true)
      else (if cnt % 10 = 0 then odo (s.nav o).1 :: (loop fuel (cnt + 1) (s.nav o).1 (s.nav o).2).1
        else (loop fuel (cnt + 1) (s.nav o).1 (s.nav o).2).1, (loop fuel (cnt + 1) (s.nav o).1 (s.nav o).2).2) := rfl

theorem loop_eof (fuel cnt : Nat) (o : NavOutput α) (s : In α) (h : s.eof = true) : loop fuel cnt o s = ([], true) := by
  cases fuel with
  | zero => show ([], s.eof) = _; rw [h]
  | succ n => rw [loop_succ, if_pos h]

theorem loop_round (fuel cnt : Nat) (o o' : NavOutput α) (s s' : In α) (h : s.eof = false) (hn : s.nav o = (o', s')) :
    loop (fuel + 1) cnt o s =
      (if cnt % 10 = 0 then odo o' :: (loop fuel (cnt + 1) o' s').1 else (loop fuel (cnt + 1) o' s').1,
        (loop fuel (cnt + 1) o' s').2) := by
  rw [loop_succ, if_neg (by rw [h]; decide), hn]

/-- A round that ends the loop and writes nothing. -/
theorem loop_last (fuel cnt : Nat) (o : NavOutput α) (s : In α) (h : s.eof = false) (hc : cnt % 10 ≠ 0)
    (hn : (s.nav o).2.eof = true) : loop (fuel + 1) cnt o s = ([], true) := by
  rw [loop_round fuel cnt o _ s _ h (Prod.eta _).symm, loop_eof _ _ _ _ hn, if_neg hc]

/-- A round that writes nothing. -/
theorem loop_silent (fuel cnt : Nat) (o o' : NavOutput α) (s s' : In α) (h : s.eof = false) (hc : cnt % 10 ≠ 0)
    (hn : s.nav o = (o', s')) : loop (fuel + 1) cnt o s = loop fuel (cnt + 1) o' s' := by
  rw [loop_round fuel cnt o _ s _ h hn, if_neg hc]

/-- The values of a row. -/
def rowValues (r : NavRow α) : Fin 10 → α :=
  ![r.time.value, r.lat.value, r.lon.value, r.height.value, r.v0.value, r.v1.value, r.v2.value, r.a0.value, r.a1.value, r.a2.value]

/-- The line for a record (the members it uses are those of the row). -/
theorem odo_setRow (o o' : NavOutput α) (wk wk' : Int) (x : Fin 10 → α) : odo (setRow o wk x) = odo (setRow o' wk' x) := rfl

theorem odo_row (r : NavRow α) (hr : intRange r.week) (ws : List (Word α)) (e : Bool) (o : NavOutput α) :
    In.nav ⟨eleven r ++ ws, e, false, false⟩ o = (setRow o r.week (rowValues r), ⟨ws, e, ws.isEmpty && !e, false⟩) := by
  refine odo_full (w := ![r.time.word, r.lat.word, r.lon.word, r.height.word, r.v0.word, r.v1.word, r.v2.word, r.a0.word, r.a1.word,
    r.a2.word]) (odo_int r.week hr _ _ _ e _) ?_
  intro i; fin_cases i <;> rfl


theorem everyFrom_cons {β : Type} (k c : Nat) (a : β) (l : List β) :
    (((a :: l).zipIdx c).filter fun p => p.2 % k = 0).map Prod.fst =
      if c % k = 0 then a :: ((l.zipIdx (c + 1)).filter fun p => p.2 % k = 0).map Prod.fst
      else ((l.zipIdx (c + 1)).filter fun p => p.2 % k = 0).map Prod.fst := by
  rw [List.zipIdx_cons, List.filter_cons]
  by_cases h : c % k = 0
  · rw [if_pos (decide_eq_true h), if_pos h]; rfl
  · rw [if_neg (by simpa using h), if_neg h]

theorem everyFrom_add {β : Type} (k c : Nat) (l : List β) :
    ((l.zipIdx (c + k)).filter fun p => p.2 % k = 0).map Prod.fst = ((l.zipIdx c).filter fun p => p.2 % k = 0).map Prod.fst := by
  induction l generalizing c with
  | nil => rfl
  | cons a l ih =>
    rw [everyFrom_cons, everyFrom_cons, show c + k + 1 = c + 1 + k by omega, ih, Nat.add_mod_right]

/-- The elements of a list, numbered from `c`, whose number is divisible by `k`. -/
def everyFrom {β : Type} (k c : Nat) (l : List β) : List β := ((l.zipIdx c).filter fun p => p.2 % k = 0).map Prod.fst

theorem everyNth_eq {β : Type} (k : Nat) (l : List β) : everyNth k l = everyFrom k 0 l := rfl
theorem everyFrom_pos {β : Type} (k c : Nat) (h : c % k = 0) (a : β) (l : List β) :
    everyFrom k c (a :: l) = a :: everyFrom k (c + 1) l := by
  unfold everyFrom; rw [everyFrom_cons, if_pos h]
theorem everyFrom_neg {β : Type} (k c : Nat) (h : c % k ≠ 0) (a : β) (l : List β) :
    everyFrom k c (a :: l) = everyFrom k (c + 1) l := by
  unfold everyFrom; rw [everyFrom_cons, if_neg h]

/-- The line of a row. -/
def rowLine (o : NavOutput α) (r : NavRow α) : α × α × α × α := odo (setRow o 0 (rowValues r))

/-! ## Files with eleven columns -/

theorem loop_rows (junk : NavOutput α) (e : Bool) : ∀ (rows : List (NavRow α)) (hne : rows ≠ []) (_ : ∀ r ∈ rows, intRange r.week)
    (fuel cnt : Nat) (o : NavOutput α), rows.length + 1 ≤ fuel →
    loop fuel cnt o ⟨rows.flatMap eleven, e, false, false⟩ =
      ((everyFrom 10 cnt (rows ++ if e then [rows.getLast hne] else [])).map (rowLine junk), true)
  | [r], _, hr, fuel, cnt, o, hf => by
    obtain ⟨fuel, rfl⟩ : ∃ m, fuel = m + 2 := ⟨fuel - 2, by simp at hf; omega⟩
    have h1 := odo_row r (hr r (by simp)) [] e o
    rw [show ([r] : List (NavRow α)).flatMap eleven = eleven r ++ [] by simp]
    rw [loop_round (fuel + 1) cnt _ _ _ _ rfl h1]
    cases e with
    | false =>
      rw [loop_eof _ _ _ _ rfl]
      by_cases hc : cnt % 10 = 0
      · rw [if_pos hc, show [r] ++ (if false = true then _ else []) = [r] from rfl, everyFrom_pos _ _ hc]; rfl
      · rw [if_neg hc, show [r] ++ (if false = true then _ else []) = [r] from rfl, everyFrom_neg _ _ hc]; rfl
    | true =>
      have h2 := odo_end (setRow o r.week (rowValues r)) true
      rw [show (⟨[], true, List.isEmpty ([] : List (Word α)) && !true, false⟩ : In α) = ⟨[], true, false, false⟩ from rfl]
      rw [loop_round fuel (cnt + 1) _ _ _ _ rfl h2, loop_eof _ _ _ _ rfl]
      rw [show [r] ++ (if true = true then [([r] : List (NavRow α)).getLast (by simp)] else []) = [r, r] from rfl]
      by_cases hc : cnt % 10 = 0
      · rw [if_pos hc, if_neg (by omega), everyFrom_pos _ _ hc, everyFrom_neg _ _ (by omega)]; rfl
      · rw [if_neg hc, everyFrom_neg _ _ hc]
        by_cases hd : (cnt + 1) % 10 = 0
        · rw [if_pos hd, everyFrom_pos _ _ hd]; rfl
        · rw [if_neg hd, everyFrom_neg _ _ hd]; rfl
  | r :: r' :: rows, _, hr, fuel, cnt, o, hf => by
    obtain ⟨fuel, rfl⟩ : ∃ m, fuel = m + 1 := ⟨fuel - 1, by simp at hf; omega⟩
    have h1 := odo_row r (hr r (by simp)) ((r' :: rows).flatMap eleven) e o
    have ih := loop_rows junk e (r' :: rows) (by simp) (fun x hx => hr x (by simp [hx])) fuel (cnt + 1) (setRow o r.week (rowValues r))
      (by simpa using hf)
    rw [List.flatMap_cons, loop_round fuel cnt _ _ _ _ rfl h1]
    rw [show (((r' :: rows).flatMap eleven).isEmpty && !e) = false from rfl, ih, List.getLast_cons (List.cons_ne_nil r' rows)]
    simp only [List.cons_append]
    by_cases hc : cnt % 10 = 0
    · rw [if_pos hc, everyFrom_pos _ _ hc]; rfl
    · rw [if_neg hc, everyFrom_neg _ _ hc]

/-! ## Result files of the project -/

/-- The values of the record the generator reads across the columns from the longitude on. -/
def strayValues (r : NavRow α) : Fin 10 → α :=
  ![r.lon.frac, r.height.value, r.v0.value, r.v1.value, r.v2.value, r.a0.value, r.a1.value, r.a2.value, r.modeValue, r.sensorsValue]

theorem round1 (r : NavRow α) (hr : r.fits) (ws : List (Word α)) (o : NavOutput α) :
    In.nav ⟨thirteen r ++ ws, true, false, false⟩ o =
      (setRow o r.week (rowValues r), ⟨.int r.mode r.modeValue :: .int r.sensors r.sensorsValue :: ws, true, false, false⟩) := by
  have := odo_row r hr.1 (.int r.mode r.modeValue :: .int r.sensors r.sensorsValue :: ws) true o
  rw [show thirteen r ++ ws = eleven r ++ (.int r.mode r.modeValue :: .int r.sensors r.sensorsValue :: ws) from rfl]
  exact this

theorem round2 (r r2 : NavRow α) (hr : r.fits) (ws : List (Word α)) (o : NavOutput α) : ∃ o',
    In.nav ⟨.int r.mode r.modeValue :: .int r.sensors r.sensorsValue :: (thirteen r2 ++ ws), true, false, false⟩ o =
      (o', ⟨r2.a1.word :: r2.a2.word :: .int r2.mode r2.modeValue :: .int r2.sensors r2.sensorsValue :: ws, true, false, false⟩) :=
  ⟨_, odo_full (w := ![.int r.sensors r.sensorsValue, .int r2.week r2.weekValue, r2.time.word, r2.lat.word, r2.lon.word,
    r2.height.word, r2.v0.word, r2.v1.word, r2.v2.word, r2.a0.word]) (x := ![r.sensorsValue, r2.weekValue, r2.time.value, r2.lat.value,
    r2.lon.value, r2.height.value, r2.v0.value, r2.v1.value, r2.v2.value, r2.a0.value]) (odo_int r.mode hr.2.1 _ _ _ true _)
    (by intro i; fin_cases i <;> rfl)⟩

theorem round3 (r r2 : NavRow α) (hr : r.fits) (ws : List (Word α)) (o : NavOutput α) : ∃ o',
    In.nav ⟨r.a1.word :: r.a2.word :: .int r.mode r.modeValue :: .int r.sensors r.sensorsValue :: (thirteen r2 ++ ws), true, false, false⟩ o =
      (o', ⟨r2.v1.word :: r2.v2.word :: r2.a0.word :: r2.a1.word :: r2.a2.word :: .int r2.mode r2.modeValue ::
        .int r2.sensors r2.sensorsValue :: ws, true, false, false⟩) :=
  ⟨_, odo_full (w := ![.rest r.a1.frac, r.a2.word, .int r.mode r.modeValue, .int r.sensors r.sensorsValue, .int r2.week r2.weekValue,
    r2.time.word, r2.lat.word, r2.lon.word, r2.height.word, r2.v0.word]) (x := ![r.a1.frac, r.a2.value, r.modeValue, r.sensorsValue,
    r2.weekValue, r2.time.value, r2.lat.value, r2.lon.value, r2.height.value, r2.v0.value]) (odo_dec r.a1 hr.2.2.2.2 _ true _)
    (by intro i; fin_cases i <;> rfl)⟩

theorem round4 (r r2 : NavRow α) (hr : r.fits) (ws : List (Word α)) (o : NavOutput α) : ∃ o',
    In.nav ⟨r.v1.word :: r.v2.word :: r.a0.word :: r.a1.word :: r.a2.word :: .int r.mode r.modeValue ::
        .int r.sensors r.sensorsValue :: (thirteen r2 ++ ws), true, false, false⟩ o =
      (o', ⟨r2.lon.word :: r2.height.word :: r2.v0.word :: r2.v1.word :: r2.v2.word :: r2.a0.word :: r2.a1.word :: r2.a2.word ::
        .int r2.mode r2.modeValue :: .int r2.sensors r2.sensorsValue :: ws, true, false, false⟩) :=
  ⟨_, odo_full (w := ![.rest r.v1.frac, r.v2.word, r.a0.word, r.a1.word, r.a2.word, .int r.mode r.modeValue, .int r.sensors r.sensorsValue,
    .int r2.week r2.weekValue, r2.time.word, r2.lat.word]) (x := ![r.v1.frac, r.v2.value, r.a0.value, r.a1.value, r.a2.value, r.modeValue,
    r.sensorsValue, r2.weekValue, r2.time.value, r2.lat.value]) (odo_dec r.v1 hr.2.2.2.1 _ true _)
    (by intro i; fin_cases i <;> rfl)⟩

theorem round5 (r : NavRow α) (hr : r.fits) (ws : List (Word α)) (o : NavOutput α) :
    In.nav ⟨r.lon.word :: r.height.word :: r.v0.word :: r.v1.word :: r.v2.word :: r.a0.word :: r.a1.word :: r.a2.word ::
        .int r.mode r.modeValue :: .int r.sensors r.sensorsValue :: ws, true, false, false⟩ o =
      (setRow o r.lon.whole (strayValues r), ⟨ws, true, false, false⟩) := by
  have := odo_full (o := o) (w := ![.rest r.lon.frac, r.height.word, r.v0.word, r.v1.word, r.v2.word, r.a0.word, r.a1.word, r.a2.word,
    .int r.mode r.modeValue, .int r.sensors r.sensorsValue]) (ws := ws) (x := strayValues r) (odo_dec r.lon hr.2.2.1 (r.height.word :: r.v0.word ::
      r.v1.word :: r.v2.word :: r.a0.word :: r.a1.word :: r.a2.word :: .int r.mode r.modeValue :: .int r.sensors r.sensorsValue :: ws) true _)
    (by intro i; fin_cases i <;> rfl)
  simpa using this

theorem end2 (r : NavRow α) (hr : r.fits) (o : NavOutput α) :
    (In.nav ⟨[.int r.mode r.modeValue, .int r.sensors r.sensorsValue], true, false, false⟩ o).2.eof = true :=
  odo_short (odo_int r.mode hr.2.1 _ _ _ true _) (by intro w hw; fin_cases hw; exact nofun) (by simp)

theorem end3 (r : NavRow α) (hr : r.fits) (o : NavOutput α) :
    (In.nav ⟨[r.a1.word, r.a2.word, .int r.mode r.modeValue, .int r.sensors r.sensorsValue], true, false, false⟩ o).2.eof = true :=
  odo_short (odo_dec r.a1 hr.2.2.2.2 _ true _) (by intro w hw; fin_cases hw <;> exact nofun) (by simp)

theorem end4 (r : NavRow α) (hr : r.fits) (o : NavOutput α) :
    (In.nav ⟨[r.v1.word, r.v2.word, r.a0.word, r.a1.word, r.a2.word, .int r.mode r.modeValue, .int r.sensors r.sensorsValue],
      true, false, false⟩ o).2.eof = true :=
  odo_short (odo_dec r.v1 hr.2.2.2.1 _ true _) (by intro w hw; fin_cases hw <;> exact nofun) (by simp)

/-- The line written when the file has ended: of what was read last. -/
def staleLine (o : NavOutput α) (rows : List (NavRow α)) : α × α × α × α :=
  match rows.getLast? with
  | none => odo o
  | some r => odo (setRow o 0 (strayValues r))

theorem loop_results (junk : NavOutput α) : ∀ (rows : List (NavRow α)) (_ : ∀ r ∈ rows, r.fits)
    (fuel cnt c : Nat) (o : NavOutput α), 2 * rows.length + 2 ≤ fuel → (cnt % 10 = 0 ∧ c % 8 = 0) ∨ (cnt % 10 = 5 ∧ c % 8 = 4) →
    loop fuel cnt o ⟨rows.flatMap thirteen, true, false, false⟩ =
      ((everyFrom 8 c rows).map (rowLine junk) ++ (if (c + rows.length) % 8 = 0 then [staleLine o rows] else []), true)
  | [], _, fuel, cnt, c, o, hf, hc => by
    obtain ⟨fuel, rfl⟩ : ∃ m, fuel = m + 1 := ⟨fuel - 1, by omega⟩
    rw [List.flatMap_nil, loop_round fuel cnt _ _ _ _ rfl (odo_end o true), loop_eof _ _ _ _ rfl]
    rcases hc with ⟨h1, h2⟩ | ⟨h1, h2⟩
    · rw [if_pos h1, if_pos (by simpa using h2)]; rfl
    · rw [if_neg (by omega), if_neg (by simp [h2])]; rfl
  | [r], hr, fuel, cnt, c, o, hf, hc => by
    obtain ⟨fuel, rfl⟩ : ∃ m, fuel = m + 2 := ⟨fuel - 2, by simp at hf; omega⟩
    have f1 := hr r (by simp)
    rw [show ([r] : List (NavRow α)).flatMap thirteen = thirteen r ++ [] by simp]
    rw [loop_round (fuel + 1) cnt _ _ _ _ rfl (round1 r f1 [] o), loop_last _ _ _ _ rfl (by omega) (end2 r f1 _)]
    have hn : ¬ (c + ([r] : List (NavRow α)).length) % 8 = 0 := by show ¬ (c + 1) % 8 = 0; omega
    rw [if_neg hn]
    rcases hc with ⟨h1, h2⟩ | ⟨h1, h2⟩
    · rw [if_pos h1, everyFrom_pos _ _ h2]; rfl
    · rw [if_neg (by omega), everyFrom_neg _ _ (by omega)]; rfl
  | [r, r2], hr, fuel, cnt, c, o, hf, hc => by
    obtain ⟨fuel, rfl⟩ : ∃ m, fuel = m + 3 := ⟨fuel - 3, by simp at hf; omega⟩
    have f1 := hr r (by simp)
    have f2 := hr r2 (by simp)
    rw [show ([r, r2] : List (NavRow α)).flatMap thirteen = thirteen r ++ (thirteen r2 ++ []) by simp]
    obtain ⟨o2, e2⟩ := round2 r r2 f1 [] (setRow o r.week (rowValues r))
    rw [loop_round (fuel + 2) cnt _ _ _ _ rfl (round1 r f1 _ o), loop_silent _ _ _ _ _ _ rfl (by omega) e2,
      loop_last _ _ _ _ rfl (by omega) (end3 r2 f2 _)]
    have hn : ¬ (c + ([r, r2] : List (NavRow α)).length) % 8 = 0 := by show ¬ (c + 2) % 8 = 0; omega
    rw [if_neg hn]
    rcases hc with ⟨h1, h2⟩ | ⟨h1, h2⟩
    · rw [if_pos h1, everyFrom_pos _ _ h2, everyFrom_neg _ _ (by omega)]; rfl
    · rw [if_neg (by omega), everyFrom_neg _ _ (by omega), everyFrom_neg _ _ (by omega)]; rfl
  | [r, r2, r3], hr, fuel, cnt, c, o, hf, hc => by
    obtain ⟨fuel, rfl⟩ : ∃ m, fuel = m + 4 := ⟨fuel - 4, by simp at hf; omega⟩
    have f1 := hr r (by simp)
    have f2 := hr r2 (by simp)
    have f3 := hr r3 (by simp)
    rw [show ([r, r2, r3] : List (NavRow α)).flatMap thirteen = thirteen r ++ (thirteen r2 ++ (thirteen r3 ++ [])) by simp]
    obtain ⟨o2, e2⟩ := round2 r r2 f1 (thirteen r3 ++ []) (setRow o r.week (rowValues r))
    obtain ⟨o3, e3⟩ := round3 r2 r3 f2 [] o2
    rw [loop_round (fuel + 3) cnt _ _ _ _ rfl (round1 r f1 _ o), loop_silent _ _ _ _ _ _ rfl (by omega) e2,
      loop_silent _ _ _ _ _ _ rfl (by omega) e3, loop_last _ _ _ _ rfl (by omega) (end4 r3 f3 _)]
    have hn : ¬ (c + ([r, r2, r3] : List (NavRow α)).length) % 8 = 0 := by show ¬ (c + 3) % 8 = 0; omega
    rw [if_neg hn]
    rcases hc with ⟨h1, h2⟩ | ⟨h1, h2⟩
    · rw [if_pos h1, everyFrom_pos _ _ h2, everyFrom_neg _ _ (by omega), everyFrom_neg _ _ (by omega)]; rfl
    · rw [if_neg (by omega), everyFrom_neg _ _ (by omega), everyFrom_neg _ _ (by omega), everyFrom_neg _ _ (by omega)]; rfl
  | r :: r2 :: r3 :: r4 :: rows, hr, fuel, cnt, c, o, hf, hc => by
    obtain ⟨fuel, rfl⟩ : ∃ m, fuel = m + 5 := ⟨fuel - 5, by simp at hf; omega⟩
    have f1 := hr r (by simp)
    have f2 := hr r2 (by simp)
    have f3 := hr r3 (by simp)
    have f4 := hr r4 (by simp)
    rw [show (r :: r2 :: r3 :: r4 :: rows).flatMap thirteen = thirteen r ++ (thirteen r2 ++ (thirteen r3 ++ (thirteen r4 ++
      rows.flatMap thirteen))) by simp]
    obtain ⟨o2, e2⟩ := round2 r r2 f1 (thirteen r3 ++ (thirteen r4 ++ rows.flatMap thirteen)) (setRow o r.week (rowValues r))
    obtain ⟨o3, e3⟩ := round3 r2 r3 f2 (thirteen r4 ++ rows.flatMap thirteen) o2
    obtain ⟨o4, e4⟩ := round4 r3 r4 f3 (rows.flatMap thirteen) o3
    have e5 := round5 r4 f4 (rows.flatMap thirteen) o4
    rw [loop_round (fuel + 4) cnt _ _ _ _ rfl (round1 r f1 _ o), loop_silent _ _ _ _ _ _ rfl (by omega) e2,
      loop_silent _ _ _ _ _ _ rfl (by omega) e3, loop_silent _ _ _ _ _ _ rfl (by omega) e4, loop_silent _ _ _ _ _ _ rfl (by omega) e5]
    have ih := loop_results junk rows (fun x hx => hr x (by simp [hx])) fuel (cnt + 1 + 1 + 1 + 1 + 1) (c + 4)
      (setRow o4 r4.lon.whole (strayValues r4)) (by simp at hf; omega) (by omega)
    rw [ih]
    have hs : staleLine (setRow o4 r4.lon.whole (strayValues r4)) rows = staleLine o (r :: r2 :: r3 :: r4 :: rows) := by
      cases rows with
      | nil => rfl
      | cons a l => simp only [staleLine, List.getLast?_cons]; rfl
    rw [hs, show c + (r :: r2 :: r3 :: r4 :: rows).length = c + 4 + rows.length by simp; omega]
    rcases hc with ⟨h1, h2⟩ | ⟨h1, h2⟩
    · rw [if_pos h1, everyFrom_pos _ _ h2, everyFrom_neg _ _ (by omega), everyFrom_neg _ _ (by omega), everyFrom_neg _ _ (by omega)]; rfl
    · rw [if_neg (by omega), everyFrom_neg _ _ (by omega), everyFrom_neg _ _ (by omega), everyFrom_neg _ _ (by omega),
        everyFrom_neg _ _ (by omega)]

/-! ## Streams that have failed -/

theorem loop_failed (ws : List (Word α)) (e : Bool) (o : NavOutput α) (fuel cnt : Nat) :
    loop fuel cnt o ⟨ws, e, false, true⟩ =
      (List.replicate (((List.range' cnt fuel).filter fun k => k % 10 = 0).length) (odo o), false) := by
  induction fuel generalizing cnt with
  | zero => rfl
  | succ fuel ih =>
    rw [loop_round fuel cnt _ _ _ _ rfl (odo_failed ws e o), ih, List.range'_succ, List.filter_cons]
    by_cases h : cnt % 10 = 0
    · rw [if_pos h, if_pos (decide_eq_true h)]; rfl
    · rw [if_neg h, if_neg (by simpa using h)]

theorem tens (cnt fuel : Nat) : ((List.range' cnt fuel).filter fun k => k % 10 = 0).length = (cnt + fuel + 9) / 10 - (cnt + 9) / 10 := by
  induction fuel generalizing cnt with
  | zero => simp
  | succ fuel ih =>
    rw [List.range'_succ, List.filter_cons]
    by_cases h : cnt % 10 = 0
    · rw [if_pos (decide_eq_true h), List.length_cons, ih]; omega
    · rw [if_neg (by simpa using h), ih]; omega

/-- C165: the file is missing (which is reported): the program goes on for ever, and writes the same line, made of memory that
was never set, over and over: after `n` rounds there are `⌈n / 10⌉` of them. -/
theorem C165_missing_file (junk : NavOutput α) (n : Nat) :
    OdoGen.main n junk none = (List.replicate ((n + 9) / 10) (odo junk), false) := by
  show loop n 0 junk ⟨[], false, false, true⟩ = _
  rw [loop_failed, tens]
  congr 2
  omega

/-- A word that makes the extraction of a week fail, after any rows. -/
theorem loop_stuck (w : Word α) (more ws' : List (Word α)) (e : Bool)
    (hw : ∀ o : NavOutput α, ∃ wk, In.int ⟨w :: more, e, false, false⟩ o.week = (wk, ⟨ws', e, false, true⟩)) :
    ∀ (rows : List (NavRow α)) (_ : ∀ r ∈ rows, intRange r.week) (n cnt : Nat) (o : NavOutput α),
      (loop n cnt o ⟨rows.flatMap eleven ++ w :: more, e, false, false⟩).2 = false ∧
        (cnt + n + 9) / 10 - (cnt + 9) / 10 ≤ (loop n cnt o ⟨rows.flatMap eleven ++ w :: more, e, false, false⟩).1.length := by
  intro rows
  induction rows with
  | nil =>
    intro _ n cnt o
    cases n with
    | zero => exact ⟨rfl, by simp⟩
    | succ n =>
      obtain ⟨wk, hwk⟩ := hw o
      have h := odo_stuck_after (⟨w :: more, e, false, false⟩ : In α) o wk ⟨ws', e, false, true⟩ hwk rfl
      rw [List.flatMap_nil, List.nil_append, loop_round n cnt _ _ _ _ rfl h, loop_failed, tens]
      refine ⟨rfl, ?_⟩
      dsimp only
      split_ifs with hc
      · rw [List.length_cons, List.length_replicate]; omega
      · rw [List.length_replicate]; omega
  | cons r rows ih =>
    intro hr n cnt o
    cases n with
    | zero => exact ⟨rfl, by simp⟩
    | succ n =>
      have h := odo_row r (hr r (by simp)) (rows.flatMap eleven ++ w :: more) e o
      have hne : ((rows.flatMap eleven ++ w :: more).isEmpty && !e) = false := by
        have : (rows.flatMap eleven ++ w :: more).isEmpty = false := by cases rows <;> rfl
        rw [this]; rfl
      rw [hne] at h
      obtain ⟨i1, i2⟩ := ih (fun x hx => hr x (by simp [hx])) n (cnt + 1) (setRow o r.week (rowValues r))
      rw [List.flatMap_cons, List.append_assoc, loop_round n cnt _ _ _ _ rfl h]
      refine ⟨i1, ?_⟩
      dsimp only
      split_ifs with hc
      · rw [List.length_cons]; omega
      · omega

/-- C165: a word where a week is expected that is no number: the program never ends and the file it writes grows without
bound, whatever precedes and follows. -/
theorem C165_bad_word (junk : NavOutput α) (rows : List (NavRow α)) (hr : ∀ r ∈ rows, intRange r.week) (more : List (Word α)) (e : Bool)
    (n : Nat) :
    (OdoGen.main n junk (some (rows.flatMap eleven ++ .bad :: more, e))).2 = false ∧
      n / 10 ≤ (OdoGen.main n junk (some (rows.flatMap eleven ++ .bad :: more, e))).1.length := by
  show (loop n 0 junk _).2 = false ∧ n / 10 ≤ (loop n 0 junk _).1.length
  have := loop_stuck .bad more (.bad :: more) e (fun o => ⟨0, rfl⟩) rows hr n 0 junk
  refine ⟨this.1, le_trans ?_ this.2⟩
  omega

/-- C165: a week that no C++ `int` holds, with something after it, does the same: the program never ends. -/
theorem C165_huge_week (junk : NavOutput α) (rows : List (NavRow α)) (hr : ∀ r ∈ rows, intRange r.week) (k : Int) (hk : ¬ intRange k) (x : α)
    (next : Word α) (more : List (Word α)) (e : Bool) (n : Nat) :
    (OdoGen.main n junk (some (rows.flatMap eleven ++ .int k x :: next :: more, e))).2 = false ∧
      n / 10 ≤ (OdoGen.main n junk (some (rows.flatMap eleven ++ .int k x :: next :: more, e))).1.length := by
  show (loop n 0 junk _).2 = false ∧ n / 10 ≤ (loop n 0 junk _).1.length
  have ht : tooLarge k = true := by
    unfold intRange at hk
    unfold tooLarge
    exact decide_eq_true (by omega)
  have := loop_stuck (.int k x) (next :: more) (next :: more) e (fun o => ⟨storedInt k, by
    show (storedInt k, (⟨next :: more, e, false, tooLarge k⟩ : In α)) = _
    rw [ht]⟩) rows hr n 0 junk
  refine ⟨this.1, le_trans ?_ this.2⟩
  omega

/-- The first number too large for a C++ `int`. -/
example : ¬ intRange 2147483648 := by unfold intRange; omega

end anyScalar

theorem odo_real (o : NavOutput ℝ) :
    odo o = odometerLine o.gpst (o.atti 0) (o.atti 1) (o.atti 2) ![o.vn 0, o.vn 1, o.vn 2] := by
  have e1 : (cbv : M3 ℝ) = Rz (-(4 * (Real.pi / 180))) * Ry (-(2 * (Real.pi / 180))) * Rx (-(3 * (Real.pi / 180))) := by
    unfold cbv
    rw [eulerToDcm_eq]
    simp [v3, deg]
  have e2 : Convert.eulerToDcm (v3 (o.atti 0 * deg) (o.atti 1 * deg) (o.atti 2 * deg) : V3 ℝ) =
      Rz (o.atti 2 * (Real.pi / 180)) * Ry (o.atti 1 * (Real.pi / 180)) * Rx (o.atti 0 * (Real.pi / 180)) := by
    rw [eulerToDcm_eq]
    simp [v3, deg]
  unfold odo odometerLine vehicleVelocity
  dsimp only
  rw [e1, e2]
  simp only [mvec_real, v3, lit_real]
  norm_num

/-- C165, files with the eleven columns the program reads: it ends, and the file it wrote has the odometer line of every tenth record,
with the time and the velocity of the record. When the last line is ended by a new line (`e`) the last record counts twice. -/
theorem C165_eleven_columns (junk : NavOutput ℝ) (e : Bool) (rows : List (NavRow ℝ)) (hne : rows ≠ []) (hr : ∀ r ∈ rows, intRange r.week)
    (n : Nat) (hn : rows.length + 1 ≤ n) :
    OdoGen.main n junk (some (rows.flatMap eleven, e)) =
      ((everyNth 10 (rows ++ if e then [rows.getLast hne] else [])).map rowOdometer, true) := by
  have hl : rowLine junk = rowOdometer := by
    funext r
    unfold rowLine
    rw [odo_real]
    rfl
  have := loop_rows junk e rows hne hr n 0 junk hn
  rw [hl] at this
  exact this

/-- C165, result files as the programs of this project write them (thirteen columns, every line ended by a new line): the
program ends, and the file it wrote has the odometer line of every *eighth* record; when the number of records is divisible by eight, one more
line follows whose numbers come from the wrong columns. -/
theorem C165_result_files_partial (junk : NavOutput ℝ) (rows : List (NavRow ℝ)) (hne : rows ≠ []) (hr : ∀ r ∈ rows, r.fits)
    (n : Nat) (hn : 2 * rows.length + 2 ≤ n) :
    OdoGen.main n junk (some (rows.flatMap thirteen, true)) =
      ((everyNth 8 rows).map rowOdometer ++ (if rows.length % 8 = 0 then [strayOdometer (rows.getLast hne)] else []), true) := by
  have hl : rowLine junk = rowOdometer := by
    funext r
    unfold rowLine
    rw [odo_real]
    rfl
  have := loop_results junk rows hr n 0 0 junk hn (Or.inl ⟨rfl, rfl⟩)
  rw [hl, Nat.zero_add] at this
  have hs : staleLine junk rows = strayOdometer (rows.getLast hne) := by
    unfold staleLine
    rw [List.getLast?_eq_getLast_of_ne_nil hne]
    dsimp only
    rw [odo_real]
    rfl
  rw [hs] at this
  exact this

/-- The speed in a line is that of the record: the forward speed times 1.4 and the two other components have the length of the velocity. -/
theorem C165_speed (r : NavRow ℝ) :
    let l := rowOdometer r
    l.1 = r.time.value ∧
      (1.4 * l.2.1) ^ 2 + l.2.2.1 ^ 2 + l.2.2.2 ^ 2 = r.v0.value ^ 2 + r.v1.value ^ 2 + r.v2.value ^ 2 := by
  have hrot : ∀ (C : M3 ℝ), isRot C → ∀ v : V3 ℝ, (C.mulVec v) 0 ^ 2 + (C.mulVec v) 1 ^ 2 + (C.mulVec v) 2 ^ 2 = v 0 ^ 2 + v 1 ^ 2 + v 2 ^ 2 := by
    intro C hC v
    have h := hC.2.1
    have e00 := congrFun (congrFun h 0) 0
    have e01 := congrFun (congrFun h 0) 1
    have e02 := congrFun (congrFun h 0) 2
    have e11 := congrFun (congrFun h 1) 1
    have e12 := congrFun (congrFun h 1) 2
    have e22 := congrFun (congrFun h 2) 2
    simp [Matrix.mul_apply, Fin.sum_univ_three] at e00 e01 e02 e11 e12 e22
    simp only [Matrix.mulVec, dotProduct, Fin.sum_univ_three]
    linear_combination v 0 ^ 2 * e00 + 2 * v 0 * v 1 * e01 + 2 * v 0 * v 2 * e02 + v 1 ^ 2 * e11 + 2 * v 1 * v 2 * e12 + v 2 ^ 2 * e22
  refine ⟨rfl, ?_⟩
  have ht : ∀ C : M3 ℝ, isRot C → isRot C.transpose := by
    intro C hC
    refine ⟨?_, ?_, ?_⟩
    · rw [Matrix.transpose_transpose]; exact hC.2.1
    · rw [Matrix.transpose_transpose]; exact hC.1
    · rw [Matrix.det_transpose]; exact hC.2.2
  set A : M3 ℝ := Rz (-(4 * (Real.pi / 180))) * Ry (-(2 * (Real.pi / 180))) * Rx (-(3 * (Real.pi / 180))) with hA
  set B : M3 ℝ := Rz (r.a2.value * (Real.pi / 180)) * Ry (r.a1.value * (Real.pi / 180)) * Rx (r.a0.value * (Real.pi / 180)) with hB
  have iA : isRot A := isRot_mul (isRot_mul (isRot_Rz _) (isRot_Ry _)) (isRot_Rx _)
  have iB : isRot B := isRot_mul (isRot_mul (isRot_Rz _) (isRot_Ry _)) (isRot_Rx _)
  have h1 := hrot A iA (B.transpose.mulVec ![r.v0.value, r.v1.value, r.v2.value])
  have h2 := hrot B.transpose (ht B iB) ![r.v0.value, r.v1.value, r.v2.value]
  have h3 := h1.trans h2
  have h4 : (![r.v0.value, r.v1.value, r.v2.value] : V3 ℝ) 0 ^ 2 + (![r.v0.value, r.v1.value, r.v2.value] : V3 ℝ) 1 ^ 2 +
    (![r.v0.value, r.v1.value, r.v2.value] : V3 ℝ) 2 ^ 2 = r.v0.value ^ 2 + r.v1.value ^ 2 + r.v2.value ^ 2 := rfl
  rw [h4] at h3
  have e : ∀ x : ℝ, 1.4 * (x / 1.4) = x := by intro x; rw [mul_div_assoc']; exact mul_div_cancel_left₀ x (by norm_num)
  show (1.4 * (A.mulVec (B.transpose.mulVec ![r.v0.value, r.v1.value, r.v2.value]) 0 / 1.4)) ^ 2 +
    (A.mulVec (B.transpose.mulVec ![r.v0.value, r.v1.value, r.v2.value]) 2) ^ 2 +
    (A.mulVec (B.transpose.mulVec ![r.v0.value, r.v1.value, r.v2.value]) 1) ^ 2 = _
  rw [e]
  linear_combination h3

/-- A row: week 2100, one second, 30 degrees north, 114.5 degrees east, one metre per second to the north. -/
noncomputable def demoRow : NavRow ℝ :=
  ⟨2100, 2100, ⟨1, 0, 1⟩, ⟨30, 0, 30⟩, ⟨114, 1 / 2, 229 / 2⟩, ⟨20, 0, 20⟩, ⟨1, 0, 1⟩, ⟨0, 0, 0⟩, ⟨0, 0, 0⟩, ⟨0, 0, 0⟩, ⟨0, 0, 0⟩, ⟨0, 0, 0⟩,
    4, 4, 1, 1⟩

theorem demoRow_fits : demoRow.fits := by unfold NavRow.fits intRange demoRow; norm_num

/-- Eight equal lines of a result file: the odometer file claims something about the instant 0.5 s, the digits of the longitude
after the point, where every line says 1 s. -/
theorem C165_violated (junk : NavOutput ℝ) :
    (OdoGen.main 18 junk (some ((List.replicate 8 demoRow).flatMap thirteen, true))).1.map Prod.fst = [1, 1 / 2] := by
  rw [C165_result_files_partial junk (List.replicate 8 demoRow) (by simp) (by intro r hr; rw [List.eq_of_mem_replicate hr]; exact demoRow_fits)
    18 (by simp)]
  rfl

/-- Non-vacuity: the same lines with eleven columns. -/
example (junk : NavOutput ℝ) : (OdoGen.main 12 junk (some ((List.replicate 11 demoRow).flatMap eleven, false))).1.map Prod.fst = [1, 1] := by
  rw [C165_eleven_columns junk false (List.replicate 11 demoRow) (by simp)
    (by intro r hr; rw [List.eq_of_mem_replicate hr]; exact demoRow_fits.1) 12 (by simp)]
  rfl
end Verif.Props
