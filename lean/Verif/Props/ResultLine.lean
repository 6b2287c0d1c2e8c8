import Verif.Model.ResultLine
import Verif.Spec.ResultLine
import Mathlib.Tactic.Ring
import Mathlib.Tactic.Linarith
import Mathlib.Tactic.NormNum
import Mathlib.Tactic.SplitIfs
import Mathlib.Tactic.FieldSimp
import Mathlib.Tactic.IntervalCases
import Mathlib.Tactic.Push
import Mathlib.Data.Nat.Log
/-! The text of the result file (C154). -/
namespace Verif.Props
open Verif Verif.Spec Verif.ResultLine

theorem nearest_half (x : ℝ) : |(nearest x : ℝ) - x| ≤ 1 / 2 := by
  have h0 := Int.floor_le x
  have h1 := Int.lt_floor_add_one x
  unfold nearest
  split_ifs with a b c <;> rw [abs_le] <;> push_cast <;> constructor <;> linarith

theorem nearest_mono {x y : ℝ} (h : x ≤ y) : nearest x ≤ nearest y := by
  have hf := Int.floor_le_floor h
  have hx0 := Int.floor_le x
  have hx1 := Int.lt_floor_add_one x
  have hy0 := Int.floor_le y
  have hy1 := Int.lt_floor_add_one y
  rcases hf.lt_or_eq with h' | h'
  · have a : nearest x ≤ ⌊x⌋ + 1 := by unfold nearest; split_ifs <;> omega
    have b : ⌊y⌋ ≤ nearest y := by unfold nearest; split_ifs <;> omega
    omega
  · unfold nearest
    rw [h']
    rw [h'] at hx0 hx1
    split_ifs <;> first | omega | (exfalso; linarith)

theorem digit_val : ∀ n : Nat, (digit n).isDigit = true ∧ (digit n).toNat - 48 = n % 10 ∧ digit n ≠ ' ' ∧ digit n ≠ '.' ∧ digit n ≠ '\n' ∧ digit n ≠ '-' := by
  intro n
  have key : ∀ k, k < 10 → (Char.ofNat (48 + k)).isDigit = true ∧ (Char.ofNat (48 + k)).toNat - 48 = k ∧ Char.ofNat (48 + k) ≠ ' ' ∧
      Char.ofNat (48 + k) ≠ '.' ∧ Char.ofNat (48 + k) ≠ '\n' ∧ Char.ofNat (48 + k) ≠ '-' := by decide
  exact key (n % 10) (Nat.mod_lt _ (by norm_num))

theorem value_append (a : List Char) (c : Char) : digitsValue (a ++ [c]) = 10 * digitsValue a + (c.toNat - 48) := by
  simp [digitsValue]

theorem natText_facts (n : Nat) : natText n ≠ [] ∧ (∀ c ∈ natText n, ∃ k, c = digit k) ∧ digitsValue (natText n) = n := by
  induction n using Nat.strongRecOn with
  | _ n ih =>
    rw [natText]
    split_ifs with h
    · refine ⟨by simp, by simp, ?_⟩
      have := (digit_val n).2.1
      simp only [digitsValue, List.foldl_cons, List.foldl_nil]
      omega
    · obtain ⟨-, h2, h3⟩ := ih (n / 10) (by omega)
      refine ⟨by simp, ?_, ?_⟩
      · intro c hc
        rcases List.mem_append.1 hc with hc | hc
        · exact h2 c hc
        · exact ⟨n, by simpa using hc⟩
      · rw [value_append, h3, (digit_val n).2.1]
        omega

theorem fracText_facts (d : Nat) : ∀ n, (fracText d n).length = d ∧ (∀ c ∈ fracText d n, ∃ k, c = digit k) ∧
    digitsValue (fracText d n) = n % 10 ^ d := by
  induction d with
  | zero => intro n; simp [fracText, digitsValue, Nat.mod_one]
  | succ d ih =>
    intro n
    obtain ⟨h1, h2, h3⟩ := ih (n / 10)
    refine ⟨by simp [fracText, h1], ?_, ?_⟩
    · intro c hc
      rcases List.mem_append.1 hc with hc | hc
      · exact h2 c hc
      · exact ⟨n, by simpa using hc⟩
    · show digitsValue (fracText d (n / 10) ++ [digit n]) = _
      rw [value_append, h3, (digit_val n).2.1, pow_succ, Nat.mul_comm (10 ^ d) 10, Nat.mod_mul]
      omega

theorem pieces_none (c : Char) (t : List Char) (h : c ∉ t) : pieces c t = [t] := by
  induction t with
  | nil => rfl
  | cons x t ih =>
    have hx : x ≠ c := fun e => h (e ▸ List.mem_cons_self)
    rw [pieces, if_neg hx, ih fun k => h (List.mem_cons_of_mem _ k)]

theorem pieces_cut (c : Char) (t u : List Char) (h : c ∉ t) : pieces c (t ++ c :: u) = t :: pieces c u := by
  induction t with
  | nil => show (if c = c then _ else _) = _; rw [if_pos rfl]
  | cons x t ih =>
    have hx : x ≠ c := fun e => h (e ▸ List.mem_cons_self)
    rw [List.cons_append, pieces, if_neg hx, ih fun k => h (List.mem_cons_of_mem _ k)]

theorem digits_all (t : List Char) (h : ∀ c ∈ t, ∃ k, c = digit k) (hne : t ≠ []) : allDigits t = true := by
  unfold allDigits
  simp only [Bool.and_eq_true, bne_iff_ne, ne_eq, hne, not_false_eq_true, List.all_eq_true, true_and]
  intro c hc
  obtain ⟨k, rfl⟩ := h c hc
  exact (digit_val k).1

theorem digits_free (t : List Char) (h : ∀ c ∈ t, ∃ k, c = digit k) : ' ' ∉ t ∧ '.' ∉ t ∧ '\n' ∉ t ∧ '-' ∉ t := by
  refine ⟨?_, ?_, ?_, ?_⟩ <;> intro hc <;> obtain ⟨k, hk⟩ := h _ hc
  · exact (digit_val k).2.2.1 hk.symm
  · exact (digit_val k).2.2.2.1 hk.symm
  · exact (digit_val k).2.2.2.2.1 hk.symm
  · exact (digit_val k).2.2.2.2.2 hk.symm

theorem readNumber_plain (t : List Char) (h : '-' ∉ t) : readNumber t = readUnsigned t := by
  unfold readNumber
  split
  · exact absurd List.mem_cons_self h
  · rfl

theorem read_int (n : Int) : readNumber (intText n) = some (n : ℚ) := by
  obtain ⟨h1, h2, h3⟩ := natText_facts n.natAbs
  have free := digits_free _ h2
  have hu : readUnsigned (natText n.natAbs) = some (n.natAbs : ℚ) := by
    unfold readUnsigned
    rw [pieces_none _ _ free.2.1]
    simp only [digits_all _ h2 h1, if_true, h3]
  unfold intText
  split_ifs with hn
  · show (readUnsigned (natText n.natAbs)).map _ = _
    rw [hu]
    simp only [Option.map_some, Option.some.injEq]
    rw [Nat.cast_natAbs, abs_of_neg hn]
    push_cast
    ring
  · rw [List.nil_append, readNumber_plain _ free.2.2.2, hu, Nat.cast_natAbs, abs_of_nonneg (by omega)]

theorem read_fixed (d : Nat) (hd : d ≠ 0) (x : ℝ) : readNumber (fixedText d x) = some ((nearest (x * 10 ^ d) : ℚ) / 10 ^ d) := by
  set n := nearest (x * 10 ^ d) with hn
  obtain ⟨a1, a2, a3⟩ := natText_facts (n.natAbs / 10 ^ d)
  obtain ⟨b1, b2, b3⟩ := fracText_facts d (n.natAbs % 10 ^ d)
  have fa := digits_free _ a2
  have fb := digits_free _ b2
  have bne : fracText d (n.natAbs % 10 ^ d) ≠ [] := by
    intro h; rw [h] at b1; exact hd b1.symm
  have hu : readUnsigned (natText (n.natAbs / 10 ^ d) ++ ['.'] ++ fracText d (n.natAbs % 10 ^ d)) = some ((n.natAbs : ℚ) / 10 ^ d) := by
    unfold readUnsigned
    rw [List.append_assoc, List.singleton_append, pieces_cut _ _ _ fa.2.1, pieces_none _ _ fb.2.1]
    simp only [digits_all _ a2 a1, digits_all _ b2 bne, Bool.and_self, if_true, a3, b3, b1, Nat.mod_mod]
    congr 1
    have e := Nat.div_add_mod n.natAbs (10 ^ d)
    have hp : ((10 : ℚ) ^ d) ≠ 0 := by positivity
    rw [eq_div_iff hp, add_mul, div_mul_cancel₀ _ hp]
    have : ((10 ^ d * (n.natAbs / 10 ^ d) + n.natAbs % 10 ^ d : Nat) : ℚ) = n.natAbs := by rw [e]
    push_cast at this
    linarith
  have hpos : (0 : ℝ) < 10 ^ d := by positivity
  have near := abs_le.1 (nearest_half (x * 10 ^ d))
  rw [← hn] at near
  unfold fixedText
  dsimp only
  rw [← hn]
  split_ifs with hx
  · rw [List.append_assoc, List.append_assoc]
    show (readUnsigned (natText (n.natAbs / 10 ^ d) ++ (['.'] ++ fracText d (n.natAbs % 10 ^ d)))).map _ = _
    rw [← List.append_assoc, hu]
    have hle : n ≤ 0 := by
      have : x * 10 ^ d < 0 := mul_neg_of_neg_of_pos hx hpos
      have : (n : ℝ) < 1 := by linarith
      have : n < 1 := by exact_mod_cast this
      omega
    simp only [Option.map_some, Option.some.injEq]
    rw [Nat.cast_natAbs, abs_of_nonpos hle]
    push_cast
    ring
  · rw [List.nil_append, readNumber_plain, hu]
    · have hge : 0 ≤ n := by
        have : 0 ≤ x * 10 ^ d := mul_nonneg (not_lt.1 hx) hpos.le
        have : (-1 : ℝ) < n := by linarith
        have : (-1 : Int) < n := by exact_mod_cast this
        omega
      rw [Nat.cast_natAbs, abs_of_nonneg hge]
    · simp only [List.mem_append, List.mem_singleton, not_or]
      exact ⟨⟨fa.2.2.2, by decide⟩, fb.2.2.2⟩

theorem int_free (n : Int) : ' ' ∉ intText n ∧ '\n' ∉ intText n ∧ intText n ≠ [] := by
  obtain ⟨h1, h2, -⟩ := natText_facts n.natAbs
  have f := digits_free _ h2
  unfold intText
  refine ⟨?_, ?_, by simp [h1]⟩ <;> split_ifs <;> simp [f]

theorem fixed_free (d : Nat) (x : ℝ) : ' ' ∉ fixedText d x ∧ '\n' ∉ fixedText d x ∧ fixedText d x ≠ [] := by
  have fa := digits_free _ (natText_facts ((nearest (x * 10 ^ d)).natAbs / 10 ^ d)).2.1
  have fb := digits_free _ (fracText_facts d ((nearest (x * 10 ^ d)).natAbs % 10 ^ d)).2.1
  unfold fixedText
  dsimp only
  refine ⟨?_, ?_, by simp⟩ <;> split_ifs <;> simp [fa, fb]

theorem words_pad (n : Nat) (t : List Char) : wordsAt ' ' (List.replicate n ' ' ++ t) = wordsAt ' ' t := by
  induction n with
  | zero => rfl
  | succ n ih =>
    rw [List.replicate_succ, List.cons_append]
    unfold wordsAt at ih ⊢
    rw [pieces, if_pos rfl, List.filter_cons_of_neg (by simp), ih]

theorem words_one (t : List Char) (h : ' ' ∉ t) (hne : t ≠ []) : wordsAt ' ' t = [t] := by
  unfold wordsAt
  rw [pieces_none _ _ h]
  simp [hne]

theorem words_cons (t u : List Char) (h : ' ' ∉ t) (hne : t ≠ []) : wordsAt ' ' (t ++ ' ' :: u) = t :: wordsAt ' ' u := by
  unfold wordsAt
  rw [pieces_cut _ _ _ h, List.filter_cons_of_pos (by simpa using hne)]

/-- A field: a word without spaces, padded on the left. -/
structure Field (f w : List Char) : Prop where
  pad : ∃ n, f = List.replicate n ' ' ++ w
  free : ' ' ∉ w
  nl : '\n' ∉ w
  ne : w ≠ []

theorem spaced_words : ∀ fs ws, List.Forall₂ Field fs ws → wordsAt ' ' (spaced fs) = ws ∧ '\n' ∉ spaced fs ∧ (fs ≠ [] → spaced fs ≠ []) := by
  intro fs ws h
  induction h with
  | nil => exact ⟨rfl, by simp [spaced], fun h => absurd rfl h⟩
  | @cons f w fs ws hf hs ih =>
    obtain ⟨n, rfl⟩ := hf.pad
    have nlp : '\n' ∉ List.replicate n ' ' ++ w := by
      simp only [List.mem_append, not_or]
      exact ⟨fun k => absurd (List.eq_of_mem_replicate k) (by decide), hf.nl⟩
    cases hs with
    | nil =>
      refine ⟨?_, nlp, fun _ => by simp [spaced, hf.ne]⟩
      show wordsAt ' ' (List.replicate n ' ' ++ w) = _
      rw [words_pad, words_one _ hf.free hf.ne]
    | @cons f' w' fs ws hf' hs' =>
      refine ⟨?_, ?_, fun _ => by simp [spaced]⟩
      · show wordsAt ' ' ((List.replicate n ' ' ++ w) ++ ' ' :: spaced (f' :: fs)) = _
        rw [List.append_assoc, words_pad, words_cons _ _ hf.free hf.ne, ih.1]
      · show '\n' ∉ (List.replicate n ' ' ++ w) ++ ' ' :: spaced (f' :: fs)
        simp only [List.mem_append, List.mem_cons, not_or] at nlp ⊢
        exact ⟨nlp, by decide, ih.2.1⟩

/-- The words of a line. -/
noncomputable def fieldWords (r : NavOutput ℝ) : List (List Char) :=
  [intText r.week, fixedText 6 r.gpst, fixedText 12 r.lat, fixedText 12 r.lon, fixedText 4 r.height,
   fixedText 6 (r.vn 0), fixedText 6 (r.vn 1), fixedText 6 (r.vn 2), fixedText 6 (r.atti 0), fixedText 6 (r.atti 1), fixedText 6 (r.atti 2),
   intText r.info.gnssMode.toNat, intText r.info.sensors.toNat]

theorem fields_words (r : NavOutput ℝ) : List.Forall₂ Field (fieldTexts r) (fieldWords r) := by
  have i : ∀ n w, Field (padLeft w (intText n)) (intText n) := fun n w =>
    ⟨⟨_, rfl⟩, (int_free n).1, (int_free n).2.1, (int_free n).2.2⟩
  have i0 : ∀ n, Field (intText n) (intText n) := fun n => ⟨⟨0, rfl⟩, (int_free n).1, (int_free n).2.1, (int_free n).2.2⟩
  have x : ∀ d v w, Field (padLeft w (fixedText d v)) (fixedText d v) := fun d v w =>
    ⟨⟨_, rfl⟩, (fixed_free d v).1, (fixed_free d v).2.1, (fixed_free d v).2.2⟩
  have x0 : ∀ d v, Field (fixedText d v) (fixedText d v) := fun d v =>
    ⟨⟨0, rfl⟩, (fixed_free d v).1, (fixed_free d v).2.1, (fixed_free d v).2.2⟩
  unfold fieldTexts fieldWords
  exact .cons (i _ _) (.cons (x _ _ _) (.cons (x0 _ _) (.cons (x0 _ _) (.cons (x0 _ _) (.cons (x _ _ _) (.cons (x _ _ _) (.cons (x _ _ _)
    (.cons (x _ _ _) (.cons (x _ _ _) (.cons (x _ _ _) (.cons (i0 _) (.cons (i0 _) .nil))))))))))))

theorem file_lines (rs : List (NavOutput ℝ)) : wordsAt '\n' (fileText rs) = rs.map fun r => spaced (fieldTexts r) := by
  induction rs with
  | nil => rfl
  | cons r rs ih =>
    obtain ⟨-, h2, h3⟩ := spaced_words _ _ (fields_words r)
    have hne := h3 (by simp [fieldTexts])
    show wordsAt '\n' ((spaced (fieldTexts r) ++ ['\n']) ++ fileText rs) = _
    rw [List.append_assoc, List.singleton_append]
    unfold wordsAt at ih ⊢
    rw [pieces_cut _ _ _ h2, List.filter_cons_of_pos (by simpa using hne), ih]
    rfl

theorem fixed_shows (d : Nat) (hd : d ≠ 0) (x : ℝ) : shows (readNumber (fixedText d x)) x d := by
  refine ⟨_, read_fixed d hd x, ?_⟩
  have hp : (0 : ℝ) < 10 ^ d := by positivity
  have h := nearest_half (x * 10 ^ d)
  push_cast
  rw [show (nearest (x * 10 ^ d) : ℝ) / 10 ^ d - x = ((nearest (x * 10 ^ d) : ℝ) - x * 10 ^ d) / 10 ^ d by field_simp,
    abs_div, abs_of_pos hp]
  exact div_le_div_of_nonneg_right h hp.le

theorem int_shows (n : Int) : shows (readNumber (intText n)) n 0 := by
  refine ⟨_, read_int n, ?_⟩
  simp

/-- C154: reading the text file gives one line for each result, in order; each line has thirteen numbers, and each of
them is the value of its column to the digits promised. -/
theorem C154_read_back (rs : List (NavOutput ℝ)) :
    List.Forall₂ (fun vs r => List.Forall₂ (fun v (c : ℝ × Nat) => shows v c.1 c.2) vs (columns r)) (readTable (fileText rs)) rs := by
  unfold readTable
  rw [file_lines, List.map_map, List.forall₂_map_left_iff]
  refine List.forall₂_same.2 fun r _ => ?_
  simp only [Function.comp]
  rw [(spaced_words _ _ (fields_words r)).1]
  have x := fun d hd v => fixed_shows d hd v
  unfold fieldWords columns
  simp only [List.map_cons, List.map_nil]
  have i := int_shows
  refine .cons (i _) (.cons (x _ (by decide) _) (.cons (x _ (by decide) _) (.cons (x _ (by decide) _) (.cons (x _ (by decide) _)
    (.cons (x _ (by decide) _) (.cons (x _ (by decide) _) (.cons (x _ (by decide) _) (.cons (x _ (by decide) _) (.cons (x _ (by decide) _)
    (.cons (x _ (by decide) _) (.cons ?_ (.cons ?_ .nil))))))))))))
  · exact_mod_cast i r.info.gnssMode.toNat
  · exact_mod_cast i r.info.sensors.toNat

/-- The time a line of the file shows. -/
noncomputable def shownTime (r : NavOutput ℝ) : Option ℚ := ((readTable (fileText [r])).headD [])[1]?.join

theorem shownTime_eq (r : NavOutput ℝ) : shownTime r = some ((nearest (r.gpst * 10 ^ 6) : ℚ) / 10 ^ 6) := by
  unfold shownTime readTable
  rw [file_lines]
  simp only [List.map_cons, List.map_nil, List.headD_cons]
  rw [(spaced_words _ _ (fields_words r)).1]
  show (some (readNumber (fixedText 6 r.gpst))).join = _
  rw [read_fixed 6 (by decide)]
  rfl

/-- C154: the times in the file never run backwards when the results do not, and results more than a microsecond apart
have different times in the file. -/
theorem C154_times (r r' : NavOutput ℝ) (t t' : ℚ) (ht : shownTime r = some t) (ht' : shownTime r' = some t') :
    (r.gpst ≤ r'.gpst → t ≤ t') ∧ (r.gpst + 1 / 1000000 < r'.gpst → t < t') := by
  rw [shownTime_eq] at ht ht'
  simp only [Option.some.injEq] at ht ht'
  subst ht; subst ht'
  have hp : (0 : ℚ) < 10 ^ 6 := by norm_num
  constructor
  · intro h
    refine div_le_div_of_nonneg_right ?_ hp.le
    exact_mod_cast nearest_mono (mul_le_mul_of_nonneg_right h (by norm_num))
  · intro h
    refine div_lt_div_of_pos_right ?_ hp
    have a := (abs_le.1 (nearest_half (r.gpst * 10 ^ 6))).2
    have b := (abs_le.1 (nearest_half (r'.gpst * 10 ^ 6))).1
    have k : r.gpst * 10 ^ 6 + 1 < r'.gpst * 10 ^ 6 := by
      have := mul_lt_mul_of_pos_right h (show (0 : ℝ) < 10 ^ 6 by norm_num)
      rw [add_mul] at this
      norm_num at this ⊢
      exact this
    have : (nearest (r.gpst * 10 ^ 6) : ℝ) < nearest (r'.gpst * 10 ^ 6) := by
      generalize r.gpst * 10 ^ 6 = x at *
      generalize r'.gpst * 10 ^ 6 = y at *
      linarith
    exact_mod_cast this

/-- What a line looks like: the fields of the result of week 2300 at 1.5 s, 30 degrees north. -/
example : fixedText 4 (-(1 / 3) : ℝ) = "-0.3333".toList ∧ padLeft 4 (intText 23) = "  23".toList := by
  have h : nearest (-(1 / 3 : ℝ) * 10 ^ 4) = -3333 := by
    have e : ⌊(-(1 / 3 : ℝ) * 10 ^ 4)⌋ = -3334 := by
      rw [Int.floor_eq_iff]; norm_num
    unfold nearest
    rw [e]
    norm_num
  constructor
  · unfold fixedText
    rw [h, if_pos (by norm_num)]
    decide +kernel
  · decide +kernel
end Verif.Props
