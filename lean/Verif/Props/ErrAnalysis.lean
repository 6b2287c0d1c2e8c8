import Verif.Spec.ErrAnalysis
import Verif.Lemmas.Real
import Verif.Props.Convert
import Mathlib.Analysis.Real.Pi.Bounds
import Mathlib.Tactic.Linarith
import Mathlib.Tactic.FieldSimp
import Mathlib.Tactic.NormNum
import Mathlib.Tactic.SplitIfs
import Mathlib.Tactic.Push
import Mathlib.Tactic.Ring
/-! C166, C167: the accuracy check of a result file. -/
namespace Verif.Props
open Verif Verif.Spec Verif.ErrAnalysis

theorem hist_min_le (l : List ℝ) (x : ℝ) : l.foldl min x ≤ x ∧ ∀ y ∈ l, l.foldl min x ≤ y := by
  induction l generalizing x with
  | nil => exact ⟨le_refl _, by simp⟩
  | cons a l ih =>
    obtain ⟨h1, h2⟩ := ih (min x a)
    refine ⟨le_trans h1 (min_le_left _ _), ?_⟩
    intro y hy
    rcases List.mem_cons.1 hy with rfl | hy
    · exact le_trans h1 (min_le_right _ _)
    · exact h2 y hy

theorem hist_le_max (l : List ℝ) (x : ℝ) : x ≤ l.foldl max x ∧ ∀ y ∈ l, y ≤ l.foldl max x := by
  induction l generalizing x with
  | nil => exact ⟨le_refl _, by simp⟩
  | cons a l ih =>
    obtain ⟨h1, h2⟩ := ih (max x a)
    refine ⟨le_trans (le_max_left _ _) h1, ?_⟩
    intro y hy
    rcases List.mem_cons.1 hy with rfl | hy
    · exact le_trans (le_max_right _ _) h1
    · exact h2 y hy

theorem min_max_mem {xs : List ℝ} {x : ℝ} (h : x ∈ xs) : minOf xs ≤ x ∧ x ≤ maxOf xs := by
  cases xs with
  | nil => simp at h
  | cons a l =>
    rcases List.mem_cons.1 h with rfl | h
    · exact ⟨(hist_min_le l x).1, (hist_le_max l x).1⟩
    · exact ⟨(hist_min_le l a).2 x h, (hist_le_max l a).2 x h⟩

theorem ends_mem {xs : List ℝ} {x : ℝ} (h : x ∈ xs) : lowEnd xs ≤ x ∧ x ≤ highEnd xs := by
  obtain ⟨h1, h2⟩ := min_max_mem h
  unfold lowEnd highEnd
  split_ifs <;> constructor <;> linarith

theorem ends_lt {xs : List ℝ} (h : xs ≠ []) : lowEnd xs < highEnd xs := by
  obtain ⟨x, hx⟩ := List.exists_mem_of_ne_nil xs h
  obtain ⟨h1, h2⟩ := min_max_mem hx
  unfold lowEnd highEnd
  split_ifs with hc
  · linarith
  · exact lt_of_le_of_ne (le_trans h1 h2) hc

theorem countP_split {β : Type} (l : List β) (p q r : β → Bool)
    (h : ∀ x ∈ l, (if r x then 1 else 0) = (if p x then 1 else 0) + (if q x then 1 else 0 : Nat)) :
    l.countP r = l.countP p + l.countP q := by
  induction l with
  | nil => rfl
  | cons a l ih =>
    rw [List.countP_cons, List.countP_cons, List.countP_cons, ih fun x hx => h x (List.mem_cons_of_mem _ hx), h a (by simp)]
    omega

/-- Width of a bin. -/
noncomputable def binWidth (b : Nat) (xs : List ℝ) : ℝ := (highEnd xs - lowEnd xs) / b

theorem edge_succ (b : Nat) (xs : List ℝ) (i : Nat) : edge b xs (i + 1) = edge b xs i + binWidth b xs := by
  unfold edge binWidth; push_cast; ring
theorem binWidth_pos {b : Nat} {xs : List ℝ} (hb : 0 < b) (h : xs ≠ []) : 0 < binWidth b xs := by
  unfold binWidth
  exact div_pos (sub_pos.2 (ends_lt h)) (by exact_mod_cast hb)
theorem edge_zero (b : Nat) (xs : List ℝ) : edge b xs 0 = lowEnd xs := by unfold edge; simp
theorem edge_top {b : Nat} (hb : 0 < b) (xs : List ℝ) : edge b xs b = highEnd xs := by
  unfold edge
  have : (b : ℝ) ≠ 0 := by exact_mod_cast hb.ne'
  rw [mul_div_cancel₀ _ this]; ring

/-- The cumulated counts: how many values are below the upper edge of the bin. -/
theorem cdf_below {b : Nat} {xs : List ℝ} (h : xs ≠ []) (i : Nat) (hi : i + 1 < b) : cdf b xs i = below xs (edge b xs (i + 1)) := by
  have hw := binWidth_pos (b := b) (by omega) h
  induction i with
  | zero =>
    show pdf b xs 0 = _
    unfold pdf below
    apply List.countP_congr
    intro x hx
    have := (ends_mem hx).1
    have hb : ¬ (0 + 1 = b) := by omega
    simp only [decide_eq_true_eq, edge_zero, hb, false_and, or_false]
    exact ⟨fun h => h.2, fun h => ⟨this, h⟩⟩
  | succ i ih =>
    show cdf b xs i + pdf b xs (i + 1) = _
    rw [ih (by omega)]
    symm
    unfold below pdf
    apply countP_split
    intro x _
    have hb : ¬ (i + 1 + 1 = b) := by omega
    have he := edge_succ b xs (i + 1)
    simp only [decide_eq_true_eq, hb, false_and, or_false]
    by_cases h1 : x < edge b xs (i + 1)
    · rw [if_pos (by linarith), if_pos h1, if_neg (by rintro ⟨h, _⟩; linarith)]
    · by_cases h2 : x < edge b xs (i + 1 + 1)
      · rw [if_pos h2, if_neg h1, if_pos ⟨not_lt.1 h1, h2⟩]
      · rw [if_neg h2, if_neg h1, if_neg (fun h => h2 h.2)]

theorem cdf_all {b : Nat} {xs : List ℝ} (h : xs ≠ []) (hb : 2 ≤ b) : cdf b xs (b - 1) = xs.length := by
  obtain ⟨m, rfl⟩ : ∃ m, b = m + 2 := ⟨b - 2, by omega⟩
  show cdf _ xs m + pdf _ xs (m + 1) = _
  rw [cdf_below h m (by omega)]
  symm
  rw [show xs.length = xs.countP (fun _ => true) by simp]
  unfold below pdf
  apply countP_split
  intro x hx
  have h2 : x ≤ edge (m + 2) xs (m + 1 + 1) := by
    rw [show m + 1 + 1 = m + 2 from rfl, edge_top (by omega)]; exact (ends_mem hx).2
  simp only [decide_eq_true_eq, if_true]
  by_cases h1 : x < edge (m + 2) xs (m + 1)
  · rw [if_pos h1, if_neg (by rintro ⟨h, _⟩; linarith)]
  · rw [if_neg h1, if_pos ⟨not_lt.1 h1, Or.inr ⟨trivial, h2⟩⟩]

theorem cdf_mono (b : Nat) (xs : List ℝ) : ∀ {i j : Nat}, i ≤ j → cdf b xs i ≤ cdf b xs j := by
  intro i j h
  induction j with
  | zero => rw [Nat.le_zero.1 h]
  | succ j ih =>
    rcases Nat.lt_or_ge j i with h' | h'
    · rw [show i = j + 1 by omega]
    · exact le_trans (ih h') (Nat.le_add_right _ _)

/-! ## Interpolation -/

/-- The number of elements of a non-decreasing sequence that are below `q` is the place of the first one that is not. -/
theorem first_not_below (len : Nat) (x : Nat → ℝ) (hx : ∀ i j, i ≤ j → j < len → x i ≤ x j) (q : ℝ) (i : Nat) (hi : i < len)
    (h1 : q ≤ x i) (h0 : ∀ k < i, x k < q) :
    ((List.range len).countP fun k => @decide (x k < q) (Classical.propDecidable _)) = i := by
  obtain ⟨m, rfl⟩ : ∃ m, len = i + m := ⟨len - i, by omega⟩
  rw [List.range_add, List.countP_append]
  have e1 : ((List.range i).countP fun k => @decide (x k < q) (Classical.propDecidable _)) = i := by
    conv_rhs => rw [← List.length_range (n := i)]
    rw [List.countP_eq_length]
    intro k hk
    simpa using h0 k (List.mem_range.1 hk)
  have e2 : (((List.range m).map (i + ·)).countP fun k => @decide (x k < q) (Classical.propDecidable _)) = 0 := by
    rw [List.countP_eq_zero]
    intro k hk
    obtain ⟨j, hj, rfl⟩ := List.mem_map.1 hk
    have := hx i (i + j) (by omega) (by have := List.mem_range.1 hj; omega)
    simpa using le_trans h1 this
  rw [e1, e2]
  rfl

theorem interp_value (len : Nat) (x y : Nat → ℝ) (hx : ∀ i j, i ≤ j → j < len → x i ≤ x j) (q : ℝ) (i : Nat) (hi : i + 1 < len)
    (h0 : x i < q) (h1 : q ≤ x (i + 1)) :
    interp len x y q = some ((y (i + 1) - y i) / (x (i + 1) - x i) * (q - x i) + y i) := by
  have hc := first_not_below len x hx q (i + 1) hi h1 (fun k hk => lt_of_le_of_lt (hx k i (by omega) (by omega)) h0)
  unfold interp
  have hr : ¬ (q < x 0 ∨ x (len - 1) < q) := by
    push Not
    exact ⟨le_trans (hx 0 i (by omega) (by omega)) h0.le, le_trans h1 (hx (i + 1) (len - 1) (by omega) (by omega))⟩
  rw [if_neg (by simpa using hr)]
  dsimp only
  rw [hc, show max 1 (min (i + 1) (len - 1)) = i + 1 by omega]
  rfl

theorem interp_none (len : Nat) (x y : Nat → ℝ) (q : ℝ) (h : q < x 0) : interp len x y q = none := by
  unfold interp
  rw [if_pos (by simpa using Or.inl h)]

/-- The first place where a sequence reaches `q`. -/
theorem crossing (x : Nat → ℝ) (q : ℝ) (h0 : x 0 < q) (n : Nat) (hn : q ≤ x n) : ∃ i < n, x i < q ∧ q ≤ x (i + 1) := by
  induction n with
  | zero => exact absurd h0 (not_lt.2 hn)
  | succ n ih =>
    rcases lt_or_ge (x n) q with h | h
    · exact ⟨n, by omega, h, hn⟩
    · obtain ⟨i, hi, h'⟩ := ih h
      exact ⟨i, by omega, h'⟩

/-! ## The reported two-sigma error -/

theorem sigma_not_none (b : Nat) (xs : List ℝ) (q : ℝ) (h : (cdf b xs 0 : ℝ) ≤ q) (h' : q ≤ cdf b xs (b - 1)) :
    interp b (fun i => (cdf b xs i : ℝ)) (fun i => edge b xs (i + 1)) q ≠ none := by
  unfold interp
  have hr : ¬ (q < (cdf b xs 0 : ℝ) ∨ (cdf b xs (b - 1) : ℝ) < q) := by push Not; exact ⟨h, h'⟩
  rw [if_neg (by simpa using hr)]
  exact nofun

theorem sigma_some (b : Nat) (xs : List ℝ) (s : ℝ)
    (h1 : (cdf b xs 0 : ℝ) ≤ 6826 / 10000 * cdf b xs (b - 1))
    (h2 : interp b (fun i => (cdf b xs i : ℝ)) (fun i => edge b xs (i + 1)) (9544 / 10000 * cdf b xs (b - 1)) = some s) :
    (sigmas b xs).2 = s := by
  have hn : (0 : ℝ) ≤ cdf b xs (b - 1) := Nat.cast_nonneg _
  obtain ⟨a, ha⟩ := Option.ne_none_iff_exists'.1 (sigma_not_none b xs (6826 / 10000 * cdf b xs (b - 1)) h1 (by linarith))
  unfold sigmas
  dsimp only
  rw [ha, h2]

/-- C166: unless more than 68.26 % of the errors are in the first bin, the two-sigma error the program reports is the bound that 95.44 % of
the errors keep, to the width of one bin: at least that many are below it plus a bin, fewer are below it minus a bin. -/
theorem C166_two_sigma (b : Nat) (hb : 2 ≤ b) (xs : List ℝ) (h : xs ≠ [])
    (hc : (below xs (lowEnd xs + binWidth b xs) : ℝ) ≤ 6826 / 10000 * xs.length) :
    9544 / 10000 * xs.length ≤ (below xs ((sigmas b xs).2 + binWidth b xs) : ℝ) ∧
      (below xs ((sigmas b xs).2 - binWidth b xs) : ℝ) < 9544 / 10000 * xs.length ∧ lowEnd xs < (sigmas b xs).2 ∧
      (sigmas b xs).2 ≤ highEnd xs := by
  have hw := binWidth_pos (b := b) (by omega) h
  have hlen : (0 : ℝ) < xs.length := by exact_mod_cast List.length_pos_iff.2 h
  have hall := cdf_all h hb
  have hbm : ∀ s t : ℝ, s ≤ t → below xs s ≤ below xs t := by
    intro s t hst
    unfold below
    apply List.countP_mono_left
    intro x _ hx
    simp only [decide_eq_true_eq] at hx ⊢
    linarith
  set x : Nat → ℝ := fun i => (cdf b xs i : ℝ) with hxd
  set y : Nat → ℝ := fun i => edge b xs (i + 1) with hyd
  have h0e : edge b xs (0 + 1) = lowEnd xs + binWidth b xs := by rw [edge_succ, edge_zero]
  have hx0 : x 0 ≤ 6826 / 10000 * xs.length := by
    show (cdf b xs 0 : ℝ) ≤ _
    rcases Nat.lt_or_ge 1 b with h1 | h1
    · rw [cdf_below h 0 h1, h0e]; exact hc
    · omega
  have hxl : x (b - 1) = xs.length := by show (cdf b xs (b - 1) : ℝ) = _; rw [hall]
  obtain ⟨i, hi, hi0, hi1⟩ := crossing x (9544 / 10000 * xs.length) (by linarith) (b - 1) (by rw [hxl]; linarith)
  have hv := interp_value b x y (fun i j hij _ => Nat.cast_le.2 (cdf_mono b xs hij)) (9544 / 10000 * xs.length) i (by omega) hi0 hi1
  have hs : (sigmas b xs).2 = (y (i + 1) - y i) / (x (i + 1) - x i) * (9544 / 10000 * xs.length - x i) + y i := by
    refine sigma_some b xs _ ?_ ?_
    · rw [hall]; exact hx0
    · rw [hall]; exact hv
  have hd : 0 < x (i + 1) - x i := by linarith
  have hyw : y (i + 1) - y i = binWidth b xs := by
    show edge b xs (i + 1 + 1) - edge b xs (i + 1) = _
    rw [edge_succ b xs (i + 1)]; ring
  have hlo : y i < (sigmas b xs).2 := by
    rw [hs, hyw]
    have : 0 < binWidth b xs / (x (i + 1) - x i) * (9544 / 10000 * xs.length - x i) := mul_pos (div_pos hw hd) (by linarith)
    linarith
  have hhi : (sigmas b xs).2 ≤ y (i + 1) := by
    rw [hs, hyw]
    have : binWidth b xs / (x (i + 1) - x i) * (9544 / 10000 * xs.length - x i) ≤ binWidth b xs := by
      rw [div_mul_eq_mul_div, div_le_iff₀ hd]
      exact mul_le_mul_of_nonneg_left (by linarith) hw.le
    linarith
  have ehi : y (i + 1) = y i + binWidth b xs := by linarith
  have hyle : ∀ j, j < b → lowEnd xs ≤ y j ∧ y j ≤ highEnd xs := by
    intro j hj
    constructor
    · show lowEnd xs ≤ lowEnd xs + ((j + 1 : Nat) : ℝ) * ((highEnd xs - lowEnd xs) / b)
      have : (0 : ℝ) ≤ ((j + 1 : Nat) : ℝ) * ((highEnd xs - lowEnd xs) / b) := mul_nonneg (Nat.cast_nonneg _) hw.le
      linarith
    · rw [← edge_top (b := b) (by omega) xs]
      show lowEnd xs + ((j + 1 : Nat) : ℝ) * ((highEnd xs - lowEnd xs) / b) ≤ lowEnd xs + (b : ℝ) * ((highEnd xs - lowEnd xs) / b)
      have : ((j + 1 : Nat) : ℝ) ≤ b := by exact_mod_cast hj
      have := mul_le_mul_of_nonneg_right this hw.le
      unfold binWidth at this
      linarith
  refine ⟨?_, ?_, lt_of_le_of_lt (hyle i (by omega)).1 hlo, le_trans hhi (hyle (i + 1) (by omega)).2⟩
  · have hup : y (i + 1) < (sigmas b xs).2 + binWidth b xs := by linarith
    rcases Nat.lt_or_ge (i + 1 + 1) b with h1 | h1
    · have e : x (i + 1) = below xs (y (i + 1)) := by
        show (cdf b xs (i + 1) : ℝ) = _
        rw [cdf_below h (i + 1) h1]
      rw [e] at hi1
      exact le_trans hi1 (by exact_mod_cast hbm _ _ hup.le)
    · have etop : y (i + 1) = highEnd xs := by
        show edge b xs (i + 1 + 1) = _
        rw [show i + 1 + 1 = b by omega, edge_top (by omega)]
      have : below xs ((sigmas b xs).2 + binWidth b xs) = xs.length := by
        unfold below
        rw [List.countP_eq_length]
        intro z hz
        have := (ends_mem hz).2
        simp only [decide_eq_true_eq]
        linarith
      rw [this]
      linarith
  · have e : x i = below xs (y i) := by
      show (cdf b xs i : ℝ) = _
      rw [cdf_below h i (by omega)]
    have : (below xs ((sigmas b xs).2 - binWidth b xs) : ℝ) ≤ below xs (y i) := by exact_mod_cast hbm _ _ (by linarith)
    linarith

/-- C166: when more than 68.26 % of the errors are in the first bin, the reported error is zero. -/
theorem C166_concentrated (b : Nat) (hb : 2 ≤ b) (xs : List ℝ) (h : xs ≠ [])
    (hc : 6826 / 10000 * (xs.length : ℝ) < below xs (lowEnd xs + binWidth b xs)) : sigmas b xs = (0, 0) := by
  have hall := cdf_all h hb
  have h0 : cdf b xs 0 = below xs (lowEnd xs + binWidth b xs) := by
    rw [cdf_below h 0 (by omega), edge_succ, edge_zero]
  unfold sigmas
  dsimp only
  rw [hall, interp_none]
  show _ < ((cdf b xs 0 : Nat) : ℝ)
  rw [h0]
  exact hc

/-! ## The exit status -/

theorem abs_plane (es : List (ℝ × ℝ × ℝ)) : (planeErrors es).map abs = planeErrors es := by
  unfold planeErrors
  rw [List.map_map]
  exact List.map_congr_left fun e _ => abs_of_nonneg (Real.sqrt_nonneg _)
theorem abs_space (es : List (ℝ × ℝ × ℝ)) : (spaceErrors es).map abs = spaceErrors es := by
  unfold spaceErrors
  rw [List.map_map]
  exact List.map_congr_left fun e _ => abs_of_nonneg (Real.sqrt_nonneg _)

theorem verdict_zero (thr2 thr3 : ℝ) (b : Nat) (es : List (ℝ × ℝ × ℝ)) :
    verdict thr2 thr3 b es = 0 ↔ (sigmas b (spaceErrors es)).2 ≤ thr3 ∧ (sigmas b (planeErrors es)).2 ≤ thr2 := by
  unfold verdict
  rw [abs_plane, abs_space]
  by_cases h3 : thr3 < (sigmas b (spaceErrors es)).2
  · rw [if_pos (by simpa using h3)]
    exact ⟨nofun, fun h => absurd h3 (not_lt.2 h.1)⟩
  · rw [if_neg (by simpa using h3)]
    by_cases h2 : thr2 < (sigmas b (planeErrors es)).2
    · rw [if_pos (by simpa using h2)]
      exact ⟨nofun, fun h => absurd h2 (not_lt.2 h.2)⟩
    · rw [if_neg (by simpa using h2)]
      exact ⟨fun _ => ⟨not_lt.1 h3, not_lt.1 h2⟩, fun _ => rfl⟩

/-- More than 68.26 % of the values lie in the lowest of `b` equal parts of their range. -/
def concentrated (b : Nat) (xs : List ℝ) : Prop := 6826 / 10000 * (xs.length : ℝ) < below xs (lowEnd xs + binWidth b xs)

/-- C166, what acceptance means: unless the errors are concentrated, at least 95.44 % of the errors in the plane and in space are
below the stated bounds plus one bin. -/
theorem C166_accepted_partial (thr2 thr3 : ℝ) (b : Nat) (hb : 2 ≤ b) (es : List (ℝ × ℝ × ℝ)) (h : es ≠ [])
    (hacc : verdict thr2 thr3 b es = 0) :
    (concentrated b (planeErrors es) ∨
      9544 / 10000 * (es.length : ℝ) ≤ below (planeErrors es) (thr2 + binWidth b (planeErrors es))) ∧
    (concentrated b (spaceErrors es) ∨
      9544 / 10000 * (es.length : ℝ) ≤ below (spaceErrors es) (thr3 + binWidth b (spaceErrors es))) := by
  obtain ⟨h3, h2⟩ := (verdict_zero thr2 thr3 b es).1 hacc
  have hbm : ∀ (xs : List ℝ) (s t : ℝ), s ≤ t → (below xs s : ℝ) ≤ below xs t := by
    intro xs s t hst
    have : below xs s ≤ below xs t := by
      unfold below
      apply List.countP_mono_left
      intro x _ hx
      simp only [decide_eq_true_eq] at hx ⊢
      linarith
    exact_mod_cast this
  have l2 : (planeErrors es).length = es.length := by simp [planeErrors]
  have l3 : (spaceErrors es).length = es.length := by simp [spaceErrors]
  have n2 : planeErrors es ≠ [] := by simpa [planeErrors] using h
  have n3 : spaceErrors es ≠ [] := by simpa [spaceErrors] using h
  constructor
  · rcases lt_or_ge (6826 / 10000 * ((planeErrors es).length : ℝ)) (below (planeErrors es) (lowEnd (planeErrors es) + binWidth b (planeErrors es)))
      with hc | hc
    · exact Or.inl hc
    · right
      rw [← l2]
      exact le_trans (C166_two_sigma b hb _ n2 hc).1 (hbm _ _ _ (by linarith))
  · rcases lt_or_ge (6826 / 10000 * ((spaceErrors es).length : ℝ)) (below (spaceErrors es) (lowEnd (spaceErrors es) + binWidth b (spaceErrors es)))
      with hc | hc
    · exact Or.inl hc
    · right
      rw [← l3]
      exact le_trans (C166_two_sigma b hb _ n3 hc).1 (hbm _ _ _ (by linarith))

/-- C166, what rejection means: fewer than 95.44 % of the errors in the plane, or of those in space, are below the stated bound minus one
bin. -/
theorem C166_rejected (thr2 thr3 : ℝ) (p2 : 0 ≤ thr2) (p3 : 0 ≤ thr3) (b : Nat) (hb : 2 ≤ b) (es : List (ℝ × ℝ × ℝ)) (h : es ≠ [])
    (hrej : verdict thr2 thr3 b es ≠ 0) :
    (below (planeErrors es) (thr2 - binWidth b (planeErrors es)) : ℝ) < 9544 / 10000 * es.length ∨
      (below (spaceErrors es) (thr3 - binWidth b (spaceErrors es)) : ℝ) < 9544 / 10000 * es.length := by
  rw [Ne, verdict_zero] at hrej
  have hbm : ∀ (xs : List ℝ) (s t : ℝ), s ≤ t → (below xs s : ℝ) ≤ below xs t := by
    intro xs s t hst
    have : below xs s ≤ below xs t := by
      unfold below
      apply List.countP_mono_left
      intro x _ hx
      simp only [decide_eq_true_eq] at hx ⊢
      linarith
    exact_mod_cast this
  have key : ∀ (xs : List ℝ) (thr : ℝ), 0 ≤ thr → xs.length = es.length → ¬ (sigmas b xs).2 ≤ thr →
      (below xs (thr - binWidth b xs) : ℝ) < 9544 / 10000 * es.length := by
    intro xs thr p l hs
    have hne : xs ≠ [] := by
      intro he; rw [he] at l; exact h (List.length_eq_zero_iff.1 l.symm)
    rcases lt_or_ge (6826 / 10000 * (xs.length : ℝ)) (below xs (lowEnd xs + binWidth b xs)) with hc | hc
    · rw [C166_concentrated b hb xs hne hc] at hs
      exact absurd p hs
    · rw [← l]
      exact lt_of_le_of_lt (hbm _ _ _ (by linarith [not_le.1 hs])) (C166_two_sigma b hb _ hne hc).2.1
  by_cases h3 : (sigmas b (spaceErrors es)).2 ≤ thr3
  · by_cases h2 : (sigmas b (planeErrors es)).2 ≤ thr2
    · exact absurd ⟨h3, h2⟩ hrej
    · exact Or.inl (key _ thr2 p2 (by simp [planeErrors]) h2)
  · exact Or.inr (key _ thr3 p3 (by simp [spaceErrors]) h3)

/-- C166: concentrated errors are accepted whatever their size. -/
theorem C166_accepts_concentrated (thr2 thr3 : ℝ) (p2 : 0 ≤ thr2) (p3 : 0 ≤ thr3) (b : Nat) (hb : 2 ≤ b) (es : List (ℝ × ℝ × ℝ)) (h : es ≠ [])
    (c2 : concentrated b (planeErrors es)) (c3 : concentrated b (spaceErrors es)) : verdict thr2 thr3 b es = 0 := by
  rw [verdict_zero, C166_concentrated b hb _ (by simpa [spaceErrors] using h) c3, C166_concentrated b hb _ (by simpa [planeErrors] using h) c2]
  exact ⟨p3, p2⟩

theorem foldl_replicate_min (n : Nat) (c : ℝ) : (List.replicate n c).foldl min c = c ∧ (List.replicate n c).foldl max c = c := by
  induction n with
  | zero => exact ⟨rfl, rfl⟩
  | succ n ih => rw [List.replicate_succ, List.foldl_cons, List.foldl_cons, min_self, max_self]; exact ih

/-- C166: equal errors, however small, are reported as almost a centimetre more than they are: a perfect result is rejected when
the bound is 9 mm. -/
theorem C166_constant (n : Nat) (c : ℝ) : (sigmas 100 (List.replicate (n + 1) c)).2 = c + 9544 / 1000000 := by
  set xs := List.replicate (n + 1) c with hxs
  have hne : xs ≠ [] := by simp [hxs]
  have hmin : minOf xs = c := by rw [hxs, List.replicate_succ]; exact (foldl_replicate_min n c).1
  have hmax : maxOf xs = c := by rw [hxs, List.replicate_succ]; exact (foldl_replicate_min n c).2
  have hlow : lowEnd xs = c - 1 / 2 := by unfold lowEnd; rw [hmin, hmax, if_pos rfl]
  have hhigh : highEnd xs = c + 1 / 2 := by unfold highEnd; rw [hmin, hmax, if_pos rfl]
  have hedge : ∀ i : Nat, edge 100 xs i = c - 1 / 2 + i / 100 := by
    intro i; unfold edge; rw [hlow, hhigh]; push_cast; ring
  have hbelow : ∀ t : ℝ, below xs t = if c < t then n + 1 else 0 := by
    intro t
    unfold below
    split_ifs with h
    · have : xs.length = n + 1 := by simp [hxs]
      rw [← this, List.countP_eq_length]
      intro x hx
      rw [List.eq_of_mem_replicate hx]
      simpa using h
    · rw [List.countP_eq_zero]
      intro x hx
      rw [List.eq_of_mem_replicate hx]
      simpa using h
  have c0 : cdf 100 xs 0 = 0 := by
    rw [cdf_below hne 0 (by omega), hbelow, hedge, if_neg (by push_cast; linarith)]
  have c49 : cdf 100 xs 49 = 0 := by
    rw [cdf_below hne 49 (by omega), hbelow, hedge, if_neg (by push_cast; linarith)]
  have c50 : cdf 100 xs 50 = n + 1 := by
    rw [cdf_below hne 50 (by omega), hbelow, hedge, if_pos (by push_cast; linarith)]
  have call : cdf 100 xs (100 - 1) = n + 1 := by rw [cdf_all hne (by omega)]; simp [hxs]
  have hn : (0 : ℝ) < ((n + 1 : Nat) : ℝ) := by exact_mod_cast Nat.succ_pos n
  refine sigma_some 100 xs _ ?_ ?_
  · rw [c0, call]; push_cast; push_cast at hn; linarith
  · rw [call, interp_value 100 (fun i => (cdf 100 xs i : ℝ)) (fun i => edge 100 xs (i + 1)) (fun i j hij _ => Nat.cast_le.2 (cdf_mono 100 xs hij)) _ 49
      (by omega) (by show ((cdf 100 xs 49 : Nat) : ℝ) < _; rw [c49]; push_cast; push_cast at hn; linarith)
      (by show _ ≤ ((cdf 100 xs 50 : Nat) : ℝ); rw [c50]; linarith)]
    show some (((edge 100 xs 51) - edge 100 xs 50) / (((cdf 100 xs 50 : Nat) : ℝ) - ((cdf 100 xs 49 : Nat) : ℝ)) *
      (9544 / 10000 * ((n + 1 : Nat) : ℝ) - ((cdf 100 xs 49 : Nat) : ℝ)) + edge 100 xs 50) = _
    rw [c49, c50, hedge, hedge]
    have hn' := hn.ne'
    push_cast at hn' ⊢
    congr 1
    field_simp
    ring

/-- A reference at rest and a result whose height is wrong by 10 m three times and by 1000 m once. -/
def restRef : List Row := [⟨0, 0, 0, 0, 0⟩, ⟨10, 0, 0, 0, 0⟩]
/-- See `restRef`. -/
def wrongTarget : List Row := [⟨1, 0, 0, 10, 0⟩, ⟨2, 0, 0, 10, 0⟩, ⟨3, 0, 0, 10, 0⟩, ⟨4, 0, 0, 1000, 0⟩]

theorem rest_at (col : Row → ℝ) (hcol : ∀ r ∈ restRef, col r = 0) (t : ℝ) (h0 : 0 < t) (h1 : t ≤ 10) : refAt restRef col t = some 0 := by
  unfold refAt
  have hm : ∀ i j : Nat, i ≤ j → j < restRef.length → ((restRef[i]?).map Row.time).getD 0 ≤ ((restRef[j]?).map Row.time).getD 0 := by
    intro i j hij hj
    have : j < 2 := hj
    have hi : i = 0 ∨ i = 1 := by omega
    have hj' : j = 0 ∨ j = 1 := by omega
    rcases hi with rfl | rfl <;> rcases hj' with rfl | rfl <;> first | omega | (simp [restRef])
  rw [interp_value restRef.length _ _ hm t 0 (by decide) (by simpa [restRef] using h0) (by simpa [restRef] using h1)]
  have a := hcol ⟨0, 0, 0, 0, 0⟩ (by simp [restRef])
  have b := hcol ⟨10, 0, 0, 0, 0⟩ (by simp [restRef])
  simp [restRef, a, b]

/-- C166 is violated: every row of the result is wrong by ten metres or more, and the check with the bounds 0.04 m and 0.05 m succeeds. -/
theorem C166_violated :
    (∀ r ∈ wrongTarget, ∃ e n u, rowError restRef r = some (e, n, u) ∧ 10 ≤ u) ∧ exitStatus (4 / 100) (5 / 100) restRef wrongTarget = 0 := by
  have hrow : ∀ (t h : ℝ), 0 < t → t ≤ 10 → rowError restRef ⟨t, 0, 0, h, 0⟩ = some (0, 0, h) := by
    intro t h h0 h1
    unfold rowError
    rw [rest_at Row.lat (by simp [restRef]) t h0 h1, rest_at Row.lon (by simp [restRef]) t h0 h1, rest_at Row.height (by simp [restRef]) t h0 h1]
    simp
  constructor
  · intro r hr
    simp only [wrongTarget, List.mem_cons, List.not_mem_nil, or_false] at hr
    rcases hr with rfl | rfl | rfl | rfl
    · exact ⟨0, 0, 10, hrow _ _ (by norm_num) (by norm_num), by norm_num⟩
    · exact ⟨0, 0, 10, hrow _ _ (by norm_num) (by norm_num), by norm_num⟩
    · exact ⟨0, 0, 10, hrow _ _ (by norm_num) (by norm_num), by norm_num⟩
    · exact ⟨0, 0, 1000, hrow _ _ (by norm_num) (by norm_num), by norm_num⟩
  · have hcom : common restRef wrongTarget = wrongTarget := by
      unfold common
      rw [List.filter_eq_self]
      intro r hr
      simp only [wrongTarget, List.mem_cons, List.not_mem_nil, or_false] at hr
      rcases hr with rfl | rfl | rfl | rfl <;> simp [restRef] <;> norm_num
    have hmap : wrongTarget.mapM (rowError restRef) = some [(0, 0, 10), (0, 0, 10), (0, 0, 10), (0, 0, 1000)] := by
      unfold wrongTarget
      simp only [List.mapM_cons, List.mapM_nil]
      rw [hrow 1 10 (by norm_num) (by norm_num), hrow 2 10 (by norm_num) (by norm_num), hrow 3 10 (by norm_num) (by norm_num),
        hrow 4 1000 (by norm_num) (by norm_num)]
      rfl
    unfold exitStatus
    rw [hcom, hmap]
    show verdict _ _ (binsOf wrongTarget) _ = 0
    rw [show binsOf wrongTarget = 100 from rfl, verdict_zero]
    have hp : planeErrors [(0, 0, 10), (0, 0, 10), (0, 0, 10), (0, 0, 1000)] = List.replicate (3 + 1) 0 := by
      simp [planeErrors]
    have hs : spaceErrors [(0, 0, 10), (0, 0, 10), (0, 0, 10), (0, 0, 1000)] = [10, 10, 10, 1000] := by
      simp [spaceErrors]
    rw [hp, hs, C166_constant]
    refine ⟨?_, by norm_num⟩
    have hlow : lowEnd [10, 10, 10, 1000] = 10 := by
      unfold lowEnd minOf maxOf
      norm_num
    have hhigh : highEnd [10, 10, 10, 1000] = 1000 := by
      unfold highEnd minOf maxOf
      norm_num
    rw [C166_concentrated 100 (by norm_num) [10, 10, 10, 1000] (by simp)]
    · norm_num
    · unfold binWidth
      rw [hlow, hhigh]
      have : below [10, 10, 10, 1000] (10 + (1000 - 10) / ((100 : Nat) : ℝ)) = 3 := by
        unfold below
        norm_num
      rw [this]
      norm_num

/-- Non-vacuity: errors that are not concentrated. -/
example : ¬ concentrated 100 (List.replicate 4 (1 : ℝ)) := by
  intro h
  have := C166_constant 3 1
  rw [C166_concentrated 100 (by norm_num) (List.replicate (3 + 1) (1 : ℝ)) (by simp) h] at this
  norm_num at this

/-! ## Headings -/

theorem wrap_spec (d : ℝ) : -180 ≤ wrap d ∧ wrap d ≤ 180 ∧ sameAngle (wrap d) d := by
  unfold wrap
  dsimp only
  have hc : ∀ z : ℝ, 0 < z → z ≤ (⌈z⌉₊ : ℝ) ∧ (⌈z⌉₊ : ℝ) < z + 1 := fun z hz => ⟨Nat.le_ceil z, Nat.ceil_lt_add_one hz.le⟩
  by_cases h1 : 180 < d
  · obtain ⟨a1, a2⟩ := hc ((d - 180) / 360) (by linarith)
    have h2 : ⌈(-180 - (d - 360 * (⌈(d - 180) / 360⌉₊ : ℝ))) / 360⌉₊ = 0 := by
      rw [Nat.ceil_eq_zero]; linarith
    rw [h2]
    refine ⟨by push_cast; linarith, by push_cast; linarith, -(⌈(d - 180) / 360⌉₊ : Int), ?_⟩
    push_cast; ring
  · have h0 : ⌈(d - 180) / 360⌉₊ = 0 := by rw [Nat.ceil_eq_zero]; linarith
    rw [h0]
    simp only [Nat.cast_zero, mul_zero, sub_zero]
    by_cases h2 : d < -180
    · obtain ⟨a1, a2⟩ := hc ((-180 - d) / 360) (by linarith)
      refine ⟨by linarith, by linarith, (⌈(-180 - d) / 360⌉₊ : Int), ?_⟩
      push_cast; ring
    · have h3 : ⌈(-180 - d) / 360⌉₊ = 0 := by rw [Nat.ceil_eq_zero]; linarith
      rw [h3]
      exact ⟨by push_cast; linarith, by push_cast; linarith, 0, by push_cast; ring⟩

theorem sameAngle_trans {a b c : ℝ} (h1 : sameAngle a b) (h2 : sameAngle b c) : sameAngle a c := by
  obtain ⟨k, hk⟩ := h1
  obtain ⟨l, hl⟩ := h2
  exact ⟨k + l, by push_cast; linarith⟩

theorem fold360_same (a : ℝ) : sameAngle (fold360 a) a := by
  unfold fold360
  dsimp only
  split_ifs
  · exact ⟨0, by push_cast; ring⟩
  · exact ⟨1, by push_cast; ring⟩
  · exact ⟨-1, by push_cast; ring⟩
  · exact ⟨0, by push_cast; ring⟩

/-- Two neighbours of the headings without jumps: the same directions, and the turn between them at most half. -/
theorem unwrapFrom_spec (prev : ℝ) (ys : List ℝ) : (unwrapFrom prev ys).length = ys.length ∧
    (∀ i (h : i < ys.length) (h' : i < (unwrapFrom prev ys).length), sameAngle ((unwrapFrom prev ys)[i]) ys[i]) ∧
    ∀ i (h : i < (unwrapFrom prev ys).length), |(unwrapFrom prev ys)[i] - (prev :: unwrapFrom prev ys)[i]'(by simp; omega)| ≤ 180 := by
  induction ys generalizing prev with
  | nil => exact ⟨rfl, by intro i h; simp at h, by intro i h; simp [unwrapFrom] at h⟩
  | cons y ys ih =>
    obtain ⟨i1, i2, i3⟩ := ih (prev + wrap (y - prev))
    obtain ⟨w1, w2, w3⟩ := wrap_spec (y - prev)
    refine ⟨by simp [unwrapFrom, i1], ?_, ?_⟩
    · intro i h h'
      cases i with
      | zero =>
        obtain ⟨k, hk⟩ := w3
        exact ⟨k, by simp only [unwrapFrom, List.getElem_cons_zero]; linarith⟩
      | succ i =>
        simp only [unwrapFrom, List.getElem_cons_succ]
        exact i2 i (by simpa using h) (by rw [i1]; simpa using h)
    · intro i h
      cases i with
      | zero =>
        simp only [unwrapFrom, List.getElem_cons_zero]
        rw [abs_le]
        constructor <;> linarith
      | succ i =>
        simp only [unwrapFrom, List.getElem_cons_succ]
        exact i3 i (by simpa [unwrapFrom] using h)

theorem unwrap_spec (ys : List ℝ) : (unwrap ys).length = ys.length ∧
    (∀ i (h : i < ys.length) (h' : i < (unwrap ys).length), sameAngle ((unwrap ys)[i]) ys[i]) ∧
    ∀ i (h : i + 1 < (unwrap ys).length), |(unwrap ys)[i + 1] - (unwrap ys)[i]| ≤ 180 := by
  cases ys with
  | nil => exact ⟨rfl, by intro i h; simp at h, by intro i h; simp [unwrap] at h⟩
  | cons y ys =>
    obtain ⟨i1, i2, i3⟩ := unwrapFrom_spec y ys
    refine ⟨by simp [unwrap, i1], ?_, ?_⟩
    · intro i h h'
      cases i with
      | zero => exact ⟨0, by simp [unwrap]⟩
      | succ i =>
        simp only [unwrap, List.getElem_cons_succ]
        exact i2 i (by simpa using h) (by rw [i1]; simpa using h)
    · intro i h
      simp only [unwrap, List.getElem_cons_succ]
      exact i3 i (by simpa [unwrap] using h)

/-- C167: the heading error of a row between two rows of the reference is the angle, at most half a turn, between its heading and the
heading of the reference, interpolated along the shorter turn, whatever multiples of a full turn the two files add to their headings. -/
theorem C167_heading_error (ref : List Row) (hsort : ∀ i j (hi : i < ref.length) (hj : j < ref.length), i < j → ref[i].time < ref[j].time)
    (i : Nat) (hi : i + 1 < ref.length) (r : Row) (h0 : ref[i].time < r.time) (h1 : r.time ≤ ref[i + 1].time) :
    ∃ e turn, yawError ref r = some e ∧ |e| ≤ 180 ∧ |turn| ≤ 180 ∧ sameAngle turn (ref[i + 1].yaw - ref[i].yaw) ∧
      sameAngle e (r.yaw - (ref[i].yaw + (r.time - ref[i].time) / (ref[i + 1].time - ref[i].time) * turn)) := by
  obtain ⟨u1, u2, u3⟩ := unwrap_spec (ref.map Row.yaw)
  rw [List.length_map] at u1
  have hd : 0 < ref[i + 1].time - ref[i].time := by linarith
  set ys := unwrap (ref.map Row.yaw) with hys
  have a0 := u2 i (by simp; omega) (by omega)
  have a1 := u2 (i + 1) (by simp; omega) (by omega)
  have ab := u3 i (by omega)
  rw [List.getElem_map] at a0 a1
  have g : ∀ k (hk : k < ref.length), ((ref[k]?).map Row.time).getD 0 = ref[k].time := by
    intro k hk; rw [List.getElem?_eq_getElem hk]; rfl
  have gy : ∀ k (hk : k < ys.length), (ys[k]?).getD 0 = ys[k] := by
    intro k hk; rw [List.getElem?_eq_getElem hk]; rfl
  have hm : ∀ k j, k ≤ j → j < ref.length → ((ref[k]?).map Row.time).getD 0 ≤ ((ref[j]?).map Row.time).getD 0 := by
    intro k j hkj hj
    rw [g k (by omega), g j hj]
    rcases Nat.lt_or_ge k j with h | h
    · exact (hsort k j (by omega) hj h).le
    · have : k = j := by omega
      subst this; exact le_refl _
  have hv := interp_value ref.length (fun k => ((ref[k]?).map Row.time).getD 0) (fun k => (ys[k]?).getD 0) hm r.time i hi
    (by rw [g i (by omega)]; exact h0) (by rw [g (i + 1) hi]; exact h1)
  rw [g i (by omega), g (i + 1) hi, gy i (by omega), gy (i + 1) (by omega)] at hv
  set y : ℝ := (ys[i + 1] - ys[i]) / (ref[i + 1].time - ref[i].time) * (r.time - ref[i].time) + ys[i] with hy
  obtain ⟨w1, w2, w3⟩ := wrap_spec (fold360 r.yaw - fold360 y)
  refine ⟨wrap (fold360 r.yaw - fold360 y), ys[i + 1] - ys[i], ?_, abs_le.2 ⟨w1, w2⟩, ab, ?_, ?_⟩
  · unfold yawError
    dsimp only
    rw [← hys, hv]
    rfl
  · obtain ⟨k, hk⟩ := a0
    obtain ⟨l, hl⟩ := a1
    exact ⟨l - k, by push_cast; linarith⟩
  · refine sameAngle_trans w3 ?_
    obtain ⟨k, hk⟩ := fold360_same r.yaw
    obtain ⟨l, hl⟩ := fold360_same y
    obtain ⟨m, hm'⟩ := a0
    refine ⟨k - l - m, ?_⟩
    have e : y = ys[i] + (r.time - ref[i].time) / (ref[i + 1].time - ref[i].time) * (ys[i + 1] - ys[i]) := by rw [hy]; ring
    push_cast
    linarith

/-- Non-vacuity: from 350 to 10 degrees the reference turns by 20 degrees to the right; half way its heading is that of a row with 0 degrees. -/
example : ∃ e, yawError [⟨0, 0, 0, 0, 350⟩, ⟨2, 0, 0, 0, 10⟩] ⟨1, 0, 0, 0, 0⟩ = some e ∧ e = 0 := by
  obtain ⟨e, turn, h1, h2, h3, ⟨k, hk⟩, ⟨l, hl⟩⟩ := C167_heading_error [⟨0, 0, 0, 0, 350⟩, ⟨2, 0, 0, 0, 10⟩] (by
    intro i j hi hj hij
    have hj' : j < 2 := hj
    have e1 : i = 0 := by omega
    have e2 : j = 1 := by omega
    subst e1; subst e2
    show (0 : ℝ) < 2
    norm_num) 0 (by decide) ⟨1, 0, 0, 0, 0⟩ (by show (0 : ℝ) < 1; norm_num) (by show (1 : ℝ) ≤ 2; norm_num)
  refine ⟨e, h1, ?_⟩
  have hk' : turn - (10 - 350) = 360 * (k : ℝ) := hk
  have hl' : e - (0 - (350 + (1 - 0) / (2 - 0) * turn)) = 360 * (l : ℝ) := hl
  rw [abs_le] at h2 h3
  have k1 : (k : ℝ) = 1 := by
    have a : (0 : ℝ) < k := by linarith
    have b : (k : ℝ) < 2 := by linarith
    have a' : (0 : Int) < k := by exact_mod_cast a
    have b' : k < (2 : Int) := by exact_mod_cast b
    have : k = 1 := by omega
    rw [this]; norm_num
  have ht : turn = 20 := by linarith
  rw [ht] at hl'
  have he : e = 360 * ((l : ℝ) - 1) := by linarith
  have a : (0 : ℝ) < l := by linarith
  have b : (l : ℝ) < 2 := by linarith
  have a' : (0 : Int) < l := by exact_mod_cast a
  have b' : l < (2 : Int) := by exact_mod_cast b
  have : l = 1 := by omega
  rw [he, this]; norm_num

/-! ## Position errors -/

theorem refAt_value (ref : List Row) (hsort : ∀ i j (hi : i < ref.length) (hj : j < ref.length), i < j → ref[i].time < ref[j].time)
    (col : Row → ℝ) (i : Nat) (hi : i + 1 < ref.length) (t : ℝ) (h0 : ref[i].time < t) (h1 : t ≤ ref[i + 1].time) :
    refAt ref col t = some (col ref[i] + (t - ref[i].time) / (ref[i + 1].time - ref[i].time) * (col ref[i + 1] - col ref[i])) := by
  have g : ∀ (f : Row → ℝ) k (hk : k < ref.length), ((ref[k]?).map f).getD 0 = f ref[k] := by
    intro f k hk; rw [List.getElem?_eq_getElem hk]; rfl
  have hm : ∀ k j, k ≤ j → j < ref.length → ((ref[k]?).map Row.time).getD 0 ≤ ((ref[j]?).map Row.time).getD 0 := by
    intro k j hkj hj
    rw [g _ k (by omega), g _ j hj]
    rcases Nat.lt_or_ge k j with h | h
    · exact (hsort k j (by omega) hj h).le
    · have : k = j := by omega
      subst this; exact le_refl _
  unfold refAt
  rw [interp_value ref.length (fun k => ((ref[k]?).map Row.time).getD 0) (fun k => ((ref[k]?).map col).getD 0) hm t i hi
    (by rw [g _ i (by omega)]; exact h0) (by rw [g _ (i + 1) hi]; exact h1)]
  rw [g _ i (by omega), g _ (i + 1) hi, g _ i (by omega), g _ (i + 1) hi]
  congr 1
  ring

/-- The reference, interpolated between two of its rows. -/
noncomputable def refBetween (a b : Row) (col : Row → ℝ) (t : ℝ) : ℝ := col a + (t - a.time) / (b.time - a.time) * (col b - col a)

/-- C168: the errors of a row between two rows of the reference: its distance east along the parallel of the reference, north along the
meridian and up, from the reference interpolated to the same instant. -/
theorem C168_position_errors (ref : List Row) (hsort : ∀ i j (hi : i < ref.length) (hj : j < ref.length), i < j → ref[i].time < ref[j].time)
    (i : Nat) (hi : i + 1 < ref.length) (r : Row) (h0 : ref[i].time < r.time) (h1 : r.time ≤ ref[i + 1].time) :
    let lat := refBetween ref[i] ref[i + 1] Row.lat r.time * (Real.pi / 180)
    let lon := refBetween ref[i] ref[i + 1] Row.lon r.time * (Real.pi / 180)
    let s := 1 - wgsE2 * Real.sin lat ^ 2
    let s' := 1 - wgsE2 * Real.sin (r.lat * (Real.pi / 180)) ^ 2
    rowError ref r = some ((r.lon * (Real.pi / 180) - lon) * (wgsA / Real.sqrt s * Real.cos lat),
      (r.lat * (Real.pi / 180) - lat) * (wgsA * (1 - wgsE2) / (s' * Real.sqrt s')),
      r.height - refBetween ref[i] ref[i + 1] Row.height r.time) := by
  intro lat lon s s'
  have e1 := refAt_value ref hsort Row.lat i hi r.time h0 h1
  have e2 := refAt_value ref hsort Row.lon i hi r.time h0 h1
  have e3 := refAt_value ref hsort Row.height i hi r.time h0 h1
  unfold rowError
  rw [e1, e2, e3]
  simp only [Option.bind_eq_bind, Option.bind_some, Option.some.injEq, Prod.mk.injEq, RN_val, RM_val, mul_div_assoc]
  have hs : ∀ x : ℝ, 1 - wgsE2 * Real.sin x * Real.sin x = 1 - wgsE2 * Real.sin x ^ 2 := fun x => by ring
  rw [hs, hs]
  refine ⟨?_, rfl, rfl⟩
  rw [mul_assoc]
  rfl

/-- C168, what an error of zero means: away from the poles, exactly that the row is where the reference is. -/
theorem C168_zero_partial (ref : List Row) (hsort : ∀ i j (hi : i < ref.length) (hj : j < ref.length), i < j → ref[i].time < ref[j].time)
    (i : Nat) (hi : i + 1 < ref.length) (r : Row) (h0 : ref[i].time < r.time) (h1 : r.time ≤ ref[i + 1].time)
    (hlat : |refBetween ref[i] ref[i + 1] Row.lat r.time| < 90) :
    rowError ref r = some (0, 0, 0) ↔ r.lat = refBetween ref[i] ref[i + 1] Row.lat r.time ∧
      r.lon = refBetween ref[i] ref[i + 1] Row.lon r.time ∧ r.height = refBetween ref[i] ref[i + 1] Row.height r.time := by
  rw [C168_position_errors ref hsort i hi r h0 h1]
  have hp := Real.pi_pos
  rw [abs_lt] at hlat
  set a := refBetween ref[i] ref[i + 1] Row.lat r.time
  set o := refBetween ref[i] ref[i + 1] Row.lon r.time
  set h := refBetween ref[i] ref[i + 1] Row.height r.time
  have hden : ∀ x : ℝ, 0 < 1 - wgsE2 * Real.sin x ^ 2 := by
    intro x
    obtain ⟨b1, b2, b3⟩ := den_bounds x
    have : 1 - wgsE2 * Real.sin x ^ 2 = 1 - wgsE2 * Real.sin x * Real.sin x := by ring
    rw [this]; linarith
  have hA : (0 : ℝ) < wgsA := by unfold wgsA; norm_num
  have hE : (0 : ℝ) < 1 - wgsE2 := by unfold wgsE2; norm_num
  have hcos : 0 < Real.cos (a * (Real.pi / 180)) := by
    apply Real.cos_pos_of_mem_Ioo
    constructor
    · have := mul_lt_mul_of_pos_right hlat.1 (show 0 < Real.pi / 180 by positivity); linarith
    · have := mul_lt_mul_of_pos_right hlat.2 (show 0 < Real.pi / 180 by positivity); linarith
  have k1 : wgsA / Real.sqrt (1 - wgsE2 * Real.sin (a * (Real.pi / 180)) ^ 2) * Real.cos (a * (Real.pi / 180)) ≠ 0 :=
    (mul_pos (div_pos hA (Real.sqrt_pos.2 (hden _))) hcos).ne'
  have k2 : wgsA * (1 - wgsE2) / ((1 - wgsE2 * Real.sin (r.lat * (Real.pi / 180)) ^ 2) *
      Real.sqrt (1 - wgsE2 * Real.sin (r.lat * (Real.pi / 180)) ^ 2)) ≠ 0 :=
    (div_pos (mul_pos hA hE) (mul_pos (hden _) (Real.sqrt_pos.2 (hden _)))).ne'
  have hpi : Real.pi / 180 ≠ 0 := by positivity
  simp only [Option.some.injEq, Prod.mk.injEq, mul_eq_zero, k1, k2, or_false]
  constructor
  · rintro ⟨c1, c2, c3⟩
    refine ⟨mul_right_cancel₀ hpi (by linarith), mul_right_cancel₀ hpi (by linarith), by linarith⟩
  · rintro ⟨c1, c2, c3⟩
    rw [c1, c2, c3]
    exact ⟨by ring, by ring, by ring⟩

/-- C168 is violated on the date line: a reference that rests on the meridian of 180 degrees, written once as 180 and once as −180 degrees,
and a row at 180 degrees: the error is half the circumference of the earth. -/
theorem C168_violated : rowError [⟨0, 0, 180, 0, 0⟩, ⟨2, 0, -180, 0, 0⟩] ⟨1, 0, 180, 0, 0⟩ = some (Real.pi * 6378137, 0, 0) := by
  have := C168_position_errors [⟨0, 0, 180, 0, 0⟩, ⟨2, 0, -180, 0, 0⟩] (by
    intro i j hi hj hij
    have hj' : j < 2 := hj
    have e1 : i = 0 := by omega
    have e2 : j = 1 := by omega
    subst e1; subst e2
    show (0 : ℝ) < 2
    norm_num) 0 (by decide) ⟨1, 0, 180, 0, 0⟩ (by show (0 : ℝ) < 1; norm_num) (by show (1 : ℝ) ≤ 2; norm_num)
  rw [this]
  simp only [refBetween, List.getElem_cons_zero, List.getElem_cons_succ, Option.some.injEq, Prod.mk.injEq]
  norm_num [wgsA]
  ring

/-- Non-vacuity of `C168_zero_partial`: a reference on the equator and a row on it. -/
example : rowError [⟨0, 0, 10, 0, 0⟩, ⟨2, 0, 12, 0, 0⟩] ⟨1, 0, 11, 0, 0⟩ = some (0, 0, 0) := by
  refine (C168_zero_partial [⟨0, 0, 10, 0, 0⟩, ⟨2, 0, 12, 0, 0⟩] (by
    intro i j hi hj hij
    have hj' : j < 2 := hj
    have e1 : i = 0 := by omega
    have e2 : j = 1 := by omega
    subst e1; subst e2
    show (0 : ℝ) < 2
    norm_num) 0 (by decide) ⟨1, 0, 11, 0, 0⟩ (by show (0 : ℝ) < 1; norm_num) (by show (1 : ℝ) ≤ 2; norm_num) ?_).2 ?_
  · simp [refBetween]
  · simp only [refBetween, List.getElem_cons_zero, List.getElem_cons_succ]
    norm_num

/-- The instant lies within a list of instants that increase. -/
theorem segment_exists (ref : List Row) (first last : Row) (hf : ref.head? = some first) (hl : ref.getLast? = some last) (t : ℝ)
    (h0 : first.time < t) (h1 : t < last.time) :
    ∃ (i : Nat) (hi : i + 1 < ref.length), ref[i].time < t ∧ t ≤ ref[i + 1].time := by
  by_contra hcon
  push Not at hcon
  have hne : ref ≠ [] := by rintro rfl; simp at hf
  have hlen : 0 < ref.length := List.length_pos_iff.2 hne
  have hall : ∀ (i : Nat) (hi : i < ref.length), ref[i].time < t := by
    intro i
    induction i with
    | zero =>
      intro hi
      have : ref[0] = first := by
        rw [List.head?_eq_getElem?, List.getElem?_eq_getElem hlen] at hf
        exact Option.some.inj hf
      rw [this]; exact h0
    | succ i ih => intro hi; exact hcon i hi (ih (by omega))
  have := hall (ref.length - 1) (by omega)
  have e : ref[ref.length - 1] = last := by
    rw [List.getLast?_eq_getElem?, List.getElem?_eq_getElem (by omega)] at hl
    exact Option.some.inj hl
  rw [e] at this
  linarith

/-- C166: the rows judged are those after the first and before the last instant of the reference, all of them and in their order; without
any the status is 1; with some it is 0 exactly when the two-sigma errors in space and in the plane, over at least a hundred bins (one for
every five hundred rows of the file), are within the bounds. -/
theorem C166_rows_judged (thr2 thr3 : ℝ) (ref target : List Row)
    (hsort : ∀ i j (hi : i < ref.length) (hj : j < ref.length), i < j → ref[i].time < ref[j].time)
    (first last : Row) (hf : ref.head? = some first) (hl : ref.getLast? = some last) (used : List Row)
    (hu : used = target.filter fun r => @decide (first.time < r.time ∧ r.time < last.time) (Classical.propDecidable _)) :
    ∃ es, List.Forall₂ (fun r e => rowError ref r = some e) used es ∧
      (used = [] → exitStatus thr2 thr3 ref target = 1) ∧
      (used ≠ [] → (exitStatus thr2 thr3 ref target = 0 ↔
        (sigmas (max 100 (target.length / 500)) (es.map fun e => Real.sqrt (e.1 ^ 2 + e.2.1 ^ 2 + e.2.2 ^ 2))).2 ≤ thr3 ∧
        (sigmas (max 100 (target.length / 500)) (es.map fun e => Real.sqrt (e.1 ^ 2 + e.2.1 ^ 2))).2 ≤ thr2)) := by
  have hc : common ref target = used := by
    rw [hu]
    unfold common
    refine List.filter_congr fun r _ => ?_
    rw [hf, hl, Bool.eq_iff_iff]
    simp only [decide_eq_true_eq]
    exact and_comm
  have hall : ∀ r ∈ used, ∃ e, rowError ref r = some e := by
    intro r hr
    rw [hu, List.mem_filter] at hr
    obtain ⟨h0, h1⟩ : first.time < r.time ∧ r.time < last.time := by simpa using hr.2
    obtain ⟨i, hi, a, b⟩ := segment_exists ref first last hf hl r.time h0 h1
    exact ⟨_, C168_position_errors ref hsort i hi r a b⟩
  have hex : ∃ es, used.mapM (rowError ref) = some es ∧ List.Forall₂ (fun r e => rowError ref r = some e) used es := by
    clear hu hc
    induction used with
    | nil => exact ⟨[], rfl, .nil⟩
    | cons r rs ih =>
      obtain ⟨e, he⟩ := hall r (by simp)
      obtain ⟨es, h1, h2⟩ := ih (fun r' h' => hall r' (List.mem_cons_of_mem _ h'))
      exact ⟨e :: es, by rw [List.mapM_cons, he, h1]; rfl, .cons he h2⟩
  obtain ⟨es, hes, hfor⟩ := hex
  refine ⟨es, hfor, ?_, ?_⟩
  · intro h0
    unfold exitStatus
    rw [hc, h0]
    rfl
  · intro h0
    have hne : es ≠ [] := by
      intro h
      rw [h] at hfor
      exact h0 (List.forall₂_nil_right_iff.1 hfor)
    unfold exitStatus
    rw [hc, hes]
    match es, hne with
    | e :: es, _ =>
      show verdict thr2 thr3 (binsOf target) (e :: es) = 0 ↔ _
      rw [verdict_zero]
      unfold binsOf
      rw [max_comm (target.length / 500) 100]
      rfl

/-- Non-vacuity of `C166_rows_judged`: two rows inside the reference, one before it and one at its last instant. -/
example : ([⟨-1, 0, 10, 0, 0⟩, ⟨1, 0, 11, 0, 0⟩, ⟨3 / 2, 0, 11, 0, 0⟩, ⟨2, 0, 12, 0, 0⟩] : List Row).filter
      (fun r => @decide ((0 : ℝ) < r.time ∧ r.time < 2) (Classical.propDecidable _)) =
    [⟨1, 0, 11, 0, 0⟩, ⟨3 / 2, 0, 11, 0, 0⟩] := by
  rw [List.filter_cons_of_neg (by norm_num), List.filter_cons_of_pos (by norm_num), List.filter_cons_of_pos (by norm_num),
    List.filter_cons_of_neg (by norm_num)]
  rfl
end Verif.Props
