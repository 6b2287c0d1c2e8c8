import Verif.Model.SeqCheck
import Verif.Lemmas.Real
import Mathlib.Tactic.Ring
import Mathlib.Tactic.Linarith
import Mathlib.Tactic.FieldSimp
import Mathlib.Tactic.NormNum
/-! The statistics of the gaps between delivered records, in exact arithmetic. -/
namespace Verif.Props
open Verif

/-- The gaps of a series of times: `0` for the first one, then the differences. -/
def gaps : List ℝ → List ℝ
  | [] => []
  | t :: ts => 0 :: (List.zipWith (fun a b => b - a) (t :: ts) ts)

/-- The statistics of a series of positive times: number of records, last time, last gap, mean, maximum. -/
structure gapStats (ts : List ℝ) (s : SeqCheck ℝ) : Prop where
  cnt : s.cnt.toNat = ts.length
  last : ts.getLast? = some s.last
  delta : (gaps ts).getLast? = some s.delta
  average : s.average = (gaps ts).sum / ts.length
  maxMem : s.max ∈ gaps ts
  maxBound : ∀ d ∈ gaps ts, d ≤ s.max

theorem gaps_snoc (ts : List ℝ) (a b : ℝ) (h : ts.getLast? = some a) : gaps (ts ++ [b]) = gaps ts ++ [b - a] := by
  cases ts with
  | nil => simp at h
  | cons t ts =>
    simp only [gaps, List.cons_append]
    congr 1
    induction ts generalizing t with
    | nil => simp at h; simp [h]
    | cons u us ih =>
      have h' : (u :: us).getLast? = some a := by rw [List.getLast?_cons_cons] at h; exact h
      simp only [List.cons_append, List.zipWith_cons_cons]
      rw [ih u h']

theorem gapStats_run (ts : List ℝ) (hne : ts ≠ []) (hpos : ∀ t ∈ ts, 0 < t) (hlen : ts.length < 4294967296) :
    gapStats ts (SeqCheck.new.run ts) := by
  induction ts using List.reverseRecOn with
  | nil => exact absurd rfl hne
  | append_singleton ts t ih =>
    have hrun : SeqCheck.new.run (ts ++ [t]) = (SeqCheck.new.run ts).update t := by
      simp [SeqCheck.run, List.foldl_append]
    rw [hrun]
    simp only [List.length_append, List.length_cons, List.length_nil] at hlen
    by_cases h0 : ts = []
    · subst h0
      have hl : Fl.lt (0 : ℝ) 0 = false := by rw [Bool.eq_false_iff, Ne, lt_real]; exact lt_irrefl _
      constructor <;> simp [SeqCheck.run, SeqCheck.update, SeqCheck.new, gaps, hl]
    · have s := ih h0 (fun x hx => hpos x (by simp [hx])) (by omega)
      generalize SeqCheck.new.run ts = c at s
      have hlastpos : Fl.lt 0 c.last = true := by
        rw [lt_real]
        exact hpos _ (by simp [List.mem_of_getLast? s.last])
      have hg := gaps_snoc ts c.last t s.last
      have hc : (c.cnt + 1).toNat = ts.length + 1 := by
        rw [BitVec.toNat_add, s.cnt]
        show (ts.length + 1) % 2 ^ 32 = _
        rw [Nat.mod_eq_of_lt]; omega
      have hc1 : (c.cnt + 1 - 1).toNat = ts.length := by
        rw [BitVec.add_sub_cancel, s.cnt]
      constructor
      · simp only [SeqCheck.update, hc, List.length_append, List.length_cons, List.length_nil]
      · simp [SeqCheck.update]
      · simp [SeqCheck.update, hg, hlastpos]
      · simp only [SeqCheck.update, hc, hc1, hlastpos, if_true, hg, List.sum_append, List.sum_cons, List.sum_nil,
          lit_real, s.average, List.length_append, List.length_cons, List.length_nil]
        have hn : (ts.length : ℝ) ≠ 0 := by
          have := List.length_pos_iff.mpr h0
          positivity
        push_cast
        rw [div_mul_cancel₀ _ hn]
        ring
      · simp only [SeqCheck.update, hlastpos, if_true, hg, List.mem_append, List.mem_singleton]
        split_ifs
        · exact Or.inr rfl
        · exact Or.inl s.maxMem
      · intro d hd
        simp only [SeqCheck.update, hlastpos, if_true]
        rw [hg, List.mem_append, List.mem_singleton] at hd
        split_ifs with hlt
        · rw [lt_real] at hlt
          rcases hd with hd | hd
          · exact (s.maxBound d hd).trans hlt.le
          · exact hd.le
        · rw [lt_real, not_lt] at hlt
          rcases hd with hd | hd
          · exact s.maxBound d hd
          · rw [hd]; exact hlt

theorem gaps_sum (t : ℝ) (ts : List ℝ) : (gaps (t :: ts)).sum = (t :: ts).getLast (by simp) - t := by
  simp only [gaps, List.sum_cons, zero_add]
  induction ts generalizing t with
  | nil => simp
  | cons u us ih =>
    rw [List.zipWith_cons_cons, List.sum_cons, ih u, List.getLast_cons (a := t) (l := u :: us) (by simp)]
    ring

/-- C74: after delivering records with positive times the statistics hold the number of records, the last
gap, the largest gap, and as "average" the elapsed time divided by the number of *records*. -/
theorem C74_gap_statistics (t : ℝ) (ts : List ℝ) (hpos : ∀ x ∈ t :: ts, 0 < x) (hlen : (t :: ts).length < 4294967296) :
    let s := SeqCheck.new.run (t :: ts)
    s.cnt.toNat = (t :: ts).length ∧
    (gaps (t :: ts)).getLast? = some s.delta ∧
    (s.max ∈ gaps (t :: ts) ∧ ∀ d ∈ gaps (t :: ts), d ≤ s.max) ∧
    s.average = ((t :: ts).getLast (by simp) - t) / (t :: ts).length := by
  have s := gapStats_run (t :: ts) (by simp) hpos hlen
  exact ⟨s.cnt, s.delta, ⟨s.maxMem, s.maxBound⟩, by rw [s.average, gaps_sum]⟩

/-- C74, the violation: of two or more records with strictly increasing times the reported average is always
below the mean of the actual gaps (elapsed time over the number of gaps). -/
theorem C74_average_too_small (t : ℝ) (ts : List ℝ) (hts : ts ≠ []) (hpos : ∀ x ∈ t :: ts, 0 < x)
    (hinc : (t :: ts).Pairwise (· < ·)) (hlen : (t :: ts).length < 4294967296) :
    (SeqCheck.new.run (t :: ts)).average < ((t :: ts).getLast (by simp) - t) / ts.length := by
  rw [(C74_gap_statistics t ts hpos hlen).2.2.2]
  have h1 : 0 < (t :: ts).getLast (by simp) - t := by
    rw [List.getLast_cons hts]
    have := (List.pairwise_cons.mp hinc).1 _ (List.getLast_mem hts)
    linarith
  have h2 : (0 : ℝ) < ts.length := by
    have := List.length_pos_iff.mpr hts
    positivity
  apply div_lt_div_of_pos_left h1 h2
  simp

/-- Three records: mean gap 1.5, reported 1. -/
example : (SeqCheck.new.run [(1 : ℝ), 2, 4]).average = 1 ∧ (SeqCheck.new.run [(1 : ℝ), 2, 4]).max ∈ gaps [1, 2, 4] := by
  have h := C74_gap_statistics 1 [2, 4] (by intro x hx; simp at hx; rcases hx with rfl | rfl | rfl <;> norm_num) (by simp)
  exact ⟨by rw [h.2.2.2]; norm_num, h.2.2.1.1⟩
end Verif.Props
