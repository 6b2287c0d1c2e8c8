import Verif.Model.Outage
import Verif.Lemmas.Real
import Mathlib.Tactic.Linarith
import Mathlib.Tactic.Push
import Mathlib.Tactic.Ring
import Mathlib.Algebra.Order.Archimedean.Basic
/-! Simulated outages. Windows in exact arithmetic; non-termination for every arithmetic. -/
namespace Verif.Props
open Verif

/-- `t` lies in one of the outage windows of a configuration. -/
def inWindow (start stop outage step t : ℝ) : Prop :=
  ∃ k : ℕ, start + k * step < stop ∧ start + k * step ≤ t ∧ t ≤ start + k * step + outage

/-- A configuration the constructor refuses. -/
def badOutage (start stop outage step : ℝ) : Prop := (start > stop ∧ stop > 0) ∨ outage < 0 ∨ step < outage

theorem rejected_iff (start stop outage step : ℝ) :
    Outage.rejected start stop outage step = true ↔ badOutage start stop outage step := by
  unfold Outage.rejected badOutage
  simp [Bool.or_eq_true, Bool.and_eq_true, lt_real, or_assoc]

theorem search_loop (stop outage step t : ℝ) (ho : outage ≤ step) :
    ∀ (fuel : Nat) (i : ℝ) (ss : List ℝ), 0 ≤ step → Outage.loop stop step fuel i = some ss →
      (Outage.search outage t ss = true ↔ inWindow i stop outage step t)
  | 0, _, _, _, h => by simp [Outage.loop] at h
  | fuel + 1, i, ss, hs, h => by
    unfold Outage.loop at h
    by_cases hlt : i < stop
    · rw [if_pos ((lt_real _ _).mpr hlt)] at h
      cases hr : Outage.loop stop step fuel (i + step) with
      | none => simp [hr] at h
      | some rs =>
        simp [hr] at h
        subst h
        have ih := search_loop stop outage step t ho fuel (i + step) rs hs hr
        unfold Outage.search
        by_cases hle : t ≤ i + outage
        · rw [if_pos ((le_real _ _).mpr hle)]
          constructor
          · intro hi
            exact ⟨0, by simpa using hlt, by simpa using (le_real _ _).mp hi, by simpa using hle⟩
          · rintro ⟨k, _, h2, _⟩
            refine (le_real _ _).mpr ?_
            have : 0 ≤ (k : ℝ) * step := by positivity
            linarith
        · rw [if_neg (by rw [le_real]; exact hle), ih]
          constructor
          · rintro ⟨k, h1, h2, h3⟩
            exact ⟨k + 1, by push_cast; linarith, by push_cast; linarith, by push_cast; linarith⟩
          · rintro ⟨k, h1, h2, h3⟩
            cases k with
            | zero => exact absurd (by simpa using h3) hle
            | succ k =>
              push_cast at h1 h2 h3
              exact ⟨k, by linarith, by linarith, by linarith⟩
    · rw [if_neg (by rw [lt_real]; exact hlt)] at h
      simp at h
      subst h
      constructor
      · intro h; simp [Outage.search] at h
      · rintro ⟨k, h1, _, _⟩
        have : 0 ≤ (k : ℝ) * step := by positivity
        exact absurd (by linarith) hlt

/-- C50: whenever the constructor returns, the object reports an outage exactly inside the configured
windows, and never for a configuration that is refused. -/
theorem C50_outage_windows (fuel : Nat) (start stop outage step : ℝ) (o : Outage ℝ)
    (h : Outage.make fuel start stop outage step = some o) (t : ℝ) :
    o.isOutage t = true ↔ ¬ badOutage start stop outage step ∧ inWindow start stop outage step t := by
  unfold Outage.make at h
  by_cases hb : badOutage start stop outage step
  · rw [if_pos ((rejected_iff _ _ _ _).mpr hb)] at h
    cases h
    simp [Outage.isOutage, hb]
  · rw [if_neg (by rw [rejected_iff]; exact hb)] at h
    cases hl : Outage.loop stop step fuel start with
    | none => simp [hl] at h
    | some ss =>
      simp [hl] at h
      subst h
      have hb' := hb
      unfold badOutage at hb
      push Not at hb
      simp only [Outage.isOutage, Bool.not_true, Bool.false_eq_true, if_false]
      rw [search_loop stop outage step t hb.2.2 fuel start ss (le_trans hb.2.1 hb.2.2) hl]
      exact ⟨fun h => ⟨hb', h⟩, fun h => h.2⟩

theorem loop_terminates (stop step : ℝ) (hs : 0 < step) :
    ∀ (n : Nat) (i : ℝ), stop ≤ i + n * step → ∃ ss, Outage.loop stop step (n + 1) i = some ss
  | 0, i, h => ⟨[], by
      unfold Outage.loop
      rw [if_neg (by rw [lt_real]; simp at h; linarith)]⟩
  | n + 1, i, h => by
    unfold Outage.loop
    by_cases hlt : i < stop
    · rw [if_pos ((lt_real _ _).mpr hlt)]
      obtain ⟨ss, hss⟩ := loop_terminates stop step hs n (i + step) (by push_cast at h; linarith)
      exact ⟨i :: ss, by rw [hss]; rfl⟩
    · rw [if_neg (by rw [lt_real]; exact hlt)]
      exact ⟨[], rfl⟩

/-- C51, what holds: with a positive step (or a refused configuration, or nothing to do) the
constructor returns. -/
theorem C51_terminates_partial (start stop outage step : ℝ)
    (h : 0 < step ∨ badOutage start stop outage step ∨ stop ≤ start) :
    ∃ fuel o, Outage.make fuel start stop outage step = some o := by
  by_cases hb : badOutage start stop outage step
  · exact ⟨0, _, by unfold Outage.make; rw [if_pos ((rejected_iff _ _ _ _).mpr hb)]⟩
  · have key : ∃ fuel ss, Outage.loop stop step fuel start = some ss := by
      by_cases hle : stop ≤ start
      · exact ⟨1, [], by unfold Outage.loop; rw [if_neg (by rw [lt_real]; exact not_lt.mpr hle)]⟩
      · have hs : 0 < step := by tauto
        obtain ⟨n, hn⟩ := exists_nat_gt ((stop - start) / step)
        rw [div_lt_iff₀ hs] at hn
        obtain ⟨ss, h⟩ := loop_terminates stop step hs n start (by linarith)
        exact ⟨n + 1, ss, h⟩
    obtain ⟨fuel, ss, hss⟩ := key
    exact ⟨fuel, _, by unfold Outage.make; rw [if_neg (by rw [rejected_iff]; exact hb), hss]; rfl⟩

section
variable {α : Type} [Add α] [Sub α] [Mul α] [Neg α] [Div α] [Zero α] [One α] [Fl α]
/-- C51, the violation, for every arithmetic: an accepted configuration whose first start time lies
before the stop time and is unchanged by adding the step keeps the constructor busy for ever. -/
theorem C51_does_not_terminate (start stop outage step : α) (h1 : Outage.rejected start stop outage step = false)
    (h2 : Fl.lt start stop = true) (h3 : start + step = start) :
    ∀ fuel, Outage.make fuel start stop outage step = none := by
  intro fuel
  have : ∀ fuel, Outage.loop stop step fuel start = none := by
    intro fuel
    induction fuel with
    | zero => rfl
    | succ n ih => unfold Outage.loop; rw [if_pos h2, h3, ih]; rfl
  unfold Outage.make
  rw [h1, this]
  rfl
end

/-- C51, in exact arithmetic: exactly the configurations with zero step and zero outage duration whose
start lies before their stop hang. -/
theorem C51_hangs_iff (start stop outage step : ℝ) :
    (∀ fuel, Outage.make fuel start stop outage step = none) ↔ step = 0 ∧ outage = 0 ∧ start < stop := by
  constructor
  · intro h
    by_contra hc
    have : 0 < step ∨ badOutage start stop outage step ∨ stop ≤ start := by
      by_contra hn
      push Not at hn
      obtain ⟨h1, h2, h3⟩ := hn
      unfold badOutage at h2
      push Not at h2
      exact hc ⟨by linarith [h2.2.1, h2.2.2], by linarith [h2.2.1, h2.2.2], h3⟩
    obtain ⟨fuel, o, ho⟩ := C51_terminates_partial start stop outage step this
    rw [h fuel] at ho
    cases ho
  · rintro ⟨rfl, rfl, h⟩
    refine C51_does_not_terminate _ _ _ _ ?_ ((lt_real _ _).mpr h) (by simp)
    rw [Bool.eq_false_iff, Ne, rejected_iff]
    unfold badOutage
    push Not
    exact ⟨fun h' => absurd h' (not_lt.mpr h.le), le_refl _, le_refl _⟩

/-- Windows of one minute every two minutes: 130 s is inside the second one, 70 s is between. -/
example : inWindow 0 600 60 120 130 ∧ ¬ inWindow 0 600 60 120 70 ∧ ¬ badOutage 0 600 60 120 := by
  refine ⟨⟨1, by norm_num, by norm_num, by norm_num⟩, ?_, by unfold badOutage; norm_num⟩
  rintro ⟨k, _, h2, h3⟩
  cases k with
  | zero => norm_num at h3
  | succ k => push_cast at h2; have : (0 : ℝ) ≤ k := Nat.cast_nonneg k; linarith
/-- The constructor returns for it. -/
example : ∃ fuel o, Outage.make fuel (0 : ℝ) 600 60 120 = some o :=
  C51_terminates_partial _ _ _ _ (Or.inl (by norm_num))
end Verif.Props
