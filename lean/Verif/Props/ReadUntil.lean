import Verif.Model.ReadUntil
import Verif.Lemmas.Real
/-! Searching a reader for a time. -/
namespace Verif.Props
open Verif
variable {α : Type} [Fl α]

theorem until_loop (t : α) (out : Option (ImuRec α)) : ∀ l : List (ImuRec α),
    (∃ a x b, l = a ++ x :: b ∧ (∀ y ∈ a, Fl.lt y.time t = true) ∧ Fl.lt x.time t = false ∧
      readUntilLoop t out l = (true, out.map (fun d => assignBase d x), b)) ∨
    ((∀ y ∈ l, Fl.lt y.time t = true) ∧ readUntilLoop t out l = (false, out, [])) := by
  intro l
  induction l with
  | nil => exact Or.inr ⟨by simp, rfl⟩
  | cons x xs ih =>
    unfold readUntilLoop
    cases hx : Fl.lt x.time t
    · exact Or.inl ⟨[], x, xs, rfl, by simp, hx, by simp⟩
    · rcases ih with ⟨a, y, b, e, h1, h2, h3⟩ | ⟨h1, h2⟩
      · refine Or.inl ⟨x :: a, y, b, by rw [e]; rfl, ?_, h2, ?_⟩
        · intro z hz
          rcases List.mem_cons.1 hz with rfl | hz
          · exact hx
          · exact h1 z hz
        · simpa using h3
      · refine Or.inr ⟨?_, by simpa using h2⟩
        intro z hz
        rcases List.mem_cons.1 hz with rfl | hz
        · exact hx
        · exact h1 z hz

/-- C151 (part): on a good reader, searching for a time succeeds exactly if a record not before that time is still to
come; it then stops right behind the first such record `x`, having skipped only earlier ones, and the caller's object
has the time of `x`. Otherwise all records are used up and the caller's object is untouched. -/
theorem C151_search_partial (r : Upcoming α) (hr : r.ok = true) (t : α) (d : ImuRec α) :
    (∃ a x b, r.recs = a ++ x :: b ∧ (∀ y ∈ a, Fl.lt y.time t = true) ∧ Fl.lt x.time t = false ∧
      ∃ d', r.readUntil t (some d) = (true, some d', { r with recs := b }) ∧ d'.time = x.time) ∨
    ((∀ y ∈ r.recs, Fl.lt y.time t = true) ∧ r.readUntil t (some d) = (false, some d, { r with recs := [] })) := by
  unfold Upcoming.readUntil
  simp only [hr, Bool.not_true, Bool.false_eq_true, if_false]
  rcases until_loop t (some d) r.recs with ⟨a, x, b, e, h1, h2, h3⟩ | ⟨h1, h2⟩
  · exact Or.inl ⟨a, x, b, e, h1, h2, assignBase d x, by rw [h3]; rfl, rfl⟩
  · exact Or.inr ⟨h1, by rw [h2]⟩

/-- C151, the violation: the caller never receives a measurement: whatever is found, the accelerations and rates of
the caller's object are those it had before the call. -/
theorem C151_no_measurement (r : Upcoming α) (t : α) (d d' : ImuRec α)
    (h : (r.readUntil t (some d)).2.1 = some d') : d'.acce = d.acce ∧ d'.gyro = d.gyro := by
  unfold Upcoming.readUntil at h
  split at h
  · cases h; exact ⟨rfl, rfl⟩
  · rcases until_loop t (some d) r.recs with ⟨a, x, b, e, h1, h2, h3⟩ | ⟨h1, h2⟩
    · rw [h3] at h; cases h; exact ⟨rfl, rfl⟩
    · rw [h2] at h; cases h; exact ⟨rfl, rfl⟩

/-- A reader that failed stays as it is. -/
theorem C151_failed (r : Upcoming α) (hr : r.ok = false) (t : α) (o : Option (ImuRec α)) :
    r.readUntil t o = (false, o, r) := by
  unfold Upcoming.readUntil; simp [hr]

/-- A search that skips one sample and finds the next, whose measurements differ from the caller's. -/
example : (⟨[⟨1, fun _ => 1, fun _ => 1⟩, ⟨2, fun _ => 7, fun _ => 7⟩], true⟩ : Upcoming ℝ).readUntil 2
    (some ⟨0, fun _ => 0, fun _ => 0⟩) = (true, some ⟨2, fun _ => 0, fun _ => 0⟩, ⟨[], true⟩) := by
  simp [Upcoming.readUntil, readUntilLoop, assignBase, lt_real]
end Verif.Props
