import Verif.Model.NavWriter
import Mathlib.Tactic.SplitIfs
import Mathlib.Tactic.Tauto
/-! The result writer thread: what holds under every interleaving of `update`, `stop` and the thread. -/
namespace Verif.Props
open Verif
variable {β : Type}

/-- The messages submitted by the `update` calls of a schedule, in order. -/
def updates : List (NWAct β) → List β
  | [] => []
  | .update x :: as => x :: updates as
  | _ :: as => updates as

/-- The message the thread has taken from the queue but not yet written. -/
def inHand (s : NW β) : List β := match s.pc with | .write x => [x] | _ => []

theorem run_append (s : NW β) (as bs : List (NWAct β)) : s.run (as ++ bs) = (s.run as).run bs := by
  simp [NW.run, List.foldl_append]
theorem run_cons (s : NW β) (a : NWAct β) (as : List (NWAct β)) : s.run (a :: as) = (s.act a).run as := rfl
theorem updates_append (as bs : List (NWAct β)) : updates (as ++ bs) = updates as ++ updates bs := by
  induction as with
  | nil => rfl
  | cons a as ih => cases a <;> simp [updates, ih]

/-- What holds in every reachable state. -/
structure nwInv (s : NW β) : Prop where
  noUb : s.pc ≠ .ub
  split : s.file ++ inHand s ++ s.queue = s.submitted
  popOk : s.pc = .pop → s.queue ≠ []

theorem nwInv_act (s : NW β) (h : nwInv s) (a : NWAct β) : nwInv (s.act a) := by
  obtain ⟨h1, h2, h3⟩ := h
  cases a with
  | update x =>
    refine ⟨h1, ?_, ?_⟩
    · show s.file ++ inHand s ++ (s.queue ++ [x]) = s.submitted ++ [x]
      rw [← h2]; simp
    · intro _; simp [NW.act]
  | clear => exact ⟨h1, h2, h3⟩
  | writer =>
    unfold NW.act NW.writer inHand at *
    rcases hp : s.pc with _ | _ | _ | x | _ | _ <;> simp only [hp] at h1 h2 h3 ⊢
    · split_ifs <;> exact ⟨by simp, by simpa [inHand] using h2, by simp⟩
    · split_ifs with he
      · exact ⟨by simp, by simpa [inHand] using h2, by simp⟩
      · exact ⟨by simp, by simpa [inHand] using h2, by simpa using he⟩
    · rcases hq : s.queue with _ | ⟨y, q⟩
      · exact absurd hq (h3 trivial)
      · rw [hq] at h2
        exact ⟨by simp, by simpa [inHand] using h2, by simp⟩
    · exact ⟨by simp, by simpa [inHand] using h2, by simp⟩
    · exact ⟨by simp [hp], by simpa [inHand, hp] using h2, by simp [hp]⟩
    · exact absurd rfl h1

theorem nwInv_run (as : List (NWAct β)) : ∀ s : NW β, nwInv s → nwInv (s.run as) := by
  induction as with
  | nil => intro s h; exact h
  | cons a as ih => intro s h; exact ih _ (nwInv_act s h a)

theorem nwInv_init : nwInv (NW.init : NW β) := ⟨by simp [NW.init], rfl, by simp [NW.init]⟩

theorem submitted_run (as : List (NWAct β)) : ∀ s : NW β, (s.run as).submitted = s.submitted ++ updates as := by
  induction as with
  | nil => intro s; simp [NW.run, updates]
  | cons a as ih =>
    intro s
    rw [run_cons, ih]
    cases a with
    | update x => simp [NW.act, updates]
    | clear => rfl
    | writer =>
      have : (s.act .writer).submitted = s.submitted := by
        unfold NW.act NW.writer
        rcases hp : s.pc with _ | _ | _ | x | _ | _ <;> simp only
        · split_ifs <;> rfl
        · split_ifs <;> rfl
        · rcases hq : s.queue with _ | ⟨y, q⟩ <;> rfl
      rw [this]; rfl

/-- C58: under every interleaving, at every moment, the file contains the first messages submitted, in the
order of submission, each once, nothing else; what is missing is in the queue or in the hand of the thread;
and the thread never takes from an empty queue. -/
theorem C58_fifo_prefix (as : List (NWAct β)) :
    let s := (NW.init : NW β).run as
    s.file <+: updates as ∧ s.file ++ inHand s ++ s.queue = updates as ∧ s.pc ≠ .ub := by
  intro s
  have h := nwInv_run as _ (nwInv_init (β := β))
  have hs : s.submitted = updates as := by
    have := submitted_run as (NW.init : NW β)
    rw [show (NW.init : NW β).submitted = [] from rfl, List.nil_append] at this
    exact this
  have h2 : s.file ++ inHand s ++ s.queue = updates as := by rw [← hs]; exact h.split
  exact ⟨⟨inHand s ++ s.queue, by rw [← h2]; simp⟩, h2, h.noUb⟩

theorem file_mono (as : List (NWAct β)) : ∀ s : NW β, s.file <+: (s.run as).file := by
  induction as with
  | nil => intro s; exact List.prefix_refl _
  | cons a as ih =>
    intro s
    refine List.IsPrefix.trans ?_ (ih (s.act a))
    cases a with
    | update x => exact List.prefix_refl _
    | clear => exact List.prefix_refl _
    | writer =>
      unfold NW.act NW.writer
      rcases hp : s.pc with _ | _ | _ | x | _ | _ <;> simp only
      · split_ifs <;> exact List.prefix_refl _
      · split_ifs <;> exact List.prefix_refl _
      · rcases hq : s.queue with _ | ⟨y, q⟩ <;> exact List.prefix_refl _
      · exact List.prefix_append _ _
      · exact List.prefix_refl _
      · exact List.prefix_refl _

/-- Inside the outer loop. -/
def inside (s : NW β) : Prop := match s.pc with | .inner | .pop | .write _ => True | _ => False

theorem drained (K : List β) (as : List (NWAct β)) : ∀ s : NW β, nwInv s → K <+: s.submitted →
    (inside s ∨ K <+: s.file) → (inside (s.run as) ∨ K <+: (s.run as).file) := by
  induction as with
  | nil => intro s _ _ h; exact h
  | cons a as ih =>
    intro s hi hK h
    rw [run_cons]
    refine ih _ (nwInv_act s hi a) ?_ ?_
    · have := submitted_run [a] s
      have h2 : (s.act a).submitted = s.submitted ++ updates [a] := this
      rw [h2]; exact hK.trans (List.prefix_append _ _)
    · rcases h with h | h
      · cases a with
        | update x => exact Or.inl h
        | clear => exact Or.inl h
        | writer =>
          have hsplit := hi.split
          have hpop := hi.popOk
          unfold inside at h
          unfold inHand at hsplit
          unfold NW.act NW.writer inside
          rcases hp : s.pc with _ | _ | _ | x | _ | _ <;> simp only [hp] at h hsplit hpop ⊢
          · split_ifs with he
            · right
              rw [List.isEmpty_iff] at he
              rw [he] at hsplit
              simp only [List.append_nil] at hsplit
              show K <+: s.file
              rw [hsplit]; exact hK
            · left; trivial
          · rcases hq : s.queue with _ | ⟨y, q⟩
            · exact absurd hq (hpop trivial)
            · left; trivial
          · left; trivial
      · exact Or.inr (h.trans (file_mono [a] s))

/-- C59, the part that holds: everything submitted before the thread last found the flag set is in the file
when the thread has ended, so when `stop` returns. (For every point of the schedule at which the thread
finds the flag set, and every continuation in which it ends.) Missing: messages submitted later, see
`C59_stop_loses_everything`. -/
theorem C59_flushed_partial (before after : List (NWAct β))
    (hpc : ((NW.init : NW β).run before).pc = .test) (hflag : ((NW.init : NW β).run before).flag = true)
    (hdone : ((NW.init : NW β).run (before ++ [.writer] ++ after)).pc = .done) :
    updates before <+: ((NW.init : NW β).run (before ++ [.writer] ++ after)).file := by
  rw [List.append_assoc, run_append] at hdone ⊢
  set s := (NW.init : NW β).run before with hs
  have hi : nwInv s := nwInv_run before _ nwInv_init
  have hsub : s.submitted = updates before := by
    have := submitted_run before (NW.init : NW β)
    rw [show (NW.init : NW β).submitted = [] from rfl, List.nil_append] at this
    exact this
  rw [List.singleton_append, run_cons] at hdone ⊢
  have hin : inside (s.act .writer) := by
    simp only [NW.act, NW.writer, hpc, hflag, inside, if_true]
  have hK : updates before <+: (s.act .writer).submitted := by
    have h2 : (s.act .writer).submitted = s.submitted ++ updates [NWAct.writer (β := β)] := submitted_run [.writer] s
    rw [h2, hsub]; exact List.prefix_append _ _
  rcases drained (updates before) after _ (nwInv_act s hi .writer) hK (Or.inl hin) with h | h
  · simp only [inside, hdone] at h
  · exact h

/-- C59, the violation: whatever is submitted, there is a schedule (submit everything, stop, and only then
does the thread get to run) after which the thread has ended, so `stop` returns, and the file is empty. -/
theorem C59_stop_loses_everything (xs : List β) :
    let as := xs.map NWAct.update ++ [.clear, .writer]
    updates as = xs ∧ ((NW.init : NW β).run as).pc = .done ∧ ((NW.init : NW β).run as).file = [] := by
  have hu : ∀ xs : List β, updates (xs.map NWAct.update) = xs := by
    intro xs; induction xs with
    | nil => rfl
    | cons x xs ih => simp [updates, ih]
  have hr : ∀ (xs : List β) (s : NW β), s.run (xs.map NWAct.update) =
      { s with queue := s.queue ++ xs, submitted := s.submitted ++ xs } := by
    intro xs; induction xs with
    | nil => intro s; simp [NW.run]
    | cons x xs ih => intro s; rw [List.map_cons, run_cons, ih]; simp [NW.act]
  refine ⟨?_, ?_, ?_⟩
  · rw [updates_append, hu]; simp [updates]
  · rw [run_append, hr]; rfl
  · rw [run_append, hr]; rfl

/-- The same loss on the last messages only: the thread has written the first messages and is waiting; the
last ones are submitted and stopped in one go. -/
theorem C59_last_messages_lost (x y : β) :
    ∃ as, updates as = [x, y] ∧ ((NW.init : NW β).run as).pc = .done ∧ ((NW.init : NW β).run as).file = [x] :=
  ⟨[.update x, .writer, .writer, .writer, .writer, .writer, .update y, .clear, .writer], rfl, rfl, rfl⟩

/-- The thread never ends without `stop`: as long as nobody has cleared the flag it is still running. -/
theorem C59_runs_until_stop (as : List (NWAct β)) (h : NWAct.clear ∉ as) :
    ((NW.init : NW β).run as).pc ≠ .done := by
  have key : ∀ (as : List (NWAct β)) (s : NW β), NWAct.clear ∉ as → s.flag = true → s.pc ≠ .done →
      (s.run as).pc ≠ .done := by
    intro as
    induction as with
    | nil => intro s _ _ h; exact h
    | cons a as ih =>
      intro s hc hf hp
      rw [run_cons]
      have hc' : NWAct.clear ∉ as := fun h => hc (List.mem_cons_of_mem _ h)
      cases a with
      | update x => exact ih _ hc' hf hp
      | clear => exact absurd (List.mem_cons_self ..) hc
      | writer =>
        have hw : (s.act .writer).flag = true ∧ (s.act .writer).pc ≠ .done := by
          unfold NW.act NW.writer
          rcases hp' : s.pc with _ | _ | _ | x | _ | _ <;> simp only
          · simp [hf]
          · split_ifs <;> simp [hf]
          · rcases hq : s.queue with _ | ⟨y, q⟩ <;> simp [hf]
          · simp [hf]
          · exact absurd hp' hp
          · simp [hf, hp']
        exact ih _ hc' hw.1 hw.2
  exact key as _ h rfl (by simp [NW.init])

/-- How many steps the thread may still need once the flag is cleared. -/
def need (s : NW β) : Nat := match s.pc with
  | .test => 1
  | .inner => 3 * s.queue.length + 2
  | .pop => 3 * s.queue.length + 1
  | .write _ => 3 * s.queue.length + 3
  | .done => 0
  | .ub => 0

/-- C59: `stop` returns. Once the flag is cleared and nothing more is submitted, the thread ends within three
steps per queued message plus three. -/
theorem C59_stop_returns (as : List (NWAct β)) (n : Nat)
    (hn : 3 * ((NW.init : NW β).run as).queue.length + 3 ≤ n) :
    ((NW.init : NW β).run (as ++ .clear :: List.replicate n .writer)).pc = .done := by
  have key : ∀ (n : Nat) (s : NW β), nwInv s → (s.flag = false ∨ s.pc = .done) → need s ≤ n →
      (s.run (List.replicate n .writer)).pc = .done := by
    intro n
    induction n with
    | zero =>
      intro s hi _ h
      unfold need at h
      have hu := hi.noUb
      show s.pc = .done
      rcases hp : s.pc with _ | _ | _ | x | _ | _ <;> simp only [hp] at h
      · omega
      · omega
      · omega
      · omega
      · rfl
      · exact absurd hp hu
    | succ n ih =>
      intro s hi hf h
      rw [List.replicate_succ, run_cons]
      refine ih _ (nwInv_act s hi .writer) ?_ ?_
      · unfold NW.act NW.writer
        rcases hp : s.pc with _ | _ | _ | x | _ | _ <;> simp only [hp] at hf ⊢
        · split_ifs with hfl
          · simp [hfl] at hf
          · right; rfl
        · split_ifs <;> simpa using hf
        · rcases hq : s.queue with _ | ⟨y, q⟩ <;> simpa using hf
        · simpa using hf
        · right; simp [hp]
        · left; simpa using hf
      · have hpop := hi.popOk
        have hu := hi.noUb
        unfold need at h
        unfold NW.act NW.writer
        rcases hp : s.pc with _ | _ | _ | x | _ | _ <;> simp only [hp] at h hf hpop hu ⊢
        · split_ifs with hfl
          · simp [hfl] at hf
          · simp [need]
        · split_ifs with he
          · simp only [need]; rw [List.isEmpty_iff] at he; rw [he] at h; simp at h; omega
          · simp only [need]; omega
        · rcases hq : s.queue with _ | ⟨y, q⟩
          · exact absurd hq (hpop trivial)
          · rw [hq] at h; simp only [List.length_cons] at h; simp only [need]; omega
        · simp only [need]; omega
        · simp [need, hp]
        · exact absurd rfl hu
  rw [run_append, run_cons]
  set s := (NW.init : NW β).run as with hs
  have hi : nwInv s := nwInv_run as _ nwInv_init
  refine key n _ (nwInv_act s hi .clear) (Or.inl rfl) ?_
  have : need (s.act .clear) = need s := rfl
  rw [this]
  unfold need
  rcases hp : s.pc with _ | _ | _ | x | _ | _ <;> simp only <;> omega

/-- Two messages written, one in the queue, one in hand. -/
example : ((NW.init : NW Nat).run [.update 1, .update 2, .writer, .writer, .writer, .writer, .writer, .update 3, .writer]).file = [1] ∧
    inHand ((NW.init : NW Nat).run [.update 1, .update 2, .writer, .writer, .writer, .writer, .writer, .update 3, .writer]) = [2] := ⟨rfl, rfl⟩

/-- The hypotheses of `C59_flushed_partial` on a schedule in which a message arrives after the last successful
test but before the thread looks at the queue: both are written. -/
example : ((NW.init : NW Nat).run [.update 1]).pc = .test ∧ ((NW.init : NW Nat).run [.update 1]).flag = true ∧
    ((NW.init : NW Nat).run ([.update 1] ++ [.writer] ++
      [.update 2, .clear, .writer, .writer, .writer, .writer, .writer, .writer, .writer, .writer])).pc = .done := ⟨rfl, rfl, rfl⟩
end Verif.Props
