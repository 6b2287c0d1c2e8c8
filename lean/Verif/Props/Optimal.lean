import Verif.Spec.Stochastic
import Verif.Lemmas.Real
import Mathlib.Tactic.Abel
import Mathlib.Tactic.FinCases
import Mathlib.Tactic.NormNum
import Mathlib.Analysis.InnerProductSpace.PiL2
/-! C143: for linear errors the filter's covariance is the covariance of the error, and no linear estimate is better. -/
namespace Verif.Props
open Verif Verif.Spec Matrix
variable {V : Type*} [NormedAddCommGroup V] [InnerProductSpace ℝ V]

/-- What happens between the filter and the world: the error develops with noise `w`, or something is measured with noise `v`
(`obs` is the number the filter is given in one realisation; it may be any). -/
inductive Happens (n : Nat) (V : Type*)
  | drift (phi Q : Matrix (Fin n) (Fin n) ℝ) (w : Fin n → V)
  | look (p : Nat) (H : Matrix (Fin p) (Fin n) ℝ) (R : Matrix (Fin p) (Fin p) ℝ) (v : Fin p → V) (obs : Fin p → ℝ)

/-- The filter, the error of the estimate it corrects, the innovations measured so far and all sources of randomness so far. -/
structure Joint (n : Nat) (V : Type*) where
  kf : Kf n ℝ
  err : Fin n → V
  seen : List V
  past : List V

/-- How the filter's correction answers to a unit innovation in each channel: the gain, as it can be observed from outside. -/
noncomputable def answer {n p : Nat} (k : Kf n ℝ) (H : Matrix (Fin p) (Fin n) ℝ) (R : Matrix (Fin p) (Fin p) ℝ) : Matrix (Fin n) (Fin p) ℝ :=
  fun i j => (k.update H (Pi.single j 1) R).Xd i

/-- One step: the filter is called, and its correction is taken off the estimate (so off the error). -/
noncomputable def Joint.step {n : Nat} (s : Joint n V) : Happens n V → Joint n V
  | .drift phi Q w => { kf := s.kf.predict phi Q, err := fun i => comb phi s.err i + w i, seen := s.seen, past := List.ofFn w ++ s.past }
  | .look _ H R v obs =>
    let z := fun i => comb H s.err i + v i
    { kf := s.kf.update H obs R, err := fun i => s.err i - comb (answer s.kf H R) z i
      seen := List.ofFn z ++ s.seen, past := List.ofFn v ++ s.past }

/-- The noise is what the filter is told it is, and independent of all that went before. -/
def honest {n : Nat} (past : List V) : Happens n V → Prop
  | .drift _ Q w => covOf w w = Q ∧ freshTo w past
  | .look _ _ R v _ => covOf v v = R ∧ freshTo v past

/-- Honest all along a history. -/
def honestRun {n : Nat} : Joint n V → List (Happens n V) → Prop
  | _, [] => True
  | s, h :: hs => honest s.past h ∧ honestRun (s.step h) hs

/-- If something is measured, the innovation covariance can be inverted. -/
def regularStep {n : Nat} (k : Kf n ℝ) : Happens n V → Prop
  | .drift .. => True
  | .look _ H R _ _ => IsUnit (H * k.P * Hᵀ + R).det
/-- Whenever something is measured, the innovation covariance can be inverted. -/
def regularRun {n : Nat} : Joint n V → List (Happens n V) → Prop
  | _, [] => True
  | s, h :: hs => regularStep s.kf h ∧ regularRun (s.step h) hs

theorem comb_cov {m n l : Nat} (A : Matrix (Fin m) (Fin n) ℝ) (a : Fin n → V) (b : Fin l → V) : covOf (comb A a) b = A * covOf a b := by
  ext i j
  simp only [covOf, comb, Matrix.mul_apply, sum_inner, inner_smul_left]
  rfl
theorem covOf_swap {m n : Nat} (a : Fin m → V) (b : Fin n → V) : covOf a b = (covOf b a)ᵀ := by
  ext i j; simp only [covOf, transpose_apply]; exact real_inner_comm _ _
theorem covOf_comb {m n l : Nat} (A : Matrix (Fin m) (Fin n) ℝ) (a : Fin n → V) (b : Fin l → V) : covOf b (comb A a) = covOf b a * Aᵀ := by
  rw [covOf_swap, comb_cov, transpose_mul, ← covOf_swap]
theorem covOf_add_left {m n : Nat} (a a' : Fin m → V) (b : Fin n → V) : covOf (fun i => a i + a' i) b = covOf a b + covOf a' b := by
  ext i j; simp only [covOf, inner_add_left, Matrix.add_apply]
theorem covOf_add_right {m n : Nat} (a a' : Fin m → V) (b : Fin n → V) : covOf b (fun i => a i + a' i) = covOf b a + covOf b a' := by
  ext i j; simp only [covOf, inner_add_right, Matrix.add_apply]
theorem covOf_sub_left {m n : Nat} (a a' : Fin m → V) (b : Fin n → V) : covOf (fun i => a i - a' i) b = covOf a b - covOf a' b := by
  ext i j; simp only [covOf, inner_sub_left, Matrix.sub_apply]
theorem covOf_sub_right {m n : Nat} (a a' : Fin m → V) (b : Fin n → V) : covOf b (fun i => a i - a' i) = covOf b a - covOf b a' := by
  ext i j; simp only [covOf, inner_sub_right, Matrix.sub_apply]

theorem answer_gain {n p : Nat} (k : Kf n ℝ) (H : Matrix (Fin p) (Fin n) ℝ) (R : Matrix (Fin p) (Fin p) ℝ) :
    answer k H R = k.P * Hᵀ * (H * k.P * Hᵀ + R)⁻¹ := by
  ext i j
  unfold answer
  rw [(update_P k H _ R).2]
  simp
/-- The correction the filter computes from any innovation is its answer applied to it. -/
theorem correction_is_answer {n p : Nat} (k : Kf n ℝ) (H : Matrix (Fin p) (Fin n) ℝ) (z : Fin p → ℝ) (R : Matrix (Fin p) (Fin p) ℝ) :
    (k.update H z R).Xd = answer k H R *ᵥ z := by
  rw [answer_gain, (update_P k H z R).2]

/-- What holds along an honest history. -/
structure Told {n : Nat} (s : Joint n V) : Prop where
  cov : covOf s.err s.err = s.kf.P
  err : ∀ u, (∀ x ∈ s.past, inner ℝ x u = 0) → ∀ i, inner ℝ (s.err i) u = 0
  seen : ∀ u, (∀ x ∈ s.past, inner ℝ x u = 0) → ∀ z ∈ s.seen, inner ℝ z u = 0

theorem Told.fresh {n m : Nat} {s : Joint n V} (t : Told s) {w : Fin m → V} (h : freshTo w s.past) : covOf s.err w = 0 := by
  ext i j; exact t.err (w j) (h j) i

theorem comb_orth {m n : Nat} (A : Matrix (Fin m) (Fin n) ℝ) (a : Fin n → V) (u : V) (h : ∀ i, inner ℝ (a i) u = 0) (i : Fin m) :
    inner ℝ (comb A a i) u = 0 := by
  simp only [comb, sum_inner, inner_smul_left, h, mul_zero, Finset.sum_const_zero]

theorem told_step {n : Nat} {s : Joint n V} (t : Told s) (h : Happens n V) (hh : honest s.past h) : Told (s.step h) := by
  cases h with
  | drift phi Q w =>
    obtain ⟨hQ, hf⟩ := hh
    have ew := t.fresh hf
    have we : covOf w s.err = 0 := by rw [covOf_swap, ew]; rfl
    refine ⟨?_, ?_, ?_⟩
    · show covOf (fun i => comb phi s.err i + w i) (fun i => comb phi s.err i + w i) = (s.kf.predict phi Q).P
      rw [covOf_add_left, covOf_add_right, covOf_add_right, covOf_comb, covOf_comb, comb_cov, comb_cov, ew, we, hQ, t.cov,
        (predict_P s.kf phi Q).1]
      simp
    · intro u hu i
      show inner ℝ (comb phi s.err i + w i) u = 0
      rw [inner_add_left, comb_orth _ _ _ (t.err u fun x hx => hu x (List.mem_append_right _ hx)),
        hu (w i) (List.mem_append_left _ (List.mem_ofFn.2 ⟨i, rfl⟩)), add_zero]
    · intro u hu z hz
      exact t.seen u (fun x hx => hu x (List.mem_append_right _ hx)) z hz
  | look p H R v obs =>
    obtain ⟨hR, hf⟩ := hh
    have ev := t.fresh hf
    have ve : covOf v s.err = 0 := by rw [covOf_swap, ev]; rfl
    have hz : ∀ u, (∀ x ∈ List.ofFn v ++ s.past, inner ℝ x u = 0) → ∀ i, inner ℝ (comb H s.err i + v i) u = 0 := by
      intro u hu i
      rw [inner_add_left, comb_orth _ _ _ (t.err u fun x hx => hu x (List.mem_append_right _ hx)),
        hu (v i) (List.mem_append_left _ (List.mem_ofFn.2 ⟨i, rfl⟩)), add_zero]
    refine ⟨?_, ?_, ?_⟩
    · show covOf (fun i => s.err i - comb (answer s.kf H R) (fun i => comb H s.err i + v i) i)
        (fun i => s.err i - comb (answer s.kf H R) (fun i => comb H s.err i + v i) i) = (s.kf.update H obs R).P
      rw [(update_P s.kf H obs R).1, ← answer_gain]
      simp only [covOf_sub_left, covOf_sub_right, covOf_comb, comb_cov, covOf_add_left, covOf_add_right, ev, ve, hR, t.cov,
        transpose_sub, transpose_mul, transpose_one, Matrix.mul_add, Matrix.add_mul,
        Matrix.mul_sub, Matrix.sub_mul, Matrix.mul_zero, Matrix.zero_mul, Matrix.mul_one, Matrix.one_mul, Matrix.mul_assoc, add_zero, zero_add]
      abel
    · intro u hu i
      show inner ℝ (s.err i - comb (answer s.kf H R) (fun i => comb H s.err i + v i) i) u = 0
      rw [inner_sub_left, t.err u (fun x hx => hu x (List.mem_append_right _ hx)), comb_orth _ _ _ (hz u hu), sub_zero]
    · intro u hu z hm
      rcases List.mem_append.1 hm with hm | hm
      · obtain ⟨i, rfl⟩ := List.mem_ofFn.1 hm
        exact hz u hu i
      · exact t.seen u (fun x hx => hu x (List.mem_append_right _ hx)) z hm

theorem told_run {n : Nat} (hs : List (Happens n V)) : ∀ s : Joint n V, Told s → honestRun s hs → Told (hs.foldl Joint.step s) := by
  induction hs with
  | nil => intro s t _; exact t
  | cons h hs ih => intro s t hh; exact ih _ (told_step t h hh.1) hh.2

/-- The beginning: an estimate with an error of known covariance, nothing measured. -/
noncomputable def outset {n : Nat} (k : Kf n ℝ) (e : Fin n → V) : Joint n V := ⟨k, e, [], List.ofFn e⟩
theorem told_outset {n : Nat} (k : Kf n ℝ) (e : Fin n → V) (h : covOf e e = k.P) : Told (outset k e) :=
  ⟨h, fun u hu i => hu (e i) (List.mem_ofFn.2 ⟨i, rfl⟩), fun _ _ _ hz => absurd hz List.not_mem_nil⟩

/-- C143: over every history of predictions and measurements with honest noise, whatever the matrices and whatever numbers were measured,
the covariance the filter carries IS the covariance of the error of the corrected estimate; a reported deviation is its root mean square. -/
theorem C143_covariance_is_the_errors {n : Nat} (k : Kf n ℝ) (e : Fin n → V) (h0 : covOf e e = k.P) (hs : List (Happens n V))
    (hh : honestRun (outset k e) hs) (s : Joint n V) (hs' : s = hs.foldl Joint.step (outset k e)) :
    (∀ i j, s.kf.P i j = inner ℝ (s.err i) (s.err j)) ∧ ∀ i, Real.sqrt (s.kf.P i i) = ‖s.err i‖ := by
  have t := told_run hs _ (told_outset k e h0) hh
  rw [← hs'] at t
  have h : ∀ i j, s.kf.P i j = inner ℝ (s.err i) (s.err j) := fun i j => by rw [← t.cov]; rfl
  refine ⟨h, fun i => ?_⟩
  rw [h, real_inner_self_eq_norm_sq, Real.sqrt_sq (norm_nonneg _)]

/-- The error is uncorrelated with every innovation so far. -/
def cleared {n : Nat} (s : Joint n V) : Prop := ∀ z ∈ s.seen, ∀ i, inner ℝ (s.err i) z = 0

theorem cleared_step {n : Nat} {s : Joint n V} (t : Told s) (c : cleared s) (h : Happens n V) (hh : honest s.past h)
    (hr : regularStep s.kf h) : cleared (s.step h) := by
  cases h with
  | drift phi Q w =>
    intro z hz i
    show inner ℝ (comb phi s.err i + w i) z = 0
    rw [inner_add_left, comb_orth _ _ _ (c z hz), real_inner_comm, t.seen (w i) (hh.2 i) z hz, add_zero]
  | look p H R v obs =>
    obtain ⟨hR, hf⟩ := hh
    have ev := t.fresh hf
    have ve : covOf v s.err = 0 := by rw [covOf_swap, ev]; rfl
    have key : covOf (fun i => s.err i - comb (answer s.kf H R) (fun i => comb H s.err i + v i) i) (fun i => comb H s.err i + v i) = 0 := by
      rw [covOf_sub_left, comb_cov, covOf_add_right, covOf_add_left, covOf_add_right, covOf_add_right, comb_cov, comb_cov, covOf_comb,
        covOf_comb, ev, ve, hR, t.cov, answer_gain]
      simp only [add_zero, zero_add, Matrix.mul_zero, Matrix.zero_mul]
      have hS : IsUnit (H * (s.kf.P * Hᵀ) + R).det := by rw [← Matrix.mul_assoc]; exact hr
      rw [Matrix.mul_assoc H s.kf.P Hᵀ, Matrix.mul_assoc (s.kf.P * Hᵀ), Matrix.nonsing_inv_mul _ hS, Matrix.mul_one, sub_self]
    intro z hz i
    rcases List.mem_append.1 hz with hz | hz
    · obtain ⟨j, rfl⟩ := List.mem_ofFn.1 hz
      exact congrFun (congrFun key i) j
    · show inner ℝ (s.err i - comb (answer s.kf H R) (fun i => comb H s.err i + v i) i) z = 0
      have hz' : ∀ j, inner ℝ (comb H s.err j + v j) z = 0 := fun j => by
        rw [inner_add_left, comb_orth _ _ _ (c z hz), real_inner_comm, t.seen (v j) (hf j) z hz, add_zero]
      rw [inner_sub_left, c z hz, comb_orth _ _ _ hz', sub_zero]

theorem cleared_run {n : Nat} (hs : List (Happens n V)) : ∀ s : Joint n V, Told s → cleared s → honestRun s hs → regularRun s hs →
    cleared (hs.foldl Joint.step s) := by
  induction hs with
  | nil => intro s _ c _ _; exact c
  | cons h hs ih =>
    intro s t c hh hr
    exact ih _ (told_step t h hh.1) (cleared_step t c h hh.1 hr.1) hh.2 hr.2

/-- C143, optimality: no correction that is linear in the innovations measured so far makes the root-mean-square error of any component
smaller than the filter's corrections did. -/
theorem C143_no_linear_estimate_is_better {n : Nat} (k : Kf n ℝ) (e : Fin n → V) (h0 : covOf e e = k.P) (hs : List (Happens n V))
    (hh : honestRun (outset k e) hs) (hr : regularRun (outset k e) hs) (s : Joint n V) (hs' : s = hs.foldl Joint.step (outset k e))
    (i : Fin n) (y : V) (hy : y ∈ Submodule.span ℝ {z | z ∈ s.seen}) : ‖s.err i‖ ≤ ‖s.err i - y‖ := by
  have c := cleared_run hs _ (told_outset k e h0) (fun z hz => absurd hz List.not_mem_nil) hh hr
  rw [← hs'] at c
  have h : inner ℝ (s.err i) y = 0 := by
    induction hy using Submodule.span_induction with
    | mem z hz => exact c z hz i
    | zero => exact inner_zero_right _
    | add a b _ _ ha hb => rw [inner_add_right, ha, hb, add_zero]
    | smul r a _ ha => rw [inner_smul_right, ha, mul_zero]
  have := norm_sub_sq_eq_norm_sq_add_norm_sq_real h
  nlinarith [norm_nonneg (s.err i), norm_nonneg (s.err i - y), norm_nonneg y]

/-- The hypotheses of C143 are met: an error of variance 1 and a measurement of it with independent noise of variance 1. -/
example : ∃ (k : Kf 1 ℝ) (e : Fin 1 → EuclideanSpace ℝ (Fin 2)) (h : Happens 1 (EuclideanSpace ℝ (Fin 2))), covOf e e = k.P ∧
    honestRun (outset k e) [h] ∧ regularRun (outset k e) [h] := by
  refine ⟨⟨fun _ => 0, 1, 0, 0⟩, fun _ => EuclideanSpace.single 0 1, .look 1 1 1 (fun _ => EuclideanSpace.single 1 1) (fun _ => 0), ?_,
    ⟨⟨?_, ?_⟩, trivial⟩, ?_, trivial⟩
  · ext i j; fin_cases i; fin_cases j; simp [covOf]
  · ext i j; fin_cases i; fin_cases j; simp [covOf]
  · intro i x hx
    simp only [outset, List.mem_ofFn] at hx
    obtain ⟨_, rfl⟩ := hx
    simp [EuclideanSpace.inner_single_left]
  · simp [regularStep, outset]
end Verif.Props
