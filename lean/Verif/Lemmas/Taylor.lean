import Mathlib.Analysis.SpecialFunctions.Trigonometric.Bounds
import Mathlib.Analysis.SpecialFunctions.Trigonometric.Deriv
import Mathlib.Analysis.Calculus.Deriv.MeanValue
import Mathlib.Tactic.Ring
import Mathlib.Tactic.NormNum
import Mathlib.Tactic.Linarith
/-! Two-sided Taylor bounds of sine and cosine. -/
namespace Verif.Taylor
open Real

theorem nonneg_of_deriv (f f' : ℝ → ℝ) (hf : ∀ x, HasDerivAt f (f' x) x) (h0 : f 0 = 0) (h : ∀ x, 0 ≤ x → 0 ≤ f' x)
    (x : ℝ) (hx : 0 ≤ x) : 0 ≤ f x := by
  have hm : MonotoneOn f (Set.Ici 0) := by
    refine monotoneOn_of_deriv_nonneg (convex_Ici 0) (fun y _ => (hf y).continuousAt.continuousWithinAt)
      (fun y _ => (hf y).differentiableAt.differentiableWithinAt) (fun y hy => ?_)
    rw [(hf y).deriv]
    exact h y (interior_subset hy)
  rw [← h0]
  exact hm (Set.self_mem_Ici) hx hx

theorem pw (n : ℕ) (c x : ℝ) : HasDerivAt (fun y : ℝ => y ^ (n + 1) / c) ((n + 1 : ℝ) * x ^ n / c) x := by
  have h := (hasDerivAt_pow (n + 1) x).div_const c
  simpa using h

theorem sin1 (x : ℝ) (hx : 0 ≤ x) : sin x ≤ x := Real.sin_le hx
theorem cos2 (x : ℝ) (hx : 0 ≤ x) : 1 - x ^ 2 / 2 ≤ cos x := by
  have := nonneg_of_deriv (fun x => cos x - 1 + x ^ 2 / 2) (fun x => -sin x + (1 + 1 : ℝ) * x ^ 1 / 2)
    (fun x => ((hasDerivAt_cos x).sub_const 1).add (by simpa using pw 1 2 x)) (by simp)
    (fun x hx => by have := sin1 x hx; ring_nf; linarith) x hx
  linarith
theorem sin3 (x : ℝ) (hx : 0 ≤ x) : x - x ^ 3 / 6 ≤ sin x := by
  have := nonneg_of_deriv (fun x => sin x - x + x ^ 3 / 6) (fun x => cos x - 1 + ((2 : ℕ) + 1 : ℝ) * x ^ 2 / 6)
    (fun x => ((hasDerivAt_sin x).sub (hasDerivAt_id x)).add (pw 2 6 x)) (by simp)
    (fun x hx => by have := cos2 x hx; push_cast; linarith) x hx
  linarith
theorem cos4 (x : ℝ) (hx : 0 ≤ x) : cos x ≤ 1 - x ^ 2 / 2 + x ^ 4 / 24 := by
  have := nonneg_of_deriv (fun x => (1 - cos x - x ^ 2 / 2) + x ^ 4 / 24)
    (fun x => (-(-sin x) - ((1 : ℕ) + 1 : ℝ) * x ^ 1 / 2) + ((3 : ℕ) + 1 : ℝ) * x ^ 3 / 24)
    (fun x => (((hasDerivAt_cos x).const_sub 1).sub (pw 1 2 x)).add (pw 3 24 x)) (by simp)
    (fun x hx => by have := sin3 x hx; push_cast; linarith) x hx
  linarith
theorem sin5 (x : ℝ) (hx : 0 ≤ x) : sin x ≤ x - x ^ 3 / 6 + x ^ 5 / 120 := by
  have := nonneg_of_deriv (fun x => (x - sin x - x ^ 3 / 6) + x ^ 5 / 120)
    (fun x => (1 - cos x - ((2 : ℕ) + 1 : ℝ) * x ^ 2 / 6) + ((4 : ℕ) + 1 : ℝ) * x ^ 4 / 120)
    (fun x => (((hasDerivAt_id x).sub (hasDerivAt_sin x)).sub (pw 2 6 x)).add (pw 4 120 x)) (by simp)
    (fun x hx => by have := cos4 x hx; push_cast; linarith) x hx
  linarith
theorem cos6 (x : ℝ) (hx : 0 ≤ x) : 1 - x ^ 2 / 2 + x ^ 4 / 24 - x ^ 6 / 720 ≤ cos x := by
  have := nonneg_of_deriv (fun x => ((cos x - 1 + x ^ 2 / 2) - x ^ 4 / 24) + x ^ 6 / 720)
    (fun x => ((-sin x + ((1 : ℕ) + 1 : ℝ) * x ^ 1 / 2) - ((3 : ℕ) + 1 : ℝ) * x ^ 3 / 24) + ((5 : ℕ) + 1 : ℝ) * x ^ 5 / 720)
    (fun x => ((((hasDerivAt_cos x).sub_const 1).add (pw 1 2 x)).sub (pw 3 24 x)).add (pw 5 720 x)) (by simp)
    (fun x hx => by have := sin5 x hx; push_cast; linarith) x hx
  linarith
theorem sin7 (x : ℝ) (hx : 0 ≤ x) : x - x ^ 3 / 6 + x ^ 5 / 120 - x ^ 7 / 5040 ≤ sin x := by
  have := nonneg_of_deriv (fun x => ((sin x - x + x ^ 3 / 6) - x ^ 5 / 120) + x ^ 7 / 5040)
    (fun x => ((cos x - 1 + ((2 : ℕ) + 1 : ℝ) * x ^ 2 / 6) - ((4 : ℕ) + 1 : ℝ) * x ^ 4 / 120) + ((6 : ℕ) + 1 : ℝ) * x ^ 6 / 5040)
    (fun x => ((((hasDerivAt_sin x).sub (hasDerivAt_id x)).add (pw 2 6 x)).sub (pw 4 120 x)).add (pw 6 5040 x)) (by simp)
    (fun x hx => by have := cos6 x hx; push_cast; linarith) x hx
  linarith
theorem cos8 (x : ℝ) (hx : 0 ≤ x) : cos x ≤ 1 - x ^ 2 / 2 + x ^ 4 / 24 - x ^ 6 / 720 + x ^ 8 / 40320 := by
  have := nonneg_of_deriv (fun x => (((1 - cos x - x ^ 2 / 2) + x ^ 4 / 24) - x ^ 6 / 720) + x ^ 8 / 40320)
    (fun x => (((-(-sin x) - ((1 : ℕ) + 1 : ℝ) * x ^ 1 / 2) + ((3 : ℕ) + 1 : ℝ) * x ^ 3 / 24) - ((5 : ℕ) + 1 : ℝ) * x ^ 5 / 720) + ((7 : ℕ) + 1 : ℝ) * x ^ 7 / 40320)
    (fun x => (((((hasDerivAt_cos x).const_sub 1).sub (pw 1 2 x)).add (pw 3 24 x)).sub (pw 5 720 x)).add (pw 7 40320 x)) (by simp)
    (fun x hx => by have := sin7 x hx; push_cast; linarith) x hx
  linarith
theorem sin9 (x : ℝ) (hx : 0 ≤ x) : sin x ≤ x - x ^ 3 / 6 + x ^ 5 / 120 - x ^ 7 / 5040 + x ^ 9 / 362880 := by
  have := nonneg_of_deriv (fun x => (((x - sin x - x ^ 3 / 6) + x ^ 5 / 120) - x ^ 7 / 5040) + x ^ 9 / 362880)
    (fun x => (((1 - cos x - ((2 : ℕ) + 1 : ℝ) * x ^ 2 / 6) + ((4 : ℕ) + 1 : ℝ) * x ^ 4 / 120) - ((6 : ℕ) + 1 : ℝ) * x ^ 6 / 5040) + ((8 : ℕ) + 1 : ℝ) * x ^ 8 / 362880)
    (fun x => (((((hasDerivAt_id x).sub (hasDerivAt_sin x)).sub (pw 2 6 x)).add (pw 4 120 x)).sub (pw 6 5040 x)).add (pw 8 362880 x)) (by simp)
    (fun x hx => by have := cos8 x hx; push_cast; linarith) x hx
  linarith
end Verif.Taylor
