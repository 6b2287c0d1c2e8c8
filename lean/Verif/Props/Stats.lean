import Verif.Lemmas.Real
import Verif.Lemmas.Align
import Mathlib.Tactic.Positivity
import Mathlib.Tactic.FieldSimp
/-! The smoothed IMU statistics, in exact arithmetic. -/
namespace Verif.Props
open Verif Verif.Spec

theorem stepAve_real (n : Int) (a x : ℝ) : Smooth.stepAve n a x = (a * ((n : ℝ) - 1) + x) / n := by
  simp [Smooth.stepAve, ofI]
theorem stepVar_real (n : Int) (v a x : ℝ) : Smooth.stepVar n v a x = (v * ((n : ℝ) - 1) + (x - a) * (x - a)) / n := by
  simp [Smooth.stepVar, ofI]

/-- The divisor of the `k`-th sample (counting from one). -/
def divisor (win : Int) (k : Nat) : Int := if (k : Int) < win then k else win

theorem divisor_pos (win : Int) (h : 1 ≤ win) (k : Nat) (hk : 1 ≤ k) : 1 ≤ divisor win k := by
  unfold divisor; split_ifs <;> omega

/-- One smoothed axis: a running mean and variance over samples. -/
noncomputable def axis (win : Int) : List ℝ → ℝ × ℝ :=
  fun xs => (xs.foldl (fun (s : Nat × ℝ × ℝ) x =>
    let n := divisor win (s.1 + 1)
    let a := Smooth.stepAve n s.2.1 x
    (s.1 + 1, a, Smooth.stepVar n s.2.2 a x)) (0, 0, 0)).2

theorem axis_snoc (win : Int) (xs : List ℝ) (x : ℝ) :
    axis win (xs ++ [x]) =
      (Smooth.stepAve (divisor win (xs.length + 1)) (axis win xs).1 x,
       Smooth.stepVar (divisor win (xs.length + 1)) (axis win xs).2
        (Smooth.stepAve (divisor win (xs.length + 1)) (axis win xs).1 x) x) := by
  have hlen : ∀ (xs : List ℝ) (s : Nat × ℝ × ℝ), (xs.foldl (fun (s : Nat × ℝ × ℝ) x =>
    let n := divisor win (s.1 + 1)
    let a := Smooth.stepAve n s.2.1 x
    (s.1 + 1, a, Smooth.stepVar n s.2.2 a x)) s).1 = s.1 + xs.length := by
    intro xs
    induction xs with
    | nil => intro s; rfl
    | cons y ys ih => intro s; simp only [List.foldl_cons]; rw [ih]; simp; omega
  have h0 := hlen xs (0, 0, 0)
  unfold axis
  rw [List.foldl_append]
  simp only [List.foldl_cons, List.foldl_nil]
  rw [h0]
  simp

/-- Which component of a sample: true for the accelerometer. -/
def pick (acc : Bool) (i : Fin 3) (m : Imu ℝ) : ℝ := if acc then m.acce i else m.gyro i

theorem feed_up (thr : ℝ) (sw win : Int) (xs : List (Imu ℝ)) : (feed thr sw win xs).upCnt = xs.length ∧
    (feed thr sw win xs).width = win := by
  induction xs using List.reverseRecOn with
  | nil => exact ⟨rfl, rfl⟩
  | append_singleton xs x ih =>
    rw [feed_snoc]
    refine ⟨?_, ih.2⟩
    show (feed thr sw win xs).upCnt + 1 = _
    rw [ih.1]; simp

/-- Each of the six axes of the detector is such a running mean and variance. -/
theorem feed_axis (thr : ℝ) (sw win : Int) (xs : List (Imu ℝ)) (acc : Bool) (i : Fin 3) :
    (pick acc i (feed thr sw win xs).ave, pick acc i (feed thr sw win xs).var) = axis win (xs.map (pick acc i)) := by
  induction xs using List.reverseRecOn with
  | nil =>
    have : (feed thr sw win ([] : List (Imu ℝ))).ave = Smooth.zeroImu ∧ (feed thr sw win ([] : List (Imu ℝ))).var = Smooth.zeroImu := ⟨rfl, rfl⟩
    rw [this.1, this.2]
    have hz : pick acc i (Smooth.zeroImu : Imu ℝ) = 0 := by
      cases acc <;> fin_cases i <;> rfl
    rw [hz]; rfl
  | append_singleton xs x ih =>
    rw [feed_snoc, List.map_append, List.map_singleton, axis_snoc, ← ih]
    obtain ⟨h1, h2⟩ := feed_up thr sw win xs
    generalize feed thr sw win xs = s at *
    have hd : (if s.upCnt + 1 < s.width then s.upCnt + 1 else s.width) = divisor win ((xs.map (pick acc i)).length + 1) := by
      rw [h1, h2, List.length_map]; rfl
    cases acc
    · simp only [pick, Smooth.update, Bool.false_eq_true, if_false] at hd ⊢
      rw [hd]
    · simp only [pick, Smooth.update, if_true] at hd ⊢
      rw [hd]

/-- C34: for every window of at least one sample and every non-empty sequence, on each of the six axes the smoothed
mean lies in every interval that contains the samples; while there are no more samples than the window it is their
arithmetic mean; and the smoothed variance is not negative. -/
theorem C34_smoothed_statistics (thr : ℝ) (sw win : Int) (hw : 1 ≤ win) (xs : List (Imu ℝ)) (hx : xs ≠ [])
    (acc : Bool) (i : Fin 3) :
    (∀ lo hi, (∀ m ∈ xs, lo ≤ pick acc i m ∧ pick acc i m ≤ hi) →
      lo ≤ pick acc i (feed thr sw win xs).ave ∧ pick acc i (feed thr sw win xs).ave ≤ hi) ∧
    ((xs.length : Int) ≤ win →
      pick acc i (feed thr sw win xs).ave = (xs.map (pick acc i)).sum / xs.length) ∧
    0 ≤ pick acc i (feed thr sw win xs).var := by
  have hax := feed_axis thr sw win xs acc i
  have h1 : pick acc i (feed thr sw win xs).ave = (axis win (xs.map (pick acc i))).1 := by rw [← hax]
  have h2 : pick acc i (feed thr sw win xs).var = (axis win (xs.map (pick acc i))).2 := by rw [← hax]
  rw [h1, h2]
  have hlen : (xs.length : Int) = ((xs.map (pick acc i)).length : Int) := by simp
  have hlen' : (xs.length : ℝ) = ((xs.map (pick acc i)).length : ℝ) := by simp
  have hne : xs.map (pick acc i) ≠ [] := by simpa using hx
  have hall : ∀ lo hi, (∀ m ∈ xs, lo ≤ pick acc i m ∧ pick acc i m ≤ hi) ↔ ∀ y ∈ xs.map (pick acc i), lo ≤ y ∧ y ≤ hi := by
    intro lo hi; simp
  simp only [hall, hlen, hlen']
  generalize xs.map (pick acc i) = ys at hne
  clear h1 h2 hlen hlen' hall hax hx
  have range : ∀ ys : List ℝ, ys ≠ [] → ∀ lo hi, (∀ y ∈ ys, lo ≤ y ∧ y ≤ hi) → lo ≤ (axis win ys).1 ∧ (axis win ys).1 ≤ hi := by
    intro ys
    induction ys using List.reverseRecOn with
    | nil => intro h; exact absurd rfl h
    | append_singleton ys y ih =>
      intro _ lo hi hb
      rw [axis_snoc]
      have hy := hb y (by simp)
      have hd := divisor_pos win hw (ys.length + 1) (by omega)
      have hd' : (1 : ℝ) ≤ (divisor win (ys.length + 1) : ℝ) := by exact_mod_cast hd
      simp only [stepAve_real]
      rcases ys.eq_nil_or_concat with rfl | ⟨_, _, rfl⟩
      · have : divisor win (([] : List ℝ).length + 1) = 1 := by unfold divisor; simp; omega
        rw [this]; simpa [axis] using hy
      · obtain ⟨a, b⟩ := ih (by simp) lo hi (fun z hz => hb z (by simp at hz ⊢; tauto))
        rw [le_div_iff₀ (by linarith), div_le_iff₀ (by linarith)]
        constructor <;> nlinarith
  have mean : ∀ ys : List ℝ, (ys.length : Int) ≤ win → (axis win ys).1 * ys.length = ys.sum := by
    intro ys
    induction ys using List.reverseRecOn with
    | nil => intro _; simp
    | append_singleton ys y ih =>
      intro hl
      have hl' : (ys.length : Int) + 1 ≤ win := by simpa using hl
      have ih := ih (by omega)
      have hd : divisor win (ys.length + 1) = ys.length + 1 := by
        unfold divisor; split_ifs with h
        · push_cast; rfl
        · push_cast at h; omega
      rw [axis_snoc, hd]
      simp only [stepAve_real]
      push_cast
      rw [List.sum_append, ← ih]
      have : (ys.length : ℝ) + 1 ≠ 0 := by positivity
      simp
      field_simp
  have var : ∀ ys : List ℝ, 0 ≤ (axis win ys).2 := by
    intro ys
    induction ys using List.reverseRecOn with
    | nil => exact le_refl (0 : ℝ)
    | append_singleton ys y ih =>
      rw [axis_snoc]
      have hd := divisor_pos win hw (ys.length + 1) (by omega)
      have hd' : (1 : ℝ) ≤ (divisor win (ys.length + 1) : ℝ) := by exact_mod_cast hd
      simp only [stepVar_real]
      apply div_nonneg _ (by linarith)
      apply add_nonneg (mul_nonneg ih (by linarith)) (mul_self_nonneg _)
  refine ⟨range ys hne, fun hl => ?_, var ys⟩
  rw [eq_div_iff, mean ys hl]
  have : 0 < ys.length := List.length_pos_iff.2 hne
  positivity

/-- The two windows the library uses (10 and 30 samples) satisfy the hypothesis, e.g. on one sample. -/
example : (1 : Int) ≤ 10 ∧ (1 : Int) ≤ 30 ∧ [(Smooth.zeroImu : Imu ℝ)] ≠ [] := ⟨by decide, by decide, by simp⟩
end Verif.Props
