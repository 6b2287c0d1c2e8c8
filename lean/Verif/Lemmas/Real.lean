import Verif.Model.Api
import Mathlib.LinearAlgebra.Matrix.PosDef
import Mathlib.Tactic.Ring
import Mathlib.Tactic.Linarith
import Mathlib.Tactic.NormNum
import Mathlib.Tactic.FinCases
/-! The numeric vocabulary at `ℝ` in Mathlib terms. -/
namespace Verif
open Matrix

@[simp] theorem lit_real (q : ℚ) : (Fl.lit q : ℝ) = (q : ℝ) := rfl
@[simp] theorem sin_real (x : ℝ) : Fl.sin x = Real.sin x := rfl
@[simp] theorem cos_real (x : ℝ) : Fl.cos x = Real.cos x := rfl
@[simp] theorem tan_real (x : ℝ) : Fl.tan x = Real.tan x := rfl
@[simp] theorem asin_real (x : ℝ) : Fl.asin x = Real.arcsin x := rfl
@[simp] theorem atan_real (x : ℝ) : Fl.atan x = Real.arctan x := rfl
@[simp] theorem sqrt_real (x : ℝ) : Fl.sqrt x = Real.sqrt x := rfl
@[simp] theorem pow_real (x y : ℝ) : Fl.pow x y = x ^ y := rfl
@[simp] theorem pi_real : (Fl.pi : ℝ) = Real.pi := rfl
@[simp] theorem f32_real (x : ℝ) : Fl.f32 x = x := rfl
theorem atan2_real (y x : ℝ) : Fl.atan2 y x = Complex.arg ⟨x, y⟩ := rfl
@[simp] theorem lt_real (a b : ℝ) : (Fl.lt a b = true) ↔ a < b := by
  show (@decide (a < b) (Classical.propDecidable _) = true) ↔ _
  rw [decide_eq_true_iff]
@[simp] theorem le_real (a b : ℝ) : (Fl.le a b = true) ↔ a ≤ b := by
  show (@decide (a ≤ b) (Classical.propDecidable _) = true) ↔ _
  rw [decide_eq_true_iff]
@[simp] theorem eq_real (a b : ℝ) : (Fl.eq a b = true) ↔ a = b := by
  show (@decide (a = b) (Classical.propDecidable _) = true) ↔ _
  rw [decide_eq_true_iff]
@[simp] theorem minv_real {n : Nat} (A : Matrix (Fin n) (Fin n) ℝ) : Fl.minv A = A⁻¹ := rfl

theorem foldl_add_real (l : List ℝ) (a : ℝ) : l.foldl (· + ·) a = a + l.sum := by
  induction l generalizing a with
  | nil => simp
  | cons x xs ih => simp only [List.foldl_cons, ih, List.sum_cons]; ring

theorem sumF_real {n : Nat} (f : Fin n → ℝ) : sumF f = ∑ i, f i := by
  rw [sumF, foldl_add_real, List.sum_ofFn, zero_add]

theorem mmul_real {m k n : Nat} (A : Matrix (Fin m) (Fin k) ℝ) (B : Matrix (Fin k) (Fin n) ℝ) : mmul A B = A * B := by
  ext i j; simp [mmul, sumF_real, Matrix.mul_apply]
theorem mvec_real {m k : Nat} (A : Matrix (Fin m) (Fin k) ℝ) (v : Fin k → ℝ) : mvec A v = A *ᵥ v := by
  ext i; simp [mvec, sumF_real, Matrix.mulVec, dotProduct]
theorem eyeM_real (n : Nat) : (eyeM n : Matrix (Fin n) (Fin n) ℝ) = 1 := by
  ext i j; simp [eyeM, Matrix.one_apply]
theorem diagM_real {n : Nat} (v : Fin n → ℝ) : diagM v = diagonal v := by
  ext i j; simp [diagM, Matrix.diagonal_apply]
theorem ms_real {m n : Nat} (A : Matrix (Fin m) (Fin n) ℝ) (c : ℝ) : ms A c = c • A := by
  ext i j; simp [ms, mul_comm]
theorem sm_real {m n : Nat} (A : Matrix (Fin m) (Fin n) ℝ) (c : ℝ) : sm c A = c • A := by
  ext i j; simp [sm]
theorem vs_real {n : Nat} (v : Fin n → ℝ) (c : ℝ) : vs v c = c • v := by
  ext i; simp [vs, mul_comm]
theorem sv_real {n : Nat} (v : Fin n → ℝ) (c : ℝ) : sv c v = c • v := by
  ext i; simp [sv]
theorem vd_one {n : Nat} (v : Fin n → ℝ) : vd v (ofI 1 : ℝ) = v := by
  ext i; simp [vd, ofI]
theorem sqNorm_real {n : Nat} (v : Fin n → ℝ) : sqNorm v = ∑ i, v i * v i := sumF_real _

/-- The update in Mathlib terms. -/
theorem update_P {n p : Nat} (k : Kf n ℝ) (H : Matrix (Fin p) (Fin n) ℝ) (z : Fin p → ℝ) (R : Matrix (Fin p) (Fin p) ℝ) :
    let K := k.P * Hᵀ * (H * k.P * Hᵀ + R)⁻¹
    (k.update H z R).P = (1 - K * H) * k.P * (1 - K * H)ᵀ + K * R * Kᵀ ∧ (k.update H z R).Xd = K *ᵥ z := by
  simp only [Kf.update, mmul_real, mvec_real, eyeM_real, minv_real]
  exact ⟨trivial, trivial⟩
theorem predict_P {n : Nat} (k : Kf n ℝ) (phi Q : Matrix (Fin n) (Fin n) ℝ) :
    (k.predict phi Q).P = phi * k.P * phiᵀ + Q ∧ (k.predict phi Q).Xd = phi *ᵥ k.Xd := by
  simp only [Kf.predict, mmul_real, mvec_real]
  exact ⟨trivial, trivial⟩
end Verif
