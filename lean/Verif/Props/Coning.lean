import Verif.Props.Strapdown
import Mathlib.Analysis.SpecialFunctions.Integrals.Basic
/-! C82: the two-sample coning and sculling corrections are exact when rates vary linearly. -/
namespace Verif.Props
open Verif Verif.Spec Verif.Convert Matrix

/-- The integral of a vector function of time. -/
noncomputable def vint (F : ℝ → V3 ℝ) (a b : ℝ) : V3 ℝ := fun i => ∫ t in a..b, F t i

theorem int_poly (p q r : ℝ) (a b : ℝ) :
    (∫ t in a..b, (p + q * t + r * t ^ 2)) = p * (b - a) + q * ((b ^ 2 - a ^ 2) / 2) + r * ((b ^ 3 - a ^ 3) / 3) := by
  have h1 : IntervalIntegrable (fun t : ℝ => p + q * t) MeasureTheory.volume a b := (by fun_prop : Continuous _).intervalIntegrable _ _
  have h2 : IntervalIntegrable (fun t : ℝ => r * t ^ 2) MeasureTheory.volume a b := (by fun_prop : Continuous _).intervalIntegrable _ _
  have h3 : IntervalIntegrable (fun _ : ℝ => p) MeasureTheory.volume a b := (by fun_prop : Continuous _).intervalIntegrable _ _
  have h4 : IntervalIntegrable (fun t : ℝ => q * t) MeasureTheory.volume a b := (by fun_prop : Continuous _).intervalIntegrable _ _
  rw [intervalIntegral.integral_add h1 h2, intervalIntegral.integral_add h3 h4,
    intervalIntegral.integral_const_mul, intervalIntegral.integral_const_mul]
  simp [integral_pow, integral_id]
  norm_num
  ring
theorem int_poly3 (p q r s : ℝ) (a b : ℝ) :
    (∫ t in a..b, (p + q * t + r * t ^ 2 + s * t ^ 3)) =
      p * (b - a) + q * ((b ^ 2 - a ^ 2) / 2) + r * ((b ^ 3 - a ^ 3) / 3) + s * ((b ^ 4 - a ^ 4) / 4) := by
  have h1 : IntervalIntegrable (fun t : ℝ => p + q * t + r * t ^ 2) MeasureTheory.volume a b := (by fun_prop : Continuous _).intervalIntegrable _ _
  have h2 : IntervalIntegrable (fun t : ℝ => s * t ^ 3) MeasureTheory.volume a b := (by fun_prop : Continuous _).intervalIntegrable _ _
  rw [intervalIntegral.integral_add h1 h2, int_poly]
  simp [integral_pow]
  norm_num

theorem vint_lin (a b : V3 ℝ) (x y : ℝ) : vint (fun t => a + t • b) x y = (y - x) • a + ((y ^ 2 - x ^ 2) / 2) • b := by
  ext i
  simp only [vint, Pi.add_apply, Pi.smul_apply, smul_eq_mul]
  rw [show (fun t => a i + t * b i) = fun t => a i + b i * t + 0 * t ^ 2 by funext t; ring, int_poly]
  ring

/-- The integral of `p(t) × q(t)` where `p` has no constant term and is quadratic, `q` linear. -/
theorem vint_cross (a b c d : V3 ℝ) (T k : ℝ) :
    vint (fun t => (c + t • d) + k • xp (t • a + (t ^ 2 / 2) • b) (c + t • d)) 0 T =
      T • c + (T ^ 2 / 2) • d + k • ((T ^ 2 / 2) • xp a c + (T ^ 3 / 3) • xp a d + (T ^ 3 / 6) • xp b c + (T ^ 4 / 8) • xp b d) := by
  ext i
  have key : ∀ p q r s : ℝ, (fun t : ℝ => p + q * t + r * t ^ 2 + s * t ^ 3) = (fun t : ℝ => p + q * t + r * t ^ 2 + s * t ^ 3) := fun _ _ _ _ => rfl
  have h : (fun t : ℝ => ((c + t • d) + k • xp (t • a + (t ^ 2 / 2) • b) (c + t • d)) i) = fun t : ℝ =>
      c i + (d i + k * xp a c i) * t + (k * (xp a d i + xp b c i / 2)) * t ^ 2 + (k * xp b d i / 2) * t ^ 3 := by
    funext t
    fin_cases i <;> simp [xp] <;> ring
  show (∫ t in (0 : ℝ)..T, ((c + t • d) + k • xp (t • a + (t ^ 2 / 2) • b) (c + t • d)) i) = _
  rw [h, int_poly3]
  simp only [Pi.add_apply, Pi.smul_apply, smul_eq_mul]
  ring

/-- C82, coning: for an angular rate `a + t b`, the rotation vector computed from the increments of this and
the previous interval is the integral of the rate plus half the cross product of the accumulated angle with it. -/
theorem C82_coning_exact (a b : V3 ℝ) (T : ℝ) (w : ℝ → V3 ℝ) (hw : w = fun t => a + t • b) :
    gyroToRv (vint w 0 T) (vint w (-T) 0) = vint (fun t => w t + (1 / 2 : ℝ) • xp (vint w 0 t) (w t)) 0 T := by
  subst hw
  have e : (fun t => (a + t • b) + (1 / 2 : ℝ) • xp (vint (fun t => a + t • b) 0 t) (a + t • b)) =
      fun t : ℝ => (a + t • b) + (1 / 2 : ℝ) • xp (t • a + (t ^ 2 / 2) • b) (a + t • b) := by
    funext t; rw [vint_lin]; norm_num
  simp only at e ⊢
  rw [e, vint_cross, vint_lin, vint_lin]
  ext i
  fin_cases i <;> simp [gyroToRv, vd, cross, v3, xp] <;> ring

/-- C82, sculling: for an angular rate `a + t b` and a specific force `c + t d` in the body frame, the velocity
change computed from the increments of this and the previous interval is the rotated integral of the force plus the
cross product of the accumulated angle with it, and the gravity and Coriolis part. -/
theorem C82_sculling_exact (g : ℝ) (s : Ins ℝ) (a b c d : V3 ℝ) (w f : ℝ → V3 ℝ) (hw : w = fun t => a + t • b)
    (hf : f = fun t => c + t • d) (hg : s.gyroPre = vint w (-s.dt) 0) (ha : s.accePre = vint f (-s.dt) 0) :
    (s.velocityUpdate g (vint f 0 s.dt) (vint w 0 s.dt)).nav.vn = s.nav.vn +
      ((1 : M3 ℝ) - (1 / 2 : ℝ) • xm (s.dt • (s.omegaIeN + s.omegaEnN))) *ᵥ
        (s.nav.Cbn *ᵥ vint (fun t => f t + xp (vint w 0 t) (f t)) 0 s.dt) +
      s.dt • (![0, 0, g] - xp ((2 : ℝ) • s.omegaIeN + s.omegaEnN) s.nav.vn) := by
  subst hw hf
  have e : (fun t => (c + t • d) + xp (vint (fun t => a + t • b) 0 t) (c + t • d)) =
      fun t : ℝ => (c + t • d) + (1 : ℝ) • xp (t • a + (t ^ 2 / 2) • b) (c + t • d) := by
    funext t; rw [vint_lin, one_smul]; norm_num
  simp only at e ⊢
  rw [e, vint_cross]
  have hk : vint (fun t => c + t • d) 0 s.dt + sv (Fl.lit (1 / 2)) (cross (vint (fun t => a + t • b) 0 s.dt) (vint (fun t => c + t • d) 0 s.dt)) +
      vd (cross s.gyroPre (vint (fun t => c + t • d) 0 s.dt) + cross s.accePre (vint (fun t => a + t • b) 0 s.dt)) (Fl.lit 12) =
      s.dt • c + (s.dt ^ 2 / 2) • d + (1 : ℝ) • ((s.dt ^ 2 / 2) • xp a c + (s.dt ^ 3 / 3) • xp a d + (s.dt ^ 3 / 6) • xp b c +
        (s.dt ^ 4 / 8) • xp b d) := by
    rw [hg, ha]
    simp only [vint_lin, sv_real, cross_eq]
    funext i
    fin_cases i <;> simp only [vd, lit_real, Pi.add_apply, Pi.smul_apply, smul_eq_mul, xp, Matrix.cons_val_zero, Matrix.cons_val_one,
      Matrix.cons_val, Fin.zero_eta, Fin.mk_one, Fin.reduceFinMk, Fin.isValue] <;> norm_num <;> ring
  show s.nav.vn + (mvec (mmul (eyeM 3 - sm (Fl.lit (1 / 2)) (skew (vs (s.omegaEnN + s.omegaIeN) s.dt))) s.nav.Cbn) _ + _) = _
  rw [hk, mvec_real, mmul_real, ← Matrix.mulVec_mulVec, eyeM_real, sm_real, skew_eq, vs_real, add_comm s.omegaEnN, sv_real, cross_eq, vs_real]
  rw [show (Fl.lit (1 / 2) : ℝ) = 1 / 2 by norm_num, show (Fl.lit 2 : ℝ) = 2 by norm_num, ← add_assoc]
  rfl
/-- A case with changing rates: the correction terms do not vanish. -/
example : gyroToRv (![1, 1 / 2, 0] : V3 ℝ) ![1, -1 / 2, 0] ≠ ![1, 1 / 2, 0] := by
  intro h
  have := congrFun h 2
  simp [gyroToRv, vd, cross, v3] at this
  norm_num at this
end Verif.Props
