import Verif.Props.Covariance
import Mathlib.Tactic.Positivity
/-! C92: the gravity model. -/
namespace Verif.Props
open Verif Verif.Spec Verif.Convert Matrix

/-- Normal gravity as a textbook gives it: on the ellipsoid, and with height. -/
noncomputable def normalGravity (lat h : ℝ) : ℝ :=
  9.7803267715 * (1 + 0.0052790414 * Real.sin lat ^ 2 + 0.0000232718 * Real.sin lat ^ 4) +
    (0.0000000043977311 * Real.sin lat ^ 2 - 0.0000030876910891) * h + 0.0000000000007211 * h ^ 2

theorem gravity_eq (lat h : ℝ) : Earth.gravity lat h = normalGravity lat h := by
  simp only [Earth.gravity, Earth.g0, normalGravity, sin_real, lit_real]
  norm_num
  ring

/-- C92: the gravity the mechanization uses is normal gravity: the same in both hemispheres, weakest at the equator and strongest at the
poles, between 9.78 and 9.833 m/s² on the ellipsoid, and decreasing with height up to 2000 km. -/
theorem C92_gravity (lat h : ℝ) :
    Earth.gravity lat h = normalGravity lat h ∧ Earth.gravity (-lat) h = Earth.gravity lat h ∧
    (9.78 ≤ Earth.gravity lat 0 ∧ Earth.gravity lat 0 ≤ 9.833) ∧
    (∀ lat', Real.sin lat ^ 2 < Real.sin lat' ^ 2 → -1000000 ≤ h → Earth.gravity lat h < Earth.gravity lat' h) ∧
    (∀ h', h < h' → h' ≤ 2000000 → Earth.gravity lat h' < Earth.gravity lat h) := by
  have hs := Real.sin_sq_le_one lat
  have h0 := sq_nonneg (Real.sin lat)
  refine ⟨gravity_eq lat h, ?_, ⟨?_, ?_⟩, ?_, ?_⟩
  · rw [gravity_eq, gravity_eq]; unfold normalGravity; rw [Real.sin_neg]; ring
  · rw [gravity_eq]; unfold normalGravity
    have : Real.sin lat ^ 4 = (Real.sin lat ^ 2) ^ 2 := by ring
    rw [this]
    nlinarith
  · rw [gravity_eq]; unfold normalGravity
    have : Real.sin lat ^ 4 = (Real.sin lat ^ 2) ^ 2 := by ring
    rw [this]
    nlinarith
  · intro lat' hl hh
    rw [gravity_eq, gravity_eq]; unfold normalGravity
    have h1 : Real.sin lat ^ 4 = (Real.sin lat ^ 2) ^ 2 := by ring
    have h2 : Real.sin lat' ^ 4 = (Real.sin lat' ^ 2) ^ 2 := by ring
    rw [h1, h2]
    nlinarith
  · intro h' hl hh
    rw [gravity_eq, gravity_eq]; unfold normalGravity
    nlinarith

/-- C92: away from the ground the model stops being physical: above 2200 km it grows with height. -/
theorem C92_grows_high : ∃ lat h h' : ℝ, 0 < h ∧ h < h' ∧ h' < 3000000 ∧ Earth.gravity lat h < Earth.gravity lat h' := by
  refine ⟨0, 2200000, 2900000, by norm_num, by norm_num, by norm_num, ?_⟩
  rw [gravity_eq, gravity_eq]; unfold normalGravity
  rw [Real.sin_zero]
  norm_num

/-- C93: what the linearisation neglects of the gradient of gravity: within 10 km of the ellipsoid a
correction of a metre in height leaves less than 70 nm/s² unaccounted for, a metre north less than 10 nm/s². -/
theorem C93_gravity_residual (f : Fusion ℝ) (hc : Consistent f.ins.nav) (x : Fin 15 → ℝ) (lat h : ℝ) (el : lat = f.ins.nav.pos 0)
    (eh : h = f.ins.nav.pos 2) (hh : |h| ≤ 10000) :
    ∃ γ', HasDerivAt (fun e => Earth.gravity ((corrected f x e).pos 0) ((corrected f x e).pos 2)) γ' 0 ∧
      |γ' + 2 * Earth.gravity lat h / (Real.sqrt (rM lat * rN lat) + h) * x 2| ≤ 7e-8 * |x 2| + 1e-8 * |x 0| := by
  have r : Regular lat h := by rw [el, eh]; exact ⟨hc.lat, hc.height⟩
  obtain ⟨⟨c1, c2, c3⟩, ⟨p1, p2, p3⟩, -⟩ := C83_feedback f hc x _ rfl
  rw [← el, ← eh] at p1
  have q0 : (corrected f x 0).pos 0 = lat := by rw [c1, el]
  have q2 : (corrected f x 0).pos 2 = h := by rw [c1, eh]
  have hl := p1.sin
  rw [q0] at hl
  have h1 := (((((hl.pow 2).const_mul 0.0052790414).const_add 1).add ((hl.pow 4).const_mul 0.0000232718)).const_mul 9.7803267715)
  have h2 := (((hl.pow 2).const_mul 0.0000000043977311).sub_const 0.0000030876910891).mul p3
  have h3 := (p3.pow 2).const_mul 0.0000000000007211
  have hd := (h1.add h2).add h3
  refine ⟨_, (hd.congr_of_eventuallyEq (Filter.Eventually.of_forall fun e => ?_)), ?_⟩
  · simp only [gravity_eq, normalGravity]; rfl
  · simp only [q0, q2, Pi.pow_apply, Pi.add_apply]
    have hs := Real.sin_sq_le_one lat
    have hs0 := sq_nonneg (Real.sin lat)
    have hsc := Real.sin_sq_add_cos_sq lat
    obtain ⟨k1, k2⟩ := abs_le.1 hh
    obtain ⟨-, -, m1, m2, n1, n2, -⟩ := C44_radii lat
    rw [rM_eq] at m1 m2
    rw [rN_eq] at m2 n1 n2
    have e1 : 6335000 ≤ rM lat := le_trans (by unfold wgsA wgsE2; norm_num) m1
    have e2 : rN lat ≤ 6400000 := by
      refine le_trans n2 ?_
      rw [div_le_iff₀ (Real.sqrt_pos.2 (by unfold wgsE2; norm_num))]
      have : (0.9966 : ℝ) ≤ Real.sqrt (1 - wgsE2) := by
        apply Real.le_sqrt_of_sq_le; unfold wgsE2; norm_num
      unfold wgsA
      nlinarith
    have hR1 : 6335000 ≤ Real.sqrt (rM lat * rN lat) := by
      apply Real.le_sqrt_of_sq_le; nlinarith
    have hR2 : Real.sqrt (rM lat * rN lat) ≤ 6400000 := by
      apply Real.sqrt_le_iff.2; constructor
      · norm_num
      · nlinarith
    set R := Real.sqrt (rM lat * rN lat)
    have hRh : 0 < R + h := by linarith
    have g1 : 9.749 ≤ Earth.gravity lat h ∧ Earth.gravity lat h ≤ 9.864 := by
      rw [gravity_eq]; unfold normalGravity
      have : Real.sin lat ^ 4 = (Real.sin lat ^ 2) ^ 2 := by ring
      rw [this]
      constructor <;> nlinarith
    have q1 : 3.04e-6 ≤ 2 * Earth.gravity lat h / (R + h) := by
      rw [le_div_iff₀ hRh]; linarith
    have q2 : 2 * Earth.gravity lat h / (R + h) ≤ 3.12e-6 := by
      rw [div_le_iff₀ hRh]; linarith
    set Q := 2 * Earth.gravity lat h / (R + h)
    set s := Real.sin lat
    set c := Real.cos lat
    set y := x 0 / (rM lat + h) with hy
    have hcb : |s * c| ≤ 1 / 2 := by
      rw [abs_le]; constructor <;> nlinarith [sq_nonneg (s + c), sq_nonneg (s - c)]
    have hyb : |y| ≤ |x 0| / 6320000 := by
      rw [hy, abs_div, abs_of_pos (by linarith : 0 < rM lat + h)]
      exact div_le_div_of_nonneg_left (abs_nonneg _) (by norm_num) (by linarith)
    have key : ∀ A B : ℝ, |A| ≤ 7e-8 → |B| ≤ 0.06 → |A * x 2 + B * y| ≤ 7e-8 * |x 2| + 1e-8 * |x 0| := by
      intro A B hA hB
      have t1 : |A * x 2| ≤ 7e-8 * |x 2| := by rw [abs_mul]; exact mul_le_mul_of_nonneg_right hA (abs_nonneg _)
      have t2 : |B * y| ≤ 0.06 * (|x 0| / 6320000) := by
        rw [abs_mul]; exact mul_le_mul hB hyb (abs_nonneg _) (by norm_num)
      have := abs_add_le (A * x 2) (B * y)
      have n0 := abs_nonneg (x 0); have n2 := abs_nonneg (x 2)
      linarith
    have e : ∀ a b : ℝ, a = b → |b| ≤ 7e-8 * |x 2| + 1e-8 * |x 0| → |a| ≤ 7e-8 * |x 2| + 1e-8 * |x 0| := fun a b h k => h ▸ k
    refine e _ ((Q + 0.0000000043977311 * s ^ 2 - 0.0000030876910891 + 2 * 0.0000000000007211 * h) * x 2 +
      (-(s * c) * (9.7803267715 * (2 * 0.0052790414 + 4 * 0.0000232718 * s ^ 2) + 2 * 0.0000000043977311 * h)) * y) ?_ (key _ _ ?_ ?_)
    · rw [hy]; simp; ring
    · rw [abs_le]; constructor <;> linarith
    · rw [abs_mul, abs_neg]
      have : |9.7803267715 * (2 * 0.0052790414 + 4 * 0.0000232718 * s ^ 2) + 2 * 0.0000000043977311 * h| ≤ (0.12 : ℝ) := by
        rw [abs_le]; constructor <;> nlinarith
      refine (mul_le_mul hcb this (abs_nonneg _) (by norm_num)).trans (by norm_num)

/-- The hypotheses are met by the vehicle of C81: a real correction in height and to the north, 100 m above the ellipsoid. -/
example (f : Fusion ℝ) (x : Fin 15 → ℝ) :
    ∃ γ', HasDerivAt (fun e => Earth.gravity ((corrected { f with ins := demoIns } x e).pos 0)
      ((corrected { f with ins := demoIns } x e).pos 2)) γ' 0 ∧
      |γ' + 2 * Earth.gravity (1 / 2) 100 / (Real.sqrt (rM (1 / 2) * rN (1 / 2)) + 100) * x 2| ≤ 7e-8 * |x 2| + 1e-8 * |x 0| := by
  have h3 := Real.pi_gt_three
  exact C93_gravity_residual { f with ins := demoIns }
    ⟨by simp [demoIns, qsq], rfl, by simp [demoIns], by constructor <;> simp [demoIns] <;> linarith,
      by constructor <;> simp [demoIns] <;> linarith, by simp [demoIns]; norm_num⟩
    x _ _ (by simp [demoIns]) (by simp [demoIns]) (by norm_num)
end Verif.Props
