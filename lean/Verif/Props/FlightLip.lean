import Verif.Props.TrueForce
import Verif.Props.Gravity
import Verif.Props.PlaceMoves
import Mathlib.Analysis.Calculus.ContDiff.RCLike
import Mathlib.Analysis.SpecialFunctions.Sqrt
import Mathlib.Analysis.SpecialFunctions.Pow.Deriv
import Mathlib.Analysis.Convex.Basic
/-! Lipschitz bounds of the navigation rates, away from the poles. -/
namespace Verif.Props
open Verif Verif.Spec Verif.Convert Matrix

/-- Bounded and Lipschitz on a box. -/
structure BoxLip (Λ H : ℝ) (φ : ℝ × ℝ → ℝ) (K : ℝ) : Prop where
  le : ∀ l z, |l| ≤ Λ → |z| ≤ H → |φ (l, z)| ≤ K
  lip : ∀ l l' z z', |l| ≤ Λ → |l'| ≤ Λ → |z| ≤ H → |z'| ≤ H → |φ (l, z) - φ (l', z')| ≤ K * (|l - l'| + |z - z'|)
theorem BoxLip.mono {Λ H : ℝ} {φ : ℝ × ℝ → ℝ} {k : ℝ} (h : BoxLip Λ H φ k) {K : ℝ} (hk : k ≤ K) : BoxLip Λ H φ K :=
  ⟨fun l z h1 h2 => (h.1 l z h1 h2).trans hk, fun l l' z z' h1 h2 h3 h4 => (h.2 l l' z z' h1 h2 h3 h4).trans (mul_le_mul_of_nonneg_right hk (by positivity))⟩

/-- A smooth function of latitude and height on a box. -/
theorem box_lip (Λ H : ℝ) (φ : ℝ × ℝ → ℝ) (h : ∀ p : ℝ × ℝ, |p.1| ≤ Λ → |p.2| ≤ H → ContDiffAt ℝ 1 φ p) :
    ∃ K, 0 ≤ K ∧ BoxLip Λ H φ K := by
  have hs : IsCompact (Set.Icc (-Λ) Λ ×ˢ Set.Icc (-H) H) := isCompact_Icc.prod isCompact_Icc
  have hc : Convex ℝ (Set.Icc (-Λ) Λ ×ˢ Set.Icc (-H) H) := (convex_Icc _ _).prod (convex_Icc _ _)
  have hd : ContDiffOn ℝ 1 φ (Set.Icc (-Λ) Λ ×ˢ Set.Icc (-H) H) := fun p hp => (h p (abs_le.2 hp.1) (abs_le.2 hp.2)).contDiffWithinAt
  obtain ⟨K, hK⟩ := hd.exists_lipschitzOnWith one_ne_zero hc hs
  obtain ⟨M, hM⟩ := hs.exists_bound_of_continuousOn hd.continuousOn
  refine ⟨K + |M|, by positivity, ?_, ?_⟩
  · intro l z h1 h2
    have := hM (l, z) ⟨abs_le.1 h1, abs_le.1 h2⟩
    rw [Real.norm_eq_abs] at this
    have := le_abs_self M
    have : (0 : ℝ) ≤ K := K.2
    linarith
  · intro l l' z z' h1 h2 h3 h4
    have := hK.dist_le_mul (l, z) ⟨abs_le.1 h1, abs_le.1 h3⟩ (l', z') ⟨abs_le.1 h2, abs_le.1 h4⟩
    rw [Real.dist_eq, Prod.dist_eq, Real.dist_eq, Real.dist_eq] at this
    have hm : max |l - l'| |z - z'| ≤ |l - l'| + |z - z'| := max_le (by linarith [abs_nonneg (z - z')]) (by linarith [abs_nonneg (l - l')])
    have h5 : (K : ℝ) * max |l - l'| |z - z'| ≤ (K + |M|) * (|l - l'| + |z - z'|) :=
      mul_le_mul (by linarith [abs_nonneg M]) hm (le_max_of_le_left (abs_nonneg _)) (by positivity)
    exact this.trans h5

theorem rN_smooth (l : ℝ) : ContDiffAt ℝ 1 rN l := by
  unfold rN
  have h := e2sq_pos l
  exact ContDiffAt.div contDiffAt_const ((contDiffAt_const.sub (contDiffAt_const.mul (Real.contDiff_sin.contDiffAt.pow 2))).sqrt h.ne') (Real.sqrt_pos.2 h).ne'
theorem rM_smooth (l : ℝ) : ContDiffAt ℝ 1 rM l := by
  unfold rM
  have h := e2sq_pos l
  exact ContDiffAt.div contDiffAt_const ((contDiffAt_const.sub (contDiffAt_const.mul (Real.contDiff_sin.contDiffAt.pow 2))).rpow_const_of_ne h.ne') (Real.rpow_pos_of_pos h _).ne'

/-- Four scalars. -/
theorem scalars_lip (Λ H : ℝ) (hΛ : Λ < Real.pi / 2) (hH : H ≤ 6000000) : ∃ K, 0 ≤ K ∧ BoxLip Λ H (fun p => 1 / (rN p.1 + p.2)) K ∧
    BoxLip Λ H (fun p => 1 / (rM p.1 + p.2)) K ∧ BoxLip Λ H (fun p => Real.tan p.1 * (1 / (rN p.1 + p.2))) K ∧ BoxLip Λ H (fun p => normalGravity p.1 p.2) K := by
  have hN : ∀ p : ℝ × ℝ, |p.2| ≤ H → rN p.1 + p.2 ≠ 0 := by
    intro p h2
    obtain ⟨-, -, r1, r2, -, -, -⟩ := C44_radii p.1
    have h3 := (abs_le.1 h2).1
    have hM : 6335000 ≤ rM p.1 := by rw [← rM_eq]; unfold wgsA wgsE2 at r1; norm_num at r1; linarith
    rw [← rM_eq] at hM
    rw [← rN_eq]
    intro h0
    linarith
  have hM : ∀ p : ℝ × ℝ, |p.2| ≤ H → rM p.1 + p.2 ≠ 0 := by
    intro p h2
    obtain ⟨-, -, r1, r2, -, -, -⟩ := C44_radii p.1
    have h3 := (abs_le.1 h2).1
    have hM : 6335000 ≤ rM p.1 := by rw [← rM_eq]; unfold wgsA wgsE2 at r1; norm_num at r1; linarith
    intro h0
    linarith
  have f1 : ∀ p : ℝ × ℝ, ContDiffAt ℝ 1 (fun p : ℝ × ℝ => rN p.1 + p.2) p := fun p => ((rN_smooth p.1).comp p contDiffAt_fst).add contDiffAt_snd
  have f2 : ∀ p : ℝ × ℝ, ContDiffAt ℝ 1 (fun p : ℝ × ℝ => rM p.1 + p.2) p := fun p => ((rM_smooth p.1).comp p contDiffAt_fst).add contDiffAt_snd
  have fs : ∀ p : ℝ × ℝ, ContDiffAt ℝ 1 (fun p : ℝ × ℝ => Real.sin p.1) p := fun p => Real.contDiff_sin.contDiffAt.comp p contDiffAt_fst
  have fc : ∀ p : ℝ × ℝ, ContDiffAt ℝ 1 (fun p : ℝ × ℝ => Real.cos p.1) p := fun p => Real.contDiff_cos.contDiffAt.comp p contDiffAt_fst
  obtain ⟨K1, p1, a1⟩ := box_lip Λ H (fun p => 1 / (rN p.1 + p.2)) (fun p _ h2 => contDiffAt_const.div (f1 p) (hN p h2))
  obtain ⟨K2, p2, a2⟩ := box_lip Λ H (fun p => 1 / (rM p.1 + p.2)) (fun p _ h2 => contDiffAt_const.div (f2 p) (hM p h2))
  obtain ⟨K3, p3, a3⟩ := box_lip Λ H (fun p => Real.tan p.1 * (1 / (rN p.1 + p.2))) (fun p h1 h2 => by
    have hcos : Real.cos p.1 ≠ 0 := by
      have := abs_le.1 h1
      exact (Real.cos_pos_of_mem_Ioo ⟨by linarith, by linarith⟩).ne'
    have e : (fun p : ℝ × ℝ => Real.tan p.1 * (1 / (rN p.1 + p.2))) = fun p => Real.sin p.1 / Real.cos p.1 * (1 / (rN p.1 + p.2)) := by
      funext p; rw [Real.tan_eq_sin_div_cos]
    rw [e]
    exact ((fs p).div (fc p) hcos).mul (contDiffAt_const.div (f1 p) (hN p h2)))
  obtain ⟨K6, p6, a6⟩ := box_lip Λ H (fun p => normalGravity p.1 p.2) (fun p _ _ => by
    unfold normalGravity
    exact ((contDiffAt_const.mul ((contDiffAt_const.add (contDiffAt_const.mul ((fs p).pow 2))).add (contDiffAt_const.mul ((fs p).pow 4)))).add
      (((contDiffAt_const.mul ((fs p).pow 2)).sub contDiffAt_const).mul contDiffAt_snd)).add (contDiffAt_const.mul (contDiffAt_snd.pow 2)))
  exact ⟨K1 + K2 + K3 + K6, by positivity, a1.mono (by linarith), a2.mono (by linarith), a3.mono (by linarith), a6.mono (by linarith)⟩

/-- The rate at which the navigation frame turns. -/
noncomputable def frameRate (l : ℝ) (v : V3 ℝ) (z : ℝ) : V3 ℝ := earthRate l + transportRate v l z
/-- Gravity and Coriolis acceleration. -/
noncomputable def fallRate (l : ℝ) (v : V3 ℝ) (z : ℝ) (u : V3 ℝ) : V3 ℝ :=
  ![0, 0, normalGravity l z] - xp ((2 : ℝ) • earthRate l + transportRate v l z) u

theorem len_le_sum (x : V3 ℝ) : len x ≤ |x 0| + |x 1| + |x 2| := by
  have h : len x ^ 2 ≤ (|x 0| + |x 1| + |x 2|) ^ 2 := by
    rw [len_sq, ← sq_abs (x 0), ← sq_abs (x 1), ← sq_abs (x 2)]
    have := abs_nonneg (x 0); have := abs_nonneg (x 1); have := abs_nonneg (x 2)
    nlinarith [mul_nonneg (abs_nonneg (x 0)) (abs_nonneg (x 1)), mul_nonneg (abs_nonneg (x 0)) (abs_nonneg (x 2)), mul_nonneg (abs_nonneg (x 1)) (abs_nonneg (x 2))]
  exact (abs_le_of_sq_le_sq' h (by positivity)).2

theorem prod_lip (a b x y K V d e : ℝ) (ha : |a| ≤ K) (hab : |a - b| ≤ K * d) (hy : |y| ≤ V) (hxy : |x - y| ≤ e) :
    |x * a - y * b| ≤ K * e + V * (K * d) := by
  have h : x * a - y * b = (x - y) * a + y * (a - b) := by ring
  rw [h]
  refine (abs_add_le _ _).trans ?_
  rw [abs_mul, abs_mul]
  have h1 := mul_le_mul hxy ha (abs_nonneg _) ((abs_nonneg _).trans hxy)
  have h2 := mul_le_mul hy hab (abs_nonneg _) ((abs_nonneg _).trans hy)
  linarith

/-- All rates within limits are bounded and Lipschitz. -/
structure RatesLip (Λ V H K : ℝ) : Prop where
  nonneg : 0 ≤ K
  frame_le : ∀ l v z, |l| ≤ Λ → len v ≤ V → |z| ≤ H → len (frameRate l v z) ≤ K
  frame_lip : ∀ l l' v v' z z', |l| ≤ Λ → |l'| ≤ Λ → len v ≤ V → len v' ≤ V → |z| ≤ H → |z'| ≤ H →
    len (frameRate l v z - frameRate l' v' z') ≤ K * (|l - l'| + len (v - v') + |z - z'|)
  fall_le : ∀ l v z u, |l| ≤ Λ → len v ≤ V → |z| ≤ H → len u ≤ V → len (fallRate l v z u) ≤ K
  fall_lip : ∀ l l' v v' z z' u u', |l| ≤ Λ → |l'| ≤ Λ → len v ≤ V → len v' ≤ V → |z| ≤ H → |z'| ≤ H → len u ≤ V → len u' ≤ V →
    len (fallRate l v z u - fallRate l' v' z' u') ≤ K * (|l - l'| + len (v - v') + |z - z'| + len (u - u'))
  lat_le : ∀ l v z, |l| ≤ Λ → len v ≤ V → |z| ≤ H → |posRate v l z 0| ≤ K

theorem rates_lip (Λ V H : ℝ) (hΛ : Λ < Real.pi / 2) (hH : H ≤ 6000000) (hV : 0 ≤ V) : ∃ K, RatesLip Λ V H K := by
  obtain ⟨K, hK, ⟨a1, b1⟩, ⟨a2, b2⟩, ⟨a3, b3⟩, ⟨a6, b6⟩⟩ := scalars_lip Λ H hΛ hH
  dsimp only at a1 a2 a3 a6 b1 b2 b3 b6
  have hW : 0 < earthW ∧ earthW ≤ 1 := by unfold earthW; constructor <;> norm_num
  have ct : ∀ (v : V3 ℝ) l z, transportRate v l z = ![v 1 * (1 / (rN l + z)), -(v 0 * (1 / (rM l + z))), -(v 1 * (Real.tan l * (1 / (rN l + z))))] := by
    intro v l z; ext i; fin_cases i <;> simp [transportRate] <;> ring
  -- transport
  have tb : ∀ l v z, |l| ≤ Λ → len v ≤ V → |z| ≤ H → len (transportRate v l z) ≤ 3 * (V * K) := by
    intro l v z h1 h2 h3
    refine (len_le_sum _).trans ?_
    rw [ct]
    have v0 := (comp_le_len v 0).trans h2
    have v1 := (comp_le_len v 1).trans h2
    have m : ∀ x y, |x| ≤ V → |y| ≤ K → |x * y| ≤ V * K := fun x y hx hy => by
      rw [abs_mul]; exact mul_le_mul hx hy (abs_nonneg _) hV
    have := m _ _ v1 (a1 l z h1 h3); have := m _ _ v0 (a2 l z h1 h3); have := m _ _ v1 (a3 l z h1 h3)
    simp only [Matrix.cons_val_zero, Matrix.cons_val_one, Matrix.cons_val, abs_neg]
    linarith
  have tl : ∀ l l' v v' z z', |l| ≤ Λ → |l'| ≤ Λ → len v ≤ V → len v' ≤ V → |z| ≤ H → |z'| ≤ H →
      len (transportRate v l z - transportRate v' l' z') ≤ 3 * (K * len (v - v') + V * (K * (|l - l'| + |z - z'|))) := by
    intro l l' v v' z z' h1 h2 h3 h4 h5 h6
    refine (len_le_sum _).trans ?_
    rw [ct, ct]
    have v0 := (comp_le_len v' 0).trans h4
    have v1 := (comp_le_len v' 1).trans h4
    have d0 : |v 0 - v' 0| ≤ len (v - v') := comp_le_len (v - v') 0
    have d1 : |v 1 - v' 1| ≤ len (v - v') := comp_le_len (v - v') 1
    have c1 := prod_lip _ _ _ _ K V _ _ (a1 l z h1 h5) (b1 l l' z z' h1 h2 h5 h6) v1 d1
    have c2 := prod_lip _ _ _ _ K V _ _ (a2 l z h1 h5) (b2 l l' z z' h1 h2 h5 h6) v0 d0
    have c3 := prod_lip _ _ _ _ K V _ _ (a3 l z h1 h5) (b3 l l' z z' h1 h2 h5 h6) v1 d1
    have neg : ∀ a b : ℝ, |-a - -b| = |a - b| := fun a b => by rw [← abs_neg]; congr 1; ring
    simp only [Pi.sub_apply, Matrix.cons_val_zero, Matrix.cons_val_one, Matrix.cons_val, neg]
    linarith
  have el : ∀ l l', len (earthRate l - earthRate l') ≤ 2 * |l - l'| := by
    intro l l'
    refine (len_le_sum _).trans ?_
    have hs : |Real.sin l - Real.sin l'| ≤ |l - l'| := by
      have := Real.lipschitzWith_sin.dist_le_mul l l'; simpa [Real.dist_eq] using this
    have hc : |Real.cos l - Real.cos l'| ≤ |l - l'| := by
      have := Real.lipschitzWith_cos.dist_le_mul l l'; simpa [Real.dist_eq] using this
    simp only [earthRate, Pi.sub_apply, Matrix.cons_val_zero, Matrix.cons_val_one, Matrix.cons_val]
    have e1 : earthW * Real.cos l - earthW * Real.cos l' = earthW * (Real.cos l - Real.cos l') := by ring
    have e2 : -earthW * Real.sin l - -earthW * Real.sin l' = -(earthW * (Real.sin l - Real.sin l')) := by ring
    rw [e1, e2, abs_neg, abs_mul, abs_mul, abs_of_pos hW.1, sub_self, abs_zero]
    have := abs_nonneg (Real.cos l - Real.cos l'); have := abs_nonneg (Real.sin l - Real.sin l')
    nlinarith
  have VK : 0 ≤ V * K := mul_nonneg hV hK
  have rb : ∀ l v z, |l| ≤ Λ → len v ≤ V → |z| ≤ H → len ((2 : ℝ) • earthRate l + transportRate v l z) ≤ 2 + 3 * (V * K) := by
    intro l v z h1 h2 h3
    refine (len_add_le _ _).trans ?_
    rw [len_smul, earthRate_len, abs_of_pos (by norm_num)]
    linarith [tb l v z h1 h2 h3]
  refine ⟨(2 + 3 * (V * K)) + (4 + 3 * K + 3 * (V * K)) * (1 + V) + K + (2 + 3 * (V * K)) * V + V * K, ?_, ?_, ?_, ?_, ?_, ?_⟩
  · positivity
  · intro l v z h1 h2 h3
    unfold frameRate
    refine (len_add_le _ _).trans ?_
    rw [earthRate_len]
    have := tb l v z h1 h2 h3
    have : 0 ≤ (4 + 3 * K + 3 * (V * K)) * (1 + V) + K + (2 + 3 * (V * K)) * V + V * K := by positivity
    linarith
  · intro l l' v v' z z' h1 h2 h3 h4 h5 h6
    have e : frameRate l v z - frameRate l' v' z' = (earthRate l - earthRate l') + (transportRate v l z - transportRate v' l' z') := by
      unfold frameRate; abel
    rw [e]
    refine (len_add_le _ _).trans ?_
    have q1 := el l l'
    have q2 := tl l l' v v' z z' h1 h2 h3 h4 h5 h6
    have n1 := abs_nonneg (l - l'); have n2 := len_nonneg (v - v'); have n3 := abs_nonneg (z - z')
    refine le_trans ?_ (mul_le_mul_of_nonneg_right (?_ : 2 + 3 * K + 3 * (V * K) ≤ _) (by positivity))
    · have := mul_nonneg VK n2; have := mul_nonneg hK n1; have := mul_nonneg hK n3
      nlinarith
    · have : 0 ≤ (2 + 3 * (V * K)) + (4 + 3 * K + 3 * (V * K)) * V + K + (2 + 3 * (V * K)) * V + V * K := by positivity
      nlinarith
  · intro l v z u h1 h2 h3 h4
    unfold fallRate
    refine (len_sub_le _ _).trans ?_
    rw [len_axis]
    have q1 := a6 l z h1 h3
    have q2 := (len_xp_le ((2 : ℝ) • earthRate l + transportRate v l z) u).trans (mul_le_mul (rb l v z h1 h2 h3) h4 (len_nonneg _) (by positivity))
    have : 0 ≤ (2 + 3 * (V * K)) + (4 + 3 * K + 3 * (V * K)) * (1 + V) + V * K := by positivity
    linarith
  · intro l l' v v' z z' u u' h1 h2 h3 h4 h5 h6 h7 h8
    have e : fallRate l v z u - fallRate l' v' z' u' = ![0, 0, normalGravity l z - normalGravity l' z'] -
        (xp (((2 : ℝ) • (earthRate l - earthRate l') + (transportRate v l z - transportRate v' l' z'))) u +
          xp ((2 : ℝ) • earthRate l' + transportRate v' l' z') (u - u')) := by
      unfold fallRate
      ext i; fin_cases i <;> simp [xp] <;> ring
    rw [e]
    refine (len_sub_le _ _).trans ?_
    rw [len_axis]
    have q1 := b6 l l' z z' h1 h2 h5 h6
    have q2 := tl l l' v v' z z' h1 h2 h3 h4 h5 h6
    have q3 : len ((2 : ℝ) • (earthRate l - earthRate l') + (transportRate v l z - transportRate v' l' z')) ≤
        4 * |l - l'| + 3 * (K * len (v - v') + V * (K * (|l - l'| + |z - z'|))) := by
      refine (len_add_le _ _).trans ?_
      rw [len_smul, abs_of_pos (by norm_num)]
      linarith [el l l']
    have n1 := abs_nonneg (l - l'); have n2 := len_nonneg (v - v'); have n3 := abs_nonneg (z - z'); have n4 := len_nonneg (u - u')
    have q4 := (len_xp_le ((2 : ℝ) • (earthRate l - earthRate l') + (transportRate v l z - transportRate v' l' z')) u).trans
      (mul_le_mul q3 h7 (len_nonneg _) (by positivity))
    have q5 := (len_xp_le ((2 : ℝ) • earthRate l' + transportRate v' l' z') (u - u')).trans (mul_le_mul_of_nonneg_right (rb l' v' z' h2 h4 h6) n4)
    have q6 := len_add_le (xp (((2 : ℝ) • (earthRate l - earthRate l') + (transportRate v l z - transportRate v' l' z'))) u)
      (xp ((2 : ℝ) • earthRate l' + transportRate v' l' z') (u - u'))
    obtain ⟨S, hS⟩ : ∃ S, S = |l - l'| + len (v - v') + |z - z'| + len (u - u') := ⟨_, rfl⟩
    have s1 : |l - l'| + |z - z'| ≤ S := by rw [hS]; linarith
    have s2 : 4 * |l - l'| + 3 * (K * len (v - v') + V * (K * (|l - l'| + |z - z'|))) ≤ (4 + 3 * K + 3 * (V * K)) * S := by
      have t1 : K * len (v - v') ≤ K * S := mul_le_mul_of_nonneg_left (by rw [hS]; linarith) hK
      have t2 : V * (K * (|l - l'| + |z - z'|)) ≤ V * (K * S) := mul_le_mul_of_nonneg_left (mul_le_mul_of_nonneg_left s1 hK) hV
      have t3 : |l - l'| ≤ S := by rw [hS]; linarith
      linarith
    have s3 := mul_le_mul_of_nonneg_right s2 hV
    have s4 : (2 + 3 * (V * K)) * len (u - u') ≤ (2 + 3 * (V * K)) * S := mul_le_mul_of_nonneg_left (by rw [hS]; linarith) (by positivity)
    have s5 := mul_le_mul_of_nonneg_left s1 hK
    have hS0 : 0 ≤ S := by rw [hS]; positivity
    rw [← hS]
    have z1 := mul_nonneg VK hS0
    have z2 := mul_nonneg hK hS0
    have z3 : 0 ≤ (2 + 3 * (V * K)) * V * S := by positivity
    have z4 : (2 + 3 * (V * K) + (4 + 3 * K + 3 * (V * K)) * (1 + V) + K + (2 + 3 * (V * K)) * V + V * K) * S =
      (2 + 3 * (V * K)) * S + (4 + 3 * K + 3 * (V * K)) * S + (4 + 3 * K + 3 * (V * K)) * S * V + K * S + (2 + 3 * (V * K)) * V * S + V * K * S := by ring
    rw [z4]
    linarith
  · intro l v z h1 h2 h3
    have e : posRate v l z 0 = v 0 * (1 / (rM l + z)) := by simp [posRate]; ring
    rw [e, abs_mul]
    have := mul_le_mul ((comp_le_len v 0).trans h2) (a2 l z h1 h3) (abs_nonneg _) hV
    have : 0 ≤ (2 + 3 * (V * K)) + (4 + 3 * K + 3 * (V * K)) * (1 + V) + K + (2 + 3 * (V * K)) * V := by positivity
    linarith
end Verif.Props
