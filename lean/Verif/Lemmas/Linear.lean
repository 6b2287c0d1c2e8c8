import Verif.Props.Sensitivity
import Mathlib.Analysis.SpecialFunctions.Pow.Deriv
/-! The transition matrix by blocks, and the derivatives of the navigation rates (for C93). -/
namespace Verif.Props
open Verif Verif.Spec Verif.Convert Matrix

/-- An error state put together from its five blocks. -/
def stack (r v a g b : V3 ℝ) : Fin 15 → ℝ :=
  ![r 0, r 1, r 2, v 0, v 1, v 2, a 0, a 1, a 2, g 0, g 1, g 2, b 0, b 1, b 2]

set_option maxHeartbeats 2000000 in
theorem transfer_mulVec (g : ℝ) (f : Fusion ℝ) (x : Fin 15 → ℝ) :
    f.transferMatrix g *ᵥ x = x + stack
      (f.ins.dt • (![x 3, x 4, x 5] - xp f.ins.omegaEnN ![x 0, x 1, x 2]))
      (f.ins.dt • (-xp (f.ins.omegaEnN + (2 : ℝ) • f.ins.omegaIeN) ![x 3, x 4, x 5] + xp f.ins.nav.vfKb ![x 6, x 7, x 8] +
        f.ins.nav.Cbn *ᵥ ![x 12, x 13, x 14] + ![-g / (Earth.RM (f.ins.nav.pos 0) + f.ins.nav.pos 2) * x 0,
          -g / (Earth.RN (f.ins.nav.pos 0) + f.ins.nav.pos 2) * x 1,
          2 * g / (Real.sqrt (Earth.RM (f.ins.nav.pos 0) * Earth.RN (f.ins.nav.pos 0)) + f.ins.nav.pos 2) * x 2]))
      (f.ins.dt • (-xp (f.ins.omegaEnN + f.ins.omegaIeN) ![x 6, x 7, x 8] - f.ins.nav.Cbn *ᵥ ![x 9, x 10, x 11]))
      (f.ins.dt • (-(1 / f.opt.imuPara.gtCorr) • ![x 9, x 10, x 11])) (f.ins.dt • (-(1 / f.opt.imuPara.atCorr) • ![x 12, x 13, x 14])) := by
  unfold Fusion.transferMatrix
  dsimp only
  generalize f.ins.omegaEnN = en
  generalize f.ins.omegaIeN = ie
  generalize f.ins.nav.vfKb = vf
  generalize f.ins.nav.Cbn = C
  generalize f.ins.dt = t
  generalize f.opt.imuPara.gtCorr = c1
  generalize f.opt.imuPara.atCorr = c2
  rw [eyeM_real, sv_real]
  have e2 : ((Fl.lit 2 : ℝ)) = 2 := by norm_num
  rw [e2]
  generalize hd : (v3 (-g / (Earth.RM (f.ins.nav.pos 0) + f.ins.nav.pos 2)) (-g / (Earth.RN (f.ins.nav.pos 0) + f.ins.nav.pos 2))
        (2 * g / (Fl.sqrt (Earth.RM (f.ins.nav.pos 0) * Earth.RN (f.ins.nav.pos 0)) + f.ins.nav.pos 2)) : V3 ℝ) = D
  have d0 : -g / (Earth.RM (f.ins.nav.pos 0) + f.ins.nav.pos 2) = D 0 := by rw [← hd]; rfl
  have d1 : -g / (Earth.RN (f.ins.nav.pos 0) + f.ins.nav.pos 2) = D 1 := by rw [← hd]; rfl
  have d2 : 2 * g / (Real.sqrt (Earth.RM (f.ins.nav.pos 0) * Earth.RN (f.ins.nav.pos 0)) + f.ins.nav.pos 2) = D 2 := by rw [← hd]; rfl
  rw [d0, d1, d2]
  clear hd d0 d1 d2 e2
  have hC : ∀ a b c : ℝ, C *ᵥ ![a, b, c] = ![C 0 0 * a + C 0 1 * b + C 0 2 * c, C 1 0 * a + C 1 1 * b + C 1 2 * c,
      C 2 0 * a + C 2 1 * b + C 2 2 * c] := by
    intro a b c; ext i; fin_cases i <;> simp [Matrix.mulVec, dotProduct, Fin.sum_univ_three]
  rw [hC, hC]
  ext k
  fin_cases k <;>
  · simp only [Matrix.mulVec, dotProduct, Fin.sum_univ_succ, setBlock, skew, xp, stack]
    simp [Fin.succ, Matrix.one_apply, ms, md, diagM]
    try ring

/-! ## Derivatives of the rates -/

theorem rN_deriv {p : ℝ → ℝ} {u : ℝ} (hp : HasDerivAt p u 0) (hc : Real.cos (p 0) ≠ 0) :
    HasDerivAt (fun t => rN (p t)) ((rN (p 0) - rM (p 0)) * Real.tan (p 0) * u) 0 := by
  refine (den_deriv hp).congr_deriv ?_
  have h0 := e2sq_pos (p 0)
  set W := Real.sqrt (1 - 0.00669437999013 * Real.sin (p 0) ^ 2) with hW
  have hWp : 0 < W := Real.sqrt_pos.2 h0
  have hWs : W ^ 2 = 1 - 0.00669437999013 * Real.sin (p 0) ^ 2 := Real.sq_sqrt h0.le
  have hN : rN (p 0) = 6378137 / W := rfl
  have hM : rM (p 0) = 6378137 * (1 - 0.00669437999013) / (W ^ 2 * W) := by
    rw [← rM_eq, RM_val, hWs]
    unfold wgsA wgsE2
    rw [hW]
    ring_nf
  have hsc := Real.sin_sq_add_cos_sq (p 0)
  rw [hN, hM, ← hWs, Real.tan_eq_sin_div_cos]
  field_simp
  linear_combination (-u * Real.sin (p 0)) * hWs + (0.00669437999013 * u * Real.sin (p 0)) * hsc

theorem rM_deriv (lat : ℝ) : ∃ k, ∀ (p : ℝ → ℝ) (u : ℝ), p 0 = lat → HasDerivAt p u 0 → HasDerivAt (fun t => rM (p t)) (k * u) 0 := by
  have hd : DifferentiableAt ℝ rM lat := by
    unfold rM
    have h0 := (e2sq_pos lat)
    have h1 : DifferentiableAt ℝ (fun lat : ℝ => 1 - 0.00669437999013 * Real.sin lat ^ 2) lat := by fun_prop
    exact (differentiableAt_const _).div (h1.rpow_const (Or.inl h0.ne')) (Real.rpow_pos_of_pos h0 _).ne'
  refine ⟨deriv rM lat, fun p u h0 hp => ?_⟩
  have : HasDerivAt rM (deriv rM lat) (p 0) := by rw [h0]; exact hd.hasDerivAt
  exact this.comp 0 hp

theorem tan_deriv {p : ℝ → ℝ} {u : ℝ} (hp : HasDerivAt p u 0) (hc : Real.cos (p 0) ≠ 0) :
    HasDerivAt (fun t => Real.tan (p t)) (1 / Real.cos (p 0) ^ 2 * u) 0 :=
  (Real.hasDerivAt_tan hc).comp 0 hp

/-- Derivative of the rotation rate of the local frame; `k` is the derivative of the meridian radius. -/
noncomputable def trD (k : ℝ) (a a' : V3 ℝ) (lat h l' h' : ℝ) : V3 ℝ :=
  ![(a' 1 * (rN lat + h) - a 1 * ((rN lat - rM lat) * Real.tan lat * l' + h')) / (rN lat + h) ^ 2,
    (-a' 0 * (rM lat + h) - -a 0 * (k * l' + h')) / (rM lat + h) ^ 2,
    ((-a' 1 * Real.tan lat + -a 1 * (1 / Real.cos lat ^ 2 * l')) * (rN lat + h) -
      -a 1 * Real.tan lat * ((rN lat - rM lat) * Real.tan lat * l' + h')) / (rN lat + h) ^ 2]
/-- Derivative of the rates of the position. -/
noncomputable def prD (k : ℝ) (a a' : V3 ℝ) (lat h l' h' : ℝ) : V3 ℝ :=
  ![(a' 0 * (rM lat + h) - a 0 * (k * l' + h')) / (rM lat + h) ^ 2,
    (a' 1 * ((rN lat + h) * Real.cos lat) - a 1 * (((rN lat - rM lat) * Real.tan lat * l' + h') * Real.cos lat +
      (rN lat + h) * (-Real.sin lat * l'))) / ((rN lat + h) * Real.cos lat) ^ 2, -a' 2]

theorem rates_deriv {k lat h : ℝ} (r : Regular lat h)
    (hk : ∀ (p : ℝ → ℝ) (u : ℝ), p 0 = lat → HasDerivAt p u 0 → HasDerivAt (fun t => rM (p t)) (k * u) 0)
    {A : ℝ → V3 ℝ} {L H : ℝ → ℝ} {a' : V3 ℝ} {l' h' : ℝ} (hA : VD A a') (hL : HasDerivAt L l' 0) (hH : HasDerivAt H h' 0)
    (l0 : L 0 = lat) (h0 : H 0 = h) :
    VD (fun t => transportRate (A t) (L t) (H t)) (trD k (A 0) a' lat h l' h') ∧
    VD (fun t => posRate (A t) (L t) (H t)) (prD k (A 0) a' lat h l' h') := by
  have hc : Real.cos (L 0) ≠ 0 := by rw [l0]; exact r.cos.ne'
  have hn : rN (L 0) + H 0 ≠ 0 := by rw [l0, h0]; exact r.n.ne'
  have hm : rM (L 0) + H 0 ≠ 0 := by rw [l0, h0]; exact r.m.ne'
  have dn := (rN_deriv hL hc).add hH
  have dm := (hk L l' l0 hL).add hH
  have dt := tan_deriv hL hc
  constructor
  · intro i
    fin_cases i
    · refine ((hA 1).div dn hn).congr_deriv ?_
      rw [Pi.add_apply, l0, h0]; rfl
    · refine ((hA 0).neg.div dm hm).congr_deriv ?_
      rw [Pi.add_apply, l0, h0]; rfl
    · refine (((hA 1).neg.mul dt).div dn hn).congr_deriv ?_
      rw [Pi.add_apply, Pi.mul_apply, l0, h0]; rfl
  · intro i
    fin_cases i
    · refine ((hA 0).div dm hm).congr_deriv ?_
      rw [Pi.add_apply, l0, h0]; rfl
    · refine ((hA 1).div (dn.mul hL.cos) (mul_ne_zero hn hc)).congr_deriv ?_
      rw [Pi.mul_apply, Pi.add_apply, l0, h0]; rfl
    · exact (hA 2).neg

theorem earthRate_deriv {L : ℝ → ℝ} {l' : ℝ} (hL : HasDerivAt L l' 0) :
    VD (fun t => earthRate (L t)) ![-earthW * Real.sin (L 0) * l', 0, -earthW * Real.cos (L 0) * l'] := by
  intro i
  fin_cases i
  · refine (hL.cos.const_mul earthW).congr_deriv ?_
    simp; ring
  · exact hasDerivAt_const ..
  · refine (hL.sin.const_mul (-earthW)).congr_deriv ?_
    simp; ring

theorem VD.xp {a b : ℝ → V3 ℝ} {u v : V3 ℝ} (ha : VD a u) (hb : VD b v) :
    VD (fun t => Spec.xp (a t) (b t)) (Spec.xp u (b 0) + Spec.xp (a 0) v) := by
  intro i
  fin_cases i
  · refine (((ha 1).mul (hb 2)).sub ((ha 2).mul (hb 1))).congr_deriv ?_
    simp [Spec.xp]; ring
  · refine (((ha 2).mul (hb 0)).sub ((ha 0).mul (hb 2))).congr_deriv ?_
    simp [Spec.xp]; ring
  · refine (((ha 0).mul (hb 1)).sub ((ha 1).mul (hb 0))).congr_deriv ?_
    simp [Spec.xp]; ring
theorem MD.mul {A B : ℝ → M3 ℝ} {A' B' : M3 ℝ} (hA : MD A A') (hB : MD B B') : MD (fun t => A t * B t) (A' * B 0 + A 0 * B') := by
  intro i j
  have e : (fun t => (A t * B t) i j) = fun t => A t i 0 * B t 0 j + A t i 1 * B t 1 j + A t i 2 * B t 2 j := by
    funext t; simp [Matrix.mul_apply, Fin.sum_univ_three]
  rw [e]
  refine ((((hA i 0).mul (hB 0 j)).add ((hA i 1).mul (hB 1 j))).add ((hA i 2).mul (hB 2 j))).congr_deriv ?_
  simp only [Matrix.mul_apply, Fin.sum_univ_three, Matrix.add_apply]
  ring
theorem MD.sub {A B : ℝ → M3 ℝ} {A' B' : M3 ℝ} (hA : MD A A') (hB : MD B B') : MD (fun t => A t - B t) (A' - B') :=
  fun i j => (hA i j).sub (hB i j)
theorem VD.xm {a : ℝ → V3 ℝ} {u : V3 ℝ} (ha : VD a u) : MD (fun t => Spec.xm (a t)) (Spec.xm u) := by
  intro i j
  fin_cases i <;> fin_cases j
  · exact hasDerivAt_const ..
  · exact (ha 2).neg
  · exact ha 1
  · exact ha 2
  · exact hasDerivAt_const ..
  · exact (ha 0).neg
  · exact (ha 1).neg
  · exact ha 0
  · exact hasDerivAt_const ..
theorem VD.sub {a b : ℝ → V3 ℝ} {u v : V3 ℝ} (ha : VD a u) (hb : VD b v) : VD (fun t => a t - b t) (u - v) :=
  fun i => (ha i).sub (hb i)
theorem VD.neg {a : ℝ → V3 ℝ} {u : V3 ℝ} (ha : VD a u) : VD (fun t => -a t) (-u) := fun i => (ha i).neg

theorem xm_mulVec (a b : V3 ℝ) : xm a *ᵥ b = xp a b := by rw [← skew_eq, skew_mulVec]
theorem xm_add (a b : V3 ℝ) : xm (a + b) = xm a + xm b := by
  ext i j; fin_cases i <;> fin_cases j <;> simp [xm] <;> ring
theorem xm_neg (a : V3 ℝ) : xm (-a) = -xm a := by
  ext i j; fin_cases i <;> fin_cases j <;> simp [xm]
theorem xm_sub (a b : V3 ℝ) : xm (a - b) = xm a - xm b := by rw [sub_eq_add_neg, xm_add, xm_neg, sub_eq_add_neg]
theorem xm_comm (a b : V3 ℝ) : xm a * xm b - xm b * xm a = xm (xp a b) := by
  ext i j; fin_cases i <;> fin_cases j <;> simp [xm, xp, Matrix.mul_apply, Fin.sum_univ_three] <;> ring
/-- Turning a cross product. -/
theorem rot_xm {C : M3 ℝ} (h : isRot C) (a : V3 ℝ) : C * xm a = xm (C *ᵥ a) * C := by
  have e : Cᵀ * xm (C *ᵥ a) * C = C.det • xm a := by
    ext i j
    rw [Matrix.det_fin_three]
    fin_cases i <;> fin_cases j <;>
      simp [xm, Matrix.mul_apply, Fin.sum_univ_three, Matrix.mulVec, dotProduct] <;> ring
  rw [h.2.2, one_smul] at e
  rw [← e, Matrix.mul_assoc, ← Matrix.mul_assoc, h.1, Matrix.one_mul]

/-- The rotation rate of the local frame reacts to a correction. -/
theorem transport_variation {lat h k : ℝ} (r : Regular lat h) (x v y : V3 ℝ) :
    trD k v (-y + xp (transportRate x lat h) v) lat h (-x 0 / (rM lat + h)) (x 2) =
    xp (transportRate x lat h) (transportRate v lat h) -
      trD k x (y - xp (transportRate v lat h) x) lat h (posRate v lat h 0) (posRate v lat h 2) := by
  have hc := r.cos.ne'
  have hn := r.n.ne'
  have hm := r.m.ne'
  have hsec : 1 / Real.cos lat ^ 2 = 1 + Real.tan lat ^ 2 := by
    rw [Real.tan_eq_sin_div_cos, div_pow, one_add_div (pow_ne_zero 2 hc), Real.cos_sq_add_sin_sq]
  have hd : rN lat - rM lat = (rN lat + h) - (rM lat + h) := by ring
  ext i
  simp only [trD, transportRate, posRate, hsec, hd]
  generalize rM lat + h = M at *
  generalize rN lat + h = N at *
  generalize Real.tan lat = T at *
  fin_cases i
  all_goals
    simp only [Pi.add_apply, Pi.sub_apply, Pi.neg_apply, Pi.smul_apply, smul_eq_mul, xp,
      Matrix.cons_val_zero, Matrix.cons_val_one, Matrix.cons_val, Fin.zero_eta, Fin.mk_one, Fin.reduceFinMk, Fin.isValue]
    field_simp
    ring

/-- The rates of the position react to a correction. -/
theorem position_variation {lat h k : ℝ} (r : Regular lat h) (x v y : V3 ℝ) :
    prD k v (-y + xp (transportRate x lat h) v) lat h (-x 0 / (rM lat + h)) (x 2) =
    -prD k x (y - xp (transportRate v lat h) x) lat h (posRate v lat h 0) (posRate v lat h 2) := by
  have hc := r.cos.ne'
  have hn := r.n.ne'
  have hm := r.m.ne'
  have hd : rN lat - rM lat = (rN lat + h) - (rM lat + h) := by ring
  ext i
  simp only [prD, transportRate, posRate, hd, Real.tan_eq_sin_div_cos]
  generalize rM lat + h = M at *
  generalize rN lat + h = N at *
  generalize Real.cos lat = c at *
  generalize Real.sin lat = s at *
  fin_cases i
  all_goals
    simp only [Pi.add_apply, Pi.sub_apply, Pi.neg_apply, Pi.smul_apply, smul_eq_mul, xp,
      Matrix.cons_val_zero, Matrix.cons_val_one, Matrix.cons_val, Fin.zero_eta, Fin.mk_one, Fin.reduceFinMk, Fin.isValue]
    field_simp
    ring

theorem earth_variation {lat h : ℝ} (r : Regular lat h) (x : V3 ℝ) :
    (![-earthW * Real.sin lat * (-x 0 / (rM lat + h)), 0, -earthW * Real.cos lat * (-x 0 / (rM lat + h))] : V3 ℝ) =
    xp (transportRate x lat h) (earthRate lat) := by
  have hc := r.cos.ne'
  have hn := r.n.ne'
  have hm := r.m.ne'
  ext i
  simp only [transportRate, earthRate, Real.tan_eq_sin_div_cos]
  fin_cases i
  all_goals
    simp only [Pi.add_apply, Pi.sub_apply, Pi.neg_apply, Pi.smul_apply, smul_eq_mul, xp,
      Matrix.cons_val_zero, Matrix.cons_val_one, Matrix.cons_val, Fin.zero_eta, Fin.mk_one, Fin.reduceFinMk, Fin.isValue]
    field_simp
    try ring
end Verif.Props
