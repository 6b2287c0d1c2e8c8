import Verif.Props.Strapdown
import Verif.Props.Perfect
import Verif.Model.Fusion
/-! C83: what a correction does to the state, and that the measurement matrices are the sensitivities of the
predicted measurements to it. -/
namespace Verif.Props
open Verif Verif.Spec Verif.Convert Matrix

/-- The rotation of the local frame when the position moves by `x 0` north and `x 1` east. -/
noncomputable def frameTurn (x : Fin 15 → ℝ) (lat h : ℝ) : V3 ℝ :=
  ![x 1 / (rN lat + h), -x 0 / (rM lat + h), -x 1 * Real.tan lat / (rN lat + h)]

/-- The state after feeding back the fraction `t` of a correction. -/
noncomputable def corrected (f : Fusion ℝ) (x : Fin 15 → ℝ) (t : ℝ) : NavEpoch ℝ := (f.feedBack fun k => t * x k).ins.nav

theorem skew_smul (t : ℝ) (d : V3 ℝ) : skew (t • d) = t • skew d := by
  ext i j; fin_cases i <;> fin_cases j <;> simp [skew]
theorem lin_deriv (c k : ℝ) : HasDerivAt (fun t : ℝ => c + t * k) k 0 := by
  simpa using ((hasDerivAt_id (0 : ℝ)).mul_const k).const_add c
theorem VD.lin (k : V3 ℝ) : VD (fun t => t • k) k := fun i => by
  simpa using (hasDerivAt_id (0 : ℝ)).mul_const (k i)

theorem turn_eq (f : Fusion ℝ) (x : Fin 15 → ℝ) (t : ℝ) :
    (v3 (t * x 1 / (Earth.RN (f.ins.nav.pos 0) + f.ins.nav.pos 2)) (-(t * x 0) / (Earth.RM (f.ins.nav.pos 0) + f.ins.nav.pos 2))
      (-(t * x 1) * Fl.tan (f.ins.nav.pos 0) / (Earth.RN (f.ins.nav.pos 0) + f.ins.nav.pos 2)) : V3 ℝ) =
    t • frameTurn x (f.ins.nav.pos 0) (f.ins.nav.pos 2) := by
  rw [rM_eq, rN_eq]
  funext i
  fin_cases i <;> simp only [v3, frameTurn, Pi.smul_apply, smul_eq_mul, Matrix.cons_val_zero, Matrix.cons_val_one, Matrix.cons_val,
    tan_real, Fin.zero_eta, Fin.mk_one, Fin.reduceFinMk, Fin.isValue] <;> ring

/-- C83: the correction `x` moves the position by `-x 0` metres north, `-x 1` metres east and `x 2` up, changes
the velocity by `-x 3..5` (and turns it with the local frame), turns the attitude by `x 6..8` and the local frame, and
adds `x 9..11` and `x 12..14` to the biases. Nothing else changes. -/
theorem C83_feedback (f : Fusion ℝ) (hc : Consistent f.ins.nav) (x : Fin 15 → ℝ) (d : V3 ℝ)
    (hd : d = frameTurn x (f.ins.nav.pos 0) (f.ins.nav.pos 2)) :
    ((corrected f x 0).pos = f.ins.nav.pos ∧ (corrected f x 0).vn = f.ins.nav.vn ∧ (corrected f x 0).Cbn = f.ins.nav.Cbn) ∧
    (HasDerivAt (fun t => (corrected f x t).pos 0) (-x 0 / (rM (f.ins.nav.pos 0) + f.ins.nav.pos 2)) 0 ∧
     HasDerivAt (fun t => (corrected f x t).pos 1) (-x 1 / ((rN (f.ins.nav.pos 0) + f.ins.nav.pos 2) * Real.cos (f.ins.nav.pos 0))) 0 ∧
     HasDerivAt (fun t => (corrected f x t).pos 2) (x 2) 0) ∧
    VD (fun t => (corrected f x t).vn) (-![x 3, x 4, x 5] + xp d f.ins.nav.vn) ∧
    MD (fun t => (corrected f x t).Cbn) (xm (![x 6, x 7, x 8] + d) * f.ins.nav.Cbn) ∧
    (∀ t, (corrected f x t).gb = f.ins.nav.gb + t • ![x 9, x 10, x 11] ∧ (corrected f x t).ab = f.ins.nav.ab + t • ![x 12, x 13, x 14] ∧
      (corrected f x t).gs = f.ins.nav.gs ∧ (corrected f x t).as = f.ins.nav.as ∧ (corrected f x t).kd = f.ins.nav.kd) := by
  obtain ⟨h1, h2, h3, h4, h5, h6⟩ := hc
  have r : Regular (f.ins.nav.pos 0) (f.ins.nav.pos 2) := ⟨h4, h6⟩
  have hn := r.n.ne'
  have hm := r.m.ne'
  have hcos := r.cos.ne'
  obtain ⟨l1, l2, l3⟩ := lla_step (a := fun _ => 0) (b := fun t => -(t • d)) (z := -d) (k := 0) r.lat h5
    (by intro i; fin_cases i <;> simp [VD] <;> exact hasDerivAt_const ..) (fun i => (VD.lin d i).neg) rfl (by simp) (by
      rw [hd]; simp only [frameTurn, Pi.neg_apply, Matrix.cons_val_zero, Matrix.cons_val, Real.tan_eq_sin_div_cos]
      field_simp; ring) _ rfl
  simp only [Verif.rv_zero, qone_conj, qone_mul, ← h3] at l1 l2 l3
  have hq : ∀ t, (corrected f x t).pos = v3 (qneToLla ((f.ins.nav.Qne.mul (rvToQuat (-(t • d)))).normalized)).lat
      (qneToLla ((f.ins.nav.Qne.mul (rvToQuat (-(t • d)))).normalized)).lon (f.ins.nav.pos 2 + t * x 2) := by
    intro t
    unfold corrected Fusion.feedBack
    dsimp only
    rw [turn_eq, hd]
  have hv : ∀ t, (corrected f x t).vn = f.ins.nav.vn - t • ![x 3, x 4, x 5] + t • xp d (f.ins.nav.vn - t • ![x 3, x 4, x 5]) := by
    intro t
    unfold corrected Fusion.feedBack
    dsimp only
    rw [turn_eq, mvec_real, eyeM_real, Matrix.add_mulVec, Matrix.one_mulVec, skew_smul, Matrix.smul_mulVec, skew_mulVec, hd]
    have : (v3 (t * x 3) (t * x 4) (t * x 5) : V3 ℝ) = t • ![x 3, x 4, x 5] := by
      ext i; fin_cases i <;> simp [v3]
    rw [this]
  have hC : ∀ t, (corrected f x t).Cbn = quatToDcm (((rvToQuat (t • (![x 6, x 7, x 8] + d))).mul f.ins.nav.Qbn).normalized) := by
    intro t
    unfold corrected Fusion.feedBack
    dsimp only
    rw [turn_eq, hd]
    have : (v3 (t * x 6) (t * x 7) (t * x 8) : V3 ℝ) = t • ![x 6, x 7, x 8] := by
      ext i; fin_cases i <;> simp [v3]
    rw [this, smul_add]
  obtain ⟨q1, q2⟩ := QD.left (VD.lin (![x 6, x 7, x 8] + d)) (zero_smul ..) f.ins.nav.Qbn h1
  have hqa : ∀ a : V3 ℝ, qadd ((qhalf (-a)).conj.mul f.ins.nav.Qbn) (f.ins.nav.Qbn.mul (qhalf 0)) = (qhalf a).mul f.ins.nav.Qbn := by
    intro a
    simp [qadd, Quat.mul, Quat.conj, qhalf]
    refine ⟨?_, ?_, ?_, ?_⟩ <;> ring
  have hmd := rot_step (α := -(![x 6, x 7, x 8] + d)) (β := 0) (q0 := f.ins.nav.Qbn) (by rw [hqa]; exact q1) q2 h1
  refine ⟨⟨?_, ?_, ?_⟩, ⟨?_, ?_, ?_⟩, ?_, ?_, ?_⟩
  · rw [hq]
    have := l3
    rw [this]
    ext i; fin_cases i <;> simp [v3]
  · rw [hv]; simp
  · rw [hC, q2, h2]
  · simp only [hq, v3, Matrix.cons_val_zero]
    refine l1.congr_deriv ?_
    rw [hd]; simp [frameTurn]
  · simp only [hq, v3, Matrix.cons_val_one]
    refine l2.congr_deriv ?_
    rw [hd]
    simp only [frameTurn, Pi.neg_apply, Matrix.cons_val_zero, Matrix.cons_val, Real.tan_eq_sin_div_cos]
    field_simp
    ring
  · simp only [hq, v3, Matrix.cons_val]
    exact lin_deriv _ _
  · intro i
    simp only [hv]
    have e : (fun t : ℝ => (f.ins.nav.vn - t • ![x 3, x 4, x 5] + t • xp d (f.ins.nav.vn - t • ![x 3, x 4, x 5])) i) = fun t =>
        f.ins.nav.vn i + (-(![x 3, x 4, x 5] : V3 ℝ) i + xp d (f.ins.nav.vn - t • ![x 3, x 4, x 5]) i) * t := by
      funext t
      simp only [Pi.add_apply, Pi.sub_apply, Pi.smul_apply, smul_eq_mul]
      ring
    rw [e]
    have hcont : ContinuousAt (fun t : ℝ => -(![x 3, x 4, x 5] : V3 ℝ) i + xp d (f.ins.nav.vn - t • ![x 3, x 4, x 5]) i) 0 := by
      fin_cases i <;> simp [xp] <;> fun_prop
    refine ((deriv_mul_t _ hcont).const_add _).congr_deriv ?_
    simp only [zero_smul, sub_zero, Pi.add_apply, Pi.neg_apply]
  · simp only [hC]
    have e : quatToDcm f.ins.nav.Qbn * skew 0 - skew (-(![x 6, x 7, x 8] + d)) * quatToDcm f.ins.nav.Qbn =
        xm (![x 6, x 7, x 8] + d) * f.ins.nav.Cbn := by
      have s0 : skew (0 : V3 ℝ) = 0 := by ext i j; fin_cases i <;> fin_cases j <;> simp [skew]
      have s1 : ∀ a : V3 ℝ, skew (-a) = -skew a := fun a => by ext i j; fin_cases i <;> fin_cases j <;> simp [skew]
      rw [s0, s1, Matrix.mul_zero, Matrix.neg_mul, zero_sub, neg_neg, h2, skew_eq]
    rw [e] at hmd
    exact hmd
  · intro t
    refine ⟨?_, ?_, rfl, rfl, rfl⟩
    · show f.ins.nav.gb + v3 (t * x 9) (t * x 10) (t * x 11) = _
      congr 1; ext i; fin_cases i <;> simp [v3]
    · show f.ins.nav.ab + v3 (t * x 12) (t * x 13) (t * x 14) = _
      congr 1; ext i; fin_cases i <;> simp [v3]

/-! ## Position measurements -/

/-- The antenna in earth-fixed coordinates: the position displaced by the lever arm. -/
noncomputable def antennaXyz (n : NavEpoch ℝ) (l : V3 ℝ) : V3 ℝ :=
  llaToXyz n.pos + llaToCne ⟨n.pos 0, n.pos 1⟩ *ᵥ (n.Cbn *ᵥ l)

theorem den_deriv {p : ℝ → ℝ} {u : ℝ} (hp : HasDerivAt p u 0) :
    HasDerivAt (fun t => rN (p t)) (6378137 * 0.00669437999013 * Real.sin (p 0) * Real.cos (p 0) * u /
      ((1 - 0.00669437999013 * Real.sin (p 0) ^ 2) * Real.sqrt (1 - 0.00669437999013 * Real.sin (p 0) ^ 2))) 0 := by
  have h0 := e2sq_pos (p 0)
  have hs := Real.sqrt_pos.2 h0
  have h1 : HasDerivAt (fun t => 1 - 0.00669437999013 * Real.sin (p t) ^ 2) (-(0.00669437999013 * (2 * Real.sin (p 0) * (Real.cos (p 0) * u)))) 0 := by
    refine (((hp.sin.pow 2).const_mul _).const_sub 1).congr_deriv ?_
    simp
  have h2 := h1.sqrt h0.ne'
  have h3 := (hasDerivAt_const (0 : ℝ) (6378137 : ℝ)).div h2 hs.ne'
  refine h3.congr_deriv ?_
  have hsq := Real.sq_sqrt h0.le
  rw [hsq]
  field_simp
  ring

/-- Velocity of the earth-fixed position, in the local frame. -/
theorem xyz_deriv {p : ℝ → V3 ℝ} {u : V3 ℝ} (hp : VD p u) :
    VD (fun t => llaToXyz (p t)) (llaToCne ⟨p 0 0, p 0 1⟩ *ᵥ
      ![(rM (p 0 0) + p 0 2) * u 0, (rN (p 0 0) + p 0 2) * Real.cos (p 0 0) * u 1, -u 2]) := by
  have h0 := e2sq_pos (p 0 0)
  set W := Real.sqrt (1 - 0.00669437999013 * Real.sin (p 0 0) ^ 2) with hW
  have hWp : 0 < W := Real.sqrt_pos.2 h0
  have hWs : W ^ 2 = 1 - 0.00669437999013 * Real.sin (p 0 0) ^ 2 := Real.sq_sqrt h0.le
  have hN : rN (p 0 0) = 6378137 / W := rfl
  have hM : rM (p 0 0) = 6378137 * (1 - 0.00669437999013) / (W ^ 2 * W) := by
    rw [← rM_eq, RM_val, hWs]
    unfold wgsA wgsE2
    rw [hW]
    ring_nf
  have hd := den_deriv (hp 0)
  rw [← hW, ← hWs] at hd
  have hsc := Real.sin_sq_add_cos_sq (p 0 0)
  have e2 : (Earth.e2 : ℝ) = 0.00669437999013 := by simp [Earth.e2]; norm_num
  have hu := (hd.add (hp 2)).mul (hp 0).cos
  have hz := ((hd.mul_const (1 - 0.00669437999013)).add (hp 2)).mul (hp 0).sin
  have eu : (6378137 * 0.00669437999013 * Real.sin (p 0 0) * Real.cos (p 0 0) * u 0 / (W ^ 2 * W) + u 2) * Real.cos (p 0 0) +
      (rN (p 0 0) + p 0 2) * (-Real.sin (p 0 0) * u 0) = -(rM (p 0 0) + p 0 2) * Real.sin (p 0 0) * u 0 + u 2 * Real.cos (p 0 0) := by
    rw [hN, hM]
    field_simp
    linear_combination (-(6378137 : ℝ) * Real.sin (p 0 0) * u 0) * hWs + (6378137 * 0.00669437999013 * Real.sin (p 0 0) * u 0) * hsc
  have ez : (6378137 * 0.00669437999013 * Real.sin (p 0 0) * Real.cos (p 0 0) * u 0 / (W ^ 2 * W) * (1 - 0.00669437999013) + u 2) *
      Real.sin (p 0 0) + (rN (p 0 0) * (1 - 0.00669437999013) + p 0 2) * (Real.cos (p 0 0) * u 0) =
      (rM (p 0 0) + p 0 2) * Real.cos (p 0 0) * u 0 + u 2 * Real.sin (p 0 0) := by
    rw [hN, hM]
    field_simp
    linear_combination ((6378137 : ℝ) * (1 - 0.00669437999013) * Real.cos (p 0 0) * u 0) * hWs
  have hu' := hu.congr_deriv eu
  have hz' := hz.congr_deriv ez
  intro i
  fin_cases i
  · have := hu'.mul (hp 1).cos
    simp only [Fin.zero_eta, llaToXyz, v3, Matrix.cons_val_zero, cos_real, rN_eq]
    refine this.congr_deriv ?_
    simp [llaToCne, Matrix.mulVec, dotProduct, Fin.sum_univ_three]
    ring
  · have := hu'.mul (hp 1).sin
    simp only [Fin.mk_one, llaToXyz, v3, Matrix.cons_val_one, cos_real, sin_real, rN_eq]
    refine this.congr_deriv ?_
    simp [llaToCne, Matrix.mulVec, dotProduct, Fin.sum_univ_three]
    ring
  · simp only [Fin.reduceFinMk, llaToXyz, v3, Matrix.cons_val, sin_real, rN_eq, e2]
    refine hz'.congr_deriv ?_
    simp [llaToCne, Matrix.mulVec, dotProduct, Fin.sum_univ_three]
    ring

/-- Rotation of the local frame. -/
theorem cne_deriv {p : ℝ → V3 ℝ} {u : V3 ℝ} (hp : VD p u) :
    MD (fun t => llaToCne ⟨p t 0, p t 1⟩) (llaToCne ⟨p 0 0, p 0 1⟩ *
      xm ![u 1 * Real.cos (p 0 0), -u 0, -u 1 * Real.sin (p 0 0)]) := by
  have s0 := (hp 0).sin; have c0 := (hp 0).cos; have s1 := (hp 1).sin; have c1 := (hp 1).cos
  have hsc := Real.sin_sq_add_cos_sq (p 0 0)
  have hc : ∀ c : ℝ, HasDerivAt (fun _ : ℝ => c) 0 0 := fun c => hasDerivAt_const ..
  have entry : ∀ (f : ℝ → ℝ) (f' g' : ℝ), HasDerivAt f f' 0 → f' = g' → HasDerivAt f g' 0 := fun f f' g' h e => e ▸ h
  intro i j
  fin_cases i <;> fin_cases j
  · refine entry _ _ _ (s0.neg.mul c1) ?_
    simp [llaToCne, Matrix.mul_apply, Fin.sum_univ_three, xm]; ring
  · refine entry _ _ _ s1.neg ?_
    simp [llaToCne, Matrix.mul_apply, Fin.sum_univ_three, xm]; linear_combination (Real.cos (p 0 1) * u 1) * hsc
  · refine entry _ _ _ (c0.neg.mul c1) ?_
    simp [llaToCne, Matrix.mul_apply, Fin.sum_univ_three, xm]; ring
  · refine entry _ _ _ (s0.neg.mul s1) ?_
    simp [llaToCne, Matrix.mul_apply, Fin.sum_univ_three, xm]; ring
  · refine entry _ _ _ c1 ?_
    simp [llaToCne, Matrix.mul_apply, Fin.sum_univ_three, xm]; linear_combination (Real.sin (p 0 1) * u 1) * hsc
  · refine entry _ _ _ (c0.neg.mul s1) ?_
    simp [llaToCne, Matrix.mul_apply, Fin.sum_univ_three, xm]; ring
  · refine entry _ _ _ c0 ?_
    simp [llaToCne, Matrix.mul_apply, Fin.sum_univ_three, xm]
  · refine entry _ _ _ (hc 0) ?_
    simp [llaToCne, Matrix.mul_apply, Fin.sum_univ_three, xm]; ring
  · refine entry _ _ _ s0.neg ?_
    simp [llaToCne, Matrix.mul_apply, Fin.sum_univ_three, xm]

theorem MD.mulVec {A : ℝ → M3 ℝ} {B : M3 ℝ} {v : ℝ → V3 ℝ} {u : V3 ℝ} (hA : MD A B) (hv : VD v u) :
    VD (fun t => A t *ᵥ v t) (B *ᵥ v 0 + A 0 *ᵥ u) := by
  intro i
  have h := fun j => (hA i j).mul (hv j)
  have e : (fun t => (A t *ᵥ v t) i) = fun t => A t i 0 * v t 0 + A t i 1 * v t 1 + A t i 2 * v t 2 := by
    funext t; simp [Matrix.mulVec, dotProduct, Fin.sum_univ_three]
  rw [e]
  refine (((h 0).add (h 1)).add (h 2)).congr_deriv ?_
  simp only [Matrix.mulVec, dotProduct, Fin.sum_univ_three, Pi.add_apply]
  ring
theorem MD.const (A : M3 ℝ) : MD (fun _ => A) 0 := fun _ _ => hasDerivAt_const ..

/-- C83: the innovation of a position measurement is the predicted antenna position minus the measured one, in
the local frame. -/
theorem C83_position_innovation (f : Fusion ℝ) (hC : f.ins.nav.Cne = llaToCne ⟨f.ins.nav.pos 0, f.ins.nav.pos 1⟩) (p : V3 ℝ) :
    f.posZ p = (llaToCne ⟨f.ins.nav.pos 0, f.ins.nav.pos 1⟩)ᵀ *ᵥ (antennaXyz f.ins.nav f.lbGnss - llaToXyz p) := by
  have hr : isRot (llaToCne (⟨f.ins.nav.pos 0, f.ins.nav.pos 1⟩ : LatLon ℝ)) := (C41_position_quaternion _).2.2
  unfold Fusion.posZ antennaXyz
  rw [hC, mvec_real, mvec_real, add_sub_right_comm, Matrix.mulVec_add, Matrix.mulVec_mulVec, hr.2.1, Matrix.one_mulVec]

theorem posH_mulVec (f : Fusion ℝ) (x : Fin 15 → ℝ) :
    f.posH *ᵥ x = ![x 0, x 1, x 2] + xp (f.ins.nav.Cbn *ᵥ f.lbGnss) ![x 6, x 7, x 8] := by
  unfold Fusion.posH
  rw [mvec_real, eyeM_real]
  generalize f.ins.nav.Cbn *ᵥ f.lbGnss = l
  ext i
  fin_cases i <;>
  · simp only [Matrix.mulVec, dotProduct, Fin.sum_univ_succ, setBlock, skew, xp]
    simp [Fin.succ, Matrix.one_apply]
    try ring

/-- C83, position: the measurement matrix of a position measurement is (minus) the sensitivity of the
predicted antenna position to the correction. -/
theorem C83_position_sensitivity (f : Fusion ℝ) (hc : Consistent f.ins.nav) (x : Fin 15 → ℝ) (i : Fin 3) :
    HasDerivAt (fun t => ((llaToCne ⟨f.ins.nav.pos 0, f.ins.nav.pos 1⟩)ᵀ *ᵥ antennaXyz (corrected f x t) f.lbGnss) i)
      (-(f.posH *ᵥ x) i) 0 := by
  have r : Regular (f.ins.nav.pos 0) (f.ins.nav.pos 2) := ⟨hc.lat, hc.height⟩
  have hn := r.n.ne'
  have hm := r.m.ne'
  have hcos := r.cos.ne'
  obtain ⟨⟨v1, v2, v3⟩, ⟨p1, p2, p3⟩, -, hC, -⟩ := C83_feedback f hc x _ rfl
  set d := frameTurn x (f.ins.nav.pos 0) (f.ins.nav.pos 2) with hd
  set u : V3 ℝ := ![-x 0 / (rM (f.ins.nav.pos 0) + f.ins.nav.pos 2),
    -x 1 / ((rN (f.ins.nav.pos 0) + f.ins.nav.pos 2) * Real.cos (f.ins.nav.pos 0)), x 2] with hu
  have hp : VD (fun t => (corrected f x t).pos) u := by
    intro i; fin_cases i
    · exact p1
    · exact p2
    · exact p3
  have hx := xyz_deriv hp
  have hne := cne_deriv hp
  have hl := MD.mulVec hC (VD.const f.lbGnss)
  have h2 := MD.mulVec hne hl
  have hr : isRot (llaToCne (⟨f.ins.nav.pos 0, f.ins.nav.pos 1⟩ : LatLon ℝ)) := (C41_position_quaternion _).2.2
  have h3 := MD.mulVec (MD.const (llaToCne ⟨f.ins.nav.pos 0, f.ins.nav.pos 1⟩)ᵀ) (VD.add hx h2)
  refine (h3 i).congr_deriv ?_
  simp only [v1, v3]
  set C := llaToCne (⟨f.ins.nav.pos 0, f.ins.nav.pos 1⟩ : LatLon ℝ) with hCdef
  have e1 : (![(rM (f.ins.nav.pos 0) + f.ins.nav.pos 2) * u 0, (rN (f.ins.nav.pos 0) + f.ins.nav.pos 2) * Real.cos (f.ins.nav.pos 0) * u 1,
      -u 2] : V3 ℝ) = -![x 0, x 1, x 2] := by
    ext i; fin_cases i
    · simp [hu]; field_simp
    · simp [hu]; field_simp
    · simp [hu]
  have e2 : (![u 1 * Real.cos (f.ins.nav.pos 0), -u 0, -u 1 * Real.sin (f.ins.nav.pos 0)] : V3 ℝ) = -d := by
    ext i; fin_cases i
    · simp [hu, hd, frameTurn]; field_simp
    · simp [hu, hd, frameTurn]
    · simp [hu, hd, frameTurn, Real.tan_eq_sin_div_cos]; field_simp
  rw [e1, e2, posH_mulVec]
  rw [Matrix.zero_mulVec, zero_add, Matrix.mulVec_zero, add_zero, ← Matrix.mulVec_mulVec, ← Matrix.mulVec_add, ← Matrix.mulVec_add,
    Matrix.mulVec_mulVec, hr.2.1, Matrix.one_mulVec, ← Matrix.mulVec_mulVec]
  have s1 : ∀ a b : V3 ℝ, xm a *ᵥ b = xp a b := fun a b => by rw [← skew_eq, skew_mulVec]
  rw [s1, s1]
  generalize f.ins.nav.Cbn *ᵥ f.lbGnss = l
  clear_value d
  fin_cases i <;> simp only [xp, Pi.add_apply, Pi.neg_apply, Matrix.cons_val_zero, Matrix.cons_val_one, Matrix.cons_val,
    Fin.zero_eta, Fin.mk_one, Fin.reduceFinMk, Fin.isValue] <;> ring

/-! ## Velocity measurements -/

/-- The velocity of the wheel in the vehicle frame: `C` is the attitude, `B` the mounting, `w` the measured body
rate, `e` the rotation of the local frame, `l` the lever arm. -/
noncomputable def wheelVel (B C : M3 ℝ) (v w e l : V3 ℝ) : V3 ℝ := B *ᵥ (Cᵀ *ᵥ v) + B *ᵥ xp (w - Cᵀ *ᵥ e) l

/-- The velocity model predicts exactly that. -/
theorem C83_velocity_prediction (f : Fusion ℝ) :
    f.velModel.1 = wheelVel f.Cbv f.ins.nav.Cbn f.ins.nav.vn ((f.opt.dRate : ℝ) • f.ins.gyroPre) (f.ins.omegaIeN + f.ins.omegaEnN) f.lbWheel := by
  unfold Fusion.velModel wheelVel
  dsimp only
  rw [mvec_real, mvec_real, mvec_real, mmul_real, cross_eq, vs_real, Matrix.mulVec_mulVec]
  simp [ofI]

theorem velH_mulVec (f : Fusion ℝ) (x : Fin 15 → ℝ) :
    f.velModel.2 *ᵥ x = f.Cbv *ᵥ (f.ins.nav.Cbnᵀ *ᵥ (![x 3, x 4, x 5] - xp f.ins.nav.vn ![x 6, x 7, x 8])) -
      f.Cbv *ᵥ xp f.lbWheel ![x 9, x 10, x 11] := by
  unfold Fusion.velModel
  dsimp only
  have s1 : ∀ a b : V3 ℝ, xp a b = skew a *ᵥ b := fun a b => by rw [skew_mulVec]
  rw [s1, s1, mmul_real, mmul_real, mmul_real, Matrix.mulVec_mulVec, Matrix.mulVec_mulVec, Matrix.mulVec_sub, Matrix.mulVec_mulVec]
  set A := f.Cbv * f.ins.nav.Cbnᵀ
  rw [Matrix.neg_mul, Matrix.neg_mul]
  generalize A * skew f.ins.nav.vn = B
  generalize f.Cbv * skew f.lbWheel = D
  ext i
  simp only [Pi.sub_apply, Matrix.mulVec, dotProduct, Fin.sum_univ_succ, setBlock]
  fin_cases i <;>
  · simp [Fin.succ]
    ring

/-- C83, velocity: the measurement matrix used for the wheel speed and the non-holonomic constraint is (minus)
the sensitivity of the predicted wheel velocity to the correction (a gyroscope bias correction lowers the body
rate), except that the attitude's effect on the rotation rate of the local frame at the lever arm is neglected. -/
theorem C83_velocity_sensitivity (f : Fusion ℝ) (hc : Consistent f.ins.nav) (x : Fin 15 → ℝ) (w e : V3 ℝ) (i : Fin 3) :
    HasDerivAt (fun t => wheelVel f.Cbv (corrected f x t).Cbn (corrected f x t).vn
        (w - ((corrected f x t).gb - f.ins.nav.gb)) e f.lbWheel i)
      (-(f.velModel.2 *ᵥ x) i + (f.Cbv *ᵥ xp (f.ins.nav.Cbnᵀ *ᵥ
        xp (![x 6, x 7, x 8] + frameTurn x (f.ins.nav.pos 0) (f.ins.nav.pos 2)) e) f.lbWheel) i) 0 := by
  obtain ⟨⟨v1, v2, v3⟩, -, hv, hC, hb⟩ := C83_feedback f hc x _ rfl
  set d := frameTurn x (f.ins.nav.pos 0) (f.ins.nav.pos 2) with hd
  set φ : V3 ℝ := ![x 6, x 7, x 8] with hφ
  have hT : MD (fun t => (corrected f x t).Cbnᵀ) (xm (φ + d) * f.ins.nav.Cbn)ᵀ := fun i j => hC j i
  have h1 := MD.mulVec hT hv
  have h2 := MD.mulVec hT (VD.const e)
  have hw : VD (fun t => w - ((corrected f x t).gb - f.ins.nav.gb)) (-![x 9, x 10, x 11]) := by
    intro i
    have : (fun t => (w - ((corrected f x t).gb - f.ins.nav.gb)) i) = fun t => w i + t * (-(![x 9, x 10, x 11] : V3 ℝ) i) := by
      funext t; rw [(hb t).1]; simp only [Pi.sub_apply, Pi.add_apply, Pi.smul_apply, smul_eq_mul, Pi.neg_apply]; ring
    rw [this]
    exact lin_deriv _ _
  have hsub : VD (fun t => (w - ((corrected f x t).gb - f.ins.nav.gb)) - (corrected f x t).Cbnᵀ *ᵥ e)
      (-![x 9, x 10, x 11] - ((xm (φ + d) * f.ins.nav.Cbn)ᵀ *ᵥ e + (corrected f x 0).Cbnᵀ *ᵥ 0)) := fun i => (hw i).sub (h2 i)
  have hx : VD (fun t => xp ((w - ((corrected f x t).gb - f.ins.nav.gb)) - (corrected f x t).Cbnᵀ *ᵥ e) f.lbWheel)
      (xp (-![x 9, x 10, x 11] - ((xm (φ + d) * f.ins.nav.Cbn)ᵀ *ᵥ e + (corrected f x 0).Cbnᵀ *ᵥ 0)) f.lbWheel) := by
    intro i
    fin_cases i
    · exact ((hsub 1).mul_const _).sub ((hsub 2).mul_const _)
    · exact ((hsub 2).mul_const _).sub ((hsub 0).mul_const _)
    · exact ((hsub 0).mul_const _).sub ((hsub 1).mul_const _)
  have h3 := VD.add (MD.mulVec (MD.const f.Cbv) h1) (MD.mulVec (MD.const f.Cbv) hx)
  refine (h3 i).congr_deriv ?_
  simp only [v2, v3]
  rw [velH_mulVec]
  have tr : (xm (φ + d) * f.ins.nav.Cbn)ᵀ = -(f.ins.nav.Cbnᵀ * xm (φ + d)) := by
    rw [Matrix.transpose_mul]
    have : (xm (φ + d))ᵀ = -xm (φ + d) := by ext i j; fin_cases i <;> fin_cases j <;> simp [xm]
    rw [this, Matrix.mul_neg]
  have s1 : ∀ a b : V3 ℝ, xm a *ᵥ b = xp a b := fun a b => by rw [← skew_eq, skew_mulVec]
  rw [tr]
  simp only [Matrix.zero_mulVec, zero_add, Matrix.mulVec_zero, add_zero, Matrix.neg_mulVec, ← Matrix.mulVec_mulVec, s1]
  have k1 : -(f.ins.nav.Cbnᵀ *ᵥ xp (φ + d) f.ins.nav.vn) + f.ins.nav.Cbnᵀ *ᵥ (-![x 3, x 4, x 5] + xp d f.ins.nav.vn) =
      -(f.ins.nav.Cbnᵀ *ᵥ (![x 3, x 4, x 5] - xp f.ins.nav.vn φ)) := by
    rw [← Matrix.mulVec_neg, ← Matrix.mulVec_neg, ← Matrix.mulVec_add]
    congr 1
    clear_value d φ
    ext i; fin_cases i <;> simp only [xp, Pi.add_apply, Pi.sub_apply, Pi.neg_apply, Matrix.cons_val_zero, Matrix.cons_val_one, Matrix.cons_val,
      Fin.zero_eta, Fin.mk_one, Fin.reduceFinMk, Fin.isValue] <;> ring
  have k2 : ∀ y : V3 ℝ, xp (-![x 9, x 10, x 11] - -y) f.lbWheel = xp f.lbWheel ![x 9, x 10, x 11] + xp y f.lbWheel := by
    intro y
    ext i; fin_cases i <;> simp only [xp, Pi.add_apply, Pi.sub_apply, Pi.neg_apply, Matrix.cons_val_zero, Matrix.cons_val_one, Matrix.cons_val,
      Fin.zero_eta, Fin.mk_one, Fin.reduceFinMk, Fin.isValue] <;> ring
  rw [k1, k2, Matrix.mulVec_neg, Matrix.mulVec_add]
  simp only [Pi.add_apply, Pi.sub_apply, Pi.neg_apply]
  ring

/-- C83's hypotheses are met by the vehicle of C81. -/
example (f : Fusion ℝ) : Consistent ({ f with ins := demoIns } : Fusion ℝ).ins.nav := by
  have h3 := Real.pi_gt_three
  exact ⟨by simp [demoIns, qsq], rfl, by simp [demoIns], by constructor <;> simp [demoIns] <;> linarith,
    by constructor <;> simp [demoIns] <;> linarith, by simp [demoIns]; norm_num⟩
end Verif.Props
