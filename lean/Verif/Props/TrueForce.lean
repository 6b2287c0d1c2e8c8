import Verif.Props.TrueAttitude
import Verif.Spec.TrueForce
import Mathlib.MeasureTheory.Integral.IntervalIntegral.FundThmCalculus
/-! C199: the velocity gained in one sample is the integral of the force. -/
namespace Verif.Props
open Verif Verif.Spec Verif.Convert Matrix

theorem xp_smul_left (c : ℝ) (a b : V3 ℝ) : xp (c • a) b = c • xp a b := by
  ext i; fin_cases i <;> simp [xp] <;> ring
theorem xp_smul_right (c : ℝ) (a b : V3 ℝ) : xp a (c • b) = c • xp a b := by
  ext i; fin_cases i <;> simp [xp] <;> ring
theorem xp_swap (a b : V3 ℝ) : xp a b = -xp b a := by
  ext i; fin_cases i <;> simp [xp] <;> ring
theorem len_zero' : len (0 : V3 ℝ) = 0 := by simp [len]

theorem turnM_t (v : V3 ℝ) : (turnM v)ᵀ = turnM (-v) := by
  have h : len (-v) = len v := by simp [len]
  unfold turnM
  rw [h]
  ext i j
  fin_cases i <;> fin_cases j <;> simp [xm, Matrix.mul_apply, Fin.sum_univ_three, Matrix.one_apply] <;> first | ring1 | exact .inl (by ring)

/-- A turn to first order. -/
theorem turn_first (b x : V3 ℝ) (hb : len b ≤ 2) : len (turnM b *ᵥ x - x - xp b x) ≤ len b ^ 2 * len x := by
  have h := turn_second b x hb
  have hl := len_nonneg b
  have hx := len_nonneg x
  have e : turnM b *ᵥ x - x - xp b x = (turnM b *ᵥ x - second b x) + (1 / 2 : ℝ) • xp b (xp b x) := by
    unfold second; ext i; simp only [Pi.add_apply, Pi.sub_apply, Pi.smul_apply, smul_eq_mul]; ring
  rw [e]
  refine (len_add_le _ _).trans ?_
  rw [len_smul, abs_of_pos (by norm_num)]
  have h2 : len (xp b (xp b x)) ≤ len b * (len b * len x) := (len_xp_le b _).trans (mul_le_mul_of_nonneg_left (len_xp_le b x) hl)
  have p : 0 ≤ len b ^ 2 * len x := by positivity
  have : len b ^ 3 / 4 * len x ≤ 1 / 2 * (len b ^ 2 * len x) := by
    have := mul_le_mul_of_nonneg_right hb p
    nlinarith
  nlinarith

section
variable {C : ℝ → M3 ℝ} {w θ f α : ℝ → V3 ℝ} {Ω L F J : ℝ} (M : TurningBody C w θ Ω L) (A : Signal f α F J)
include M A

/-- The impulse of the force in the body axes at `t`, against the program's formula without the terms of the sample before. -/
theorem impulse_half (t h : ℝ) (hh : 0 ≤ h) (P : ℝ → V3 ℝ) (h0 : P 0 = 0)
    (hP : ∀ u i, HasDerivAt (fun u => P u i) ((((C t)ᵀ * C (t + u)) *ᵥ f (t + u)) i) u) :
    len (P h - ((α (t + h) - α t) + (1 / 2 : ℝ) • xp (θ (t + h) - θ t) (α (t + h) - α t))) ≤ (Ω ^ 2 * F / 6 + (L * F + Ω * J) / 12) * h ^ 3 := by
  have hΩ := rate_nonneg M.toSignal
  have hL := smooth_nonneg M.toSignal
  have hF := rate_nonneg A
  have hJ := smooth_nonneg A
  refine grow (fun u => P u - ((α (t + u) - α t) + (1 / 2 : ℝ) • xp (θ (t + u) - θ t) (α (t + u) - α t)))
    (fun u => ((C t)ᵀ * C (t + u)) *ᵥ f (t + u) - (f (t + u) + (1 / 2 : ℝ) • (xp (w (t + u)) (α (t + u) - α t) + xp (θ (t + u) - θ t) (f (t + u)))))
    ?_ (fun u => (Ω ^ 2 * F / 6 + (L * F + Ω * J) / 12) * u ^ 3) (fun u => (Ω ^ 2 * F / 2 + (L * F + Ω * J) / 4) * u ^ 2)
    (fun u => ((hasDerivAt_pow 3 u).const_mul (Ω ^ 2 * F / 6 + (L * F + Ω * J) / 12)).congr_deriv (by push_cast; ring)) h hh ?_ ?_
  · intro v i
    have a := angle_from A t v
    have b := angle_from M.toSignal t v
    have h3 : HasDerivAt (fun u => xp (θ (t + u) - θ t) (α (t + u) - α t) i)
        ((xp (w (t + v)) (α (t + v) - α t) + xp (θ (t + v) - θ t) (f (t + v))) i) v := by
      fin_cases i
      · exact (((b 1).mul (a 2)).sub ((b 2).mul (a 1))).congr_deriv (by simp [xp]; ring)
      · exact (((b 2).mul (a 0)).sub ((b 0).mul (a 2))).congr_deriv (by simp [xp]; ring)
      · exact (((b 0).mul (a 1)).sub ((b 1).mul (a 0))).congr_deriv (by simp [xp]; ring)
    exact (hP v i).sub ((a i).add (h3.const_mul (1 / 2 : ℝ)))
  · have : xp (θ (t + 0) - θ t) (α (t + 0) - α t) = 0 := by rw [add_zero, sub_self, xp_zero]
    rw [this, h0, add_zero, sub_self]; simp [len]
  · intro v hv _
    have e : ((C t)ᵀ * C (t + v)) *ᵥ f (t + v) - (f (t + v) + (1 / 2 : ℝ) • (xp (w (t + v)) (α (t + v) - α t) + xp (θ (t + v) - θ t) (f (t + v)))) =
        (((C t)ᵀ * C (t + v)) *ᵥ f (t + v) - f (t + v) - xp (θ (t + v) - θ t) (f (t + v))) +
          (1 / 2 : ℝ) • (xp (θ (t + v) - θ t - v • w (t + v)) (f (t + v)) - xp (w (t + v)) (α (t + v) - α t - v • f (t + v))) := by
      rw [xp_sub_left _ (v • w (t + v)), xp_sub_right _ _ (v • f (t + v)), xp_smul_left, xp_smul_right]
      ext i; simp only [Pi.add_apply, Pi.sub_apply, Pi.smul_apply, smul_eq_mul]; ring
    rw [e]
    refine (len_add_le _ _).trans ?_
    rw [len_smul, abs_of_pos (by norm_num)]
    have hf := A.rate (t + v)
    have hw := M.rate (t + v)
    have a1 := second_turn M t (f (t + v)) v hv
    have a2 : Ω ^ 2 * len (f (t + v)) * v ^ 2 / 2 ≤ Ω ^ 2 * F * v ^ 2 / 2 := by gcongr
    have b1 : len (xp (θ (t + v) - θ t - v • w (t + v)) (f (t + v))) ≤ L * v ^ 2 / 2 * F :=
      (len_xp_le _ _).trans (mul_le_mul (angle_end M.toSignal t v hv) hf (len_nonneg _) (by positivity))
    have b2 : len (xp (w (t + v)) (α (t + v) - α t - v • f (t + v))) ≤ Ω * (J * v ^ 2 / 2) :=
      (len_xp_le _ _).trans (mul_le_mul hw (angle_end A t v hv) (len_nonneg _) hΩ)
    have b3 := len_sub_le (xp (θ (t + v) - θ t - v • w (t + v)) (f (t + v))) (xp (w (t + v)) (α (t + v) - α t - v • f (t + v)))
    have := a1.trans a2
    nlinarith

theorem force_continuous (i : Fin 3) : Continuous fun u => f u i := by
  have hJ := smooth_nonneg A
  refine LipschitzWith.continuous (K := ⟨J, hJ⟩) (LipschitzWith.of_dist_le_mul fun u v => ?_)
  rw [Real.dist_eq, Real.dist_eq]
  exact (comp_le_len (f u - f v) i).trans (A.smooth u v)

theorem impulse_exists (t : ℝ) : ∃ P : ℝ → V3 ℝ, P 0 = 0 ∧ ∀ u i, HasDerivAt (fun u => P u i) ((((C t)ᵀ * C (t + u)) *ᵥ f (t + u)) i) u := by
  have hc : ∀ i, Continuous fun u => (((C t)ᵀ * C (t + u)) *ᵥ f (t + u)) i := by
    intro i
    have hC : ∀ j k, Continuous fun u => C (t + u) j k := fun j k =>
      (continuous_iff_continuousAt.2 fun u => (M.turns u j k).continuousAt).comp (continuous_const.add continuous_id)
    have hf : ∀ j, Continuous fun u => f (t + u) j := fun j => (force_continuous M A j).comp (continuous_const.add continuous_id)
    simp only [mulVec, dotProduct, Fin.sum_univ_three, Matrix.mul_apply, transpose_apply]
    have row : ∀ k, Continuous fun u => C t 0 i * C (t + u) 0 k + C t 1 i * C (t + u) 1 k + C t 2 i * C (t + u) 2 k := fun k =>
      ((continuous_const.mul (hC 0 k)).add (continuous_const.mul (hC 1 k))).add (continuous_const.mul (hC 2 k))
    exact (((row 0).mul (hf 0)).add ((row 1).mul (hf 1))).add ((row 2).mul (hf 2))
  refine ⟨fun u i => ∫ v in (0 : ℝ)..u, (((C t)ᵀ * C (t + v)) *ᵥ f (t + v)) i, ?_, fun u i => ((hc i).integral_hasStrictDerivAt 0 u).hasDerivAt⟩
  ext i; simp

/-- The force in body axes at `t` changes no faster than `J + Ω F`. -/
theorem force_smooth (t u v : ℝ) (huv : v ≤ u) :
    len (((C t)ᵀ * C (t + v)) *ᵥ f (t + v) - ((C t)ᵀ * C (t + u)) *ᵥ f (t + u)) ≤ (J + Ω * F) * (u - v) := by
  have hΩ := rate_nonneg M.toSignal
  have e : ((C t)ᵀ * C (t + v)) *ᵥ f (t + v) - ((C t)ᵀ * C (t + u)) *ᵥ f (t + u) =
      ((C t)ᵀ * C (t + u)) *ᵥ (f (t + v) - f (t + u)) -
        ((C t)ᵀ * C (t + v)) *ᵥ (((C (t + v))ᵀ * C (t + v + (u - v))) *ᵥ f (t + v) - f (t + v)) := by
    rw [mulVec_sub, mulVec_sub, mulVec_mulVec]
    have : (C t)ᵀ * C (t + v) * ((C (t + v))ᵀ * C (t + v + (u - v))) = (C t)ᵀ * C (t + u) := by
      rw [Matrix.mul_assoc, ← Matrix.mul_assoc (C (t + v)), (M.rot _).1, Matrix.one_mul]
      congr 2; ring
    rw [this]
    abel
  rw [e]
  refine (len_sub_le _ _).trans ?_
  rw [between_rot M, between_rot M]
  have h1 := A.smooth (t + v) (t + u)
  rw [show t + v - (t + u) = -(u - v) by ring, abs_neg, abs_of_nonneg (by linarith)] at h1
  have h2 := first_turn M (t + v) (f (t + v)) (u - v) (by linarith)
  have h3 : Ω * len (f (t + v)) * (u - v) ≤ Ω * F * (u - v) := by
    have := A.rate (t + v)
    have : 0 ≤ u - v := by linarith
    gcongr
  linarith

/-- The velocity given in the turning frame, against the program's half turn. -/
theorem frame_half (t h : ℝ) (hh : 0 < h) (P G : ℝ → V3 ℝ) (h0 : P 0 = 0) (R : M3 ℝ) (hR : isRot R) (ζ : V3 ℝ) (hζ : len ζ ≤ 2)
    (hP : ∀ u i, HasDerivAt (fun u => P u i) ((((C t)ᵀ * C (t + u)) *ᵥ f (t + u)) i) u) (hG : ForceGives C f R ζ h t G) :
    len (G h - (R *ᵥ P h - (1 / 2 : ℝ) • xp ζ (R *ᵥ P h))) ≤ h * len ζ ^ 2 * F / 3 + len ζ * (J + Ω * F) * h ^ 2 / 12 := by
  have hΩ := rate_nonneg M.toSignal
  have hF := rate_nonneg A
  have hJ := smooth_nonneg A
  have hζ0 := len_nonneg ζ
  obtain ⟨y, hy⟩ : ∃ y : ℝ → V3 ℝ, y = fun u => ((C t)ᵀ * C (t + u)) *ᵥ f (t + u) := ⟨_, rfl⟩
  have hyu : ∀ u, ((C t)ᵀ * C (t + u)) *ᵥ f (t + u) = y u := fun u => by rw [hy]
  have hG' := hG.grows
  simp only [hyu] at hP hG'
  have hyF : ∀ u, len (R *ᵥ y u) ≤ F := by
    intro u; rw [len_isRot R hR, ← hyu, between_rot M]; exact A.rate _
  have hN : ∀ u i, HasDerivAt (fun u => (R *ᵥ P u) i) ((R *ᵥ y u) i) u := by
    intro u i
    simp only [mulVec, dotProduct, Fin.sum_univ_three]
    exact (((hP u 0).const_mul _).add ((hP u 1).const_mul _)).add ((hP u 2).const_mul _)
  have hend : ∀ u, 0 ≤ u → len (R *ᵥ P u - u • (R *ᵥ y u)) ≤ (J + Ω * F) * u ^ 2 / 2 := by
    intro u hu
    have := grow (fun v => P v - v • y u) (fun v => y v - y u)
      (fun v i => ((hP v i).sub ((hasDerivAt_id v).mul_const (y u i))).congr_deriv (by simp))
      (fun v => (J + Ω * F) * (u * v - v ^ 2 / 2)) (fun v => (J + Ω * F) * (u - v))
      (fun v => ((((hasDerivAt_id v).const_mul u).sub ((hasDerivAt_pow 2 v).div_const 2)).const_mul (J + Ω * F)).congr_deriv (by simp)) u hu
      (by simp [len, h0])
      (fun v _ h1 => by have := force_smooth M A t u v h1.le; rwa [hyu, hyu] at this)
    rw [← mulVec_smul, ← mulVec_sub, len_isRot R hR]
    refine this.trans (le_of_eq ?_)
    ring
  have hxN : ∀ u i, HasDerivAt (fun u => xp ζ (R *ᵥ P u) i) (xp ζ (R *ᵥ y u) i) u := by
    intro u i
    fin_cases i
    · exact (((hN u 2).const_mul (ζ 1)).sub ((hN u 1).const_mul (ζ 2))).congr_deriv (by simp [xp])
    · exact (((hN u 0).const_mul (ζ 2)).sub ((hN u 2).const_mul (ζ 0))).congr_deriv (by simp [xp])
    · exact (((hN u 1).const_mul (ζ 0)).sub ((hN u 0).const_mul (ζ 1))).congr_deriv (by simp [xp])
  have key := grow (fun u => G u - (R *ᵥ P u - (u / (2 * h)) • xp ζ (R *ᵥ P u)))
    (fun u => (turnM ((u / h) • ζ))ᵀ *ᵥ (R *ᵥ y u) - (R *ᵥ y u - ((1 / (2 * h)) • xp ζ (R *ᵥ P u) + (u / (2 * h)) • xp ζ (R *ᵥ y u))))
    (fun u i => by
      have a := ((hasDerivAt_id u).div_const (2 * h)).mul (hxN u i)
      exact (hG' u i).sub ((hN u i).sub a))
    (fun u => len ζ ^ 2 * F / (3 * h ^ 2) * u ^ 3 + len ζ * (J + Ω * F) / (12 * h) * u ^ 3)
    (fun u => len ζ ^ 2 * F / h ^ 2 * u ^ 2 + len ζ * (J + Ω * F) / (4 * h) * u ^ 2)
    (fun u => (((hasDerivAt_pow 3 u).const_mul (len ζ ^ 2 * F / (3 * h ^ 2))).add ((hasDerivAt_pow 3 u).const_mul (len ζ * (J + Ω * F) / (12 * h)))).congr_deriv
      (by push_cast; field_simp; ring)) h hh.le
    (by rw [hG.start, h0]; simp [len, xp])
    (fun u hu h1 => by
      have e : (turnM ((u / h) • ζ))ᵀ *ᵥ (R *ᵥ y u) - (R *ᵥ y u - ((1 / (2 * h)) • xp ζ (R *ᵥ P u) + (u / (2 * h)) • xp ζ (R *ᵥ y u))) =
          (turnM (-((u / h) • ζ)) *ᵥ (R *ᵥ y u) - R *ᵥ y u - xp (-((u / h) • ζ)) (R *ᵥ y u)) + (1 / (2 * h)) • xp ζ (R *ᵥ P u - u • (R *ᵥ y u)) := by
        have : xp (-((u / h) • ζ)) (R *ᵥ y u) = -((u / h) • xp ζ (R *ᵥ y u)) := by
          rw [← neg_smul, xp_smul_left, neg_smul]
        rw [turnM_t, this, xp_sub_right, xp_smul_right]
        ext i; simp only [Pi.add_apply, Pi.sub_apply, Pi.smul_apply, Pi.neg_apply, smul_eq_mul]
        field_simp; ring
      have hl : len (-((u / h) • ζ)) = u / h * len ζ := by
        rw [← neg_smul, len_smul, abs_neg, abs_of_nonneg (by positivity)]
      have hu1 : u / h ≤ 1 := by rw [div_le_one hh]; exact h1.le
      have hu0 : 0 ≤ u / h := by positivity
      have t1 := turn_first (-((u / h) • ζ)) (R *ᵥ y u) (by rw [hl]; nlinarith)
      rw [hl] at t1
      have t2 : (u / h * len ζ) ^ 2 * len (R *ᵥ y u) ≤ (u / h * len ζ) ^ 2 * F := mul_le_mul_of_nonneg_left (hyF u) (sq_nonneg _)
      have t3 : len (xp ζ (R *ᵥ P u - u • (R *ᵥ y u))) ≤ len ζ * ((J + Ω * F) * u ^ 2 / 2) :=
        (len_xp_le _ _).trans (mul_le_mul_of_nonneg_left (hend u hu) hζ0)
      rw [e]
      refine (len_add_le _ _).trans ?_
      rw [len_smul, abs_of_pos (by positivity)]
      have t4 := mul_le_mul_of_nonneg_left t3 (by positivity : 0 ≤ 1 / (2 * h))
      have e1 : (u / h * len ζ) ^ 2 * F = len ζ ^ 2 * F / h ^ 2 * u ^ 2 := by field_simp
      have e2 : 1 / (2 * h) * (len ζ * ((J + Ω * F) * u ^ 2 / 2)) = len ζ * (J + Ω * F) / (4 * h) * u ^ 2 := by field_simp; ring
      rw [e1] at t2
      rw [e2] at t4
      linarith)
  have e3 : h / (2 * h) = 1 / 2 := by field_simp
  rw [e3] at key
  refine key.trans (le_of_eq ?_)
  field_simp
end

theorem force_compensated (s : Ins ℝ) (m : Imu ℝ) : Ins.compensate s.dt m.acce s.nav.ab s.nav.as = forceIncrement s.nav s.dt m.acce := by
  ext i
  simp only [Ins.compensate, mvec_real, eyeM_real, diagM_real]
  rw [Matrix.sub_mulVec, Matrix.one_mulVec, Pi.sub_apply, Matrix.mulVec_diagonal]
  simp only [vs, Pi.sub_apply, forceIncrement]
  ring

/-- The impulse formula of the program. -/
noncomputable def impulse (gp ap w a : V3 ℝ) : V3 ℝ := a + (1 / 2 : ℝ) • xp w a + (1 / 12 : ℝ) • (xp gp a + xp ap w)

/-- The velocity after a sample. -/
theorem velocity_after (g : ℝ) (s : Ins ℝ) (m : Imu ℝ) : (s.forwardImu g m).2.nav.vn = s.nav.vn + fallAhead s +
    (s.nav.Cbn *ᵥ impulse s.gyroPre s.accePre (increment s.nav s.dt m.gyro) (forceIncrement s.nav s.dt m.acce) -
      (1 / 2 : ℝ) • xp (frameAhead s) (s.nav.Cbn *ᵥ impulse s.gyroPre s.accePre (increment s.nav s.dt m.gyro) (forceIncrement s.nav s.dt m.acce))) := by
  have h1 : (s.forwardImu g m).2.nav.vn = (s.extrapolate.2.velocityUpdate s.extrapolate.1 (Ins.compensate s.dt m.acce s.nav.ab s.nav.as)
    (Ins.compensate s.dt m.gyro s.nav.gb s.nav.gs)).nav.vn := rfl
  rw [h1, turn_compensated, force_compensated]
  generalize increment s.nav s.dt m.gyro = w
  generalize forceIncrement s.nav s.dt m.acce = a
  have hie : s.extrapolate.2.omegaIeN = earthRate (s.extrapolate.2.posMid 0) := ie_eq _
  have hen : s.extrapolate.2.omegaEnN = transportRate s.extrapolate.2.vnMid (s.extrapolate.2.posMid 0) (s.extrapolate.2.posMid 2) := en_eq _ _
  have hg : s.extrapolate.1 = Earth.gravity (s.extrapolate.2.posMid 0) (s.extrapolate.2.posMid 2) := rfl
  have hn : s.extrapolate.2.nav = s.nav := rfl
  have hd : s.extrapolate.2.dt = s.dt := rfl
  have hgp : s.extrapolate.2.gyroPre = s.gyroPre := rfl
  have hap : s.extrapolate.2.accePre = s.accePre := rfl
  unfold fallAhead frameAhead
  rw [← hie, ← hen, ← hg, ← hd, ← hgp, ← hap, ← hn]
  generalize s.extrapolate.1 = g0
  generalize s.extrapolate.2 = S
  have hi : impulse S.gyroPre S.accePre w a = a + sv (Fl.lit (1 / 2)) (cross w a) + vd (cross S.gyroPre a + cross S.accePre w) (Fl.lit 12) := by
    unfold impulse
    ext i
    simp only [Pi.add_apply, Pi.smul_apply, smul_eq_mul, sv_real, vd, cross_eq, lit_real]
    push_cast
    ring
  rw [hi]
  unfold Ins.velocityUpdate
  dsimp only
  generalize a + sv (Fl.lit (1 / 2)) (cross w a) + vd (cross S.gyroPre a + cross S.accePre w) (Fl.lit 12) = k
  rw [mvec_real, mmul_real, eyeM_real, sm_real, skew_eq, ← mulVec_mulVec, sub_mulVec, one_mulVec, smul_mulVec, xm_mulVec, vs_real, vs_real, cross_eq, sv_real]
  have l2 : (Fl.lit 2 : ℝ) = 2 := by norm_num
  have l12 : (Fl.lit (1 / 2) : ℝ) = 1 / 2 := by norm_num
  rw [l2, l12, add_comm S.omegaEnN]
  have hv : (v3 0 0 g0 : V3 ℝ) = ![0, 0, g0] := rfl
  rw [hv]
  abel

/-- C199: the velocity gained in one sample, less gravity and the Coriolis acceleration over the interval, is the exact integral of the specific
force over the interval - the body turning under the force, and the navigation frame turning below the body - up to the third power of the interval,
if gyroscopes and accelerometers deliver the integrals of rate and force (after bias and scale factor), on this sample and the one before it
(or if there was none). -/
theorem C199_force_integral {C : ℝ → M3 ℝ} {w θ f α : ℝ → V3 ℝ} {Ω L F J : ℝ} (M : TurningBody C w θ Ω L) (A : Signal f α F J)
    (g : ℝ) (s : Ins ℝ) (m : Imu ℝ) (t : ℝ) (hd : 0 < s.dt) (hR : isRot s.nav.Cbn) (hζ : len (frameAhead s) ≤ 2)
    (hw : increment s.nav s.dt m.gyro = θ (t + s.dt) - θ t) (ha : forceIncrement s.nav s.dt m.acce = α (t + s.dt) - α t)
    (hp : (s.gyroPre = 0 ∧ s.accePre = 0) ∨ (s.gyroPre = θ t - θ (t - s.dt) ∧ s.accePre = α t - α (t - s.dt)))
    (G : ℝ → V3 ℝ) (hG : ForceGives C f s.nav.Cbn (frameAhead s) s.dt t G) :
    len ((s.forwardImu g m).2.nav.vn - s.nav.vn - fallAhead s - G s.dt) ≤
      (1 + len (frameAhead s) / 2) * (Ω ^ 2 * F + L * F + Ω * J) / 6 * s.dt ^ 3 +
        (s.dt * len (frameAhead s) ^ 2 * F / 3 + len (frameAhead s) * (J + Ω * F) * s.dt ^ 2 / 12) := by
  have hΩ := rate_nonneg M.toSignal
  have hL := smooth_nonneg M.toSignal
  have hF := rate_nonneg A
  have hJ := smooth_nonneg A
  obtain ⟨P, h0, hP⟩ := impulse_exists M A t
  have i1 := impulse_half M A t s.dt hd.le P h0 hP
  have i2 := frame_half M A t s.dt hd P G h0 s.nav.Cbn hR (frameAhead s) hζ hP hG
  rw [velocity_after, hw, ha]
  have q1 := angle_le M.toSignal t s.dt hd.le
  have q2 := angle_le A t s.dt hd.le
  have q3 := angle_pair M.toSignal t s.dt hd.le
  have q4 := angle_pair A t s.dt hd.le
  generalize s.nav.Cbn = R at *
  generalize frameAhead s = ζ at *
  generalize s.dt = h at *
  obtain ⟨φ, hφ⟩ : ∃ φ, φ = θ (t + h) - θ t := ⟨_, rfl⟩
  obtain ⟨a, hα⟩ : ∃ a, a = α (t + h) - α t := ⟨_, rfl⟩
  rw [← hφ] at i1 q1 q3
  rw [← hα] at i1 q2 q4
  rw [← hφ, ← hα]
  have hz := len_nonneg ζ
  have i3 : len (impulse s.gyroPre s.accePre φ a - P h) ≤ (Ω ^ 2 * F + L * F + Ω * J) / 6 * h ^ 3 := by
    have hpre : len (xp s.gyroPre a + xp s.accePre φ) ≤ (L * F + Ω * J) * h ^ 3 := by
      rcases hp with ⟨p1, p2⟩ | ⟨p1, p2⟩
      · rw [p1, p2, xp_zero, xp_zero, add_zero, len_zero']; positivity
      · have e : xp s.gyroPre a + xp s.accePre φ = xp (θ t - θ (t - h) - φ) a + xp (α t - α (t - h) - a) φ := by
          rw [xp_sub_left _ φ, xp_sub_left _ a, p1, p2, xp_swap a φ]; abel
        rw [e]
        refine (len_add_le _ _).trans ?_
        have c1 := (len_xp_le (θ t - θ (t - h) - φ) a).trans (mul_le_mul q3 q2 (len_nonneg _) (by positivity))
        have c2 := (len_xp_le (α t - α (t - h) - a) φ).trans (mul_le_mul q4 q1 (len_nonneg _) (by positivity))
        nlinarith
    have e : impulse s.gyroPre s.accePre φ a - P h = (1 / 12 : ℝ) • (xp s.gyroPre a + xp s.accePre φ) - (P h - (a + (1 / 2 : ℝ) • xp φ a)) := by
      unfold impulse; abel
    rw [e]
    refine (len_sub_le _ _).trans ?_
    rw [len_smul, abs_of_pos (by norm_num)]
    nlinarith
  generalize impulse s.gyroPre s.accePre φ a = I at *
  have e : s.nav.vn + fallAhead s + (R *ᵥ I - (1 / 2 : ℝ) • xp ζ (R *ᵥ I)) - s.nav.vn - fallAhead s - G h =
      (R *ᵥ (I - P h) - (1 / 2 : ℝ) • xp ζ (R *ᵥ (I - P h))) - (G h - (R *ᵥ P h - (1 / 2 : ℝ) • xp ζ (R *ᵥ P h))) := by
    rw [mulVec_sub, xp_sub_right]
    ext i; simp only [Pi.add_apply, Pi.sub_apply, Pi.smul_apply, smul_eq_mul]; ring
  rw [e]
  refine (len_sub_le _ _).trans (add_le_add ?_ i2)
  refine (len_sub_le _ _).trans ?_
  rw [len_smul, abs_of_pos (by norm_num)]
  have c := len_xp_le ζ (R *ᵥ (I - P h))
  rw [len_isRot R hR] at c ⊢
  have c2 := mul_le_mul_of_nonneg_left i3 (by positivity : 0 ≤ 1 + len ζ / 2)
  nlinarith

/-- A steady force on a body that does not turn, in a frame that does not turn, is such a force and gives the velocity one expects. -/
example (a : V3 ℝ) (t dt : ℝ) : TurningBody (fun _ => 1) (fun _ => 0) (fun _ => 0) 0 0 ∧ Signal (fun _ => a) (fun t => t • a) (len a) 0 ∧
    ForceGives (fun _ => 1) (fun _ => a) 1 0 dt t (fun u => u • a) := by
  have hd : ∀ (u : ℝ) (i : Fin 3), HasDerivAt (fun v : ℝ => (v • a) i) (a i) u := fun u i => by
    simpa using (hasDerivAt_id u).mul_const (a i)
  refine ⟨⟨⟨fun t i => by simpa using hasDerivAt_const t (0 : ℝ), fun t => by rw [len_zero'], fun t u => by rw [sub_self, len_zero', zero_mul]⟩,
    fun t => by simp [isRot], fun t i j => ?_⟩, ⟨hd, fun t => le_refl _, fun t u => by rw [sub_self, len_zero', zero_mul]⟩, ⟨by simp, fun u i => ?_⟩⟩
  · have : xm (0 : V3 ℝ) = 0 := by ext i j; fin_cases i <;> fin_cases j <;> simp [xm]
    rw [this, Matrix.mul_zero]
    exact hasDerivAt_const _ _
  · have : turnM (0 : V3 ℝ) = 1 := by
      have : xm (0 : V3 ℝ) = 0 := by ext i j; fin_cases i <;> fin_cases j <;> simp [xm]
      unfold turnM; rw [this]; simp
    rw [smul_zero, this]
    simpa using hd u i
end Verif.Props
