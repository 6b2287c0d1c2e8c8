import Verif.Props.Perfect
import Verif.Props.Monotone
import Verif.Props.Monitor
import Verif.Props.TrueAttitude
/-! C209: how far a measurement can move the solution, in exact arithmetic. -/
namespace Verif.Props
open Verif Verif.Spec Verif.Convert Matrix

/-- The inequality of Cauchy and Schwarz for a valid covariance. -/
theorem cov_schwarz {n : Nat} {S : Matrix (Fin n) (Fin n) ℝ} (h : S.PosSemidef) (u v : Fin n → ℝ) :
    (u ⬝ᵥ S *ᵥ v) ^ 2 ≤ (u ⬝ᵥ S *ᵥ u) * (v ⬝ᵥ S *ᵥ v) := by
  have hs : Sᵀ = S := by have := h.isHermitian; rwa [IsHermitian, conjTranspose_eq_transpose_of_trivial] at this
  have sym : v ⬝ᵥ S *ᵥ u = u ⬝ᵥ S *ᵥ v := by
    rw [dotProduct_mulVec, ← mulVec_transpose, hs, dotProduct_comm]
  have q : ∀ t : ℝ, 0 ≤ (u ⬝ᵥ S *ᵥ u) * (t * t) + 2 * (u ⬝ᵥ S *ᵥ v) * t + v ⬝ᵥ S *ᵥ v := by
    intro t
    have := h.dotProduct_mulVec_nonneg (t • u + v)
    simp only [star_trivial, mulVec_add, mulVec_smul, dotProduct_add, add_dotProduct, smul_dotProduct, dotProduct_smul, smul_eq_mul, sym] at this
    linarith
  have d := discrim_le_zero q
  unfold discrim at d
  nlinarith

/-- What an update takes off the covariance. -/
theorem update_drop {n p : Nat} (k : Kf n ℝ) (H : Matrix (Fin p) (Fin n) ℝ) (z : Fin p → ℝ) (R : Matrix (Fin p) (Fin p) ℝ)
    (hPs : k.Pᵀ = k.P) (hSs : (H * k.P * Hᵀ + R)ᵀ = H * k.P * Hᵀ + R) (hdet : IsUnit (H * k.P * Hᵀ + R).det) :
    k.P - (k.update H z R).P =
      k.P * Hᵀ * (H * k.P * Hᵀ + R)⁻¹ * (H * k.P * Hᵀ + R) * (k.P * Hᵀ * (H * k.P * Hᵀ + R)⁻¹)ᵀ := by
  have hu := (update_P k H z R).1
  set S := H * k.P * Hᵀ + R with hS
  set K := k.P * Hᵀ * S⁻¹ with hK
  have hKS : K * S = k.P * Hᵀ := by
    rw [hK, Matrix.mul_assoc, nonsing_inv_mul _ hdet, Matrix.mul_one]
  clear_value K
  have e1 : K * S * Kᵀ = k.P * Hᵀ * Kᵀ := by rw [hKS]
  have e2 : K * S * Kᵀ = K * H * k.P := by
    have : (K * S * Kᵀ)ᵀ = K * S * Kᵀ := by
      rw [transpose_mul, transpose_mul, transpose_transpose, hSs, Matrix.mul_assoc]
    rw [← this, e1, transpose_mul, transpose_mul, transpose_transpose, transpose_transpose, hPs, Matrix.mul_assoc]
  have e3 : (1 - K * H) * k.P * (1 - K * H)ᵀ + K * R * Kᵀ =
      k.P - K * H * k.P - k.P * Hᵀ * Kᵀ + K * S * Kᵀ := by
    rw [hS, transpose_sub, transpose_mul, transpose_one]
    simp only [Matrix.mul_add, Matrix.add_mul, Matrix.mul_sub, Matrix.sub_mul, Matrix.one_mul, Matrix.mul_one,
      Matrix.mul_assoc]
    abel
  rw [hu, e3, ← e1, ← e2]
  abel

theorem cov_sym {n : Nat} {S : Matrix (Fin n) (Fin n) ℝ} (h : S.PosSemidef) : Sᵀ = S := by
  have := h.isHermitian; rwa [IsHermitian, conjTranspose_eq_transpose_of_trivial] at this

/-- C209, every dimension: in every direction, the square of the estimate a measurement gives is at most what the variance drops by, times
the square of the innovation measured in units of its own covariance. -/
theorem C209_measurement {n p : Nat} (k : Kf n ℝ) (H : Matrix (Fin p) (Fin n) ℝ) (z : Fin p → ℝ) (R : Matrix (Fin p) (Fin p) ℝ)
    (hP : validCov k.P) (hR : positive R) (a : Fin n → ℝ) :
    (a ⬝ᵥ (k.update H z R).Xd) ^ 2 ≤ (a ⬝ᵥ k.P *ᵥ a - a ⬝ᵥ (k.update H z R).P *ᵥ a) * (z ⬝ᵥ (H * k.P * Hᵀ + R)⁻¹ *ᵥ z) := by
  have hdet : IsUnit (H * k.P * Hᵀ + R).det := unit_sum (congr_valid H hP) hR
  have hSp : (H * k.P * Hᵀ + R).PosSemidef := (validCov_iff _).1 (add_valid (congr_valid H hP) (positive_valid hR))
  have hSs := cov_sym hSp
  have hd := update_drop k H z R (cov_sym ((validCov_iff _).1 hP)) hSs hdet
  have hx := (update_P k H z R).2
  rw [← dotProduct_sub, ← sub_mulVec, hd, hx]
  generalize H * k.P * Hᵀ + R = S at *
  generalize k.P * Hᵀ * S⁻¹ = K at *
  have c := cov_schwarz hSp (Kᵀ *ᵥ a) (S⁻¹ *ᵥ z)
  have e1 : S *ᵥ (S⁻¹ *ᵥ z) = z := by rw [mulVec_mulVec, mul_nonsing_inv _ hdet, one_mulVec]
  have e2 : (Kᵀ *ᵥ a) ⬝ᵥ z = a ⬝ᵥ K *ᵥ z := by rw [mulVec_transpose, ← dotProduct_mulVec]
  have e3 : (Kᵀ *ᵥ a) ⬝ᵥ S *ᵥ (Kᵀ *ᵥ a) = a ⬝ᵥ (K * S * Kᵀ) *ᵥ a := by
    rw [← mulVec_mulVec, ← mulVec_mulVec]
    conv_lhs => rw [mulVec_transpose, ← dotProduct_mulVec, ← mulVec_transpose]
  rw [e1, e2, e3, dotProduct_comm (S⁻¹ *ᵥ z)] at c
  exact c

/-- The innovation in units of its covariance, when the measurement has at least the variance `r` in every direction. -/
theorem inno_le {p : Nat} {S R : Matrix (Fin p) (Fin p) ℝ} (hS : S.PosSemidef) (hdet : IsUnit S.det) (z : Fin p → ℝ) (r : ℝ) (hr : 0 < r)
    (hle : ∀ w : Fin p → ℝ, r * (w ⬝ᵥ w) ≤ w ⬝ᵥ S *ᵥ w) : r * (z ⬝ᵥ S⁻¹ *ᵥ z) ≤ z ⬝ᵥ z := by
  set w := S⁻¹ *ᵥ z with hw
  have e1 : S *ᵥ w = z := by rw [hw, mulVec_mulVec, mul_nonsing_inv _ hdet, one_mulVec]
  have h1 := hle w
  rw [e1] at h1
  have h2 := cov_schwarz (S := (1 : Matrix (Fin p) (Fin p) ℝ)) PosSemidef.one w z
  simp only [one_mulVec] at h2
  rw [dotProduct_comm z w]
  have n1 : 0 ≤ w ⬝ᵥ w := by have := PosSemidef.one.dotProduct_mulVec_nonneg (M := (1 : Matrix (Fin p) (Fin p) ℝ)) w; simpa using this
  have n2 : 0 ≤ z ⬝ᵥ z := by have := PosSemidef.one.dotProduct_mulVec_nonneg (M := (1 : Matrix (Fin p) (Fin p) ℝ)) z; simpa using this
  have q0 : 0 ≤ w ⬝ᵥ z := le_trans (mul_nonneg hr.le n1) h1
  generalize w ⬝ᵥ z = q at *
  generalize w ⬝ᵥ w = a at *
  generalize z ⬝ᵥ z = b at *
  rcases q0.eq_or_lt with h | h
  · rw [← h]; simpa using n2
  · have : r * q ^ 2 ≤ q * b := by
      have := mul_le_mul_of_nonneg_right h1 n2
      nlinarith
    have : (r * q) * q ≤ b * q := by linarith
    exact le_of_mul_le_mul_right this h

/-- The innovation of a fix is as long as the way from the antenna of the solution to the fix. -/
theorem posZ_len (f : Fusion ℝ) (pos : V3 ℝ) (hC : isRot f.ins.nav.Cne) : len (f.posZ pos) = len (antenna f - llaToXyz pos) := by
  have e : f.posZ pos = f.ins.nav.Cneᵀ *ᵥ (antenna f - llaToXyz pos) := by
    unfold Fusion.posZ antenna
    simp only [mvec_real]
    rw [add_sub_right_comm, mulVec_add, mulVec_mulVec, hC.2.1, one_mulVec]
  have hT : isRot f.ins.nav.Cneᵀ :=
    ⟨by rw [transpose_transpose]; exact hC.2.1, by rw [transpose_transpose]; exact hC.1, by rw [det_transpose]; exact hC.2.2⟩
  rw [e, len_isRot _ hT]
/-- The place of a fix in earth-fixed coordinates. -/
noncomputable def fixXyz (m : Gnss ℝ) : V3 ℝ := llaToXyz (v3 (m.lat * (Real.pi / 180)) (m.lon * (Real.pi / 180)) m.height)

theorem len_dot (x : V3 ℝ) : len x ^ 2 = x ⬝ᵥ x := by
  rw [len_sq]; simp [dotProduct, Fin.sum_univ_three]; ring

theorem gnss_kf (f : Fusion ℝ) (m : Gnss ℝ) (hu : usable m.mode) :
    (f.measureGnss m).kf = f.kf.update f.posH (f.posZ (v3 (m.lat * (Real.pi / 180)) (m.lon * (Real.pi / 180)) m.height))
      (diagM fun i => m.posStd i * m.posStd i * f.opt.gnssStdScale) ∧ (f.measureGnss m).ins.nav.pos = f.ins.nav.pos := by
  unfold Fusion.measureGnss
  rw [if_pos (show Fusion.gnssCheck m = true by unfold Fusion.gnssCheck; rcases hu with h | h | h | h <;> rw [h] <;> decide)]
  exact ⟨rfl, rfl⟩

/-- C209, a fix: with valid covariance, and a fix whose variances (the squares of its deviations, scaled as configured) are at least `σ²`,
the correction of every component, squared and in units of `σ²`, is at most what the variance of that component drops by, times the square of the
distance between the antenna of the solution and the fix. -/
theorem C209_fix (f : Fusion ℝ) (m : Gnss ℝ) (hu : usable m.mode) (hP : validCov f.kf.P) (hC : isRot f.ins.nav.Cne) (σ : ℝ) (hσ : 0 < σ)
    (hs : ∀ i, σ ^ 2 ≤ m.posStd i ^ 2 * f.opt.gnssStdScale) (i : Fin 15) :
    σ ^ 2 * (f.measureGnss m).kf.Xd i ^ 2 ≤ (f.kf.P i i - (f.measureGnss m).kf.P i i) * len (antenna f - fixXyz m) ^ 2 := by
  obtain ⟨hk, -⟩ := gnss_kf f m hu
  have hR : positive (diagM fun i => m.posStd i * m.posStd i * f.opt.gnssStdScale : M3 ℝ) := by
    rw [positive_iff, diagM_real]
    refine Matrix.PosDef.diagonal fun i => ?_
    have := hs i
    have : 0 < σ ^ 2 := by positivity
    nlinarith
  set z := f.posZ (v3 (m.lat * (Real.pi / 180)) (m.lon * (Real.pi / 180)) m.height) with hz
  set R := (diagM fun i => m.posStd i * m.posStd i * f.opt.gnssStdScale : M3 ℝ) with hRd
  have c := C209_measurement f.kf f.posH z R hP hR (Pi.single i 1)
  rw [← hk] at c
  have d1 : ∀ A : Matrix (Fin 15) (Fin 15) ℝ, (Pi.single i 1 : Fin 15 → ℝ) ⬝ᵥ A *ᵥ Pi.single i 1 = A i i := by
    intro A; simp
  rw [d1, d1, single_one_dotProduct] at c
  have hSp : (f.posH * f.kf.P * f.posHᵀ + R).PosSemidef := (validCov_iff _).1 (add_valid (congr_valid _ hP) (positive_valid hR))
  have hle : ∀ w : Fin 3 → ℝ, σ ^ 2 * (w ⬝ᵥ w) ≤ w ⬝ᵥ (f.posH * f.kf.P * f.posHᵀ + R) *ᵥ w := by
    intro w
    have a1 := ((validCov_iff _).1 (congr_valid f.posH hP)).dotProduct_mulVec_nonneg w
    rw [star_trivial] at a1
    rw [add_mulVec, dotProduct_add]
    have a2 : σ ^ 2 * (w ⬝ᵥ w) ≤ w ⬝ᵥ R *ᵥ w := by
      rw [hRd, diagM_real]
      simp only [dotProduct, mulVec_diagonal, Finset.mul_sum]
      refine Finset.sum_le_sum fun j _ => ?_
      have := mul_le_mul_of_nonneg_right (hs j) (mul_self_nonneg (w j))
      nlinarith
    linarith
  have q := inno_le (R := R) hSp (unit_sum (congr_valid _ hP) hR) z (σ ^ 2) (by positivity) hle
  have hl := posZ_len f (v3 (m.lat * (Real.pi / 180)) (m.lon * (Real.pi / 180)) m.height) hC
  rw [← hz] at hl
  rw [← len_dot, hl] at q
  have dr : 0 ≤ f.kf.P i i - (f.measureGnss m).kf.P i i := by
    have := ((C24_update_valid f.kf f.posH z R hP (positive_valid hR)).2 (unit_sum (congr_valid _ hP) hR)).2 i
    rw [← hk] at this
    linarith
  have := mul_le_mul_of_nonneg_left q dr
  have := mul_le_mul_of_nonneg_left c (show 0 ≤ σ ^ 2 by positivity)
  unfold fixXyz
  linarith

/-- C209, reported: in the same situation, what a fix contributes to position, velocity and attitude is bounded by how much their reported deviations
drop. -/
theorem C209_reported (f : Fusion ℝ) (m : Gnss ℝ) (hu : usable m.mode) (hP : validCov f.kf.P) (hC : isRot f.ins.nav.Cne) (σ : ℝ) (hσ : 0 < σ)
    (hs : ∀ i, σ ^ 2 ≤ m.posStd i ^ 2 * f.opt.gnssStdScale) (i : Fin 3) :
    let x := (f.measureGnss m).kf.Xd
    let before := f.output
    let after := (f.measureGnss m).output
    let D := len (antenna f - fixXyz m)
    σ ^ 2 * x ⟨i, by omega⟩ ^ 2 ≤ (before.posStd i ^ 2 - after.posStd i ^ 2) * D ^ 2 ∧
    σ ^ 2 * x ⟨3 + i, by omega⟩ ^ 2 ≤ (before.vnStd i ^ 2 - after.vnStd i ^ 2) * D ^ 2 ∧
    σ ^ 2 * x ⟨6 + i, by omega⟩ ^ 2 ≤ (before.attiStd i ^ 2 - after.attiStd i ^ 2) * D ^ 2 := by
  have hR : validCov (diagM fun i => m.posStd i * m.posStd i * f.opt.gnssStdScale : M3 ℝ) := by
    rw [validCov_iff, diagM_real]
    refine Matrix.PosSemidef.diagonal fun i => ?_
    have := hs i
    have : 0 < σ ^ 2 := by positivity
    show 0 ≤ m.posStd i * m.posStd i * f.opt.gnssStdScale
    nlinarith
  have d1 : ∀ j, 0 ≤ f.kf.P j j := fun j => ((validCov_iff _).1 hP).diag_nonneg
  have hP' : validCov (f.measureGnss m).kf.P := by
    rw [(gnss_kf f m hu).1]; exact (C24_update_valid f.kf _ _ _ hP hR).1
  have d2 : ∀ j, 0 ≤ (f.measureGnss m).kf.P j j := fun j => ((validCov_iff _).1 hP').diag_nonneg
  have sq : ∀ x : ℝ, 0 ≤ x → (Fl.sqrt x : ℝ) ^ 2 = x := fun x hx => Real.sq_sqrt hx
  refine ⟨?_, ?_, ?_⟩
  · have := C209_fix f m hu hP hC σ hσ hs ⟨i, by omega⟩
    show _ ≤ ((Fl.sqrt _ : ℝ) ^ 2 - (Fl.sqrt _ : ℝ) ^ 2) * _
    rw [sq _ (d1 _), sq _ (d2 _)]; exact this
  · have := C209_fix f m hu hP hC σ hσ hs ⟨3 + i, by omega⟩
    show _ ≤ ((Fl.sqrt _ : ℝ) ^ 2 - (Fl.sqrt _ : ℝ) ^ 2) * _
    rw [sq _ (d1 _), sq _ (d2 _)]; exact this
  · have := C209_fix f m hu hP hC σ hσ hs ⟨6 + i, by omega⟩
    show _ ≤ ((Fl.sqrt _ : ℝ) ^ 2 - (Fl.sqrt _ : ℝ) ^ 2) * _
    rw [sq _ (d1 _), sq _ (d2 _)]; exact this

/-- C209, height: the first share of the correction, given to the height with the next sample, moves it by no more than its reported deviation times the distance
between antenna and fix in units of `σ`. -/
theorem C209_height (f : Fusion ℝ) (m : Gnss ℝ) (hu : usable m.mode) (hP : validCov f.kf.P) (hC : isRot f.ins.nav.Cne) (σ : ℝ) (hσ : 0 < σ)
    (hs : ∀ i, σ ^ 2 ≤ m.posStd i ^ 2 * f.opt.gnssStdScale) :
    |(f.measureGnss m).takeCorrection.applyCorrection.ins.nav.pos 2 - f.ins.nav.pos 2| ≤
      f.output.posStd 2 * (len (antenna f - fixXyz m) / σ) := by
  have hfl : 0 < (f.measureGnss m).updateFlag.toNat := by
    unfold Fusion.measureGnss
    rw [if_pos (show Fusion.gnssCheck m = true by unfold Fusion.gnssCheck; rcases hu with h | h | h | h <;> rw [h] <;> decide)]
    show 0 < (f.updateFlag ||| Fusion.FLAG_POSITION).toNat
    rcases Nat.eq_zero_or_pos (f.updateFlag ||| Fusion.FLAG_POSITION).toNat with h | h
    · rw [BitVec.toNat_or] at h
      have := Nat.or_eq_zero_iff.1 h
      exact absurd this.2 (by decide)
    · exact h
  obtain ⟨-, hp⟩ := gnss_kf f m hu
  have e : (f.measureGnss m).takeCorrection.applyCorrection.ins.nav.pos 2 =
      f.ins.nav.pos 2 + (f.measureGnss m).kf.Xd 2 / ((f.measureGnss m).monitor.maxIter : ℝ) := by
    have hi : 0 < (f.measureGnss m).takeCorrection.updateIter := by
      unfold Fusion.takeCorrection
      rw [if_pos hfl]
      show (0 : Int) < ((f.measureGnss m).monitor.maxIter : Int)
      rw [maxIter_le]; split_ifs <;> norm_num
    unfold Fusion.applyCorrection
    rw [if_pos hi]
    unfold Fusion.takeCorrection
    rw [if_pos hfl]
    show (f.measureGnss m).ins.nav.pos 2 + (f.measureGnss m).kf.Xd 2 / ((((f.measureGnss m).monitor.maxIter : Int) : ℚ) : ℝ) = _
    rw [hp]
    norm_num
  have hm : (1 : ℝ) ≤ ((f.measureGnss m).monitor.maxIter : ℝ) := by
    rw [maxIter_le]; split_ifs <;> norm_num
  have hx := C209_fix f m hu hP hC σ hσ hs 2
  have hR : validCov (diagM fun i => m.posStd i * m.posStd i * f.opt.gnssStdScale : M3 ℝ) := by
    rw [validCov_iff, diagM_real]
    refine Matrix.PosSemidef.diagonal fun i => ?_
    have := hs i
    have : 0 < σ ^ 2 := by positivity
    show 0 ≤ m.posStd i * m.posStd i * f.opt.gnssStdScale
    nlinarith
  have hP' : validCov (f.measureGnss m).kf.P := by
    rw [(gnss_kf f m hu).1]; exact (C24_update_valid f.kf _ _ _ hP hR).1
  have d2 : 0 ≤ (f.measureGnss m).kf.P 2 2 := ((validCov_iff _).1 hP').diag_nonneg
  have d1 : 0 ≤ f.kf.P 2 2 := ((validCov_iff _).1 hP).diag_nonneg
  rw [e, add_sub_cancel_left, abs_div, abs_of_pos (by linarith : (0 : ℝ) < ((f.measureGnss m).monitor.maxIter : ℝ))]
  refine (div_le_self (abs_nonneg _) hm).trans ?_
  rw [← mul_div_assoc, le_div_iff₀ hσ]
  show |_| * σ ≤ Real.sqrt (f.kf.P 2 2) * _
  have hD := len_nonneg (antenna f - fixXyz m)
  have hrhs : 0 ≤ Real.sqrt (f.kf.P 2 2) * len (antenna f - fixXyz m) := mul_nonneg (Real.sqrt_nonneg _) hD
  refine (abs_le_of_sq_le_sq' (a := |(f.measureGnss m).kf.Xd 2| * σ) ?_ hrhs).2
  rw [mul_pow, mul_pow, sq_abs, Real.sq_sqrt d1]
  nlinarith [mul_nonneg d2 (sq_nonneg (len (antenna f - fixXyz m)))]

/-- The hypotheses are met: unit covariance at latitude and longitude zero, a fix with deviations 1 that is not where the antenna is. -/
example : ∃ (f : Fusion ℝ) (m : Gnss ℝ), usable m.mode ∧ validCov f.kf.P ∧ isRot f.ins.nav.Cne ∧ (∀ i, (1 : ℝ) ^ 2 ≤ m.posStd i ^ 2 * f.opt.gnssStdScale) ∧
    antenna f ≠ fixXyz m := by
  refine ⟨{ (Ex.zFusion : Fusion ℝ) with
      kf := ⟨0, 1, 0, 0⟩, opt := { (Ex.zFusion : Fusion ℝ).opt with gnssStdScale := 1 }
      ins := { (Ex.zIns : Ins ℝ) with nav := { (Ex.zNav : NavEpoch ℝ) with pos := v3 0 0 5, Cne := 1 } } }, Ex.fix 4,
    Or.inr (Or.inr (Or.inl rfl)), ?_, ?_, fun _ => ?_, fun h => ?_⟩
  · rw [validCov_iff]; exact Matrix.PosSemidef.one
  · exact ⟨by simp, by simp, by simp⟩
  · show (1 : ℝ) ^ 2 ≤ (1 : ℝ) ^ 2 * 1; norm_num
  · have h0 := congrFun h 0
    have z : (Ex.zFusion : Fusion ℝ).lbGnss = 0 := by
      ext i; fin_cases i <;> rfl
    unfold antenna fixXyz at h0
    dsimp only at h0
    rw [z, mulVec_zero, mulVec_zero, add_zero] at h0
    have f1 : (Ex.fix 4 : Gnss ℝ).lat = 0 := rfl
    have f2 : (Ex.fix 4 : Gnss ℝ).lon = 0 := rfl
    have f3 : (Ex.fix 4 : Gnss ℝ).height = 0 := rfl
    rw [f1, f2, f3, zero_mul] at h0
    have k : ∀ y : ℝ, llaToXyz (v3 (0 : ℝ) 0 y) 0 = Earth.RN 0 + y := by
      intro y
      show (Earth.RN (0 : ℝ) + y) * Real.cos 0 * Real.cos 0 = _
      rw [Real.cos_zero]; ring
    rw [k, k] at h0
    linarith
end Verif.Props
