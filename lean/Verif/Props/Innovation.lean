import Verif.Props.Gravity
import Verif.Props.Kalman
import Mathlib.Analysis.Matrix.PosDef
/-! C94, C95: what a measurement leaves unexplained, and that no other linear correction does better. -/
namespace Verif.Props
open Verif Verif.Spec Verif.Convert Matrix

/-- C94: for every state and measurement dimension, after an update the part of the innovation that the estimated correction does
not explain is the share of the measurement noise in the innovation covariance: nothing is left of a measurement without
noise. -/
theorem C94_remaining_innovation {n p : Nat} (k : Kf n ℝ) (H : Matrix (Fin p) (Fin n) ℝ) (z : Fin p → ℝ)
    (R : Matrix (Fin p) (Fin p) ℝ) (hS : IsUnit (H * k.P * Hᵀ + R).det) :
    z - H *ᵥ (k.update H z R).Xd = R *ᵥ ((H * k.P * Hᵀ + R)⁻¹ *ᵥ z) ∧
    (R = 0 → H *ᵥ (k.update H z R).Xd = z) := by
  have h : z - H *ᵥ (k.update H z R).Xd = R *ᵥ ((H * k.P * Hᵀ + R)⁻¹ *ᵥ z) := by
    rw [(update_P k H z R).2]
    set S := H * k.P * Hᵀ + R with hSd
    have h1 : S *ᵥ (S⁻¹ *ᵥ z) = z := by rw [Matrix.mulVec_mulVec, Matrix.mul_nonsing_inv _ hS, Matrix.one_mulVec]
    have h2 : H *ᵥ ((k.P * Hᵀ * S⁻¹) *ᵥ z) = (H * k.P * Hᵀ) *ᵥ (S⁻¹ *ᵥ z) := by
      simp only [Matrix.mulVec_mulVec, Matrix.mul_assoc]
    rw [h2]
    have h3 : z = (H * k.P * Hᵀ) *ᵥ (S⁻¹ *ᵥ z) + R *ᵥ (S⁻¹ *ᵥ z) := by rw [← Matrix.add_mulVec, ← hSd, h1]
    exact sub_eq_of_eq_add' h3
  refine ⟨h, fun h0 => ?_⟩
  rw [h0, Matrix.zero_mulVec] at h
  subst h0
  exact (sub_eq_zero.1 h).symm

/-- C95: for every state and measurement dimension and every other gain `L`, correcting with `L` leaves a covariance at least as
large as the one the filter reports. -/
theorem C95_optimal_gain {n p : Nat} (k : Kf n ℝ) (H : Matrix (Fin p) (Fin n) ℝ) (z : Fin p → ℝ) (R : Matrix (Fin p) (Fin p) ℝ)
    (hP : validCov k.P) (hR : validCov R) (hS : IsUnit (H * k.P * Hᵀ + R).det) (L : Matrix (Fin n) (Fin p) ℝ) :
    validCov ((1 - L * H) * k.P * (1 - L * H)ᵀ + L * R * Lᵀ - (k.update H z R).P) := by
  rw [(update_P k H z R).1]
  rw [validCov_iff] at hP hR ⊢
  have hPs : k.Pᵀ = k.P := by have := hP.isHermitian; rwa [IsHermitian, conjTranspose_eq_transpose_of_trivial] at this
  have hRs : Rᵀ = R := by have := hR.isHermitian; rwa [IsHermitian, conjTranspose_eq_transpose_of_trivial] at this
  set S := H * k.P * Hᵀ + R with hSd
  have hSpd : S.PosSemidef := by
    have h1 := hP.mul_mul_conjTranspose_same H
    rw [conjTranspose_eq_transpose_of_trivial] at h1
    exact h1.add hR
  set K := k.P * Hᵀ * S⁻¹ with hK
  have hKS : K * S = k.P * Hᵀ := by rw [hK, Matrix.mul_assoc, nonsing_inv_mul _ hS, Matrix.mul_one]
  clear_value K
  have hSs : Sᵀ = S := by have := hSpd.isHermitian; rwa [IsHermitian, conjTranspose_eq_transpose_of_trivial] at this
  have hKS' : S * Kᵀ = H * k.P := by
    have := congrArg Matrix.transpose hKS
    rwa [Matrix.transpose_mul, hSs, Matrix.transpose_mul k.P, hPs, Matrix.transpose_transpose] at this
  have form : ∀ M : Matrix (Fin n) (Fin p) ℝ, (1 - M * H) * k.P * (1 - M * H)ᵀ + M * R * Mᵀ =
      k.P - M * (S * Kᵀ) - (K * S) * Mᵀ + M * S * Mᵀ := by
    intro M
    rw [hKS', hKS, hSd, Matrix.transpose_sub, Matrix.transpose_mul, Matrix.transpose_one]
    simp only [Matrix.sub_mul, Matrix.mul_sub, Matrix.add_mul, Matrix.mul_add, Matrix.one_mul, Matrix.mul_one, Matrix.mul_assoc]
    abel
  have e : (1 - L * H) * k.P * (1 - L * H)ᵀ + L * R * Lᵀ - ((1 - K * H) * k.P * (1 - K * H)ᵀ + K * R * Kᵀ) =
      (L - K) * S * (L - K)ᵀ := by
    rw [form L, form K, Matrix.transpose_sub]
    simp only [Matrix.sub_mul, Matrix.mul_sub, Matrix.add_mul, Matrix.mul_add, Matrix.mul_assoc]
    abel
  rw [e]
  have := hSpd.mul_mul_conjTranspose_same (L - K)
  rwa [conjTranspose_eq_transpose_of_trivial] at this

/-- C94, C95: a filter with two states and one measured sum meets the hypotheses. -/
example : validCov (!![2, 1; 1, 2] : Matrix (Fin 2) (Fin 2) ℝ) ∧ validCov (!![1] : Matrix (Fin 1) (Fin 1) ℝ) ∧
    IsUnit ((!![1, 1] : Matrix (Fin 1) (Fin 2) ℝ) * (!![2, 1; 1, 2] : Matrix (Fin 2) (Fin 2) ℝ) *
      (!![1, 1] : Matrix (Fin 1) (Fin 2) ℝ)ᵀ + !![1]).det := by
  refine ⟨⟨?_, ?_⟩, ⟨?_, ?_⟩, ?_⟩
  · intro i j; fin_cases i <;> fin_cases j <;> simp
  · intro x
    simp only [Fin.sum_univ_two]
    simp
    nlinarith [sq_nonneg (x 0 + x 1), sq_nonneg (x 0), sq_nonneg (x 1)]
  · intro i j; fin_cases i; fin_cases j; simp
  · intro x; simp; nlinarith [sq_nonneg (x 0)]
  · rw [isUnit_iff_ne_zero, Matrix.det_fin_one]
    rw [Matrix.add_apply, Matrix.mul_apply, Fin.sum_univ_two, Matrix.mul_apply, Matrix.mul_apply, Fin.sum_univ_two, Fin.sum_univ_two]
    simp
    norm_num

/-- The velocity block of the covariance. -/
def velCov (f : Fusion ℝ) : M3 ℝ := fun i j => f.kf.P ⟨3 + i.val, by omega⟩ ⟨3 + j.val, by omega⟩

/-- The matrix that picks the velocity out of the error state. -/
def velPick : Matrix (Fin 3) (Fin 15) ℝ := fun i j => if j.val = 3 + i.val then 1 else 0
theorem velPick_apply (i : Fin 3) (j : Fin 15) : velPick i j = if j.val = 3 + i.val then 1 else 0 := rfl
theorem zupt_H : (setBlock (fun _ _ => 0) 0 3 (eyeM 3 : M3 ℝ) : Matrix (Fin 3) (Fin 15) ℝ) = velPick := by
  funext i j
  rw [eyeM_real]
  fin_cases i <;> fin_cases j <;> simp [setBlock, Matrix.one_apply, velPick]

theorem zupt_Hx (x : Fin 15 → ℝ) : (setBlock (fun _ _ => 0) 0 3 (eyeM 3 : M3 ℝ) : Matrix (Fin 3) (Fin 15) ℝ) *ᵥ x = ![x 3, x 4, x 5] := by
  rw [zupt_H]
  funext i
  simp only [Matrix.mulVec, dotProduct, Fin.sum_univ_succ]
  fin_cases i <;> simp [Fin.succ, velPick]

theorem zupt_S (f : Fusion ℝ) : (setBlock (fun _ _ => 0) 0 3 (eyeM 3 : M3 ℝ) : Matrix (Fin 3) (Fin 15) ℝ) * f.kf.P *
    (setBlock (fun _ _ => 0) 0 3 (eyeM 3 : M3 ℝ) : Matrix (Fin 3) (Fin 15) ℝ)ᵀ = velCov f := by
  rw [zupt_H]
  ext i j
  rw [Matrix.mul_apply]
  simp only [Matrix.mul_apply, Matrix.transpose_apply, velCov, velPick_apply]
  rw [Finset.sum_eq_single ⟨3 + j.val, by omega⟩ (fun b _ hb => by
    rw [if_neg (fun h => hb (Fin.ext h)), mul_zero]) (fun h => absurd (Finset.mem_univ _) h)]
  rw [Finset.sum_eq_single ⟨3 + i.val, by omega⟩ (fun b _ hb => by
    rw [if_neg (fun h => hb (Fin.ext h)), zero_mul]) (fun h => absurd (Finset.mem_univ _) h)]
  simp

/-- Squared length. -/
def sq3 (v : V3 ℝ) : ℝ := v ⬝ᵥ v

/-- C94: feeding back a zero-velocity update of standard deviation `σ`: the velocity that is left, before the turn of the
local frame, is `σ²` times the inverse innovation covariance times the velocity. It is never faster than before, and
with `σ = 0` the corrected velocity is exactly zero. -/
theorem C94_zero_velocity (f : Fusion ℝ) (hP : validCov f.kf.P) (σ : ℝ) (hσ : σ = f.opt.zuptStd)
    (hS : IsUnit (velCov f + (σ ^ 2) • (1 : M3 ℝ)).det) (x : Fin 15 → ℝ) (hx : x = f.measureZupt.kf.Xd) (v : V3 ℝ)
    (hv : v = f.ins.nav.vn - ![x 3, x 4, x 5]) :
    v = (σ ^ 2) • ((velCov f + (σ ^ 2) • (1 : M3 ℝ))⁻¹ *ᵥ f.ins.nav.vn) ∧ sq3 v ≤ sq3 f.ins.nav.vn ∧
    (f.measureZupt.feedBack x).ins.nav.vn = v + xp (frameTurn x (f.ins.nav.pos 0) (f.ins.nav.pos 2)) v ∧
    (σ = 0 → (f.measureZupt.feedBack x).ins.nav.vn = 0) := by
  have hk : f.measureZupt.kf = f.kf.update (setBlock (fun _ _ => 0) 0 3 (eyeM 3 : M3 ℝ)) f.ins.nav.vn (diagM fun _ => f.opt.zuptStd * f.opt.zuptStd) := rfl
  have hR : (diagM fun _ => f.opt.zuptStd * f.opt.zuptStd : M3 ℝ) = (σ ^ 2) • (1 : M3 ℝ) := by
    rw [diagM_real, ← hσ, Matrix.smul_one_eq_diagonal]
    congr 1; ext i; ring
  have hrem := (C94_remaining_innovation f.kf (setBlock (fun _ _ => 0) 0 3 (eyeM 3 : M3 ℝ)) f.ins.nav.vn ((σ ^ 2) • (1 : M3 ℝ)) (by
    rw [zupt_S]; exact hS)).1
  rw [← hR, ← hk, ← hx, zupt_Hx, zupt_S, hR, ← hv, Matrix.smul_mulVec, Matrix.one_mulVec] at hrem
  have hfb : (f.measureZupt.feedBack x).ins.nav.vn = v + xp (frameTurn x (f.ins.nav.pos 0) (f.ins.nav.pos 2)) v := by
    unfold Fusion.feedBack
    dsimp only
    have h1 : f.measureZupt.ins = f.ins := rfl
    rw [h1, mvec_real, eyeM_real, Matrix.add_mulVec, Matrix.one_mulVec, skew_mulVec]
    have h2 : (v3 (x 1 / (Earth.RN (f.ins.nav.pos 0) + f.ins.nav.pos 2)) (-x 0 / (Earth.RM (f.ins.nav.pos 0) + f.ins.nav.pos 2))
      (-x 1 * Fl.tan (f.ins.nav.pos 0) / (Earth.RN (f.ins.nav.pos 0) + f.ins.nav.pos 2)) : V3 ℝ) =
        frameTurn x (f.ins.nav.pos 0) (f.ins.nav.pos 2) := by
      rw [rM_eq, rN_eq]; rfl
    rw [h2, hv]; rfl
  refine ⟨hrem, ?_, hfb, fun h0 => ?_⟩
  · rw [hrem]
    set S := velCov f + (σ ^ 2) • (1 : M3 ℝ) with hSd
    set y := S⁻¹ *ᵥ f.ins.nav.vn with hy
    have e : f.ins.nav.vn = velCov f *ᵥ y + (σ ^ 2) • y := by
      have : S *ᵥ y = f.ins.nav.vn := by rw [hy, Matrix.mulVec_mulVec, Matrix.mul_nonsing_inv _ hS, Matrix.one_mulVec]
      rw [← this, hSd, Matrix.add_mulVec, Matrix.smul_mulVec, Matrix.one_mulVec]
    have hq : 0 ≤ y ⬝ᵥ (velCov f *ᵥ y) := by
      have := hP.2 (fun k => if h : 3 ≤ k.val ∧ k.val < 6 then y ⟨k.val - 3, by omega⟩ else 0)
      simp only [Fin.sum_univ_succ] at this
      simp [Fin.succ] at this
      simp only [dotProduct, Matrix.mulVec, Fin.sum_univ_three, velCov]
      simp
      linarith
    have h0 : 0 ≤ (velCov f *ᵥ y) ⬝ᵥ (velCov f *ᵥ y) := by
      simp only [dotProduct]; exact Finset.sum_nonneg fun i _ => mul_self_nonneg _
    conv_rhs => rw [e]
    unfold sq3
    have cm := dotProduct_comm (velCov f *ᵥ y) y
    simp only [add_dotProduct, dotProduct_add, dotProduct_smul, smul_dotProduct, cm]
    have : 0 ≤ (σ ^ 2) * (y ⬝ᵥ (velCov f *ᵥ y)) := mul_nonneg (sq_nonneg _) hq
    simp only [smul_eq_mul]
    linarith
  · rw [hfb]
    have : v = 0 := by rw [hrem, h0]; simp
    rw [this]
    ext i; fin_cases i <;> simp [xp]

/-- One measured combination `H` of the error state. -/
theorem scalar_update {n : Nat} (k : Kf n ℝ) (H : Matrix (Fin 1) (Fin n) ℝ) (z r s : ℝ) (hs : s = ∑ i, ∑ j, H 0 i * k.P i j * H 0 j)
    (h0 : s + r ≠ 0) : z - ∑ j, H 0 j * (k.update H (fun _ => z) (fun _ _ => r)).Xd j = r / (s + r) * z := by
  have e : (H * k.P * Hᵀ : Matrix (Fin 1) (Fin 1) ℝ) = fun _ _ => s := by
    funext i j
    rw [Subsingleton.elim i 0, Subsingleton.elim j 0, hs, Matrix.mul_apply, Finset.sum_comm]
    refine Finset.sum_congr rfl fun b _ => ?_
    rw [Matrix.mul_apply, Matrix.transpose_apply, Finset.sum_mul]
  obtain ⟨M, hM⟩ : ∃ M : Matrix (Fin 1) (Fin 1) ℝ, M = fun _ _ => r := ⟨_, rfl⟩
  have hMr : M 0 0 = r := by rw [hM]
  rw [show (fun _ _ => r : Fin 1 → Fin 1 → ℝ) = M from hM.symm]
  have e0 : (H * k.P * Hᵀ + M) 0 0 = s + r := by rw [Matrix.add_apply, e, hMr]
  have hd : (H * k.P * Hᵀ + M).det = s + r := by rw [Matrix.det_fin_one, e0]
  have h1 := congrFun (C94_remaining_innovation k H (fun _ => z) M (by rw [hd]; exact isUnit_iff_ne_zero.2 h0)).1 0
  have hinv : (H * k.P * Hᵀ + M)⁻¹ = (!![(s + r)⁻¹] : Matrix (Fin 1) (Fin 1) ℝ) := by
    apply Matrix.inv_eq_right_inv
    ext i j
    rw [Subsingleton.elim i 0, Subsingleton.elim j 0, Matrix.mul_apply, Fin.sum_univ_one, e0, Matrix.one_apply_eq]
    exact mul_inv_cancel₀ h0
  rw [hinv] at h1
  simp only [Pi.sub_apply, Matrix.mulVec, dotProduct, Fin.sum_univ_one, hMr] at h1
  rw [h1]
  simp only [Matrix.of_apply, Matrix.cons_val_zero, Matrix.cons_val_fin_one]
  field_simp

/-- C94: feeding back a zero-rate update: the vertical gyroscope bias moves from its old value towards the one at which the measured rate
vanishes; the rate that is left is the share of the noise. Nothing is left without noise, and it is never larger. -/
theorem C94_zero_rate (f : Fusion ℝ) (w p r : ℝ) (hw : w = f.ins.gyroPre 2 / f.ins.dt) (hp : p = f.kf.P 11 11)
    (hr : r = f.opt.zuptaStd ^ 2) (h0 : p + r ≠ 0) (x : Fin 15 → ℝ) (hx : x = f.measureZihr.kf.Xd) :
    w - ((f.measureZihr.feedBack x).ins.nav.gb 2 - f.ins.nav.gb 2) = r / (p + r) * w ∧
    (validCov f.kf.P → |w - ((f.measureZihr.feedBack x).ins.nav.gb 2 - f.ins.nav.gb 2)| ≤ |w|) := by
  have hs : p = ∑ i, ∑ j, (fun (_ : Fin 1) (j : Fin 15) => if j.val = 11 then (1 : ℝ) else 0) 0 i * f.kf.P i j *
      (fun (_ : Fin 1) (j : Fin 15) => if j.val = 11 then (1 : ℝ) else 0) 0 j := by
    rw [hp, Finset.sum_eq_single 11, Finset.sum_eq_single 11]
    · simp
    · intro b _ hb
      have : b.val ≠ 11 := fun h => hb (Fin.ext h)
      simp [this]
    · intro h; exact absurd (Finset.mem_univ _) h
    · intro b _ hb
      have : b.val ≠ 11 := fun h => hb (Fin.ext h)
      simp [this]
    · intro h; exact absurd (Finset.mem_univ _) h
  have h := scalar_update f.kf (fun (_ : Fin 1) (j : Fin 15) => if j.val = 11 then (1 : ℝ) else 0) w r p hs h0
  have hk : f.measureZihr.kf = f.kf.update (fun (_ : Fin 1) (j : Fin 15) => if j.val = 11 then (1 : ℝ) else 0) (fun _ => w) (fun _ _ => r) := by
    rw [hw, hr, sq]; rfl
  rw [← hk, ← hx, Finset.sum_eq_single 11] at h
  rotate_left
  · intro b _ hb
    have : b.val ≠ 11 := fun h => hb (Fin.ext h)
    simp [this]
  · intro h; exact absurd (Finset.mem_univ _) h
  simp only [show (11 : Fin 15).val = 11 from rfl, if_true, one_mul] at h
  have hg : (f.measureZihr.feedBack x).ins.nav.gb 2 = f.ins.nav.gb 2 + x 11 := rfl
  have h1 : w - ((f.measureZihr.feedBack x).ins.nav.gb 2 - f.ins.nav.gb 2) = r / (p + r) * w := by
    rw [hg, ← h]; ring
  refine ⟨h1, fun hP => ?_⟩
  have hp0 : 0 ≤ p := by
    have := hP.2 (Pi.single 11 1)
    rw [Finset.sum_eq_single 11, Finset.sum_eq_single 11] at this
    · simpa [hp] using this
    · intro b _ hb; simp [hb]
    · intro h; exact absurd (Finset.mem_univ _) h
    · intro b _ hb; simp [hb]
    · intro h; exact absurd (Finset.mem_univ _) h
  have hr0 : 0 ≤ r := by rw [hr]; exact sq_nonneg _
  rw [h1, abs_mul]
  have : |r / (p + r)| ≤ 1 := by
    rw [abs_of_nonneg (div_nonneg hr0 (add_nonneg hp0 hr0))]
    exact div_le_one_of_le₀ (by linarith) (add_nonneg hp0 hr0)
  nlinarith [abs_nonneg w]

/-- Two points that differ in height only. -/
theorem height_difference (p : V3 ℝ) (h : ℝ) :
    (llaToCne ⟨p 0, p 1⟩ : M3 ℝ)ᵀ *ᵥ (llaToXyz p - llaToXyz (v3 (p 0) (p 1) h)) = ![0, 0, h - p 2] := by
  have h1 := Real.sin_sq_add_cos_sq (p 0)
  have h2 := Real.sin_sq_add_cos_sq (p 1)
  ext i
  fin_cases i
  · simp [llaToCne, llaToXyz, v3, Matrix.mulVec, dotProduct, Fin.sum_univ_three]
    linear_combination (-(p 2 - h) * Real.sin (p 0) * Real.cos (p 0)) * h2
  · simp [llaToCne, llaToXyz, v3, Matrix.mulVec, dotProduct, Fin.sum_univ_three]
    ring
  · simp [llaToCne, llaToXyz, v3, Matrix.mulVec, dotProduct, Fin.sum_univ_three]
    linear_combination (-(p 2 - h) * Real.cos (p 0) ^ 2) * h2 - (p 2 - h) * h1

/-- C94: a relative height measures the height of the antenna. Of its distance to the reference height, the base height plus the
measured change, the correction leaves the share of the noise (`s` is the variance of the antenna height). Without lever arm the
fed back height is just that. -/
theorem C94_relative_height (f : Fusion ℝ) (height ref r s : ℝ) (hb : 4 < f.baseHeightIsSet)
    (hC : f.ins.nav.Cne = llaToCne ⟨f.ins.nav.pos 0, f.ins.nav.pos 1⟩) (href : ref = f.gnssHeight + (height - f.pHeight))
    (hr : r = f.opt.zuptaStd ^ 2) (hs : s = ∑ i, ∑ j, f.posH 2 i * f.kf.P i j * f.posH 2 j) (h0 : s + r ≠ 0) (x : Fin 15 → ℝ)
    (hx : x = (f.measureRelativeHeight height).kf.Xd) (l : V3 ℝ) (hl : l = f.ins.nav.Cbn *ᵥ f.lbGnss) :
    (f.ins.nav.pos 2 - l 2 - ref) + (x 2 + xp l ![x 6, x 7, x 8] 2) = r / (s + r) * (f.ins.nav.pos 2 - l 2 - ref) ∧
    (l = 0 → ((f.measureRelativeHeight height).feedBack x).ins.nav.pos 2 - ref = r / (s + r) * (f.ins.nav.pos 2 - ref)) := by
  have hz : f.posZ (v3 (f.ins.nav.pos 0) (f.ins.nav.pos 1) (f.gnssHeight + height - f.pHeight)) 2 = -(f.ins.nav.pos 2 - l 2 - ref) := by
    unfold Fusion.posZ
    rw [mvec_real, mvec_real, hC, height_difference, ← hl, href]
    simp
    ring
  have hk : (f.measureRelativeHeight height).kf = f.kf.update (fun (_ : Fin 1) j => f.posH 2 j) (fun _ => -(f.ins.nav.pos 2 - l 2 - ref)) (fun _ _ => r) ∧
      (f.measureRelativeHeight height).ins.nav.pos = f.ins.nav.pos := by
    unfold Fusion.measureRelativeHeight
    have : f.baseHeightIsSet ≠ 1 := by omega
    simp only [if_neg this, if_pos hb, hz, hr, sq]
    exact ⟨rfl, rfl⟩
  have h := scalar_update f.kf (fun (_ : Fin 1) j => f.posH 2 j) (-(f.ins.nav.pos 2 - l 2 - ref)) r s hs h0
  rw [← hk.1, ← hx] at h
  have hH : ∑ j, f.posH 2 j * x j = x 2 + xp l ![x 6, x 7, x 8] 2 := by
    have := congrFun (posH_mulVec f x) 2
    rw [← hl] at this
    rw [show (∑ j, f.posH 2 j * x j) = (f.posH *ᵥ x) 2 from rfl, this]
    rfl
  rw [hH] at h
  have h1 : (f.ins.nav.pos 2 - l 2 - ref) + (x 2 + xp l ![x 6, x 7, x 8] 2) = r / (s + r) * (f.ins.nav.pos 2 - l 2 - ref) := by
    linear_combination -h
  refine ⟨h1, fun hl0 => ?_⟩
  have hfb : ((f.measureRelativeHeight height).feedBack x).ins.nav.pos 2 = f.ins.nav.pos 2 + x 2 := by
    show (f.measureRelativeHeight height).ins.nav.pos 2 + x 2 = _
    rw [hk.2]
  rw [hfb]
  rw [hl0] at h1
  simp [xp] at h1
  linear_combination h1

/-- The wheel velocity the filter predicts, in the vehicle frame: forward, right, down. -/
noncomputable def predictedWheel (f : Fusion ℝ) : V3 ℝ :=
  wheelVel f.Cbv f.ins.nav.Cbn f.ins.nav.vn ((f.opt.dRate : ℝ) • f.ins.gyroPre) (f.ins.omegaIeN + f.ins.omegaEnN) f.lbWheel

theorem velModel_sensor (f : Fusion ℝ) (b : BitVec 16) : (f.setSensor b).velModel = f.velModel := rfl
theorem velModel_clear (f : Fusion ℝ) (b : BitVec 16) : (f.clearSensor b).velModel = f.velModel := rfl

/-- C94: a forward speed from the odometer, without the sideways constraint: the innovation is the predicted forward wheel velocity
minus the scaled measurement, and the correction leaves the share of the noise of it (`s` is the variance of the prediction). -/
theorem C94_odometer (f : Fusion ℝ) (vel r s : ℝ) (hn : f.opt.nhcEnable = 0) (hr : r = f.opt.odoStd ^ 2)
    (hs : s = ∑ i, ∑ j, f.velModel.2 0 i * f.kf.P i j * f.velModel.2 0 j) (h0 : s + r ≠ 0) (x : Fin 15 → ℝ)
    (hx : x = (f.measureForwardVel vel).kf.Xd) :
    (predictedWheel f 0 - f.ins.nav.kd * vel) - (f.velModel.2 *ᵥ x) 0 = r / (s + r) * (predictedWheel f 0 - f.ins.nav.kd * vel) := by
  have hk : (f.measureForwardVel vel).kf = f.kf.update (fun (_ : Fin 1) j => f.velModel.2 0 j) (fun _ => predictedWheel f 0 - f.ins.nav.kd * vel)
      (fun _ _ => r) := by
    have e : predictedWheel f 0 - f.ins.nav.kd * vel = (f.velModel.1 - sv f.ins.nav.kd (v3 vel 0 0)) 0 := by
      rw [C83_velocity_prediction]; rfl
    rw [e, hr, sq]
    unfold Fusion.measureForwardVel Fusion.measureVel
    simp only [velModel_sensor]
    have : ¬ ((f.setSensor SENSOR_ODO).opt.nhcEnable ≠ 0) := fun h => h hn
    simp only [if_neg this]
    rfl
  have h := scalar_update f.kf (fun (_ : Fin 1) j => f.velModel.2 0 j) (predictedWheel f 0 - f.ins.nav.kd * vel) r s hs h0
  rw [← hk, ← hx] at h
  exact h

theorem odometer_constrained_kf (f : Fusion ℝ) (vel : ℝ) (hn : f.opt.nhcEnable ≠ 0) (R : M3 ℝ) (z : V3 ℝ)
    (hR : R = diagonal ![f.opt.odoStd ^ 2, f.opt.nhcStd 0 ^ 2, f.opt.nhcStd 1 ^ 2]) (hz : z = predictedWheel f - ![f.ins.nav.kd * vel, 0, 0]) :
    (f.measureForwardVel vel).kf = f.kf.update f.velModel.2 z R := by
  have e : z = f.velModel.1 - sv f.ins.nav.kd (v3 vel 0 0) := by
    rw [C83_velocity_prediction, hz]
    congr 1
    ext i; fin_cases i <;> simp [sv, v3]
  have eR : R = mmul (diagM (v3 f.opt.odoStd (f.opt.nhcStd 0) (f.opt.nhcStd 1))) (diagM (v3 f.opt.odoStd (f.opt.nhcStd 0) (f.opt.nhcStd 1))) := by
    rw [mmul_real, diagM_real, Matrix.diagonal_mul_diagonal, hR]
    congr 1
    ext i; fin_cases i <;> simp [v3] <;> ring
  rw [e, eR]
  unfold Fusion.measureForwardVel Fusion.measureVel
  simp only [velModel_sensor]
  have : (f.setSensor SENSOR_ODO).opt.nhcEnable ≠ 0 := hn
  simp only [if_pos this]
  rfl

/-- C94: an odometer velocity together with the sideways constraint. -/
theorem C94_odometer_constrained (f : Fusion ℝ) (vel : ℝ) (hn : f.opt.nhcEnable ≠ 0) (R : M3 ℝ) (z : V3 ℝ)
    (hR : R = diagonal ![f.opt.odoStd ^ 2, f.opt.nhcStd 0 ^ 2, f.opt.nhcStd 1 ^ 2])
    (hz : z = predictedWheel f - ![f.ins.nav.kd * vel, 0, 0])
    (hS : IsUnit (f.velModel.2 * f.kf.P * f.velModel.2ᵀ + R).det) (x : Fin 15 → ℝ) (hx : x = (f.measureForwardVel vel).kf.Xd) :
    z - f.velModel.2 *ᵥ x = R *ᵥ ((f.velModel.2 * f.kf.P * f.velModel.2ᵀ + R)⁻¹ *ᵥ z) := by
  have hk := odometer_constrained_kf f vel hn R z hR hz
  rw [hx, hk]
  exact (C94_remaining_innovation f.kf f.velModel.2 z R hS).1

/-- C94: the constraint alone: the sideways and vertical wheel velocities are measured to be zero. -/
theorem C94_constraint (f : Fusion ℝ) (R : Matrix (Fin 2) (Fin 2) ℝ) (H : Matrix (Fin 2) (Fin 15) ℝ) (z : Fin 2 → ℝ)
    (hR : R = diagonal ![f.opt.nhcStd 0 ^ 2, f.opt.nhcStd 1 ^ 2]) (hz : z = ![predictedWheel f 1, predictedWheel f 2])
    (hH : ∀ j, H 0 j = f.velModel.2 1 j ∧ H 1 j = f.velModel.2 2 j)
    (hS : IsUnit (H * f.kf.P * Hᵀ + R).det) (x : Fin 15 → ℝ) (hx : x = f.measureNHC.kf.Xd) :
    z - H *ᵥ x = R *ᵥ ((H * f.kf.P * Hᵀ + R)⁻¹ *ᵥ z) := by
  have hk : f.measureNHC.kf = f.kf.update H z R := by
    have e : z = fun i : Fin 2 => f.velModel.1 ⟨i.val + 1, by omega⟩ := by
      rw [C83_velocity_prediction, hz]
      funext i; fin_cases i <;> rfl
    have eR : R = mmul (diagM f.opt.nhcStd) (diagM f.opt.nhcStd) := by
      rw [mmul_real, diagM_real, Matrix.diagonal_mul_diagonal, hR]
      congr 1
      ext i; fin_cases i <;> simp <;> ring
    have eH : H = fun (i : Fin 2) j => f.velModel.2 ⟨i.val + 1, by omega⟩ j := by
      funext i j; fin_cases i
      · exact (hH j).1
      · exact (hH j).2
    rw [e, eR, eH]
    rfl
  rw [hx, hk]
  exact (C94_remaining_innovation f.kf H z R hS).1

/-- C94, any number of rows with stated deviations of their own: measured in units of those deviations the corrected solution is never farther
from the measurement than the old one, and lies on the same side of it (it never overshoots). -/
theorem C94_never_farther {n p : Nat} (k : Kf n ℝ) (hP : validCov k.P) (H : Matrix (Fin p) (Fin n) ℝ) (z σ : Fin p → ℝ) (hσ : ∀ i, 0 < σ i)
    (e : Fin p → ℝ) (he : e = z - H *ᵥ (k.update H z (diagonal fun i => σ i ^ 2)).Xd) :
    ∑ i, (e i / σ i) ^ 2 ≤ ∑ i, (z i / σ i) ^ 2 ∧ 0 ≤ ∑ i, (e i / σ i) * (z i / σ i) ∧ (z ≠ 0 → e ≠ 0) := by
  obtain ⟨R, hR⟩ : ∃ R : Matrix (Fin p) (Fin p) ℝ, R = diagonal fun i => σ i ^ 2 := ⟨_, rfl⟩
  have hRp : R.PosDef := by rw [hR]; exact PosDef.diagonal fun i => pow_pos (hσ i) 2
  rw [validCov_iff] at hP
  obtain ⟨A, hA⟩ : ∃ A, A = H * k.P * Hᵀ := ⟨_, rfl⟩
  have hAp : A.PosSemidef := by rw [hA]; simpa using hP.mul_mul_conjTranspose_same H
  have hS : IsUnit (A + R).det := isUnit_iff_ne_zero.2 (Matrix.PosDef.det_pos (PosDef.posSemidef_add hAp hRp)).ne'
  have hrem := (C94_remaining_innovation k H z R (by rw [← hA]; exact hS)).1
  rw [hR, ← he, ← hR, ← hA] at hrem
  obtain ⟨w, hw⟩ : ∃ w, w = (A + R)⁻¹ *ᵥ z := ⟨_, rfl⟩
  have hz : z = A *ᵥ w + R *ᵥ w := by
    rw [← Matrix.add_mulVec, hw, Matrix.mulVec_mulVec, Matrix.mul_nonsing_inv _ hS, Matrix.one_mulVec]
  rw [← hw] at hrem
  have hRw : ∀ i, (R *ᵥ w) i = σ i ^ 2 * w i := by intro i; rw [hR, Matrix.mulVec_diagonal]
  have hei : ∀ i, e i / σ i = σ i * w i := by intro i; rw [hrem, hRw]; have := (hσ i).ne'; field_simp
  have hzi : ∀ i, z i / σ i = (A *ᵥ w) i / σ i + σ i * w i := by
    intro i
    have := (hσ i).ne'
    have h1 := congrFun hz i
    rw [Pi.add_apply, hRw] at h1
    rw [h1]; field_simp
  have hq : 0 ≤ ∑ i, w i * (A *ᵥ w) i := by simpa [dotProduct] using hAp.dotProduct_mulVec_nonneg w
  refine ⟨?_, ?_, ?_⟩
  · have h1 : ∑ i, (z i / σ i) ^ 2 = ∑ i, ((A *ᵥ w) i / σ i) ^ 2 + 2 * ∑ i, w i * (A *ᵥ w) i + ∑ i, (e i / σ i) ^ 2 := by
      rw [Finset.mul_sum, ← Finset.sum_add_distrib, ← Finset.sum_add_distrib]
      refine Finset.sum_congr rfl fun i _ => ?_
      have := (hσ i).ne'
      rw [hzi, hei]; field_simp; ring
    have h2 : 0 ≤ ∑ i, ((A *ᵥ w) i / σ i) ^ 2 := Finset.sum_nonneg fun i _ => sq_nonneg _
    linarith
  · have h1 : ∑ i, (e i / σ i) * (z i / σ i) = ∑ i, w i * (A *ᵥ w) i + ∑ i, (σ i * w i) ^ 2 := by
      rw [← Finset.sum_add_distrib]
      refine Finset.sum_congr rfl fun i _ => ?_
      have := (hσ i).ne'
      rw [hzi, hei]; field_simp
    have h2 : 0 ≤ ∑ i, (σ i * w i) ^ 2 := Finset.sum_nonneg fun i _ => sq_nonneg _
    linarith
  · intro hz0 he0
    have hw0 : w = 0 := by
      funext i
      have h1 := hei i
      rw [he0, Pi.zero_apply, zero_div] at h1
      exact (mul_eq_zero.1 h1.symm).resolve_left (hσ i).ne'
    exact hz0 (by rw [hz, hw0]; simp)

/-- C94, a GNSS fix: the antenna position after the correction (to first order in it) is, measured in units of the deviations of the fix,
never farther from the fix than before and on the same side of it. -/
theorem C94_fix (f : Fusion ℝ) (hP : validCov f.kf.P) (m : Gnss ℝ) (hu : Fusion.gnssCheck m = true) (hs : 0 < f.opt.gnssStdScale) (hσ : ∀ i, 0 < m.posStd i)
    (x : Fin 15 → ℝ) (hx : x = (f.measureGnss m).kf.Xd) (z : V3 ℝ)
    (hz : z = f.ins.nav.Cneᵀ *ᵥ (llaToXyz f.ins.nav.pos - llaToXyz (v3 (m.lat * deg) (m.lon * deg) m.height)) + f.ins.nav.Cbn *ᵥ f.lbGnss)
    (e : V3 ℝ) (he : e = z - (![x 0, x 1, x 2] + xp (f.ins.nav.Cbn *ᵥ f.lbGnss) ![x 6, x 7, x 8])) :
    ∑ i, (e i / m.posStd i) ^ 2 ≤ ∑ i, (z i / m.posStd i) ^ 2 ∧ 0 ≤ ∑ i, (e i / m.posStd i) * (z i / m.posStd i) := by
  obtain ⟨c, hc⟩ : ∃ c, c = Real.sqrt f.opt.gnssStdScale := ⟨_, rfl⟩
  have hc0 : 0 < c := by rw [hc]; exact Real.sqrt_pos.2 hs
  have hc2 : c ^ 2 = f.opt.gnssStdScale := by rw [hc]; exact Real.sq_sqrt hs.le
  have hk : (f.measureGnss m).kf = f.kf.update f.posH z (diagonal fun i => (m.posStd i * c) ^ 2) := by
    have eR : (diagM fun i => m.posStd i * m.posStd i * f.opt.gnssStdScale : M3 ℝ) = diagonal fun i => (m.posStd i * c) ^ 2 := by
      rw [diagM_real]; congr 1; funext i; rw [mul_pow, hc2]; ring
    rw [← eR, hz]
    unfold Fusion.measureGnss
    rw [if_pos hu, ← mvec_real, ← mvec_real]
    rfl
  rw [← posH_mulVec, hx, hk] at he
  obtain ⟨h1, h2, -⟩ := C94_never_farther f.kf hP f.posH z (fun i => m.posStd i * c) (fun i => mul_pos (hσ i) hc0) e he
  have d : ∀ a b : ℝ, a / (b * c) = a / b / c := fun a b => (div_div a b c).symm
  simp only [d, div_pow, div_mul_div_comm] at h1 h2 ⊢
  constructor
  · rw [← Finset.sum_div, ← Finset.sum_div] at h1
    exact (div_le_div_iff_of_pos_right (pow_pos hc0 2)).1 h1
  · have e2 : ∀ i, e i / m.posStd i * (z i / m.posStd i) / (c * c) = e i * z i / (m.posStd i * m.posStd i) / (c * c) := by
      intro i; rw [div_mul_div_comm]
    have e3 : ∑ i, e i * z i / (m.posStd i * m.posStd i) / (c * c) = (∑ i, e i * z i / (m.posStd i * m.posStd i)) / (c * c) := (Finset.sum_div _ _ _).symm
    have h3 : 0 ≤ (∑ i, e i * z i / (m.posStd i * m.posStd i)) / (c * c) := by
      rw [← e3]; simpa only [div_div, mul_assoc] using h2
    have := mul_nonneg h3 (mul_pos hc0 hc0).le
    rwa [div_mul_cancel₀ _ (mul_pos hc0 hc0).ne'] at this

/-- C94, odometer with constraint and constraint alone: the predicted vehicle-frame velocity after the correction is, in units of the
deviations stated, never farther from what was measured and on the same side of it. -/
theorem C94_wheel_never_farther (f : Fusion ℝ) (hP : validCov f.kf.P) (vel : ℝ) (hn : f.opt.nhcEnable ≠ 0) (σ : V3 ℝ) (hσ : σ = ![f.opt.odoStd, f.opt.nhcStd 0, f.opt.nhcStd 1])
    (h0 : ∀ i, 0 < σ i) (z : V3 ℝ) (hz : z = predictedWheel f - ![f.ins.nav.kd * vel, 0, 0]) (x : Fin 15 → ℝ) (hx : x = (f.measureForwardVel vel).kf.Xd)
    (e : V3 ℝ) (he : e = z - f.velModel.2 *ᵥ x) :
    ∑ i, (e i / σ i) ^ 2 ≤ ∑ i, (z i / σ i) ^ 2 ∧ 0 ≤ ∑ i, (e i / σ i) * (z i / σ i) := by
  have hk : (f.measureForwardVel vel).kf = f.kf.update f.velModel.2 z (diagonal fun i => σ i ^ 2) := by
    refine odometer_constrained_kf f vel hn _ z ?_ hz
    congr 1
    funext i
    rw [hσ]
    fin_cases i <;> rfl
  rw [hx, hk] at he
  obtain ⟨h1, h2, -⟩ := C94_never_farther f.kf hP f.velModel.2 z σ h0 e he
  exact ⟨h1, h2⟩

/-- C94's hypotheses are met: a filter whose covariance is the identity. -/
example : validCov (1 : Matrix (Fin 15) (Fin 15) ℝ) ∧ IsUnit ((1 : M3 ℝ) + (1 ^ 2 : ℝ) • (1 : M3 ℝ)).det ∧ (1 : ℝ) + 1 ≠ 0 := by
  refine ⟨(validCov_iff _).2 Matrix.PosSemidef.one, ?_, by norm_num⟩
  rw [isUnit_iff_ne_zero, one_pow, one_smul, ← two_smul ℝ, Matrix.det_smul]
  simp

/-- C93's curves exist: from every state, straight lines with the required slopes. -/
example (C K' : M3 ℝ) (v v' : V3 ℝ) (lat h l' h' : ℝ) (x y : Fin 15 → ℝ) :
    ∃ (X : ℝ → Fin 15 → ℝ) (L H : ℝ → ℝ) (V : ℝ → V3 ℝ) (K : ℝ → M3 ℝ), X 0 = x ∧ L 0 = lat ∧ H 0 = h ∧ V 0 = v ∧ K 0 = C ∧
      HasDerivAt L l' 0 ∧ HasDerivAt H h' 0 ∧ VD V v' ∧ MD K K' ∧ ∀ k, HasDerivAt (fun t => X t k) (y k) 0 := by
  refine ⟨fun t k => x k + t * y k, fun t => lat + t * l', fun t => h + t * h', fun t i => v i + t * v' i,
    fun t i j => C i j + t * K' i j, ?_, ?_, ?_, ?_, ?_, lin_deriv _ _, lin_deriv _ _, fun i => lin_deriv _ _, fun i j => lin_deriv _ _,
    fun k => lin_deriv _ _⟩
  all_goals first | (simp; done) | (funext i; simp; done) | (funext i j; simp; done)
end Verif.Props
