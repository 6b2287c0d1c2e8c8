import Mathlib.LinearAlgebra.Matrix.SchurComplement
import Verif.Props.Innovation
import Verif.Props.Refine
import Verif.Props.Fusion
/-! C128, C129: fixes bound the reported uncertainty; the order of measurements does not matter for the covariance. -/
namespace Verif.Props
open Verif Verif.Spec Verif.Convert Matrix

/-- Variance of a combination `w` of quantities with covariance `P`. -/
def varOf {p : Nat} (P : Matrix (Fin p) (Fin p) ℝ) (w : Fin p → ℝ) : ℝ := ∑ i, ∑ j, w i * P i j * w j

theorem varOf_eq {p : Nat} (P : Matrix (Fin p) (Fin p) ℝ) (w : Fin p → ℝ) : varOf P w = w ⬝ᵥ (P *ᵥ w) := by
  simp only [varOf, dotProduct, mulVec, Finset.mul_sum]
  refine Finset.sum_congr rfl fun i _ => Finset.sum_congr rfl fun j _ => by ring
theorem varOf_add {p : Nat} (P Q : Matrix (Fin p) (Fin p) ℝ) (w : Fin p → ℝ) : varOf (P + Q) w = varOf P w + varOf Q w := by
  simp only [varOf_eq, add_mulVec, dotProduct_add]
theorem varOf_sub {p : Nat} (P Q : Matrix (Fin p) (Fin p) ℝ) (w : Fin p → ℝ) : varOf (P - Q) w = varOf P w - varOf Q w := by
  simp only [varOf_eq, sub_mulVec, dotProduct_sub]
theorem varOf_smul {p : Nat} (c : ℝ) (P : Matrix (Fin p) (Fin p) ℝ) (w : Fin p → ℝ) : varOf (c • P) w = c * varOf P w := by
  simp only [varOf_eq, smul_mulVec, dotProduct_smul, smul_eq_mul]

/-- The covariance of the measured quantity changes as if it were the state. -/
theorem measured_P {n p : Nat} (k : Kf n ℝ) (H : Matrix (Fin p) (Fin n) ℝ) (z : Fin p → ℝ) (R : Matrix (Fin p) (Fin p) ℝ)
    (x : Fin p → ℝ) : H * (k.update H z R).P * Hᵀ = ((Kf.ofState x (H * k.P * Hᵀ)).update 1 z R).P := by
  rw [(update_P k H z R).1, (update_P (Kf.ofState x (H * k.P * Hᵀ)) 1 z R).1]
  have e : (Kf.ofState x (H * k.P * Hᵀ)).P = H * k.P * Hᵀ := rfl
  rw [e]
  simp only [transpose_one, Matrix.mul_one, Matrix.one_mul]
  generalize (H * k.P * Hᵀ + R)⁻¹ = T
  simp only [transpose_sub, transpose_mul, transpose_one, transpose_transpose, Matrix.sub_mul, Matrix.mul_sub, Matrix.add_mul, Matrix.mul_add,
    Matrix.one_mul, Matrix.mul_one, Matrix.mul_assoc]

/-- Positive definite, in elementary terms. -/
def positive {p : Nat} (R : Matrix (Fin p) (Fin p) ℝ) : Prop := (∀ i j, R i j = R j i) ∧ ∀ w, w ≠ 0 → 0 < varOf R w
theorem positive_iff {p : Nat} (R : Matrix (Fin p) (Fin p) ℝ) : positive R ↔ R.PosDef := by
  rw [posDef_iff_dotProduct_mulVec]
  constructor
  · rintro ⟨a, b⟩
    refine ⟨?_, fun x hx => ?_⟩
    · ext i j; simp [a j i]
    · have := b x hx; rw [varOf_eq] at this; simpa using this
  · rintro ⟨a, b⟩
    refine ⟨fun i j => ?_, fun w hw => ?_⟩
    · have := congrFun (congrFun a j) i; simpa using this
    · rw [varOf_eq]; simpa using b hw
theorem positive_valid {p : Nat} {R : Matrix (Fin p) (Fin p) ℝ} (h : positive R) : validCov R :=
  (validCov_iff R).2 ((positive_iff R).1 h).posSemidef
theorem unit_sum {p : Nat} {S R : Matrix (Fin p) (Fin p) ℝ} (hS : validCov S) (hR : positive R) : IsUnit (S + R).det := by
  have := ((positive_iff R).1 hR).posSemidef_add ((validCov_iff S).1 hS)
  exact (Matrix.isUnit_iff_isUnit_det _).1 this.isUnit

/-- Weighted combination: an update is at least as good as averaging with any fixed weight. -/
theorem update_average {p : Nat} (k : Kf p ℝ) (z : Fin p → ℝ) (R : Matrix (Fin p) (Fin p) ℝ) (hP : validCov k.P) (hR : positive R) (c : ℝ)
    (w : Fin p → ℝ) : varOf (k.update 1 z R).P w ≤ (1 - c) ^ 2 * varOf k.P w + c ^ 2 * varOf R w := by
  have h := C95_optimal_gain k 1 z R hP (positive_valid hR) (by
    simp only [transpose_one, Matrix.mul_one, Matrix.one_mul]; exact unit_sum hP hR) (c • 1)
  have h2 := h.2 w
  have e : (1 - c • (1 : Matrix (Fin p) (Fin p) ℝ) * 1) * k.P * (1 - c • (1 : Matrix (Fin p) (Fin p) ℝ) * 1)ᵀ + c • (1 : Matrix (Fin p) (Fin p) ℝ) * R * (c • (1 : Matrix (Fin p) (Fin p) ℝ))ᵀ =
      (1 - c) ^ 2 • k.P + c ^ 2 • R := by
    simp only [transpose_sub, transpose_smul, transpose_one, Matrix.mul_one, Matrix.sub_mul, Matrix.mul_sub, Matrix.one_mul,
      Matrix.smul_mul, Matrix.mul_smul]
    ext i j
    simp only [Matrix.add_apply, Matrix.sub_apply, Matrix.smul_apply, smul_eq_mul]
    ring
  rw [e] at h2
  change 0 ≤ varOf _ w at h2
  rw [varOf_sub, varOf_add, varOf_smul, varOf_smul] at h2
  linarith

/-- Successive measurements of the same quantities. -/
noncomputable def repeated {n p : Nat} (H : Matrix (Fin p) (Fin n) ℝ) : List ((Fin p → ℝ) × Matrix (Fin p) (Fin p) ℝ) → Kf n ℝ → Kf n ℝ
  | [], k => k
  | m :: ms, k => repeated H ms (k.update H m.1 m.2)

/-- C128 for every state and measurement dimension: after `m` measurements of the same quantities, each with
noise covariance at most `R`, the filter's covariance of these quantities is at most `R / m`, whatever it was before and
whatever was measured. -/
theorem C128_measured_covariance {n p : Nat} (H : Matrix (Fin p) (Fin n) ℝ) (R : Matrix (Fin p) (Fin p) ℝ)
    (ms : List ((Fin p → ℝ) × Matrix (Fin p) (Fin p) ℝ)) (k : Kf n ℝ) (hk : validCov (H * k.P * Hᵀ))
    (hm : ∀ m ∈ ms, positive m.2 ∧ ∀ w, varOf m.2 w ≤ varOf R w) (hne : ms ≠ []) (w : Fin p → ℝ) :
    0 ≤ varOf (H * (repeated H ms k).P * Hᵀ) w ∧ ms.length * varOf (H * (repeated H ms k).P * Hᵀ) w ≤ varOf R w := by
  have key : ∀ (ms : List ((Fin p → ℝ) × Matrix (Fin p) (Fin p) ℝ)) (a : ℕ) (k : Kf n ℝ), validCov (H * k.P * Hᵀ) →
      (∀ m ∈ ms, positive m.2 ∧ ∀ w, varOf m.2 w ≤ varOf R w) → (∀ w, a * varOf (H * k.P * Hᵀ) w ≤ varOf R w) →
      validCov (H * (repeated H ms k).P * Hᵀ) ∧ ∀ w, (a + ms.length : ℝ) * varOf (H * (repeated H ms k).P * Hᵀ) w ≤ varOf R w := by
    intro ms
    induction ms with
    | nil => intro a k hk _ ha; exact ⟨hk, fun w => by simpa [repeated] using ha w⟩
    | cons m ms ih =>
      intro a k hk hm ha
      obtain ⟨hpos, hle⟩ := hm m List.mem_cons_self
      have e := measured_P k H m.1 m.2 (fun _ => 0)
      have v1 : validCov (H * (k.update H m.1 m.2).P * Hᵀ) := by
        rw [e]
        exact (C24_update_valid (Kf.ofState (fun _ => 0) (H * k.P * Hᵀ)) 1 m.1 m.2 hk (positive_valid hpos)).1
      have := ih (a + 1) (k.update H m.1 m.2) v1 (fun m h => hm m (List.mem_cons_of_mem _ h)) (by
        intro w
        have h1 := update_average (Kf.ofState (fun _ => 0) (H * k.P * Hᵀ)) m.1 m.2 hk hpos (1 / (a + 1)) w
        rw [← e] at h1
        have h2 : varOf (Kf.ofState (fun _ => (0 : ℝ)) (H * k.P * Hᵀ)).P w = varOf (H * k.P * Hᵀ) w := rfl
        rw [h2] at h1
        have h3 := ha w
        have h4 := hle w
        have h5 : (0 : ℝ) < a + 1 := by positivity
        push_cast
        have h6 : ((a : ℝ) + 1) * ((1 - 1 / (a + 1)) ^ 2 * varOf (H * k.P * Hᵀ) w + (1 / (a + 1)) ^ 2 * varOf m.2 w) =
            (a * (a * varOf (H * k.P * Hᵀ) w) + varOf m.2 w) / (a + 1) := by field_simp; ring
        have h7 : (a * (a * varOf (H * k.P * Hᵀ) w) + varOf m.2 w) / (a + 1) ≤ varOf R w := by
          rw [div_le_iff₀ h5]
          have : (a : ℝ) * (a * varOf (H * k.P * Hᵀ) w) ≤ a * varOf R w := mul_le_mul_of_nonneg_left h3 (by positivity)
          linarith
        have h8 := mul_le_mul_of_nonneg_left h1 h5.le
        linarith)
      refine ⟨this.1, fun w => ?_⟩
      have := this.2 w
      push_cast at this
      simp only [List.length_cons]
      push_cast
      simp only [repeated]
      rw [show (a : ℝ) + (ms.length + 1) = a + 1 + ms.length by ring]
      exact this
  cases ms with
  | nil => exact absurd rfl hne
  | cons m ms =>
    obtain ⟨hpos, hle⟩ := hm m List.mem_cons_self
    have e := measured_P k H m.1 m.2 (fun _ => 0)
    have v1 : validCov (H * (k.update H m.1 m.2).P * Hᵀ) := by
      rw [e]
      exact (C24_update_valid (Kf.ofState (fun _ => 0) (H * k.P * Hᵀ)) 1 m.1 m.2 hk (positive_valid hpos)).1
    have := key ms 1 (k.update H m.1 m.2) v1 (fun m h => hm m (List.mem_cons_of_mem _ h)) (by
      intro w
      have h1 := update_average (Kf.ofState (fun _ => 0) (H * k.P * Hᵀ)) m.1 m.2 hk hpos 1 w
      rw [← e] at h1
      have := hle w
      push_cast
      linarith)
    refine ⟨this.1.2 w, ?_⟩
    have := this.2 w
    simp only [List.length_cons]
    push_cast at this ⊢
    simp only [repeated]
    rw [add_comm]
    exact this
example : positive (1 : M3 ℝ) ∧ validCov (1 * (Kf.ofState (fun _ => 0) (1 : M3 ℝ)).P * (1 : M3 ℝ)ᵀ) := by
  have h : positive (1 : M3 ℝ) := (positive_iff _).2 PosDef.one
  refine ⟨h, ?_⟩
  rw [transpose_one, Matrix.mul_one, Matrix.one_mul]
  exact positive_valid h

/-- The covariance of a fix as the filter uses it. -/
def fixCov (scale : ℝ) (m : Gnss ℝ) : M3 ℝ := Matrix.diagonal fun i => m.posStd i ^ 2 * scale
theorem varOf_diag (d w : Fin 3 → ℝ) : varOf (Matrix.diagonal d) w = ∑ i, d i * w i ^ 2 := by
  rw [varOf_eq]
  simp only [dotProduct, Matrix.mulVec_diagonal]
  refine Finset.sum_congr rfl fun i _ => by ring
theorem fixCov_positive (scale : ℝ) (m : Gnss ℝ) (hs : 0 < scale) (hm : ∀ i, 0 < m.posStd i) : positive (fixCov scale m) := by
  rw [positive_iff]
  unfold fixCov
  exact PosDef.diagonal fun i => mul_pos (pow_pos (hm i) 2) hs

theorem gnss_repeated (ms : List (Gnss ℝ)) (hu : ∀ m ∈ ms, usable m.mode) (g : ℝ) (f : Fusion ℝ) :
    ∃ l : List (V3 ℝ × M3 ℝ), l.map Prod.snd = ms.map (fixCov f.opt.gnssStdScale) ∧
    (frun (ms.map FCall.gnss) (g, f)).2.kf = repeated f.posH l f.kf := by
  induction ms generalizing f with
  | nil => exact ⟨[], rfl, rfl⟩
  | cons m ms ih =>
    obtain ⟨i, _, e⟩ := measureGnss_usable f m (hu m List.mem_cons_self)
    have eH : (f.measureGnss m).posH = f.posH := by rw [e]; rfl
    have eo : (f.measureGnss m).opt = f.opt := by rw [e]; rfl
    obtain ⟨l, hl, h⟩ := ih (fun m h => hu m (List.mem_cons_of_mem _ h)) (f.measureGnss m)
    have ek : (f.measureGnss m).kf = f.kf.update f.posH (f.posZ (v3 (m.lat * deg) (m.lon * deg) m.height))
        (fixCov f.opt.gnssStdScale m) := by
      rw [e]
      unfold fixCov
      rw [← diagM_real]
      simp only [pow_two]
    refine ⟨(f.posZ (v3 (m.lat * deg) (m.lon * deg) m.height), fixCov f.opt.gnssStdScale m) :: l, ?_, ?_⟩
    · simp only [List.map_cons]
      rw [hl, eo]
    · show (frun (ms.map FCall.gnss) (g, f.measureGnss m)).2.kf = _
      rw [h, eH, ek]
      rfl

/-- C128 for the filter: after `n` usable fixes between two IMU samples, each with deviations between 0 and `σ`, the
covariance of the antenna position is at most that of the average of `n` fixes with deviations `σ`, scaled as
configured. -/
theorem C128_fixes (ms : List (Gnss ℝ)) (hne : ms ≠ []) (f : Fusion ℝ) (σ : Fin 3 → ℝ) (hs : 0 < f.opt.gnssStdScale)
    (hv : validCov (f.posH * f.kf.P * f.posHᵀ)) (hm : ∀ m ∈ ms, usable m.mode ∧ ∀ i, 0 < m.posStd i ∧ m.posStd i ≤ σ i)
    (g : ℝ) (w : V3 ℝ) :
    0 ≤ varOf (f.posH * (frun (ms.map FCall.gnss) (g, f)).2.kf.P * f.posHᵀ) w ∧
    ms.length * varOf (f.posH * (frun (ms.map FCall.gnss) (g, f)).2.kf.P * f.posHᵀ) w ≤
      f.opt.gnssStdScale * ∑ i, σ i ^ 2 * w i ^ 2 := by
  obtain ⟨l, hl, e⟩ := gnss_repeated ms (fun m h => (hm m h).1) g f
  have hlen : l.length = ms.length := by simpa using congrArg List.length hl
  have h := C128_measured_covariance f.posH (Matrix.diagonal fun i => σ i ^ 2 * f.opt.gnssStdScale) l f.kf hv (by
    intro x hx
    have : x.2 ∈ ms.map (fixCov f.opt.gnssStdScale) := by rw [← hl]; exact List.mem_map_of_mem hx
    obtain ⟨m, hmm, em⟩ := List.mem_map.1 this
    rw [← em]
    refine ⟨fixCov_positive _ m hs fun i => ((hm m hmm).2 i).1, fun w => ?_⟩
    unfold fixCov
    rw [varOf_diag, varOf_diag]
    refine Finset.sum_le_sum fun i _ => ?_
    have h1 := (hm m hmm).2 i
    have : m.posStd i ^ 2 ≤ σ i ^ 2 := pow_le_pow_left₀ h1.1.le h1.2 2
    exact mul_le_mul_of_nonneg_right (mul_le_mul_of_nonneg_right this hs.le) (sq_nonneg _)) (by
    intro h0; rw [h0] at hlen; exact hne (List.length_eq_zero_iff.1 hlen.symm)) w
  rw [← e, hlen, varOf_diag] at h
  refine ⟨h.1, ?_⟩
  rw [Finset.mul_sum]
  refine h.2.trans_eq (Finset.sum_congr rfl fun i _ => by ring)

theorem posH_block (f : Fusion ℝ) (hl : f.lbGnss = 0) (P : Matrix (Fin 15) (Fin 15) ℝ) (i j : Fin 3) :
    (f.posH * P * f.posHᵀ) i j = P ⟨i, by omega⟩ ⟨j, by omega⟩ := by
  have hH : ∀ (a : Fin 3) (b : Fin 15), f.posH a b = if a.val = b.val then 1 else 0 := by
    intro a b
    unfold Fusion.posH
    rw [hl, mvec_real, Matrix.mulVec_zero, eyeM_real]
    simp only [setBlock, skew, Matrix.one_apply]
    fin_cases a <;> fin_cases b <;> simp
  rw [Matrix.mul_apply]
  simp only [Matrix.mul_apply, hH, Matrix.transpose_apply]
  rw [Finset.sum_eq_single (⟨j, by omega⟩ : Fin 15)]
  · rw [Finset.sum_eq_single (⟨i, by omega⟩ : Fin 15)]
    · simp
    · intro b _ hb
      rw [if_neg (fun h => hb (Fin.ext h.symm)), zero_mul]
    · simp
  · intro b _ hb
    rw [if_neg (fun h => hb (Fin.ext h.symm)), mul_zero]
  · simp
theorem varOf_single (P : M3 ℝ) (i : Fin 3) : varOf P (Pi.single i 1) = P i i := by
  rw [varOf_eq, Matrix.mulVec_single_one, single_one_dotProduct]
  rfl

/-- C128 through the C interface, no lever arm: a navigating instance given `n` usable fixes between two IMU samples,
each with deviations between 0 and `σ`, reports position deviations of at most `σ·√(scale/n)`, whatever it believed
before. -/
theorem C128_reported_deviation (ms : List (Gnss ℝ)) (hne : ms ≠ []) (g : ℝ) (d : Dev ℝ) (hd : rgioeGetStatus d = 3)
    (hl : d.df.lbGnss = 0) (σ : Fin 3 → ℝ) (hs : 0 < d.df.opt.gnssStdScale) (hv : validCov d.df.kf.P)
    (hm : ∀ m ∈ ms, usable m.mode ∧ ∀ i, 0 < m.posStd i ∧ m.posStd i ≤ σ i) (p : NavOutput ℝ) (i : Fin 3) (s : ℝ)
    (hS : s = (rgioeGetResult (runCalls (ms.map fun m => Call.gnss (some m)) (g, d)).2 p).2.posStd i) :
    0 ≤ s ∧ ms.length * s ^ 2 ≤ σ i ^ 2 * d.df.opt.gnssStdScale := by
  have hf : ∀ ms : List (Gnss ℝ), filterCalls (ms.map fun m => Call.gnss (some m)) = ms.map FCall.gnss := by
    intro ms
    induction ms with
    | nil => rfl
    | cons m ms ih => rw [List.map_cons, List.map_cons, ← ih]; rfl
  obtain ⟨_, hr⟩ := C126_navigating_is_the_filter (ms.map fun m => Call.gnss (some m)) (by
    intro c hc; obtain ⟨m, _, rfl⟩ := List.mem_map.1 hc; rfl) g d hd
  rw [hf] at hr
  obtain ⟨F, hF⟩ : ∃ F, F = (frun (ms.map FCall.gnss) (g, d.df)).2 := ⟨_, rfl⟩
  have hb : validCov (d.df.posH * d.df.kf.P * d.df.posHᵀ) := by
    rw [validCov_iff] at hv ⊢
    have := hv.mul_mul_conjTranspose_same d.df.posH
    rwa [conjTranspose_eq_transpose_of_trivial] at this
  have h := C128_fixes ms hne d.df σ hs hb hm g (Pi.single i 1)
  rw [varOf_single, posH_block _ hl] at h
  rw [← hF] at h hr
  have es : s = F.output.posStd i := by rw [hS, hr.result]
  have c := C37_reported_deviation F i
  rw [es]
  refine ⟨c.1.1, ?_⟩
  rw [c.2.1 h.1]
  refine h.2.trans_eq ?_
  rw [Finset.sum_eq_single i]
  · simp; ring
  · intro j _ hj; simp [Pi.single_eq_of_ne hj]
  · simp

/-- A measurement of `p` combinations `H` of the states, with noise covariance `R`. -/
structure Measured (n : Nat) where
  p : Nat
  H : Matrix (Fin p) (Fin n) ℝ
  z : Fin p → ℝ
  R : Matrix (Fin p) (Fin p) ℝ

/-- Measurements taken one after the other. -/
noncomputable def takeAll {n : Nat} (ms : List (Measured n)) (k : Kf n ℝ) : Kf n ℝ := ms.foldl (fun k m => k.update m.H m.z m.R) k
/-- Fisher information of a set of measurements. -/
noncomputable def information {n : Nat} (ms : List (Measured n)) : Matrix (Fin n) (Fin n) ℝ := (ms.map fun m => m.Hᵀ * m.R⁻¹ * m.H).sum

theorem update_short {n p : Nat} (k : Kf n ℝ) (H : Matrix (Fin p) (Fin n) ℝ) (z : Fin p → ℝ) (R : Matrix (Fin p) (Fin p) ℝ)
    (hP : ∀ i j, k.P i j = k.P j i) (hR : ∀ i j, R i j = R j i) (hS : IsUnit (H * k.P * Hᵀ + R).det) :
    (k.update H z R).P = k.P - k.P * Hᵀ * (H * k.P * Hᵀ + R)⁻¹ * H * k.P := by
  rw [(update_P k H z R).1]
  have hPs : k.Pᵀ = k.P := by ext i j; exact hP j i
  have hRs : Rᵀ = R := by ext i j; exact hR j i
  obtain ⟨S, hSd⟩ : ∃ S, S = H * k.P * Hᵀ + R := ⟨_, rfl⟩
  have hSs : Sᵀ = S := by rw [hSd]; simp only [transpose_add, transpose_mul, transpose_transpose, hPs, hRs, Matrix.mul_assoc]
  rw [← hSd] at hS ⊢
  obtain ⟨T, hT⟩ : ∃ T, T = S⁻¹ := ⟨_, rfl⟩
  have hTs : Tᵀ = T := by rw [hT, transpose_nonsing_inv, hSs]
  have hST : S * T = 1 := by rw [hT]; exact Matrix.mul_nonsing_inv _ hS
  have hR2 : R = S - H * k.P * Hᵀ := by rw [hSd]; abel
  rw [← hT, hR2]
  simp only [transpose_sub, transpose_mul, transpose_one, transpose_transpose, hTs, hPs, Matrix.sub_mul, Matrix.mul_sub,
    Matrix.one_mul, Matrix.mul_one, Matrix.mul_assoc]
  have e : S * (T * (H * k.P)) = H * k.P := by rw [← Matrix.mul_assoc, hST, Matrix.one_mul]
  rw [e]
  abel

theorem update_push {n p : Nat} (k : Kf n ℝ) (H : Matrix (Fin p) (Fin n) ℝ) (z : Fin p → ℝ) (R : Matrix (Fin p) (Fin p) ℝ)
    (hP : validCov k.P) (hR : positive R) :
    (1 + k.P * (Hᵀ * R⁻¹ * H)) * (k.update H z R).P = k.P ∧ IsUnit (1 + k.P * (Hᵀ * R⁻¹ * H)).det ∧ validCov (k.update H z R).P := by
  have hb : validCov (H * k.P * Hᵀ) := by
    rw [validCov_iff] at hP ⊢
    have := hP.mul_mul_conjTranspose_same H
    rwa [conjTranspose_eq_transpose_of_trivial] at this
  have hS := unit_sum hb hR
  have hRu : IsUnit R.det := (Matrix.isUnit_iff_isUnit_det _).1 ((positive_iff R).1 hR).isUnit
  refine ⟨?_, ?_, (C24_update_valid k H z R hP (positive_valid hR)).1⟩
  · rw [update_short k H z R hP.1 hR.1 hS]
    obtain ⟨S, hSd⟩ : ∃ S, S = H * k.P * Hᵀ + R := ⟨_, rfl⟩
    rw [← hSd] at hS ⊢
    have e1 : H * k.P * Hᵀ = S - R := by rw [hSd]; abel
    have e2 : R⁻¹ * (H * k.P * Hᵀ) * S⁻¹ = R⁻¹ - S⁻¹ := by
      rw [e1, Matrix.mul_sub, Matrix.nonsing_inv_mul _ hRu, Matrix.sub_mul, Matrix.mul_assoc, Matrix.mul_nonsing_inv _ hS,
        Matrix.mul_one, Matrix.one_mul]
    have e3 : k.P * (Hᵀ * R⁻¹ * H) * (k.P * Hᵀ * S⁻¹ * H * k.P) = k.P * Hᵀ * (R⁻¹ * (H * k.P * Hᵀ) * S⁻¹) * H * k.P := by
      simp only [Matrix.mul_assoc]
    rw [Matrix.add_mul, Matrix.one_mul, Matrix.mul_sub, e3, e2]
    simp only [Matrix.mul_sub, Matrix.sub_mul, Matrix.mul_assoc]
    abel
  · have e : (1 + k.P * (Hᵀ * R⁻¹ * H)) = 1 + (k.P * Hᵀ) * (R⁻¹ * H) := by simp only [Matrix.mul_assoc]
    rw [e, Matrix.det_one_add_mul_comm]
    have e2 : 1 + R⁻¹ * H * (k.P * Hᵀ) = R⁻¹ * (H * k.P * Hᵀ + R) := by
      rw [Matrix.mul_add, Matrix.nonsing_inv_mul _ hRu, add_comm]; simp only [Matrix.mul_assoc]
    rw [e2, Matrix.det_mul]
    exact ((Matrix.isUnit_nonsing_inv_det_iff).2 hRu).mul hS

/-- C129: the covariance after any measurements of any kind depends on them only through the sum of their informations
`HᵀR⁻¹H`: it is the one solution of `(1 + P·ΣHᵀR⁻¹H)·P' = P`. -/
theorem C129_information {n : Nat} (ms : List (Measured n)) (hm : ∀ m ∈ ms, positive m.R) (k : Kf n ℝ) (hP : validCov k.P) :
    (1 + k.P * information ms) * (takeAll ms k).P = k.P ∧ IsUnit (1 + k.P * information ms).det ∧ validCov (takeAll ms k).P := by
  have key : ∀ (ms : List (Measured n)) (A : Matrix (Fin n) (Fin n) ℝ) (P0 : Matrix (Fin n) (Fin n) ℝ) (k : Kf n ℝ), (∀ m ∈ ms, positive m.R) →
      validCov k.P → (1 + P0 * A) * k.P = P0 → IsUnit (1 + P0 * A).det →
      (1 + P0 * (A + information ms)) * (takeAll ms k).P = P0 ∧ IsUnit (1 + P0 * (A + information ms)).det ∧ validCov (takeAll ms k).P := by
    intro ms
    induction ms with
    | nil => intro A P0 k _ hk h1 h2; exact ⟨by simpa [information, takeAll] using h1, by simpa [information] using h2, hk⟩
    | cons m ms ih =>
      intro A P0 k hm hk h1 h2
      obtain ⟨a, b, c⟩ := update_push k m.H m.z m.R hk (hm m List.mem_cons_self)
      obtain ⟨J, hJ⟩ : ∃ J, J = m.Hᵀ * m.R⁻¹ * m.H := ⟨_, rfl⟩
      rw [← hJ] at a b
      have e : (1 + P0 * A) * (1 + k.P * J) = 1 + P0 * (A + J) := by
        rw [Matrix.mul_add, ← Matrix.mul_assoc, h1, Matrix.mul_one, Matrix.mul_add, add_assoc]
      have := ih (A + J) P0 (k.update m.H m.z m.R) (fun m h => hm m (List.mem_cons_of_mem _ h)) c
        (by rw [← e, Matrix.mul_assoc, a, h1]) (by rw [← e, Matrix.det_mul]; exact h2.mul b)
      have e2 : information (m :: ms) = J + information ms := by rw [hJ]; rfl
      rw [e2, ← add_assoc]
      exact this
  have := key ms 0 k.P k hm hP (by simp) (by simp)
  simpa using this

/-- C129: the covariance does not depend on the order of the measurements, nor on what was measured. -/
theorem C129_order {n : Nat} (ms ms' : List (Measured n)) (hp : ms.Perm ms') (hm : ∀ m ∈ ms, positive m.R) (k : Kf n ℝ)
    (hP : validCov k.P) : (takeAll ms k).P = (takeAll ms' k).P := by
  have hi : information ms = information ms' := (hp.map _).sum_eq
  have a := C129_information ms hm k hP
  have b := C129_information ms' (fun m h => hm m (hp.mem_iff.2 h)) k hP
  rw [← hi] at b
  have c := a.1.trans b.1.symm
  have := congrArg (fun M => (1 + k.P * information ms)⁻¹ * M) c
  simpa only [← Matrix.mul_assoc, Matrix.nonsing_inv_mul _ a.2.1, Matrix.one_mul] using this

/-- C129: when the covariance is invertible, information adds up. -/
theorem C129_adds_up {n : Nat} (ms : List (Measured n)) (hm : ∀ m ∈ ms, positive m.R) (k : Kf n ℝ) (hP : validCov k.P) (hu : IsUnit k.P.det) :
    (takeAll ms k).P⁻¹ = k.P⁻¹ + information ms := by
  have a := (C129_information ms hm k hP).1
  refine Matrix.inv_eq_left_inv ?_
  have : k.P⁻¹ + information ms = k.P⁻¹ * (1 + k.P * information ms) := by
    rw [Matrix.mul_add, Matrix.mul_one, ← Matrix.mul_assoc, Matrix.nonsing_inv_mul _ hu, Matrix.one_mul]
  rw [this, Matrix.mul_assoc, a, Matrix.nonsing_inv_mul _ hu]

theorem gnss_takeAll (ms : List (Gnss ℝ)) (hu : ∀ m ∈ ms, usable m.mode) (g : ℝ) (f : Fusion ℝ) :
    (frun (ms.map FCall.gnss) (g, f)).2.kf = takeAll (ms.map fun m => ⟨3, f.posH, f.posZ (v3 (m.lat * deg) (m.lon * deg) m.height),
      fixCov f.opt.gnssStdScale m⟩) f.kf := by
  induction ms generalizing f with
  | nil => rfl
  | cons m ms ih =>
    obtain ⟨i, _, e⟩ := measureGnss_usable f m (hu m List.mem_cons_self)
    have eH : (f.measureGnss m).posH = f.posH := by rw [e]; rfl
    have eo : (f.measureGnss m).opt = f.opt := by rw [e]; rfl
    have eZ : (f.measureGnss m).posZ = f.posZ := by rw [e]; rfl
    have h := ih (fun m h => hu m (List.mem_cons_of_mem _ h)) (f.measureGnss m)
    have ek : (f.measureGnss m).kf = f.kf.update f.posH (f.posZ (v3 (m.lat * deg) (m.lon * deg) m.height))
        (fixCov f.opt.gnssStdScale m) := by
      rw [e]
      unfold fixCov
      rw [← diagM_real]
      simp only [pow_two]
    rw [eH, eo, eZ, ek] at h
    exact h

/-- C129 through the C interface: fixes handed over between two IMU samples in another order give the same covariance and
the same reported deviations. -/
theorem C129_fix_order (ms ms' : List (Gnss ℝ)) (hp : ms.Perm ms') (g : ℝ) (d : Dev ℝ) (hd : rgioeGetStatus d = 3)
    (hs : 0 < d.df.opt.gnssStdScale) (hv : validCov d.df.kf.P) (hm : ∀ m ∈ ms, usable m.mode ∧ ∀ i, 0 < m.posStd i) (p : NavOutput ℝ)
    (r r' : NavOutput ℝ) (hr : r = (rgioeGetResult (runCalls (ms.map fun m => Call.gnss (some m)) (g, d)).2 p).2)
    (hr' : r' = (rgioeGetResult (runCalls (ms'.map fun m => Call.gnss (some m)) (g, d)).2 p).2) :
    r.posStd = r'.posStd ∧ r.vnStd = r'.vnStd ∧ r.attiStd = r'.attiStd := by
  have hf : ∀ ms : List (Gnss ℝ), filterCalls (ms.map fun m => Call.gnss (some m)) = ms.map FCall.gnss := by
    intro ms
    induction ms with
    | nil => rfl
    | cons m ms ih => rw [List.map_cons, List.map_cons, ← ih]; rfl
  have hi : ∀ ms : List (Gnss ℝ), ∀ c ∈ ms.map fun m => Call.gnss (some m), c.isInit = false := by
    intro ms c hc; obtain ⟨m, _, rfl⟩ := List.mem_map.1 hc; rfl
  have a := (C126_navigating_is_the_filter _ (hi ms) g d hd).2.result p
  have b := (C126_navigating_is_the_filter _ (hi ms') g d hd).2.result p
  rw [hf] at a b
  have e : (frun (ms.map FCall.gnss) (g, d.df)).2.kf.P = (frun (ms'.map FCall.gnss) (g, d.df)).2.kf.P := by
    rw [gnss_takeAll ms (fun m h => (hm m h).1), gnss_takeAll ms' (fun m h => (hm m (hp.mem_iff.2 h)).1)]
    refine C129_order _ _ (hp.map _) ?_ _ hv
    intro x hx
    obtain ⟨m, h, rfl⟩ := List.mem_map.1 hx
    exact fixCov_positive _ m hs (hm m h).2
  rw [hr, hr', a, b]
  generalize (frun (ms.map FCall.gnss) (g, d.df)).2 = F at e ⊢
  generalize (frun (ms'.map FCall.gnss) (g, d.df)).2 = F' at e ⊢
  refine ⟨?_, ?_, ?_⟩ <;>
  · simp only [Fusion.output, e]

/-- C129, violation: the correction does depend on the order, since an update replaces the correction pending from
the one before (see C27). -/
theorem C129_correction_order_partial : ∃ (k : Kf 1 ℝ) (m m' : Measured 1), validCov k.P ∧ positive m.R ∧ positive m'.R ∧
    (takeAll [m, m'] k).Xd ≠ (takeAll [m', m] k).Xd := by
  have h1 : positive (1 : Matrix (Fin 1) (Fin 1) ℝ) := (positive_iff _).2 PosDef.one
  refine ⟨Kf.ofState (fun _ => 0) 1, ⟨1, 1, fun _ => 1, 1⟩, ⟨1, 1, fun _ => 0, 1⟩, positive_valid h1, h1, h1, fun h => ?_⟩
  obtain ⟨k, hk⟩ : ∃ k : Kf 1 ℝ, k = (Kf.ofState (fun _ => 0) 1).update (1 : Matrix (Fin 1) (Fin 1) ℝ) (fun _ => 0) 1 := ⟨_, rfl⟩
  have eP : k.P = (2 : ℝ)⁻¹ • 1 := by
    rw [hk, update_short _ _ _ _ h1.1 h1.1 (by
      show IsUnit (1 * 1 * 1ᵀ + 1 : Matrix (Fin 1) (Fin 1) ℝ).det
      simp)]
    show 1 - 1 * 1ᵀ * (1 * 1 * 1ᵀ + 1)⁻¹ * 1 * 1 = ((2 : ℝ)⁻¹ • 1 : Matrix (Fin 1) (Fin 1) ℝ)
    ext i j
    fin_cases i; fin_cases j
    simp
    norm_num
  have hl : (takeAll [⟨1, 1, fun _ => 1, 1⟩, ⟨1, 1, fun _ => 0, 1⟩] (Kf.ofState (fun _ => 0) (1 : Matrix (Fin 1) (Fin 1) ℝ))).Xd 0 = 0 := by
    show (Kf.update _ (1 : Matrix (Fin 1) (Fin 1) ℝ) (fun _ => 0) 1).Xd 0 = 0
    rw [(update_P _ _ _ _).2]
    simp [mulVec, dotProduct]
  have hr : (takeAll [⟨1, 1, fun _ => 0, 1⟩, ⟨1, 1, fun _ => 1, 1⟩] (Kf.ofState (fun _ => 0) (1 : Matrix (Fin 1) (Fin 1) ℝ))).Xd 0 = 3⁻¹ := by
    show (Kf.update ((Kf.ofState (fun _ => 0) 1).update (1 : Matrix (Fin 1) (Fin 1) ℝ) (fun _ => 0) 1) (1 : Matrix (Fin 1) (Fin 1) ℝ) (fun _ => 1) 1).Xd 0 = 3⁻¹
    rw [← hk, (update_P _ _ _ _).2, eP]
    simp [mulVec, dotProduct]
    norm_num
  rw [h, hr] at hl
  norm_num at hl

/-- The hypotheses above hold of a filter with unit covariance and a fix with unit deviations. -/
example : ∃ d : Dev ℝ, rgioeGetStatus d = 3 ∧ d.df.lbGnss = 0 ∧ 0 < d.df.opt.gnssStdScale ∧ validCov d.df.kf.P ∧
    usable (Ex.fix 4 : Gnss ℝ).mode ∧ ∀ i, 0 < (Ex.fix 4 : Gnss ℝ).posStd i ∧ (Ex.fix 4 : Gnss ℝ).posStd i ≤ 1 := by
  refine ⟨{ (Ex.zDev : Dev ℝ) with status := 3, df := { (Ex.zFusion : Fusion ℝ) with lbGnss := 0, kf := Kf.ofState (fun _ => 0) 1, opt := { (Fusion.zeroOpt : Opt ℝ) with gnssStdScale := 1 } } },
    rfl, rfl, one_pos, positive_valid ((positive_iff _).2 PosDef.one), Or.inr (Or.inr (Or.inl rfl)), fun i => ⟨one_pos, le_refl _⟩⟩
end Verif.Props
