import Verif.Props.Innovation
import Verif.Props.Information
/-! More stated uncertainty never leads to less reported uncertainty (C155); a measurement leaves alone what is
uncorrelated with it (C156). -/
namespace Verif.Props
open Verif Verif.Spec Matrix

/-- `A` states at most the uncertainty of `B`, in every direction. -/
def atMost {n : Nat} (A B : Matrix (Fin n) (Fin n) ℝ) : Prop :=
  ∀ x : Fin n → ℝ, ∑ i, ∑ j, x i * A i j * x j ≤ ∑ i, ∑ j, x i * B i j * x j

theorem quad_sub {n : Nat} (A B : Matrix (Fin n) (Fin n) ℝ) (x : Fin n → ℝ) :
    ∑ i, ∑ j, x i * (B - A) i j * x j = ∑ i, ∑ j, x i * B i j * x j - ∑ i, ∑ j, x i * A i j * x j := by
  rw [← Finset.sum_sub_distrib]
  refine Finset.sum_congr rfl fun i _ => ?_
  rw [← Finset.sum_sub_distrib]
  refine Finset.sum_congr rfl fun j _ => ?_
  rw [Matrix.sub_apply]; ring

theorem atMost_valid {n : Nat} {A B : Matrix (Fin n) (Fin n) ℝ} (hA : ∀ i j, A i j = A j i) (hB : ∀ i j, B i j = B j i)
    (h : atMost A B) : validCov (B - A) :=
  ⟨fun i j => by rw [Matrix.sub_apply, Matrix.sub_apply, hA i j, hB i j], fun x => by rw [quad_sub]; linarith [h x]⟩

theorem valid_atMost {n : Nat} {A B : Matrix (Fin n) (Fin n) ℝ} (h : validCov (B - A)) : atMost A B := fun x => by
  have := h.2 x
  rw [quad_sub] at this
  linarith

theorem atMost_trans {n : Nat} {A B C : Matrix (Fin n) (Fin n) ℝ} (h : atMost A B) (h' : atMost B C) : atMost A C :=
  fun x => (h x).trans (h' x)

theorem atMost_diag {n : Nat} {A B : Matrix (Fin n) (Fin n) ℝ} (h : atMost A B) (i : Fin n) : A i i ≤ B i i := by
  have := h (Pi.single i 1)
  simpa [Pi.single_apply] using this

theorem congr_valid {m n : Nat} (M : Matrix (Fin m) (Fin n) ℝ) {P : Matrix (Fin n) (Fin n) ℝ} (h : validCov P) : validCov (M * P * Mᵀ) := by
  rw [validCov_iff] at h ⊢
  have := h.mul_mul_conjTranspose_same M
  rwa [conjTranspose_eq_transpose_of_trivial] at this

theorem add_valid {n : Nat} {P Q : Matrix (Fin n) (Fin n) ℝ} (h : validCov P) (h' : validCov Q) : validCov (P + Q) := by
  rw [validCov_iff] at h h' ⊢
  exact h.add h'

/-- C155, one measurement: with less uncertainty before and a measurement stated to be better, the uncertainty after it
is not greater, whatever the measured values. -/
theorem C155_update {n p : Nat} (k k' : Kf n ℝ) (H : Matrix (Fin p) (Fin n) ℝ) (z z' : Fin p → ℝ) (R R' : Matrix (Fin p) (Fin p) ℝ)
    (hP : validCov k.P) (hP' : validCov k'.P) (hR : positive R) (hR' : positive R')
    (h : atMost k.P k'.P) (hRR : atMost R R') : atMost (k.update H z R).P (k'.update H z' R').P := by
  have hS : IsUnit (H * k.P * Hᵀ + R).det := unit_sum (congr_valid H hP) hR
  set L := k'.P * Hᵀ * (H * k'.P * Hᵀ + R')⁻¹ with hL
  refine atMost_trans (valid_atMost (C95_optimal_gain k H z R hP (positive_valid hR) hS L)) ?_
  rw [(update_P k' H z' R').1, ← hL]
  refine valid_atMost ?_
  have e : (1 - L * H) * k'.P * (1 - L * H)ᵀ + L * R' * Lᵀ - ((1 - L * H) * k.P * (1 - L * H)ᵀ + L * R * Lᵀ) =
      (1 - L * H) * (k'.P - k.P) * (1 - L * H)ᵀ + L * (R' - R) * Lᵀ := by
    generalize (1 - L * H) = M
    simp only [Matrix.mul_sub, Matrix.sub_mul]
    abel
  rw [e]
  exact add_valid (congr_valid _ (atMost_valid hP.1 hP'.1 h))
    (congr_valid _ (atMost_valid (positive_valid hR).1 (positive_valid hR').1 hRR))

/-- C155, one step in time. -/
theorem C155_predict {n : Nat} (k k' : Kf n ℝ) (phi Q Q' : Matrix (Fin n) (Fin n) ℝ) (hP : validCov k.P) (hP' : validCov k'.P)
    (h : atMost k.P k'.P) (hQ : atMost Q Q') (hs : ∀ i j, Q i j = Q j i) (hs' : ∀ i j, Q' i j = Q' j i) :
    atMost (k.predict phi Q).P (k'.predict phi Q').P := by
  rw [(predict_P k phi Q).1, (predict_P k' phi Q').1]
  refine valid_atMost ?_
  have e : phi * k'.P * phiᵀ + Q' - (phi * k.P * phiᵀ + Q) = phi * (k'.P - k.P) * phiᵀ + (Q' - Q) := by noncomm_ring
  rw [e]
  exact add_valid (congr_valid _ (atMost_valid hP.1 hP'.1 h)) (atMost_valid hs hs' hQ)

/-- One step of two Kalman filters that follow the same motion and see the same quantities, each with its own noise
statements and measured values. -/
inductive TwoStep (n : Nat)
  | time (phi Q Q' : Matrix (Fin n) (Fin n) ℝ)
  | meas (p : Nat) (H : Matrix (Fin p) (Fin n) ℝ) (z z' : Fin p → ℝ) (R R' : Matrix (Fin p) (Fin p) ℝ)

/-- The first statement of each step is valid and at most the second. -/
def TwoStep.ordered {n : Nat} : TwoStep n → Prop
  | .time _ Q Q' => validCov Q ∧ validCov Q' ∧ atMost Q Q'
  | .meas _ _ _ _ R R' => positive R ∧ positive R' ∧ atMost R R'
/-- The first filter. -/
noncomputable def TwoStep.first {n : Nat} (k : Kf n ℝ) : TwoStep n → Kf n ℝ
  | .time phi Q _ => k.predict phi Q
  | .meas _ H z _ R _ => k.update H z R
/-- The second filter. -/
noncomputable def TwoStep.second {n : Nat} (k : Kf n ℝ) : TwoStep n → Kf n ℝ
  | .time phi _ Q' => k.predict phi Q'
  | .meas _ H _ z' _ R' => k.update H z' R'

/-- C155, any number of steps: a filter that was told less uncertainty (at the start, about the motion and about every
measurement) never reports more than one that was told more. -/
theorem C155_history {n : Nat} (ss : List (TwoStep n)) (hs : ∀ s ∈ ss, s.ordered) : ∀ (k k' : Kf n ℝ), validCov k.P → validCov k'.P →
    atMost k.P k'.P →
    atMost (ss.foldl TwoStep.first k).P (ss.foldl TwoStep.second k').P ∧
    ∀ i, (ss.foldl TwoStep.first k).P i i ≤ (ss.foldl TwoStep.second k').P i i := by
  induction ss with
  | nil => intro k k' _ _ h; exact ⟨h, atMost_diag h⟩
  | cons s ss ih =>
    intro k k' hP hP' h
    have ho := hs s List.mem_cons_self
    refine ih (fun t ht => hs t (List.mem_cons_of_mem _ ht)) (s.first k) (s.second k') ?_ ?_ ?_
    · cases s with
      | time phi Q Q' => exact C26_predict_valid_partial k phi Q hP ho.1
      | meas p H z z' R R' => exact (C24_update_valid k H z R hP (positive_valid ho.1)).1
    · cases s with
      | time phi Q Q' => exact C26_predict_valid_partial k' phi Q' hP' ho.2.1
      | meas p H z z' R R' => exact (C24_update_valid k' H z' R' hP' (positive_valid ho.2.1)).1
    · cases s with
      | time phi Q Q' => exact C155_predict k k' phi Q Q' hP hP' h ho.2.2 ho.1.1 ho.2.1.1
      | meas p H z z' R R' => exact C155_update k k' H z z' R R' hP hP' ho.1 ho.2.1 h ho.2.2

/-- Two such filters of one state: variances 1 and 4, one step in time and one measurement. -/
example : ∃ (k k' : Kf 1 ℝ) (ss : List (TwoStep 1)), validCov k.P ∧ validCov k'.P ∧ atMost k.P k'.P ∧ k.P 0 0 < k'.P 0 0 ∧ ss.length = 2 ∧
    ∀ s ∈ ss, s.ordered := by
  let dg : ℝ → Matrix (Fin 1) (Fin 1) ℝ := fun a => Matrix.diagonal fun _ => a
  have v : ∀ a : ℝ, 0 ≤ a → validCov (dg a) := fun a ha => by
    rw [validCov_iff]; exact Matrix.PosSemidef.diagonal fun _ => ha
  have m : ∀ a b : ℝ, a ≤ b → atMost (dg a) (dg b) := fun a b hab => by
    refine valid_atMost ?_
    rw [validCov_iff]
    simp only [dg]
    rw [Matrix.diagonal_sub]
    exact Matrix.PosSemidef.diagonal fun _ => sub_nonneg.2 hab
  have ps : ∀ a : ℝ, 0 < a → positive (dg a) := fun a ha => by
    rw [positive_iff]; exact Matrix.PosDef.diagonal fun _ => ha
  refine ⟨⟨0, dg 1, 0, 0⟩, ⟨0, dg 4, 0, 0⟩, [.time (dg 2) (dg 1) (dg 1), .meas 1 (dg 1) 0 0 (dg 1) (dg 2)],
    v 1 (by norm_num), v 4 (by norm_num), m _ _ (by norm_num), ?_, rfl, ?_⟩
  · show (Matrix.diagonal _ : Matrix (Fin 1) (Fin 1) ℝ) 0 0 < (Matrix.diagonal _ : Matrix (Fin 1) (Fin 1) ℝ) 0 0
    rw [Matrix.diagonal_apply_eq, Matrix.diagonal_apply_eq]
    norm_num
  intro s hs
  simp only [List.mem_cons, List.not_mem_nil, or_false] at hs
  rcases hs with rfl | rfl
  · exact ⟨v 1 (by norm_num), v 1 (by norm_num), m _ _ le_rfl⟩
  · exact ⟨ps 1 (by norm_num), ps 2 (by norm_num), m _ _ (by norm_num)⟩

/-- C155, fixes: of two fixes the one with the smaller deviations leaves, in every component, reported deviations that
are not larger. -/
theorem C155_better_fix (f : Fusion ℝ) (a b : Gnss ℝ) (ha : usable a.mode) (hb : usable b.mode) (hP : validCov f.kf.P)
    (hscale : 0 < f.opt.gnssStdScale) (h0 : ∀ i, 0 < a.posStd i) (h : ∀ i, a.posStd i ≤ b.posStd i) (i : Fin 3) :
    (f.measureGnss a).output.posStd i ≤ (f.measureGnss b).output.posStd i ∧
    (f.measureGnss a).output.vnStd i ≤ (f.measureGnss b).output.vnStd i ∧
    (f.measureGnss a).output.attiStd i ≤ (f.measureGnss b).output.attiStd i := by
  have chk : ∀ c : Gnss ℝ, usable c.mode → Fusion.gnssCheck c = true := by
    intro c hu
    unfold Fusion.gnssCheck
    rcases hu with h | h | h | h <;> rw [h] <;> decide
  have kf : ∀ c : Gnss ℝ, usable c.mode → ∃ z, (f.measureGnss c).kf = f.kf.update f.posH z
      (diagM fun i => c.posStd i * c.posStd i * f.opt.gnssStdScale) := by
    intro c hu
    unfold Fusion.measureGnss
    rw [if_pos (chk c hu)]
    exact ⟨_, rfl⟩
  obtain ⟨za, ka⟩ := kf a ha
  obtain ⟨zb, kb⟩ := kf b hb
  have pos : ∀ c : Gnss ℝ, (∀ i, 0 < c.posStd i) → positive (diagM fun i => c.posStd i * c.posStd i * f.opt.gnssStdScale : M3 ℝ) := by
    intro c hc
    rw [positive_iff, diagM_real]
    exact Matrix.PosDef.diagonal fun i => mul_pos (mul_pos (hc i) (hc i)) hscale
  have hb0 : ∀ i, 0 < b.posStd i := fun i => (h0 i).trans_le (h i)
  have le : atMost (diagM fun i => a.posStd i * a.posStd i * f.opt.gnssStdScale : M3 ℝ) (diagM fun i => b.posStd i * b.posStd i * f.opt.gnssStdScale) := by
    refine valid_atMost ?_
    rw [validCov_iff, diagM_real, diagM_real, Matrix.diagonal_sub]
    refine Matrix.PosSemidef.diagonal fun i => ?_
    have := mul_le_mul (h i) (h i) (h0 i).le (hb0 i).le
    exact sub_nonneg.2 (mul_le_mul_of_nonneg_right this hscale.le)
  have hm : atMost (f.measureGnss a).kf.P (f.measureGnss b).kf.P := by
    rw [ka, kb]
    exact C155_update f.kf f.kf f.posH za zb _ _ hP hP (pos a h0) (pos b hb0) (fun x => le_rfl) le
  have d := atMost_diag hm
  exact ⟨Real.sqrt_le_sqrt (d _), Real.sqrt_le_sqrt (d _), Real.sqrt_le_sqrt (d _)⟩

/-- Two such fixes, deviations 1 and 2. -/
example : ∃ (f : Fusion ℝ) (a b : Gnss ℝ), usable a.mode ∧ usable b.mode ∧ validCov f.kf.P ∧ 0 < f.opt.gnssStdScale ∧
    (∀ i, 0 < a.posStd i) ∧ ∀ i, a.posStd i ≤ b.posStd i := by
  refine ⟨{ (Ex.zFusion : Fusion ℝ) with kf := ⟨0, 1, 0, 0⟩, opt := { (Ex.zFusion : Fusion ℝ).opt with gnssStdScale := 1 } }, Ex.fix 4,
    { (Ex.fix 4 : Gnss ℝ) with posStd := fun _ => 2 }, Or.inr (Or.inr (Or.inl rfl)), Or.inr (Or.inr (Or.inl rfl)), ?_, one_pos, fun _ => one_pos, fun _ => ?_⟩
  · rw [validCov_iff]; exact Matrix.PosSemidef.one
  · show (1 : ℝ) ≤ 2; norm_num

/-- C156: a state uncorrelated with everything that is measured is neither corrected nor made more certain, nor are its
covariances changed with states that are so too. -/
theorem C156_uncorrelated {n p : Nat} (k : Kf n ℝ) (H : Matrix (Fin p) (Fin n) ℝ) (z : Fin p → ℝ) (R : Matrix (Fin p) (Fin p) ℝ) (i : Fin n)
    (h : ∀ a, ∑ j, k.P i j * H a j = 0) :
    (k.update H z R).Xd i = 0 ∧ (k.update H z R).P i i = k.P i i ∧
    ∀ j, (∀ a, ∑ l, k.P j l * H a l = 0) → (k.update H z R).P i j = k.P i j := by
  obtain ⟨hu, hx⟩ := update_P k H z R
  set K := k.P * Hᵀ * (H * k.P * Hᵀ + R)⁻¹ with hK
  have row : ∀ j, (∀ a, ∑ l, k.P j l * H a l = 0) → ∀ a, K j a = 0 := by
    intro j hj a
    rw [hK, Matrix.mul_apply]
    refine Finset.sum_eq_zero fun b _ => ?_
    have : (k.P * Hᵀ) j b = 0 := by rw [Matrix.mul_apply]; exact hj b
    rw [this, zero_mul]
  have one : ∀ j, (∀ a, ∑ l, k.P j l * H a l = 0) → ∀ l, (1 - K * H : Matrix (Fin n) (Fin n) ℝ) j l = (1 : Matrix (Fin n) (Fin n) ℝ) j l := by
    intro j hj l
    rw [Matrix.sub_apply, Matrix.mul_apply, Finset.sum_eq_zero fun a _ => by rw [row j hj a, zero_mul], sub_zero]
  have ent : ∀ j, (∀ a, ∑ l, k.P j l * H a l = 0) → (k.update H z R).P i j = k.P i j := by
    intro j hj
    rw [hu, Matrix.add_apply]
    have e2 : (K * R * Kᵀ) i j = 0 := by
      rw [Matrix.mul_apply]
      exact Finset.sum_eq_zero fun a _ => by rw [Matrix.transpose_apply, row j hj a, mul_zero]
    have e1 : ((1 - K * H) * k.P * (1 - K * H)ᵀ : Matrix (Fin n) (Fin n) ℝ) i j = k.P i j := by
      rw [Matrix.mul_apply]
      have : ∀ l, ((1 - K * H) * k.P : Matrix (Fin n) (Fin n) ℝ) i l = k.P i l := by
        intro l
        rw [Matrix.mul_apply]
        simp_rw [one i h]
        rw [← Matrix.mul_apply, Matrix.one_mul]
      simp_rw [this, Matrix.transpose_apply, one j hj]
      have := congrFun (congrFun (Matrix.mul_one k.P) i) j
      rw [Matrix.mul_apply] at this
      rw [← this]
      refine Finset.sum_congr rfl fun l _ => ?_
      rw [Matrix.one_apply, Matrix.one_apply]
      simp only [eq_comm]
    rw [e1, e2, add_zero]
  refine ⟨?_, ent i h, ent⟩
  rw [hx]
  show ∑ a, K i a * z a = 0
  exact Finset.sum_eq_zero fun a _ => by rw [row i h a, zero_mul]

/-- C156, the first fix: right after the start, with the antenna at the IMU, a fix changes only the position: velocity,
attitude and sensor errors are not corrected and keep their deviations. -/
theorem C156_first_fix (g : ℝ) (junk : Fusion ℝ) (nav : NavEpoch ℝ) (o : Opt ℝ) (m : Gnss ℝ) (hu : usable m.mode)
    (hl : (fstart g junk nav o).2.lbGnss = 0) (i : Fin 15) (hi : 3 ≤ i.val) :
    ((fstart g junk nav o).2.measureGnss m).kf.Xd i = 0 ∧
    ((fstart g junk nav o).2.measureGnss m).kf.P i i = (fstart g junk nav o).2.kf.P i i := by
  set f := (fstart g junk nav o).2 with hf
  have hd : ∀ i j, i ≠ j → f.kf.P i j = 0 := (C68_initial_covariance g junk nav o).2.1
  have chk : Fusion.gnssCheck m = true := by
    unfold Fusion.gnssCheck
    rcases hu with h | h | h | h <;> rw [h] <;> decide
  have e : ∃ z R, (f.measureGnss m).kf = f.kf.update f.posH z R := by
    unfold Fusion.measureGnss
    rw [if_pos chk]
    exact ⟨_, _, rfl⟩
  obtain ⟨z, R, e⟩ := e
  rw [e]
  have hH : ∀ a, f.posH a i = 0 := by
    intro a
    have hz : mvec f.ins.nav.Cbn f.lbGnss = 0 := by rw [mvec_real, hl, mulVec_zero]
    unfold Fusion.posH
    rw [hz]
    have : ∀ a b : Fin 3, Convert.skew (0 : V3 ℝ) a b = 0 := by
      intro a b; fin_cases a <;> fin_cases b <;> simp [Convert.skew]
    simp only [setBlock, this]
    split_ifs <;> first | rfl | omega
  have := C156_uncorrelated f.kf f.posH z R i (by
    intro a
    refine Finset.sum_eq_zero fun j _ => ?_
    by_cases hj : j = i
    · rw [hj, hH a, mul_zero]
    · rw [hd i j (Ne.symm hj), zero_mul])
  exact ⟨this.1, this.2.1⟩

/-- The hypotheses of `C156_first_fix` are met: a filter started with the antenna at the IMU. -/
example : ∃ (junk : Fusion ℝ) (nav : NavEpoch ℝ) (o : Opt ℝ), (fstart 0 junk nav o).2.lbGnss = 0 ∧ usable (Ex.fix 4 : Gnss ℝ).mode := by
  refine ⟨Ex.zFusion, Ex.zNav, { (Ex.opt 2 : Opt ℝ) with lbGnss := 0 }, ?_, Or.inr (Or.inr (Or.inl rfl))⟩
  rfl
end Verif.Props
