import Verif.Props.Builds
import Verif.Props.Symm
import Verif.Props.Strapdown
import Mathlib.Tactic.Abel
import Mathlib.Tactic.FinCases
import Mathlib.Tactic.NormNum
/-! C99-C102: what the optional states mean, in exact arithmetic. Model: `Verif.Model.FusionExt`. -/
namespace Verif.Props
open Verif Verif.Spec Matrix Verif.Convert

/-- The state with number `k`. -/
def nr (c : Cfg) (k : Nat) (h : k < c.dim) : Fin c.dim := ⟨k, h⟩
/-- An error vector whose only components are three consecutive ones. -/
def only {n : Nat} (s : Nat) (u : V3 ℝ) : Fin n → ℝ :=
  fun j => if h : s ≤ j.val ∧ j.val < s + 3 then u ⟨j.val - s, by omega⟩ else 0

theorem sum_only {n : Nat} (s : Nat) (hs : s + 3 ≤ n) (u : V3 ℝ) (f : Fin n → ℝ) :
    ∑ j, f j * only s u j = f ⟨s, by omega⟩ * u 0 + f ⟨s + 1, by omega⟩ * u 1 + f ⟨s + 2, by omega⟩ * u 2 := by
  have l0 : s < n := by omega
  have l1 : s + 1 < n := by omega
  have l2 : s + 2 < n := by omega
  rw [← Finset.sum_subset (Finset.subset_univ ({⟨s, l0⟩, ⟨s + 1, l1⟩, ⟨s + 2, l2⟩} : Finset (Fin n)))]
  · rw [Finset.sum_insert, Finset.sum_insert, Finset.sum_singleton]
    · have h0 : only s u (⟨s, l0⟩ : Fin n) = u 0 := by
        unfold only; rw [dif_pos ⟨le_refl s, (by omega : s < s + 3)⟩]; congr 1; ext; simp
      have h1 : only s u (⟨s + 1, l1⟩ : Fin n) = u 1 := by
        unfold only; rw [dif_pos ⟨by simp, by simp⟩]; congr 1; ext; simp
      have h2 : only s u (⟨s + 2, l2⟩ : Fin n) = u 2 := by
        unfold only; rw [dif_pos ⟨by simp, by simp⟩]; congr 1; ext; simp
      rw [h0, h1, h2]; ring
    · simp
    · simp
  · intro j _ hj
    unfold only
    rw [dif_neg, mul_zero]
    rintro ⟨h1, h2⟩
    apply hj
    simp only [Finset.mem_insert, Finset.mem_singleton, Fin.ext_iff]
    omega

theorem setBlock_in {m n p q : Nat} (M : Matrix (Fin m) (Fin n) ℝ) (r c : Nat) (B : Matrix (Fin p) (Fin q) ℝ) (i : Fin m) (j : Fin n)
    (a : Fin p) (b : Fin q) (ha : i.val = r + a.val) (hb : j.val = c + b.val) : setBlock M r c B i j = B a b := by
  unfold setBlock
  rw [dif_pos ⟨by omega, by omega, by omega, by omega⟩]
  congr 1 <;> ext <;> simp <;> omega
theorem setBlock_out {m n p q : Nat} (M : Matrix (Fin m) (Fin n) ℝ) (r c : Nat) (B : Matrix (Fin p) (Fin q) ℝ) (i : Fin m) (j : Fin n)
    (h : i.val < r ∨ r + p ≤ i.val ∨ j.val < c ∨ c + q ≤ j.val) : setBlock M r c B i j = M i j := by
  unfold setBlock
  rw [dif_neg]
  omega
theorem setEntry_out {n : Nat} (M : Matrix (Fin n) (Fin n) ℝ) (r : Nat) (v : ℝ) (i j : Fin n)
    (h : i.val ≠ r ∨ j.val ≠ r) : setEntry M r v i j = M i j := by
  unfold setEntry
  exact setBlock_out _ _ _ _ _ _ (by omega)
theorem setEntry_in {n : Nat} (M : Matrix (Fin n) (Fin n) ℝ) (r : Nat) (v : ℝ) (i j : Fin n)
    (hi : i.val = r) (hj : j.val = r) : setEntry M r v i j = v := by
  unfold setEntry
  exact setBlock_in _ _ _ _ _ _ 0 0 (by simp [hi]) (by simp [hj])

theorem start_le (c : Cfg) : 15 ≤ c.gsStart ∧ 15 ≤ c.asStart ∧ 15 ≤ c.leverStart ∧ 15 ≤ c.odoStart := by
  revert c; decide
theorem phiBase_col (c : Cfg) (g : ℝ) (x : XFusion c ℝ) (i j : Fin c.dim) (hj : 15 ≤ j.val) : x.phiBase g i j = 0 := by
  unfold XFusion.phiBase
  iterate 10 rw [setBlock_out _ _ _ _ _ _ (by omega)]
  rfl
/-- The transition before the states of the lever arm and the odometer. -/
noncomputable def phiScale (c : Cfg) (g : ℝ) (x : XFusion c ℝ) : Matrix (Fin c.dim) (Fin c.dim) ℝ :=
  let p11 := if c.gs then setBlock (setBlock (x.phiBase g) c.gsStart c.gsStart (eyeM 3 - md (ms (eyeM 3 : M3 ℝ) x.core.ins.dt) x.core.opt.imuPara.gtCorr)) 9 c.gsStart
      (mmul (-x.core.ins.nav.Cbn) (diagM x.core.ins.gyroPre)) else x.phiBase g
  if c.as then setBlock (setBlock p11 c.asStart c.asStart (eyeM 3 - md (ms (eyeM 3 : M3 ℝ) x.core.ins.dt) x.core.opt.imuPara.atCorr)) 6 c.asStart
      (mmul x.core.ins.nav.Cbn (diagM x.core.ins.accePre)) else p11
theorem phi_scale (c : Cfg) (g : ℝ) (x : XFusion c ℝ) (i j : Fin c.dim) (hi : i.val < 15) : x.transferMatrix g i j = phiScale c g x i j := by
  obtain ⟨-, -, hl, ho⟩ := start_le c
  have key : ∀ M : Matrix (Fin c.dim) (Fin c.dim) ℝ, ∀ k : ℝ,
      (if c.odo then setEntry (if c.lever then setEntry (setEntry (setEntry M c.leverStart k) (c.leverStart + 1) k) (c.leverStart + 2) k else M) c.odoStart k
        else (if c.lever then setEntry (setEntry (setEntry M c.leverStart k) (c.leverStart + 1) k) (c.leverStart + 2) k else M)) i j = M i j := by
    intro M k
    split_ifs
    · iterate 4 rw [setEntry_out _ _ _ _ _ (by omega)]
    · rw [setEntry_out _ _ _ _ _ (by omega)]
    · iterate 3 rw [setEntry_out _ _ _ _ _ (by omega)]
    · rfl
  exact key _ _
/-- Rows 6 to 8 at the accelerometer's columns. -/
theorem phi_as (c : Cfg) (hc : c.as = true) (g : ℝ) (x : XFusion c ℝ) (i j : Fin c.dim) (a b : Fin 3) (hi : i.val = 6 + a.val) (hj : j.val = c.asStart + b.val) :
    x.transferMatrix g i j = x.core.ins.nav.Cbn a b * x.core.ins.accePre b := by
  rw [phi_scale c g x i j (by omega)]
  unfold phiScale
  rw [if_pos hc, setBlock_in _ _ _ _ _ _ a b hi hj, mmul_real, diagM_real, Matrix.mul_diagonal]
/-- Rows 9 to 11 at the gyroscope's columns. -/
theorem phi_gs (c : Cfg) (hc : c.gs = true) (g : ℝ) (x : XFusion c ℝ) (i j : Fin c.dim) (a b : Fin 3) (hi : i.val = 9 + a.val) (hj : j.val = c.gsStart + b.val) :
    x.transferMatrix g i j = -(x.core.ins.nav.Cbn a b * x.core.ins.gyroPre b) := by
  obtain ⟨hg, ha, hl, ho⟩ := start_le c
  rw [phi_scale c g x i j (by omega)]
  have e : ∀ B A M, (if c.as = true then setBlock (setBlock M c.asStart c.asStart (A : M3 ℝ)) 6 c.asStart (B : M3 ℝ) else M) i j = M i j := by
    intro B A M
    split_ifs
    · rw [setBlock_out _ _ _ _ _ _ (by omega), setBlock_out _ _ _ _ _ _ (by omega)]
    · rfl
  unfold phiScale
  rw [e, if_pos hc, setBlock_in _ _ _ _ _ _ a b hi hj, mmul_real, diagM_real, Matrix.mul_diagonal, Matrix.neg_apply, neg_mul]
/-- Everywhere else in the first fifteen rows the optional columns are zero. -/
theorem phi_zero (c : Cfg) (g : ℝ) (x : XFusion c ℝ) (i j : Fin c.dim) (hi : i.val < 15) (hj : 15 ≤ j.val)
    (ha : c.as = true → i.val < 6 ∨ 9 ≤ i.val ∨ j.val < c.asStart ∨ c.asStart + 3 ≤ j.val)
    (hg : c.gs = true → i.val < 9 ∨ 12 ≤ i.val ∨ j.val < c.gsStart ∨ c.gsStart + 3 ≤ j.val) : x.transferMatrix g i j = 0 := by
  obtain ⟨sg, sa, -, -⟩ := start_le c
  rw [phi_scale c g x i j (by omega)]
  have e : ∀ A B M, (if c.as = true then setBlock (setBlock M c.asStart c.asStart (A : M3 ℝ)) 6 c.asStart (B : M3 ℝ) else M) i j = M i j := by
    intro A B M
    split_ifs with h
    · have := ha h
      rw [setBlock_out _ _ _ _ _ _ (by omega), setBlock_out _ _ _ _ _ _ (by omega)]
    · rfl
  unfold phiScale
  rw [e]
  split_ifs with h
  · have := hg h
    rw [setBlock_out _ _ _ _ _ _ (by omega), setBlock_out _ _ _ _ _ _ (by omega), phiBase_col _ _ _ _ _ hj]
  · exact phiBase_col _ _ _ _ _ hj

/-- What an error `u` of the scale factors does to a compensated increment (`CompensateIMU`): to first order, and
exactly, it takes away `u` times the increment. -/
theorem scale_effect (dt : ℝ) (imu bias scale u : V3 ℝ) :
    Ins.compensate dt imu bias (scale + u) = Ins.compensate dt imu bias scale - (fun i => u i * (imu i - bias i * dt)) := by
  unfold Ins.compensate
  rw [mvec_real, mvec_real, eyeM_real, diagM_real, diagM_real]
  funext i
  rw [Matrix.sub_mulVec, Matrix.sub_mulVec, Matrix.one_mulVec]
  simp only [Pi.sub_apply, Matrix.mulVec_diagonal, Pi.add_apply, vs]
  ring

/-- C99 fails for the gyroscope: an error of the gyroscope scale factors `u` turns the computed attitude by
`Cbn (u ∘ ω)` per step, yet the transition leaves the attitude error alone and moves the gyroscope bias error
instead, by `-Cbn (u ∘ ω)`. -/
theorem C99_gyro_scale_wrong_rows (c : Cfg) (hc : c.gs = true) (hd : c.gsStart + 3 ≤ c.dim) (g : ℝ) (x : XFusion c ℝ) (u : V3 ℝ) :
    (∀ k : Fin 3, (x.transferMatrix g *ᵥ only c.gsStart u) (nr c (6 + k) (by have := c.le_dim; omega)) = 0) ∧
    (∀ k : Fin 3, (x.transferMatrix g *ᵥ only c.gsStart u) (nr c (9 + k) (by have := c.le_dim; omega)) =
      -(x.core.ins.nav.Cbn *ᵥ fun i => u i * x.core.ins.gyroPre i) k) ∧
    (∀ (dt : ℝ) (gyro gb gs : V3 ℝ), x.core.ins.nav.Cbn *ᵥ Ins.compensate dt gyro gb (gs + u) - x.core.ins.nav.Cbn *ᵥ Ins.compensate dt gyro gb gs =
      -(x.core.ins.nav.Cbn *ᵥ fun i => u i * (gyro i - gb i * dt))) := by
  have hla := c.le_dim
  have has : c.as = true → c.asStart = 18 := by intro h; unfold Cfg.asStart Cfg.gsStart Cfg.gsSize; rw [if_pos h, if_pos hc]
  have hg : c.gsStart = 15 := rfl
  refine ⟨?_, ?_, ?_⟩
  · intro k
    have z : ∀ b : Fin 3, x.transferMatrix g (nr c (6 + k) (by omega)) ⟨c.gsStart + b.val, by omega⟩ = 0 := fun b =>
      phi_zero c g x _ _ (show 6 + k.val < 15 by omega) (show 15 ≤ c.gsStart + b.val by omega)
        (fun h => by have := has h; right; right; left; show c.gsStart + b.val < c.asStart; omega) (fun _ => by left; show 6 + k.val < 9; omega)
    rw [Matrix.mulVec, dotProduct, sum_only _ hd]
    have z0 := z 0; have z1 := z 1; have z2 := z 2
    rw [show x.transferMatrix g (nr c (6 + k) (by omega)) ⟨c.gsStart, by omega⟩ = 0 from z0,
      show x.transferMatrix g (nr c (6 + k) (by omega)) ⟨c.gsStart + 1, by omega⟩ = 0 from z1,
      show x.transferMatrix g (nr c (6 + k) (by omega)) ⟨c.gsStart + 2, by omega⟩ = 0 from z2]
    ring
  · intro k
    have z : ∀ b : Fin 3, x.transferMatrix g (nr c (9 + k) (by omega)) ⟨c.gsStart + b.val, by omega⟩ = -(x.core.ins.nav.Cbn k b * x.core.ins.gyroPre b) := fun b =>
      phi_gs c hc g x _ _ k b rfl rfl
    rw [Matrix.mulVec, dotProduct, sum_only _ hd]
    have z0 := z 0; have z1 := z 1; have z2 := z 2
    rw [show x.transferMatrix g (nr c (9 + k) (by omega)) ⟨c.gsStart, by omega⟩ = _ from z0,
      show x.transferMatrix g (nr c (9 + k) (by omega)) ⟨c.gsStart + 1, by omega⟩ = _ from z1,
      show x.transferMatrix g (nr c (9 + k) (by omega)) ⟨c.gsStart + 2, by omega⟩ = _ from z2]
    simp only [Matrix.mulVec, dotProduct, Fin.sum_univ_three]
    ring
  · intro dt gyro gb gs
    rw [scale_effect, Matrix.mulVec_sub]
    abel

/-- C99 fails for the accelerometer: an error of its scale factors changes the velocity increment, yet the transition
leaves the velocity error alone and turns the attitude error. -/
theorem C99_acce_scale_wrong_rows (c : Cfg) (hc : c.as = true) (hd : c.asStart + 3 ≤ c.dim) (g : ℝ) (x : XFusion c ℝ) (u : V3 ℝ) :
    (∀ k : Fin 3, (x.transferMatrix g *ᵥ only c.asStart u) (nr c (3 + k) (by have := c.le_dim; omega)) = 0) ∧
    (∀ k : Fin 3, (x.transferMatrix g *ᵥ only c.asStart u) (nr c (6 + k) (by have := c.le_dim; omega)) =
      (x.core.ins.nav.Cbn *ᵥ fun i => u i * x.core.ins.accePre i) k) ∧
    (∀ (dt : ℝ) (acce ab as : V3 ℝ), x.core.ins.nav.Cbn *ᵥ Ins.compensate dt acce ab (as + u) - x.core.ins.nav.Cbn *ᵥ Ins.compensate dt acce ab as =
      -(x.core.ins.nav.Cbn *ᵥ fun i => u i * (acce i - ab i * dt))) := by
  have hla := c.le_dim
  obtain ⟨hg, ha, -, -⟩ := start_le c
  refine ⟨?_, ?_, ?_⟩
  · intro k
    have z : ∀ b : Fin 3, x.transferMatrix g (nr c (3 + k) (by omega)) ⟨c.asStart + b.val, by omega⟩ = 0 := fun b =>
      phi_zero c g x _ _ (show 3 + k.val < 15 by omega) (show 15 ≤ c.asStart + b.val by omega)
        (fun h => by left; show 3 + k.val < 6; omega) (fun _ => by left; show 3 + k.val < 9; omega)
    rw [Matrix.mulVec, dotProduct, sum_only _ hd]
    have z0 := z 0; have z1 := z 1; have z2 := z 2
    rw [show x.transferMatrix g (nr c (3 + k) (by omega)) ⟨c.asStart, by omega⟩ = 0 from z0,
      show x.transferMatrix g (nr c (3 + k) (by omega)) ⟨c.asStart + 1, by omega⟩ = 0 from z1,
      show x.transferMatrix g (nr c (3 + k) (by omega)) ⟨c.asStart + 2, by omega⟩ = 0 from z2]
    ring
  · intro k
    have z : ∀ b : Fin 3, x.transferMatrix g (nr c (6 + k) (by omega)) ⟨c.asStart + b.val, by omega⟩ = x.core.ins.nav.Cbn k b * x.core.ins.accePre b := fun b =>
      phi_as c hc g x _ _ k b rfl rfl
    rw [Matrix.mulVec, dotProduct, sum_only _ hd]
    have z0 := z 0; have z1 := z 1; have z2 := z 2
    rw [show x.transferMatrix g (nr c (6 + k) (by omega)) ⟨c.asStart, by omega⟩ = _ from z0,
      show x.transferMatrix g (nr c (6 + k) (by omega)) ⟨c.asStart + 1, by omega⟩ = _ from z1,
      show x.transferMatrix g (nr c (6 + k) (by omega)) ⟨c.asStart + 2, by omega⟩ = _ from z2]
    simp only [Matrix.mulVec, dotProduct, Fin.sum_univ_three]
    ring
  · intro dt acce ab as
    rw [scale_effect, Matrix.mulVec_sub]
    abel
/-- Such builds exist, with room for their states. -/
example : (⟨true, true, false, false⟩ : Cfg).gs = true ∧ (⟨true, true, false, false⟩ : Cfg).gsStart + 3 ≤ (⟨true, true, false, false⟩ : Cfg).dim ∧
    (⟨true, true, false, false⟩ : Cfg).as = true ∧ (⟨true, true, false, false⟩ : Cfg).asStart + 3 ≤ (⟨true, true, false, false⟩ : Cfg).dim := by decide

/-- C100 fails: lengthening the lever arm by `u` adds `Cbn u` to the position innovation, so an estimate `u` should
predict `-Cbn u`; the measurement matrix predicts the opposite sign for the vertical component, and a north component
too small by the factor of the earth's radius. -/
theorem C100_lever_arm_sensitivity (c : Cfg) (hc : c.lever = true) (hd : c.leverStart + 3 ≤ c.dim) (x : XFusion c ℝ) (u pos : V3 ℝ) :
    ({ x.core with lbGnss := x.core.lbGnss + u } : Fusion ℝ).posZ pos = x.core.posZ pos + x.core.ins.nav.Cbn *ᵥ u ∧
    (x.posH *ᵥ only c.leverStart u) 2 = (x.core.ins.nav.Cbn *ᵥ u) 2 ∧
    (x.posH *ᵥ only c.leverStart u) 0 = -(x.core.ins.nav.Cbn *ᵥ u) 0 / (Earth.RM (x.core.ins.nav.pos 0) + x.core.ins.nav.pos 2) := by
  have hl : 15 ≤ c.leverStart := by unfold Cfg.leverStart Cfg.asStart Cfg.gsStart; split_ifs <;> omega
  have entry : ∀ (i b : Fin 3), x.posH i ⟨c.leverStart + b.val, by omega⟩ =
      -(v3 (1 / (Earth.RM (x.core.ins.nav.pos 0) + x.core.ins.nav.pos 2))
        (1 / ((Earth.RN (x.core.ins.nav.pos 0) + x.core.ins.nav.pos 2) * Real.cos (x.core.ins.nav.pos 0))) (-1) i * x.core.ins.nav.Cbn i b) := by
    intro i b
    unfold XFusion.posH
    rw [if_pos hc, setBlock_in _ _ _ _ _ _ i b (by simp) rfl, mmul_real, diagM_real, Matrix.neg_apply, Matrix.diagonal_mul]
    rfl
  refine ⟨?_, ?_, ?_⟩
  · unfold Fusion.posZ
    rw [mvec_real, mvec_real, mvec_real, Matrix.mulVec_add]
    abel
  · rw [Matrix.mulVec, dotProduct, sum_only _ hd]
    have h0 := entry 2 0; have h1 := entry 2 1; have h2 := entry 2 2
    simp only [Fin.val_zero, Fin.val_one, Fin.val_two, add_zero] at h0 h1 h2
    rw [h0, h1, h2]
    simp only [v3, Matrix.cons_val, Matrix.mulVec, dotProduct, Fin.sum_univ_three]
    ring
  · rw [Matrix.mulVec, dotProduct, sum_only _ hd]
    have h0 := entry 0 0; have h1 := entry 0 1; have h2 := entry 0 2
    simp only [Fin.val_zero, Fin.val_one, Fin.val_two, add_zero] at h0 h1 h2
    rw [h0, h1, h2]
    simp only [v3, Matrix.cons_val_zero, Matrix.mulVec, dotProduct, Fin.sum_univ_three]
    ring
example : (⟨false, false, true, false⟩ : Cfg).lever = true ∧ (⟨false, false, true, false⟩ : Cfg).leverStart + 3 ≤ (⟨false, false, true, false⟩ : Cfg).dim := by
  decide

/-! ## C102: the odometer scale -/
/-- A state uncorrelated with all others. -/
def alone {n : Nat} (o : Fin n) (A : Matrix (Fin n) (Fin n) ℝ) : Prop := ∀ j, j ≠ o → A o j = 0 ∧ A j o = 0

theorem alone_mul {n : Nat} {o : Fin n} {A B : Matrix (Fin n) (Fin n) ℝ} (hA : alone o A) (hB : alone o B) : alone o (A * B) := by
  intro j hj
  constructor
  · rw [Matrix.mul_apply]
    refine Finset.sum_eq_zero fun k _ => ?_
    by_cases hk : k = o
    · rw [hk, (hB j hj).1, mul_zero]
    · rw [(hA k hk).1, zero_mul]
  · rw [Matrix.mul_apply]
    refine Finset.sum_eq_zero fun k _ => ?_
    by_cases hk : k = o
    · rw [hk, (hA j hj).2, zero_mul]
    · rw [(hB k hk).2, mul_zero]
theorem alone_add {n : Nat} {o : Fin n} {A B : Matrix (Fin n) (Fin n) ℝ} (hA : alone o A) (hB : alone o B) : alone o (A + B) := fun j hj =>
  ⟨by rw [Matrix.add_apply, (hA j hj).1, (hB j hj).1, add_zero], by rw [Matrix.add_apply, (hA j hj).2, (hB j hj).2, add_zero]⟩
theorem alone_t {n : Nat} {o : Fin n} {A : Matrix (Fin n) (Fin n) ℝ} (hA : alone o A) : alone o Aᵀ := fun j hj => ⟨(hA j hj).2, (hA j hj).1⟩
theorem alone_smul {n : Nat} {o : Fin n} {A : Matrix (Fin n) (Fin n) ℝ} (k : ℝ) (hA : alone o A) : alone o (k • A) := fun j hj =>
  ⟨by rw [Matrix.smul_apply, (hA j hj).1, smul_zero], by rw [Matrix.smul_apply, (hA j hj).2, smul_zero]⟩

/-- A measurement that does not see the state leaves it alone and learns nothing about it. -/
theorem alone_update {n p : Nat} {o : Fin n} (k : Kf n ℝ) (H : Matrix (Fin p) (Fin n) ℝ) (z : Fin p → ℝ) (R : Matrix (Fin p) (Fin p) ℝ)
    (hP : alone o k.P) (hH : ∀ i, H i o = 0) :
    alone o (k.update H z R).P ∧ (k.update H z R).P o o = k.P o o ∧ (k.update H z R).Xd o = 0 := by
  rw [(update_P k H z R).1, (update_P k H z R).2]
  set K := k.P * Hᵀ * (H * k.P * Hᵀ + R)⁻¹ with hK
  have hPH : ∀ i, (k.P * Hᵀ) o i = 0 := by
    intro i
    rw [Matrix.mul_apply]
    refine Finset.sum_eq_zero fun l _ => ?_
    by_cases hl : l = o
    · rw [hl, Matrix.transpose_apply, hH, mul_zero]
    · rw [(hP l hl).1, zero_mul]
  have hKo : ∀ i, K o i = 0 := by
    intro i
    rw [hK, Matrix.mul_apply]
    exact Finset.sum_eq_zero fun l _ => by rw [hPH, zero_mul]
  have hKHo : ∀ j, (K * H) o j = 0 := fun j => by
    rw [Matrix.mul_apply]; exact Finset.sum_eq_zero fun l _ => by rw [hKo, zero_mul]
  have hKHc : ∀ j, (K * H) j o = 0 := fun j => by
    rw [Matrix.mul_apply]; exact Finset.sum_eq_zero fun l _ => by rw [hH, mul_zero]
  have hT : alone o (1 - K * H) := fun j hj =>
    ⟨by rw [Matrix.sub_apply, hKHo, Matrix.one_apply_ne (Ne.symm hj), sub_zero],
     by rw [Matrix.sub_apply, hKHc, Matrix.one_apply_ne hj, sub_zero]⟩
  have hKR : ∀ j, (K * R * Kᵀ) o j = 0 ∧ (K * R * Kᵀ) j o = 0 := by
    intro j
    constructor
    · rw [Matrix.mul_assoc, Matrix.mul_apply]; exact Finset.sum_eq_zero fun l _ => by rw [hKo, zero_mul]
    · rw [Matrix.mul_apply]; exact Finset.sum_eq_zero fun l _ => by rw [Matrix.transpose_apply, hKo, mul_zero]
  refine ⟨alone_add (alone_mul (alone_mul hT hP) (alone_t hT)) (fun j _ => hKR j), ?_, ?_⟩
  · rw [Matrix.add_apply, (hKR o).1, add_zero]
    have row : ∀ (A B : Matrix (Fin n) (Fin n) ℝ), alone o A → (A * B) o o = A o o * B o o := by
      intro A B hA
      rw [Matrix.mul_apply, Finset.sum_eq_single o]
      · intro b _ hb; rw [(hA b hb).1, zero_mul]
      · intro h; exact absurd (Finset.mem_univ _) h
    rw [row _ _ (alone_mul hT hP), row _ _ hT, Matrix.transpose_apply]
    simp only [Matrix.sub_apply, hKHo, Matrix.one_apply_eq]
    ring
  · rw [Matrix.mulVec, dotProduct]
    exact Finset.sum_eq_zero fun l _ => by rw [hKo, zero_mul]

/-- What never changes about the odometer scale. -/
structure Unseen {c : Cfg} (o : Fin c.dim) (x : XFusion c ℝ) : Prop where
  P : alone o x.kf.P
  Q : alone o x.Q0
  X : x.kf.Xd o = 0
  K : x.kfXd o = 0

theorem odo_lt (c : Cfg) (h : c.odo = true) : c.odoStart < c.dim := by
  revert c; decide
/-- The odometer's state is its own. -/
def ownOdo (c : Cfg) : Prop := c.odo = true ∧ (c.lever = true → c.as = true ∨ c.gs = false) ∧ (c.lever = true ∨ (c.as = false ∧ c.gs = false))
instance (c : Cfg) : Decidable (ownOdo c) := by unfold ownOdo; infer_instance
theorem own_apart (c : Cfg) (h : ownOdo c) : 15 ≤ c.odoStart ∧ (c.gs = true → c.gsStart + 3 ≤ c.odoStart) ∧
    (c.as = true → c.asStart + 3 ≤ c.odoStart) ∧ (c.lever = true → c.leverStart + 3 ≤ c.odoStart) := by
  revert c; decide

/-- Writing blocks away from a state's row and column keeps it alone. -/
theorem alone_setBlock {n p : Nat} {o : Fin n} (M : Matrix (Fin n) (Fin n) ℝ) (r s : Nat) (B : Matrix (Fin p) (Fin p) ℝ) (h : alone o M)
    (hr : r + p ≤ o.val) (hs : s + p ≤ o.val) : alone o (setBlock M r s B) := fun j hj =>
  ⟨by rw [setBlock_out _ _ _ _ _ _ (by omega)]; exact (h j hj).1, by rw [setBlock_out _ _ _ _ _ _ (by omega)]; exact (h j hj).2⟩
theorem alone_setEntry {n : Nat} {o : Fin n} (M : Matrix (Fin n) (Fin n) ℝ) (r : Nat) (v : ℝ) (h : alone o M) : alone o (setEntry M r v) := by
  intro j hj
  have hne : j.val ≠ o.val := fun e => hj (Fin.ext e)
  exact ⟨by rw [setEntry_out _ _ _ _ _ (by omega)]; exact (h j hj).1, by rw [setEntry_out _ _ _ _ _ (by omega)]; exact (h j hj).2⟩
theorem alone_zero {n : Nat} (o : Fin n) : alone o (zeroM : Matrix (Fin n) (Fin n) ℝ) := fun _ _ => ⟨rfl, rfl⟩
theorem alone_ite {n : Nat} {o : Fin n} (b : Bool) {A B : Matrix (Fin n) (Fin n) ℝ} (hA : b = true → alone o A) (hB : alone o B) :
    alone o (if b = true then A else B) := by
  split_ifs with h
  · exact hA h
  · exact hB

theorem alone_phi (c : Cfg) (h : ownOdo c) (o : Fin c.dim) (ho : o.val = c.odoStart) (g : ℝ) (x : XFusion c ℝ) : alone o (x.transferMatrix g) := by
  obtain ⟨h15, hg, ha, hl⟩ := own_apart c h
  have hB0 : alone o (x.phiBase g) := by
    unfold XFusion.phiBase
    iterate 10 refine alone_setBlock _ _ _ _ ?_ (by omega) (by omega)
    exact alone_zero o
  unfold XFusion.transferMatrix
  refine alone_ite _ (fun _ => alone_setEntry _ _ _ ?_) ?_
  all_goals
    refine alone_ite _ (fun _ => alone_setEntry _ _ _ (alone_setEntry _ _ _ (alone_setEntry _ _ _ ?_))) ?_
  all_goals
    refine alone_ite _ (fun e => ?_) ?_
  all_goals first
    | (refine alone_setBlock _ _ _ _ (alone_setBlock _ _ _ _ ?_ (by have := ha e; omega) (by have := ha e; omega)) (by omega) (by have := ha e; omega)
       refine alone_ite _ (fun e => ?_) hB0
       exact alone_setBlock _ _ _ _ (alone_setBlock _ _ _ _ hB0 (by have := hg e; omega) (by have := hg e; omega)) (by omega) (by have := hg e; omega))
    | (refine alone_ite _ (fun e => ?_) hB0
       exact alone_setBlock _ _ _ _ (alone_setBlock _ _ _ _ hB0 (by have := hg e; omega) (by have := hg e; omega)) (by omega) (by have := hg e; omega))
theorem alone_stepQ {c : Cfg} {o : Fin c.dim} (x : XFusion c ℝ) (phi : Matrix (Fin c.dim) (Fin c.dim) ℝ) (hQ : alone o x.Q0) (hp : alone o phi) :
    alone o (x.stepQ phi) := by
  unfold XFusion.stepQ
  rw [ms_real, sm_real, mmul_real, mmul_real]
  exact alone_smul _ (alone_smul _ (alone_add (alone_mul hp hQ) (alone_mul hQ (alone_t hp))))

theorem posH_odo (c : Cfg) (h : ownOdo c) (o : Fin c.dim) (ho : o.val = c.odoStart) (x : XFusion c ℝ) (i : Fin 3) : x.posH i o = 0 := by
  obtain ⟨h15, hg, ha, hl⟩ := own_apart c h
  unfold XFusion.posH
  split_ifs with e
  · rw [setBlock_out _ _ _ _ _ _ (by have := hl e; omega), setBlock_out _ _ _ _ _ _ (by omega), setBlock_out _ _ _ _ _ _ (by omega)]; rfl
  · rw [setBlock_out _ _ _ _ _ _ (by omega), setBlock_out _ _ _ _ _ _ (by omega)]; rfl
theorem velH_odo (c : Cfg) (h : ownOdo c) (o : Fin c.dim) (ho : o.val = c.odoStart) (x : XFusion c ℝ) (i : Fin 3) : x.velH i o = 0 := by
  obtain ⟨h15, -⟩ := own_apart c h
  unfold XFusion.velH
  rw [setBlock_out _ _ _ _ _ _ (by omega), setBlock_out _ _ _ _ _ _ (by omega), setBlock_out _ _ _ _ _ _ (by omega)]; rfl

theorem unseen_update {c : Cfg} {p : Nat} {o : Fin c.dim} {x y : XFusion c ℝ} (hu : Unseen o x) (H : Matrix (Fin p) (Fin c.dim) ℝ) (z : Fin p → ℝ)
    (R : Matrix (Fin p) (Fin p) ℝ) (hH : ∀ i, H i o = 0) (hk : y.kf = x.kf.update H z R) (hq : y.Q0 = x.Q0) (hx : y.kfXd = x.kfXd) : Unseen o y := by
  obtain ⟨a, -, d⟩ := alone_update x.kf H z R hu.P hH
  exact ⟨by rw [hk]; exact a, by rw [hq]; exact hu.Q, by rw [hk]; exact d, by rw [hx]; exact hu.K⟩
theorem unseen_same {c : Cfg} {o : Fin c.dim} {x y : XFusion c ℝ} (hu : Unseen o x) (hk : y.kf = x.kf) (hq : y.Q0 = x.Q0) (hx : y.kfXd = x.kfXd) :
    Unseen o y := ⟨by rw [hk]; exact hu.P, by rw [hq]; exact hu.Q, by rw [hk]; exact hu.X, by rw [hx]; exact hu.K⟩

theorem unseen_zupt {c : Cfg} (h : ownOdo c) {o : Fin c.dim} (ho : o.val = c.odoStart) (x : XFusion c ℝ) (hu : Unseen o x) : Unseen o x.zuptStage := by
  obtain ⟨h15, -⟩ := own_apart c h
  unfold XFusion.zuptStage
  split_ifs
  · refine unseen_same (x := x.measureZeroVelocity) ?_ rfl rfl rfl
    have hH1 : ∀ i, (setBlock (zeroM : Matrix (Fin 3) (Fin c.dim) ℝ) 0 3 (eyeM 3 : M3 ℝ)) i o = 0 := fun i =>
      setBlock_out _ _ _ _ _ _ (by omega)
    have h1 : Unseen o ({ x with kf := (x.kf.update (setBlock (zeroM : Matrix (Fin 3) (Fin c.dim) ℝ) 0 3 (eyeM 3 : M3 ℝ)) x.core.ins.nav.vn
        (diagM fun _ => x.core.opt.zuptStd * x.core.opt.zuptStd)) } : XFusion c ℝ) := unseen_update hu _ _ _ hH1 rfl rfl rfl
    by_cases hz : x.core.opt.zuptaEnable = 0
    · refine unseen_same h1 ?_ rfl rfl
      exact if_pos hz
    · refine unseen_update h1 (fun (_ : Fin 1) j => if j.val = 11 then 1 else 0) (fun _ => x.core.ins.gyroPre 2 / x.core.ins.dt)
        (fun _ _ => x.core.opt.zuptaStd * x.core.opt.zuptaStd) ?_ (if_neg hz) rfl rfl
      intro i; exact if_neg (by omega)
  · exact unseen_same hu rfl rfl rfl
  · exact hu
theorem unseen_nhc {c : Cfg} (h : ownOdo c) {o : Fin c.dim} (ho : o.val = c.odoStart) (x : XFusion c ℝ) (hu : Unseen o x) : Unseen o x.nhcStage := by
  unfold XFusion.nhcStage
  split_ifs
  · refine unseen_same (x := x.measureNHC) ?_ rfl rfl rfl
    exact unseen_update hu _ _ _ (fun i => velH_odo c h o ho x _) rfl rfl rfl
  · exact unseen_same hu rfl rfl rfl
theorem unseen_time {c : Cfg} (h : ownOdo c) {o : Fin c.dim} (ho : o.val = c.odoStart) (g : ℝ) (x : XFusion c ℝ) (m : Imu ℝ) (hu : Unseen o x)
    (r : ℝ × XFusion c ℝ) (hr : x.timeUpdate g m = some r) : Unseen o r.2 := by
  have h1 : Unseen o x.takeCorrection := by
    unfold XFusion.takeCorrection
    split_ifs
    · exact ⟨hu.P, hu.Q, rfl, hu.X⟩
    · exact hu
  unfold XFusion.timeUpdate at hr
  obtain ⟨y, hy, hr⟩ := Option.map_eq_some_iff.1 hr
  have h2 : Unseen o y := by
    unfold XFusion.applyCorrection at hy
    split_ifs at hy
    · obtain ⟨w, hw, e⟩ := Option.map_eq_some_iff.1 hy
      unfold XFusion.feedBack at hw
      split_ifs at hw
      injection hw with hw
      subst hw e
      exact unseen_same h1 rfl rfl rfl
    · injection hy with hy; subst hy; exact h1
  have h3 : Unseen o (y.propagate g m).2 := by
    unfold XFusion.propagate
    dsimp only
    generalize (Ins.forwardImu g y.core.ins m) = fw
    set w : XFusion c ℝ := { y with core := { y.core with smooth := y.core.smooth.update m, ins := fw.2 } } with hw
    have hp := alone_phi c h o ho fw.1 w
    have hq : alone o (w.stepQ (w.transferMatrix fw.1)) := alone_stepQ w _ h2.Q hp
    refine ⟨?_, h2.Q, ?_, h2.K⟩
    · show alone o (w.kf.predict (w.transferMatrix fw.1) (w.stepQ (w.transferMatrix fw.1))).P
      rw [(predict_P _ _ _).1]
      exact alone_add (alone_mul (alone_mul hp h2.P) (alone_t hp)) hq
    · show (w.kf.predict (w.transferMatrix fw.1) (w.stepQ (w.transferMatrix fw.1))).Xd o = 0
      rw [(predict_P _ _ _).2, Matrix.mulVec, dotProduct]
      refine Finset.sum_eq_zero fun l _ => ?_
      by_cases hl : l = o
      · rw [hl, show w.kf.Xd o = 0 from h2.X, mul_zero]
      · rw [(hp l hl).1, zero_mul]
  have h4 := unseen_nhc h ho _ (unseen_zupt h ho _ h3)
  rw [← hr]
  exact unseen_same h4 rfl rfl rfl
theorem unseen_exec {c : Cfg} (h : ownOdo c) {o : Fin c.dim} (ho : o.val = c.odoStart) (k : FCall ℝ) (s t : ℝ × XFusion c ℝ) (hu : Unseen o s.2)
    (he : xexec k s = some t) : Unseen o t.2 := by
  have vel : ∀ v, Unseen o (s.2.measureVel v) := by
    intro v
    unfold XFusion.measureVel
    dsimp only
    split_ifs
    · exact unseen_update hu _ _ _ (fun i => velH_odo c h o ho _ _) rfl rfl rfl
    · exact unseen_update hu (fun (_ : Fin 1) j => (s.2.setSensor SENSOR_ODO).velH 0 j) _ _ (fun i => velH_odo c h o ho _ _) rfl rfl rfl
  cases k with
  | time m => exact unseen_time h ho s.1 s.2 m hu t he
  | gnss m =>
    injection he with he; subst he
    show Unseen o (s.2.measureGnss m)
    unfold XFusion.measureGnss
    split_ifs
    · exact unseen_update hu (XFusion.posH { s.2 with core := (s.2.core.setSensor SENSOR_GNSS).setGnssMode m.mode }) _ _
        (fun i => posH_odo c h o ho _ _) rfl rfl rfl
    · exact unseen_same hu rfl rfl rfl
  | pos p R => injection he with he; subst he; exact unseen_update hu s.2.posH _ _ (fun i => posH_odo c h o ho _ _) rfl rfl rfl
  | vel v => injection he with he; subst he; exact vel v
  | speed v => injection he with he; subst he; exact vel _
  | height v =>
    injection he with he; subst he
    have h1 : Unseen o (xprep s.2 v) := by
      unfold xprep; split_ifs
      · exact unseen_same hu rfl rfl rfl
      · exact hu
    have h2 : Unseen o (xmain (xprep s.2 v) v) := by
      generalize xprep s.2 v = y at h1
      unfold xmain; split_ifs
      · exact unseen_update h1 (fun (_ : Fin 1) j => y.posH 2 j) _ _ (fun i => posH_odo c h o ho _ _) rfl rfl rfl
      · exact unseen_same h1 rfl rfl rfl
    exact unseen_same h2 rfl rfl rfl

/-- Off the diagonal the matrix whose square is the initial covariance is zero. -/
theorem initStd_alone (c : Cfg) (nav : NavEpoch ℝ) (op : Opt ℝ) (o : Fin c.dim) : alone o (XFusion.initStd c nav op) := by
  have d : ∀ (M : Matrix (Fin c.dim) (Fin c.dim) ℝ) (r : Nat) (v : V3 ℝ), alone o M → alone o (setBlock M r r (diagM v)) := by
    intro M r v hM j hj
    have hne : j.val ≠ o.val := fun e => hj (Fin.ext e)
    unfold setBlock
    constructor
    · split_ifs with h
      · exact if_neg (fun e => hne (by have := congrArg Fin.val e; simp at this; omega))
      · exact (hM j hj).1
    · split_ifs with h
      · exact if_neg (fun e => hne (by have := congrArg Fin.val e; simp at this; omega))
      · exact (hM j hj).2
  have b : alone o (setBlock (setBlock (setBlock (setBlock (setBlock (zeroM : Matrix (Fin c.dim) (Fin c.dim) ℝ) 0 0 (diagM nav.posStd))
      3 3 (diagM nav.velStd)) 6 6 (diagM nav.attStd)) 9 9 (diagM op.imuPara.gbStd)) 12 12 (diagM op.imuPara.abStd)) :=
    d _ _ _ (d _ _ _ (d _ _ _ (d _ _ _ (d _ _ _ (alone_zero o)))))
  unfold XFusion.initStd
  refine alone_ite _ (fun _ => alone_setEntry _ _ _ ?_) ?_
  all_goals refine alone_ite _ (fun _ => alone_setEntry _ _ _ (alone_setEntry _ _ _ (alone_setEntry _ _ _ ?_))) ?_
  all_goals refine alone_ite _ (fun _ => alone_setEntry _ _ _ (alone_setEntry _ _ _ (alone_setEntry _ _ _ ?_))) ?_
  all_goals refine alone_ite _ (fun _ => alone_setEntry _ _ _ (alone_setEntry _ _ _ (alone_setEntry _ _ _ ?_))) ?_
  all_goals exact b
theorem initial_cov (c : Cfg) (g : ℝ) (junk : Fusion ℝ) (nav : NavEpoch ℝ) (op : Opt ℝ) (o : Fin c.dim) :
    (xstart c g junk nav op).2.kf.P o o = XFusion.initStd c nav op o o ^ 2 ∧
    ∀ j, j ≠ o → (xstart c g junk nav op).2.kf.P o j = 0 := by
  have e : (xstart c g junk nav op).2.kf.P = XFusion.initStd c nav op * XFusion.initStd c nav op := by
    rw [← mmul_real]; rfl
  rw [e]
  refine ⟨?_, fun j hj => (alone_mul (initStd_alone c nav op o) (initStd_alone c nav op o) j hj).1⟩
  rw [Matrix.mul_apply, Finset.sum_eq_single o]
  · ring
  · intro b _ hb; rw [(initStd_alone c nav op o b hb).1, zero_mul]
  · intro h; exact absurd (Finset.mem_univ _) h

/-- The entries behind a group of three states, seen from elsewhere. -/
theorem three_out {n : Nat} (b : Bool) (M : Matrix (Fin n) (Fin n) ℝ) (k : Nat) (v0 v1 v2 : ℝ) (o : Fin n) (h : b = true → o.val < k ∨ k + 3 ≤ o.val) :
    (if b = true then setEntry (setEntry (setEntry M k v0) (k + 1) v1) (k + 2) v2 else M) o o = M o o := by
  split_ifs with hb
  · have := h hb
    iterate 3 rw [setEntry_out _ _ _ _ _ (by omega)]
  · rfl
theorem three_in {n : Nat} (M : Matrix (Fin n) (Fin n) ℝ) (k : Nat) (v : V3 ℝ) (o : Fin n) (i : Fin 3) (h : o.val = k + i.val) :
    setEntry (setEntry (setEntry M k (v 0)) (k + 1) (v 1)) (k + 2) (v 2) o o = v i := by
  fin_cases i
  · have h : o.val = k := h
    rw [setEntry_out _ _ _ _ _ (by omega), setEntry_out _ _ _ _ _ (by omega), setEntry_in _ _ _ _ _ h h]; rfl
  · have h : o.val = k + 1 := h
    rw [setEntry_out _ _ _ _ _ (by omega), setEntry_in _ _ _ _ _ h h]; rfl
  · have h : o.val = k + 2 := h
    rw [setEntry_in _ _ _ _ _ h h]; rfl
theorem one_out {n : Nat} (b : Bool) (M : Matrix (Fin n) (Fin n) ℝ) (k : Nat) (v : ℝ) (o : Fin n) (h : b = true → o.val ≠ k) :
    (if b = true then setEntry M k v else M) o o = M o o := by
  split_ifs with hb
  · have := h hb
    rw [setEntry_out _ _ _ _ _ (by omega)]
  · rfl

/-- The configured standard deviation of a fixed state. -/
def configuredStd (nav : NavEpoch ℝ) (op : Opt ℝ) (k : Fin 15) : ℝ :=
  ![nav.posStd 0, nav.posStd 1, nav.posStd 2, nav.velStd 0, nav.velStd 1, nav.velStd 2, nav.attStd 0, nav.attStd 1, nav.attStd 2,
    op.imuPara.gbStd 0, op.imuPara.gbStd 1, op.imuPara.gbStd 2, op.imuPara.abStd 0, op.imuPara.abStd 1, op.imuPara.abStd 2] k

/-- C101: in every build the initial covariance is diagonal and each of the fifteen fixed states starts with the
variance it was given. -/
theorem C101_fixed_states (c : Cfg) (g : ℝ) (junk : Fusion ℝ) (nav : NavEpoch ℝ) (op : Opt ℝ) :
    (∀ i j, i ≠ j → (xstart c g junk nav op).2.kf.P i j = 0) ∧
    ∀ k : Fin 15, (xstart c g junk nav op).2.kf.P (nr c k (Nat.lt_of_lt_of_le k.isLt c.le_dim)) (nr c k (Nat.lt_of_lt_of_le k.isLt c.le_dim)) =
      configuredStd nav op k ^ 2 := by
  refine ⟨fun i j h => (initial_cov c g junk nav op i).2 j (Ne.symm h), fun k => ?_⟩
  rw [(initial_cov c g junk nav op _).1]
  congr 1
  obtain ⟨hg, ha, hl, ho⟩ := start_le c
  unfold XFusion.initStd
  set o : Fin c.dim := nr c k (Nat.lt_of_lt_of_le k.isLt c.le_dim) with hod
  have hov : o.val = k.val := rfl
  rw [one_out _ _ _ _ o (fun _ => by omega), three_out _ _ _ _ _ _ o (fun _ => by omega), three_out _ _ _ _ _ _ o (fun _ => by omega),
    three_out _ _ _ _ _ _ o (fun _ => by omega)]
  clear_value o
  fin_cases k
  all_goals simp only [Fin.reduceFinMk, Fin.zero_eta, Fin.mk_one, Fin.isValue] at hov
  · rw [setBlock_out _ _ _ _ _ _ (by omega), setBlock_out _ _ _ _ _ _ (by omega), setBlock_out _ _ _ _ _ _ (by omega), setBlock_out _ _ _ _ _ _ (by omega),
      setBlock_in _ _ _ _ _ _ 0 0 (by rw [hov]; rfl) (by rw [hov]; rfl)]; rfl
  · rw [setBlock_out _ _ _ _ _ _ (by omega), setBlock_out _ _ _ _ _ _ (by omega), setBlock_out _ _ _ _ _ _ (by omega), setBlock_out _ _ _ _ _ _ (by omega),
      setBlock_in _ _ _ _ _ _ 1 1 (by rw [hov]; rfl) (by rw [hov]; rfl)]; rfl
  · rw [setBlock_out _ _ _ _ _ _ (by omega), setBlock_out _ _ _ _ _ _ (by omega), setBlock_out _ _ _ _ _ _ (by omega), setBlock_out _ _ _ _ _ _ (by omega),
      setBlock_in _ _ _ _ _ _ 2 2 (by rw [hov]; rfl) (by rw [hov]; rfl)]; rfl
  · rw [setBlock_out _ _ _ _ _ _ (by omega), setBlock_out _ _ _ _ _ _ (by omega), setBlock_out _ _ _ _ _ _ (by omega),
      setBlock_in _ _ _ _ _ _ 0 0 (by rw [hov]; rfl) (by rw [hov]; rfl)]; rfl
  · rw [setBlock_out _ _ _ _ _ _ (by omega), setBlock_out _ _ _ _ _ _ (by omega), setBlock_out _ _ _ _ _ _ (by omega),
      setBlock_in _ _ _ _ _ _ 1 1 (by rw [hov]; rfl) (by rw [hov]; rfl)]; rfl
  · rw [setBlock_out _ _ _ _ _ _ (by omega), setBlock_out _ _ _ _ _ _ (by omega), setBlock_out _ _ _ _ _ _ (by omega),
      setBlock_in _ _ _ _ _ _ 2 2 (by rw [hov]; rfl) (by rw [hov]; rfl)]; rfl
  · rw [setBlock_out _ _ _ _ _ _ (by omega), setBlock_out _ _ _ _ _ _ (by omega),
      setBlock_in _ _ _ _ _ _ 0 0 (by rw [hov]; rfl) (by rw [hov]; rfl)]; rfl
  · rw [setBlock_out _ _ _ _ _ _ (by omega), setBlock_out _ _ _ _ _ _ (by omega),
      setBlock_in _ _ _ _ _ _ 1 1 (by rw [hov]; rfl) (by rw [hov]; rfl)]; rfl
  · rw [setBlock_out _ _ _ _ _ _ (by omega), setBlock_out _ _ _ _ _ _ (by omega),
      setBlock_in _ _ _ _ _ _ 2 2 (by rw [hov]; rfl) (by rw [hov]; rfl)]; rfl
  · rw [setBlock_out _ _ _ _ _ _ (by omega), setBlock_in _ _ _ _ _ _ 0 0 (by rw [hov]; rfl) (by rw [hov]; rfl)]; rfl
  · rw [setBlock_out _ _ _ _ _ _ (by omega), setBlock_in _ _ _ _ _ _ 1 1 (by rw [hov]; rfl) (by rw [hov]; rfl)]; rfl
  · rw [setBlock_out _ _ _ _ _ _ (by omega), setBlock_in _ _ _ _ _ _ 2 2 (by rw [hov]; rfl) (by rw [hov]; rfl)]; rfl
  · rw [setBlock_in _ _ _ _ _ _ 0 0 (by rw [hov]; rfl) (by rw [hov]; rfl)]; rfl
  · rw [setBlock_in _ _ _ _ _ _ 1 1 (by rw [hov]; rfl) (by rw [hov]; rfl)]; rfl
  · rw [setBlock_in _ _ _ _ _ _ 2 2 (by rw [hov]; rfl) (by rw [hov]; rfl)]; rfl

/-- The build gives every optional quantity a place of its own (see `C97_layout`). -/
def roomy (c : Cfg) : Prop := (c.lever = true → c.as = true ∨ c.gs = false) ∧ (c.odo = true → c.lever = true ∨ (c.as = false ∧ c.gs = false))
instance (c : Cfg) : Decidable (roomy c) := by unfold roomy; infer_instance
theorem roomy_order (c : Cfg) (h : roomy c) : (c.gs = true → c.gsStart + 3 ≤ c.dim ∧ (c.as = true → c.gsStart + 3 ≤ c.asStart) ∧
      (c.lever = true → c.gsStart + 3 ≤ c.leverStart) ∧ (c.odo = true → c.gsStart + 3 ≤ c.odoStart)) ∧
    (c.as = true → c.asStart + 3 ≤ c.dim ∧ (c.lever = true → c.asStart + 3 ≤ c.leverStart) ∧ (c.odo = true → c.asStart + 3 ≤ c.odoStart)) ∧
    (c.lever = true → c.leverStart + 3 ≤ c.dim ∧ (c.odo = true → c.leverStart + 3 ≤ c.odoStart)) ∧ (c.odo = true → c.odoStart < c.dim) := by
  revert c; decide

/-- C101 fails for the scale factors: the variance is the fourth power of the configured deviation. The lever arm
starts at one millimetre and the odometer scale at 1e-9, whatever the configuration says. -/
theorem C101_optional_states (c : Cfg) (h : roomy c) (g : ℝ) (junk : Fusion ℝ) (nav : NavEpoch ℝ) (op : Opt ℝ) :
    (∀ (e : c.gs = true) (i : Fin 3), ∃ o : Fin c.dim, o.val = c.gsStart + i.val ∧ (xstart c g junk nav op).2.kf.P o o = op.imuPara.gsStd i ^ 4) ∧
    (∀ (e : c.as = true) (i : Fin 3), ∃ o : Fin c.dim, o.val = c.asStart + i.val ∧ (xstart c g junk nav op).2.kf.P o o = op.imuPara.asStd i ^ 4) ∧
    (∀ (e : c.lever = true) (i : Fin 3), ∃ o : Fin c.dim, o.val = c.leverStart + i.val ∧ (xstart c g junk nav op).2.kf.P o o = (1 / 1000) ^ 2) ∧
    (∀ (e : c.odo = true), ∃ o : Fin c.dim, o.val = c.odoStart ∧ (xstart c g junk nav op).2.kf.P o o = (1 / 1000000000) ^ 2) := by
  obtain ⟨rg, ra, rl, ro⟩ := roomy_order c h
  refine ⟨fun e i => ?_, fun e i => ?_, fun e i => ?_, fun e => ?_⟩
  · obtain ⟨hd, h1, h2, h3⟩ := rg e
    refine ⟨⟨c.gsStart + i.val, by omega⟩, rfl, ?_⟩
    rw [(initial_cov c g junk nav op _).1]
    unfold XFusion.initStd
    rw [one_out _ _ _ _ _ (fun q => by have := h3 q; show c.gsStart + i.val ≠ _; omega),
      three_out _ _ _ _ _ _ _ (fun q => by have := h2 q; left; show c.gsStart + i.val < _; omega),
      three_out _ _ _ _ _ _ _ (fun q => by have := h1 q; left; show c.gsStart + i.val < _; omega), if_pos e,
      three_in _ _ (fun i => Fl.f32 (op.imuPara.gsStd i * op.imuPara.gsStd i)) _ i rfl, f32_real]
    ring
  · obtain ⟨hd, h1, h2⟩ := ra e
    refine ⟨⟨c.asStart + i.val, by omega⟩, rfl, ?_⟩
    rw [(initial_cov c g junk nav op _).1]
    unfold XFusion.initStd
    rw [one_out _ _ _ _ _ (fun q => by have := h2 q; show c.asStart + i.val ≠ _; omega),
      three_out _ _ _ _ _ _ _ (fun q => by have := h1 q; left; show c.asStart + i.val < _; omega), if_pos e,
      three_in _ _ (fun i => Fl.f32 (op.imuPara.asStd i * op.imuPara.asStd i)) _ i rfl, f32_real]
    ring
  · obtain ⟨hd, h1⟩ := rl e
    refine ⟨⟨c.leverStart + i.val, by omega⟩, rfl, ?_⟩
    rw [(initial_cov c g junk nav op _).1]
    unfold XFusion.initStd
    rw [one_out _ _ _ _ _ (fun q => by have := h1 q; show c.leverStart + i.val ≠ _; omega), if_pos e,
      three_in _ _ (fun _ => Fl.lit (1 / 1000)) _ i rfl]
    show (((1 / 1000 : ℚ) : ℝ)) ^ 2 = _
    norm_num
  · refine ⟨⟨c.odoStart, ro e⟩, rfl, ?_⟩
    rw [(initial_cov c g junk nav op _).1]
    unfold XFusion.initStd
    rw [if_pos e, setEntry_in _ c.odoStart _ _ _ rfl rfl]
    show (((1 / 1000000000 : ℚ) : ℝ)) ^ 2 = _
    norm_num
example : roomy ⟨true, true, true, true⟩ := by decide

/-- C102 fails: in a build that estimates the odometer scale (and gives it a state of its own), no history of any
measurements ever yields an estimate of it other than zero, or any correlation of it with anything. -/
theorem C102_odometer_scale_never_estimated (c : Cfg) (h : ownOdo c) (g : ℝ) (junk : Fusion ℝ) (nav : NavEpoch ℝ) (op : Opt ℝ)
    (cs : List (FCall ℝ)) (r : ℝ × XFusion c ℝ) (hr : xrun cs (xstart c g junk nav op) = some r) :
    r.2.kf.Xd (nr c c.odoStart (odo_lt c h.1)) = 0 ∧
    ∀ j, j ≠ nr c c.odoStart (odo_lt c h.1) → r.2.kf.P (nr c c.odoStart (odo_lt c h.1)) j = 0 := by
  set o := nr c c.odoStart (odo_lt c h.1) with hod
  have ho : o.val = c.odoStart := rfl
  obtain ⟨h15, hgs, has, hlv⟩ := own_apart c h
  have start : Unseen o (xstart c g junk nav op).2 := by
    have hs : alone o (XFusion.initStd c nav op) := by
      unfold XFusion.initStd
      have b : alone o (setBlock (setBlock (setBlock (setBlock (setBlock (zeroM : Matrix (Fin c.dim) (Fin c.dim) ℝ) 0 0 (diagM nav.posStd))
          3 3 (diagM nav.velStd)) 6 6 (diagM nav.attStd)) 9 9 (diagM op.imuPara.gbStd)) 12 12 (diagM op.imuPara.abStd)) := by
        iterate 5 refine alone_setBlock _ _ _ _ ?_ (by omega) (by omega)
        exact alone_zero o
      refine alone_ite _ (fun _ => alone_setEntry _ _ _ ?_) ?_
      all_goals refine alone_ite _ (fun _ => alone_setEntry _ _ _ (alone_setEntry _ _ _ (alone_setEntry _ _ _ ?_))) ?_
      all_goals refine alone_ite _ (fun _ => alone_setEntry _ _ _ (alone_setEntry _ _ _ (alone_setEntry _ _ _ ?_))) ?_
      all_goals refine alone_ite _ (fun _ => alone_setEntry _ _ _ (alone_setEntry _ _ _ (alone_setEntry _ _ _ ?_))) ?_
      all_goals exact b
    have hq : alone o (XFusion.initQ0 c op) := by
      unfold XFusion.initQ0
      have b : ∀ v : Fin c.dim → ℝ, alone o (diagM v) := fun v j hj => ⟨if_neg (Ne.symm hj), if_neg hj⟩
      refine alone_ite _ (fun _ => alone_setEntry _ _ _ ?_) ?_
      all_goals refine alone_ite _ (fun _ => alone_setEntry _ _ _ (alone_setEntry _ _ _ (alone_setEntry _ _ _ ?_))) ?_
      all_goals refine alone_ite _ (fun _ => alone_setEntry _ _ _ (alone_setEntry _ _ _ (alone_setEntry _ _ _ ?_))) ?_
      all_goals refine alone_ite _ (fun _ => alone_setEntry _ _ _ (alone_setEntry _ _ _ (alone_setEntry _ _ _ ?_))) ?_
      all_goals exact b _
    refine ⟨?_, hq, rfl, rfl⟩
    show alone o (mmul (XFusion.initStd c nav op) (XFusion.initStd c nav op))
    rw [mmul_real]
    exact alone_mul hs hs
  have key : ∀ (cs : List (FCall ℝ)) (s r : ℝ × XFusion c ℝ), Unseen o s.2 → xrun cs s = some r → Unseen o r.2 := by
    intro cs
    induction cs with
    | nil => intro s r hu e; injection e with e; rw [← e]; exact hu
    | cons k cs ih =>
      intro s r hu e
      rw [xrun_cons] at e
      cases ht : xexec k s with
      | none => rw [ht] at e; cases e
      | some t => rw [ht] at e; exact ih t r (unseen_exec h ho k s t hu ht) e
  have hu := key cs _ r start hr
  exact ⟨hu.X, fun j hj => (hu.P j hj).1⟩
/-- A build and a history it runs through: odometer scale alone, one odometer measurement. -/
example (g : ℝ) (junk : Fusion ℝ) (nav : NavEpoch ℝ) (op : Opt ℝ) : ownOdo ⟨false, false, false, true⟩ ∧
    ∃ r, xrun [FCall.speed 10] (xstart ⟨false, false, false, true⟩ g junk nav op) = some r := ⟨by decide, _, rfl⟩
end Verif.Props
