import Verif.Props.Information
import Verif.Props.Symm
import Verif.Props.Config
import Verif.Props.Post
import Verif.Props.Schedule
import Verif.Props.Rigid
import Verif.Props.Refine
import Verif.Lemmas.Linear
/-! C131: variances can become negative. -/
namespace Verif.Props
open Verif Verif.Spec Verif.Convert Matrix

/-- The rows of the velocity model that the constraint measures. -/
noncomputable def nhcH (f : Fusion ℝ) : Matrix (Fin 2) (Fin 15) ℝ := fun i j => f.velModel.2 ⟨i.val + 1, by omega⟩ j
/-- The covariance of the constraint's innovation: what the filter inverts. -/
noncomputable def nhcS (f : Fusion ℝ) : Matrix (Fin 2) (Fin 2) ℝ := nhcH f * f.kf.P * (nhcH f)ᵀ + diagonal fun i => f.opt.nhcStd i ^ 2

theorem nhc_kf (f : Fusion ℝ) : f.measureNHC.kf = f.kf.update (nhcH f) (fun i => f.velModel.1 ⟨i.val + 1, by omega⟩)
    (diagonal fun i => f.opt.nhcStd i ^ 2) := by
  have eR : (diagonal fun i => f.opt.nhcStd i ^ 2 : Matrix (Fin 2) (Fin 2) ℝ) = mmul (diagM f.opt.nhcStd) (diagM f.opt.nhcStd) := by
    rw [mmul_real, diagM_real, Matrix.diagonal_mul_diagonal]
    congr 1
    ext i; ring
  rw [eR]
  rfl

theorem velH_vel (f : Fusion ℝ) (k i : Fin 3) : f.velModel.2 k ⟨i + 3, by omega⟩ = (f.Cbv * f.ins.nav.Cbnᵀ) k i := by
  have h := congrFun (velH_mulVec f (Pi.single ⟨i + 3, by omega⟩ 1)) k
  rw [Matrix.mulVec_single_one] at h
  have h' : f.velModel.2 k ⟨i + 3, by omega⟩ = _ := h
  rw [h']
  rw [Matrix.mulVec_mulVec]
  generalize f.Cbv * f.ins.nav.Cbnᵀ = A
  generalize f.Cbv = B
  fin_cases i <;> fin_cases k <;> simp [xp, mulVec, dotProduct, Fin.sum_univ_three]

/-- The constraint applied while position and velocity are correlated but the position is held to be exact makes
a position variance negative. -/
theorem nhc_negative (f : Fusion ℝ) (a : ℝ) (ha : a ≠ 0) (hs : ∀ i j, f.kf.P i j = f.kf.P j i)
    (hpos : ∀ (i : Fin 3) (j : Fin 15), f.kf.P ⟨i, by omega⟩ j = if j.val = i.val + 3 then a else 0)
    (hb : isRot f.ins.nav.Cbn) (hv : isRot f.Cbv) (hS : positive (nhcS f)) :
    ∃ i : Fin 3, f.measureNHC.kf.P ⟨i, by omega⟩ ⟨i, by omega⟩ < 0 := by
  have hSu : IsUnit (nhcS f).det := (Matrix.isUnit_iff_isUnit_det _).1 ((positive_iff _).1 hS).isUnit
  have hTi : ((nhcS f)⁻¹).PosDef := ((positive_iff _).1 hS).inv
  have hc : ∃ i : Fin 3, (fun k : Fin 2 => (f.Cbv * f.ins.nav.Cbnᵀ) ⟨k + 1, by omega⟩ i) ≠ 0 := by
    by_contra h
    push Not at h
    have hz : ∀ i, (f.Cbv * f.ins.nav.Cbnᵀ) 1 i = 0 := fun i => congrFun (h i) 0
    have h1 : (f.Cbv * f.ins.nav.Cbnᵀ) * (f.Cbv * f.ins.nav.Cbnᵀ)ᵀ = 1 := by
      rw [transpose_mul, transpose_transpose, Matrix.mul_assoc, ← Matrix.mul_assoc _ _ f.Cbvᵀ, hb.2.1, Matrix.one_mul, hv.1]
    have h2 := congrFun (congrFun h1 1) 1
    rw [Matrix.mul_apply] at h2
    simp only [hz, zero_mul, Finset.sum_const_zero, Matrix.one_apply_eq] at h2
    norm_num at h2
  obtain ⟨i, hi⟩ := hc
  refine ⟨i, ?_⟩
  rw [nhc_kf, update_short _ _ _ _ hs (fun i j => by simp only [diagonal_apply]; split_ifs with h1 h2 h2 <;> simp_all) hSu]
  have hrow : ∀ k, (f.kf.P * (nhcH f)ᵀ) ⟨i, by omega⟩ k = a * (f.Cbv * f.ins.nav.Cbnᵀ) ⟨k + 1, by omega⟩ i := by
    intro k
    rw [Matrix.mul_apply, Finset.sum_eq_single (⟨i + 3, by omega⟩ : Fin 15)]
    · rw [hpos, if_pos rfl, ← velH_vel]; rfl
    · intro b _ hb
      rw [hpos, if_neg (fun h => hb (Fin.ext h)), zero_mul]
    · simp
  have hcol : ∀ k, (nhcH f * f.kf.P) k ⟨i, by omega⟩ = a * (f.Cbv * f.ins.nav.Cbnᵀ) ⟨k + 1, by omega⟩ i := by
    intro k
    rw [← hrow k, Matrix.mul_apply, Matrix.mul_apply]
    refine Finset.sum_congr rfl fun j _ => ?_
    rw [hs j, mul_comm]; rfl
  have hq := hTi.dotProduct_mulVec_pos hi
  rw [Matrix.sub_apply, hpos, if_neg (by simp)]
  rw [show f.kf.P * (nhcH f)ᵀ * (nhcH f * f.kf.P * (nhcH f)ᵀ + diagonal fun i => f.opt.nhcStd i ^ 2)⁻¹ * nhcH f * f.kf.P =
    f.kf.P * (nhcH f)ᵀ * (nhcS f)⁻¹ * (nhcH f * f.kf.P) by unfold nhcS; simp only [Matrix.mul_assoc]]
  have e : (f.kf.P * (nhcH f)ᵀ * (nhcS f)⁻¹ * (nhcH f * f.kf.P)) ⟨i, by omega⟩ ⟨i, by omega⟩ =
      a ^ 2 * ((fun k : Fin 2 => (f.Cbv * f.ins.nav.Cbnᵀ) ⟨k + 1, by omega⟩ i) ⬝ᵥ
        ((nhcS f)⁻¹ *ᵥ fun k : Fin 2 => (f.Cbv * f.ins.nav.Cbnᵀ) ⟨k + 1, by omega⟩ i)) := by
    have hm : ∀ k, (f.kf.P * (nhcH f)ᵀ * (nhcS f)⁻¹) ⟨i, by omega⟩ k = ∑ l, (f.kf.P * (nhcH f)ᵀ) ⟨i, by omega⟩ l * (nhcS f)⁻¹ l k :=
      fun k => Matrix.mul_apply
    rw [Matrix.mul_apply]
    simp only [hm, hrow, hcol, dotProduct, mulVec, Fin.sum_univ_two]
    ring
  rw [e]
  have : 0 < a ^ 2 := by positivity
  simp only [star_trivial] at hq
  nlinarith [mul_pos this hq]
theorem phi_rows (g : ℝ) (f : Fusion ℝ) (i : Fin 3) (j : Fin 15) (hj : 3 ≤ j.val) :
    f.transferMatrix g ⟨i, by omega⟩ j = if j.val = i.val + 3 then f.ins.dt else 0 := by
  fin_cases i <;> fin_cases j <;> simp [Fusion.transferMatrix, setBlock, ms, eyeM] at hj ⊢

theorem pos_rows (g : ℝ) (f : Fusion ℝ) (o : Opt ℝ) (P : Matrix (Fin 15) (Fin 15) ℝ) (hQ : f.Q0 = Fusion.initQ0 o)
    (hP : ∀ (i : Fin 15) j, i.val < 6 → P i j = 0) (i : Fin 3) (j : Fin 15) :
    (f.transferMatrix g * P * (f.transferMatrix g)ᵀ + f.stepQ (f.transferMatrix g)) ⟨i, by omega⟩ j =
      if j.val = i.val + 3 then f.ins.dt * (1 / 2 * (f.ins.dt * (o.imuPara.vrw * o.imuPara.vrw))) else 0 := by
  have hz0 : ∀ j, (f.transferMatrix g * P) ⟨i, by omega⟩ j = 0 := by
    intro j
    rw [Matrix.mul_apply]
    refine Finset.sum_eq_zero fun k _ => ?_
    by_cases hk : k.val < 6
    · rw [hP k j hk, mul_zero]
    · rw [phi_rows g f i k (by omega), if_neg (by omega), zero_mul]
  have hz1 : (f.transferMatrix g * P * (f.transferMatrix g)ᵀ) ⟨i, by omega⟩ j = 0 := by
    rw [Matrix.mul_apply]
    exact Finset.sum_eq_zero fun k _ => by rw [hz0, zero_mul]
  rw [Matrix.add_apply, hz1, zero_add]
  have h0 : Fusion.initQ0 o = diagonal (fun i => Fusion.initQ0 o i i) := by
    rw [Fusion.initQ0, diagM_real]; ext i j; simp [diagonal_apply]
  have e0 : ∀ k : Fin 15, k.val < 3 → Fusion.initQ0 o k k = 0 := by
    intro k hk; simp [Fusion.initQ0, diagM, hk]
  unfold Fusion.stepQ
  rw [hQ, h0]
  simp only [mmul_real, ms_real, sm_real, Matrix.smul_apply, Matrix.add_apply, mul_diagonal, diagonal_mul, 
    transpose_apply, smul_eq_mul, lit_real]
  rw [e0 ⟨i, by omega⟩ i.isLt]
  by_cases hj : j.val < 3
  · rw [e0 j hj, if_neg (by omega)]; ring
  · rw [phi_rows g f i j (by omega)]
    by_cases h : j.val = i.val + 3
    · rw [if_pos h, if_pos h]
      have e3 : Fusion.initQ0 o j j = o.imuPara.vrw * o.imuPara.vrw := by
        have := i.isLt
        simp [Fusion.initQ0, diagM, hj, h]
      rw [e3]; push_cast; ring
    · rw [if_neg h, if_neg h]; ring

/-- Square of a length. -/
theorem cross_bound (x y : V3 ℝ) : xp x y ⬝ᵥ xp x y ≤ (x ⬝ᵥ x) * (y ⬝ᵥ y) := by
  simp only [xp, dotProduct, Fin.sum_univ_three, cons_val_zero, cons_val_one, cons_val]
  nlinarith [sq_nonneg (x 0 * y 0 + x 1 * y 1 + x 2 * y 2)]

theorem nhc_dir (f : Fusion ℝ) (hl : f.lbWheel = 0) (w : Fin 2 → ℝ) (x : V3 ℝ) (hx : x = (f.Cbv * f.ins.nav.Cbnᵀ)ᵀ *ᵥ ![0, w 0, w 1]) :
    (nhcH f)ᵀ *ᵥ w = stack 0 x (xp f.ins.nav.vn x) 0 0 := by
  have key : ∀ j, ((nhcH f)ᵀ *ᵥ w) j = ![0, w 0, w 1] ⬝ᵥ (f.velModel.2 *ᵥ Pi.single j 1) := by
    intro j
    rw [Matrix.mulVec_single_one]
    simp only [mulVec, dotProduct, Fin.sum_univ_two, Fin.sum_univ_three, transpose_apply, nhcH, cons_val_zero, cons_val_one, cons_val, Matrix.col]
    rw [show (⟨(0 : Fin 2).val + 1, by omega⟩ : Fin 3) = 1 from rfl, show (⟨(1 : Fin 2).val + 1, by omega⟩ : Fin 3) = 2 from rfl]
    ring
  ext j
  rw [key, velH_mulVec, hl]
  have z : ∀ a : V3 ℝ, xp 0 a = 0 := by intro a; ext i; fin_cases i <;> simp [xp]
  rw [z, Matrix.mulVec_zero, sub_zero, Matrix.mulVec_mulVec, Matrix.dotProduct_mulVec, ← Matrix.mulVec_transpose, ← hx]
  generalize f.ins.nav.vn = v
  fin_cases j <;> simp [stack, xp, dotProduct, Fin.sum_univ_three] <;> ring

theorem quad_form (g : ℝ) (f : Fusion ℝ) (x y : V3 ℝ) (q r : ℝ) :
    stack 0 x y 0 0 ⬝ᵥ (f.transferMatrix g *ᵥ stack 0 (q • x) (r • y) 0 0) =
      q * (x ⬝ᵥ x) + r * (y ⬝ᵥ y) + f.ins.dt * r * (x ⬝ᵥ xp f.ins.nav.vfKb y) := by
  rw [transfer_mulVec]
  generalize f.ins.omegaEnN = en
  generalize f.ins.omegaIeN = ie
  generalize f.ins.nav.vfKb = vf
  generalize f.ins.dt = t
  have hz : f.ins.nav.Cbn *ᵥ ![(0 : ℝ), 0, 0] = ![0, 0, 0] := by
    ext i; fin_cases i <;> simp [mulVec, dotProduct, Fin.sum_univ_three]
  simp [stack, dotProduct, Fin.sum_univ_succ, xp, hz]
  ring

theorem square_bound (x y v : V3 ℝ) (q r t : ℝ) (h : (t * r) ^ 2 * (v ⬝ᵥ v) < 4 * q ^ 2) (hx : 0 < x ⬝ᵥ x) :
    0 < q ^ 2 * (x ⬝ᵥ x) + r ^ 2 * (y ⬝ᵥ y) + t * r ^ 2 * (x ⬝ᵥ xp v y) := by
  have c := cross_bound x v
  have e : x ⬝ᵥ xp v y = y ⬝ᵥ xp x v := by
    simp only [xp, dotProduct, Fin.sum_univ_three, cons_val_zero, cons_val_one, cons_val]; ring
  have s : 0 ≤ (y + (t / 2) • xp x v) ⬝ᵥ (y + (t / 2) • xp x v) := by
    simp only [dotProduct, Fin.sum_univ_three]
    nlinarith [mul_self_nonneg ((y + (t / 2) • xp x v) 0), mul_self_nonneg ((y + (t / 2) • xp x v) 1), mul_self_nonneg ((y + (t / 2) • xp x v) 2)]
  rw [e]
  generalize hcr : xp x v = k at c s ⊢
  have s2 : (y + (t / 2) • k) ⬝ᵥ (y + (t / 2) • k) = y ⬝ᵥ y + t * (y ⬝ᵥ k) + t ^ 2 / 4 * (k ⬝ᵥ k) := by
    simp only [dotProduct_add, add_dotProduct, smul_dotProduct, dotProduct_smul, smul_eq_mul, dotProduct_comm k y]
    ring
  rw [s2] at s
  have s3 := mul_nonneg (sq_nonneg r) s
  have s4 : (t * r) ^ 2 / 4 * (k ⬝ᵥ k) ≤ (t * r) ^ 2 / 4 * ((x ⬝ᵥ x) * (v ⬝ᵥ v)) := mul_le_mul_of_nonneg_left c (by positivity)
  have s5 := mul_lt_mul_of_pos_right h hx
  nlinarith

/-- The innovation covariance of the constraint after one propagation is positive definite, if the velocity noise
dominates the attitude noise of one step. -/
theorem nhcS_positive (g : ℝ) (f : Fusion ℝ) (o : Opt ℝ) (P : Matrix (Fin 15) (Fin 15) ℝ) (hQ : f.Q0 = Fusion.initQ0 o) (hl : f.lbWheel = 0)
    (hP : validCov P) (hf : f.kf.P = f.transferMatrix g * P * (f.transferMatrix g)ᵀ + f.stepQ (f.transferMatrix g))
    (hb : isRot f.ins.nav.Cbn) (hv : isRot f.Cbv) (hd : 0 < f.ins.dt)
    (hn : (f.ins.dt * o.imuPara.arw) ^ 2 * (f.ins.nav.vfKb ⬝ᵥ f.ins.nav.vfKb) < 4 * o.imuPara.vrw ^ 2) : positive (nhcS f) := by
  have hsym : ∀ i j, f.kf.P i j = f.kf.P j i := by
    have h1 : Pᵀ = P := by ext i j; exact hP.1 j i
    have hq : f.Q0ᵀ = f.Q0 := by rw [hQ, Fusion.initQ0, diagM_real, diagonal_transpose]
    have : f.kf.Pᵀ = f.kf.P := by
      rw [hf]
      unfold Fusion.stepQ
      simp only [mmul_real, ms_real, sm_real, transpose_add, transpose_mul, transpose_smul, transpose_transpose, h1, hq, Matrix.mul_assoc]
      rw [add_comm (f.Q0 * _)]
    intro i j
    exact congrFun (congrFun this j) i
  refine ⟨?_, fun w hw => ?_⟩
  · have : (nhcS f)ᵀ = nhcS f := by
      have h1 : f.kf.Pᵀ = f.kf.P := by ext i j; exact hsym j i
      unfold nhcS
      simp only [transpose_add, transpose_mul, transpose_transpose, h1, Matrix.mul_assoc, diagonal_transpose]
    intro i j
    exact congrFun (congrFun this j) i
  obtain ⟨x, hx⟩ : ∃ x, x = (f.Cbv * f.ins.nav.Cbnᵀ)ᵀ *ᵥ ![0, w 0, w 1] := ⟨_, rfl⟩
  obtain ⟨u, hu⟩ : ∃ u, u = (nhcH f)ᵀ *ᵥ w := ⟨_, rfl⟩
  have hdir := nhc_dir f hl w x hx
  rw [← hu] at hdir
  -- the length of `x`
  have hxx : x ⬝ᵥ x = w 0 ^ 2 + w 1 ^ 2 := by
    have h1 : (f.Cbv * f.ins.nav.Cbnᵀ) * (f.Cbv * f.ins.nav.Cbnᵀ)ᵀ = 1 := by
      rw [transpose_mul, transpose_transpose, Matrix.mul_assoc, ← Matrix.mul_assoc _ _ f.Cbvᵀ, hb.2.1, Matrix.one_mul, hv.1]
    rw [hx, Matrix.dotProduct_mulVec, ← Matrix.mulVec_transpose, transpose_transpose, Matrix.mulVec_mulVec, h1, Matrix.one_mulVec]
    simp [dotProduct, Fin.sum_univ_three]; ring
  have hw2 : 0 < w 0 ^ 2 + w 1 ^ 2 := by
    by_contra h
    apply hw
    ext i
    fin_cases i <;> simp only [Fin.zero_eta, Fin.mk_one, Pi.zero_apply] <;> nlinarith [sq_nonneg (w 0), sq_nonneg (w 1)]
  -- the quadratic form
  have hS : varOf (nhcS f) w = varOf f.kf.P u + ∑ i, f.opt.nhcStd i ^ 2 * w i ^ 2 := by
    unfold nhcS
    rw [varOf_add]
    congr 1
    · rw [varOf_eq, varOf_eq, hu, ← Matrix.mulVec_mulVec, ← Matrix.mulVec_mulVec, Matrix.dotProduct_mulVec w, ← Matrix.mulVec_transpose]
    · rw [varOf_eq]
      simp only [dotProduct, Matrix.mulVec_diagonal]
      refine Finset.sum_congr rfl fun i _ => by ring
  have hR : 0 ≤ ∑ i, f.opt.nhcStd i ^ 2 * w i ^ 2 := Finset.sum_nonneg fun i _ => by positivity
  have hPu : 0 ≤ varOf (f.transferMatrix g * P * (f.transferMatrix g)ᵀ) u := by
    have := hP
    rw [validCov_iff] at this
    have h1 := this.mul_mul_conjTranspose_same (f.transferMatrix g)
    rw [conjTranspose_eq_transpose_of_trivial, ← validCov_iff] at h1
    exact h1.2 u
  have hQu : varOf (f.stepQ (f.transferMatrix g)) u = f.ins.dt * (u ⬝ᵥ (f.transferMatrix g *ᵥ (f.Q0 *ᵥ u))) := by
    have hq : f.Q0ᵀ = f.Q0 := by rw [hQ, Fusion.initQ0, diagM_real, diagonal_transpose]
    have e : ∀ A : Matrix (Fin 15) (Fin 15) ℝ, u ⬝ᵥ (Aᵀ *ᵥ u) = u ⬝ᵥ (A *ᵥ u) := by
      intro A; rw [Matrix.dotProduct_mulVec, ← Matrix.mulVec_transpose, transpose_transpose, dotProduct_comm]
    unfold Fusion.stepQ
    rw [ms_real, sm_real, varOf_smul, varOf_smul, varOf_add, mmul_real, mmul_real]
    have e2 : f.Q0 * (f.transferMatrix g)ᵀ = (f.transferMatrix g * f.Q0)ᵀ := by rw [transpose_mul, hq]
    rw [e2, varOf_eq, varOf_eq, e, Matrix.mulVec_mulVec, lit_real]
    push_cast; ring
  have hq0 : f.Q0 *ᵥ u = stack 0 ((o.imuPara.vrw ^ 2) • x) ((o.imuPara.arw ^ 2) • xp f.ins.nav.vn x) 0 0 := by
    rw [hQ, hdir, Fusion.initQ0, diagM_real]
    ext j
    rw [Matrix.mulVec_diagonal]
    fin_cases j <;> simp [stack, pow_two]
  rw [hS, hf, varOf_add, hQu, hq0, transfer_mulVec, hdir]
  obtain ⟨y, ey⟩ : ∃ y, y = xp f.ins.nav.vn x := ⟨_, rfl⟩
  rw [← ey]
  rw [← ey] at hdir
  rw [← transfer_mulVec]
  have hy : stack 0 x y 0 0 ⬝ᵥ (f.transferMatrix g *ᵥ stack 0 ((o.imuPara.vrw ^ 2) • x) ((o.imuPara.arw ^ 2) • y) 0 0) = _ :=
    quad_form g f x y (o.imuPara.vrw ^ 2) (o.imuPara.arw ^ 2)
  rw [hy]
  have hpos := square_bound x y f.ins.nav.vfKb o.imuPara.vrw o.imuPara.arw f.ins.dt hn (by rw [hxx]; exact hw2)
  rw [hdir] at hPu
  have := mul_pos hd hpos
  linarith

/-- C131, violation, for the filter: started with position and velocity known exactly (deviations zero), with the
constraint enabled, no odometer and no wheel lever arm, the very first IMU sample makes a position variance negative: its
deviation is the square root of a negative number. The velocity random walk only has to exceed half the
attitude random walk times the specific force over one sampling interval. Whatever the sample, the position, the attitude, the
velocity and the other settings. -/
theorem C131_negative_variance (g : ℝ) (junk : Fusion ℝ) (nav : NavEpoch ℝ) (o : Opt ℝ) (m : Imu ℝ)
    (hp : ∀ i, nav.posStd i = 0) (hvel : ∀ i, nav.velStd i = 0) (hr : 0 < o.dRate) (hnhc : o.nhcEnable ≠ 0) (hodo : o.odoEnable = 0)
    (hl : o.lbWheel = 0) (hq : 0 < qsq nav.Qbn ∧ 0 < qsq nav.Qne) (after : Fusion ℝ) (ha : after = (frun [.time m] (fstart g junk nav o)).2)
    (hn : (o.imuPara.arw / o.dRate) ^ 2 * (after.ins.nav.vfKb ⬝ᵥ after.ins.nav.vfKb) < 4 * o.imuPara.vrw ^ 2) :
    ∃ i : Fin 3, after.kf.P ⟨i, by omega⟩ ⟨i, by omega⟩ < 0 := by
  obtain ⟨s, hs⟩ : ∃ s, s = fstart g junk nav o := ⟨_, rfl⟩
  have hsch := C30_schedule g junk nav o [] m
  have hsch2 := hsch.2.1
  rw [if_pos (show nhcDue o ((fimus ([] : List (FCall ℝ)) ++ [m]).length % 2 ^ 32) from ⟨hnhc, hodo, rfl⟩),
    if_neg (fun h => by have := h.2.1.1; simp [fimus] at this)] at hsch2
  have n0 : ∀ t : ℝ × Fusion ℝ, frun [] t = t := fun _ => rfl
  have n1 : ∀ t : ℝ × Fusion ℝ, frun [.time m] t = FCall.exec (.time m) t := fun _ => rfl
  rw [n0, ← hs] at hsch2
  have hkf : after.kf = (propagated s m).measureNHC.kf := by rw [ha, n1, ← hs]; exact hsch2
  have hok := C28_C29_filter g junk nav o [] m hq.1 hq.2
  rw [hkf]
  rw [List.nil_append, ← ha] at hok
  have htake : s.2.takeCorrection.applyCorrection = s.2 := by
    have h1 : s.2.takeCorrection = s.2 := by
      unfold Fusion.takeCorrection; rw [if_neg]; rw [hs]; show ¬ 0 < (0 : BitVec 32).toNat; decide
    rw [h1]; unfold Fusion.applyCorrection; rw [if_neg]; rw [hs]; show ¬ (0 : Int) < 0; decide
  have hprop : propagated s m = (s.2.afterIns m (s.2.ins.forwardImu s.1 m)).2 := by
    unfold propagated; rw [htake]; rfl
  have hdt : (s.2.ins.forwardImu s.1 m).2.dt = 1 / (o.dRate : ℝ) := by
    have : (s.2.ins.forwardImu s.1 m).2.dt = s.2.ins.dt := rfl
    rw [this, hs]
    show 1 / (ofI o.dRate : ℝ) = _
    simp [ofI]
  have hins : ∃ i, after.ins = { (s.2.ins.forwardImu s.1 m).2 with nav := { (s.2.ins.forwardImu s.1 m).2.nav with info := i } } := by
    obtain ⟨i, hi⟩ := Fusion.timeUpdate_ins s.1 s.2 m
    rw [htake] at hi
    exact ⟨i, by rw [ha, ← hs]; exact hi⟩
  obtain ⟨info, hins⟩ := hins
  have hC : isRot (s.2.ins.forwardImu s.1 m).2.nav.Cbn := by
    have := hok.1.2.2.1
    rwa [hins] at this
  rw [hins] at hn
  have hn' : (o.imuPara.arw / o.dRate) ^ 2 * ((s.2.ins.forwardImu s.1 m).2.nav.vfKb ⬝ᵥ (s.2.ins.forwardImu s.1 m).2.nav.vfKb) < 4 * o.imuPara.vrw ^ 2 := hn
  have hdr : (0 : ℝ) < o.dRate := by exact_mod_cast hr
  have hQ : s.2.Q0 = Fusion.initQ0 o := by rw [hs]; rfl
  have hlb : s.2.lbWheel = 0 := by rw [hs]; exact hl
  have hCbv : isRot s.2.Cbv := by rw [hs]; exact (C38_euler_matrix_is_rotation o.angleBv).2
  have hvrw : o.imuPara.vrw ≠ 0 := by
    intro h0
    rw [h0] at hn'
    have : 0 ≤ (s.2.ins.forwardImu s.1 m).2.nav.vfKb ⬝ᵥ (s.2.ins.forwardImu s.1 m).2.nav.vfKb := by
      simp only [dotProduct]; exact Finset.sum_nonneg fun i _ => mul_self_nonneg _
    nlinarith [mul_nonneg (sq_nonneg (o.imuPara.arw / o.dRate)) this]
  have hP0 : validCov s.2.kf.P ∧ ∀ (i : Fin 15) j, i.val < 6 → s.2.kf.P i j = 0 := by
    obtain ⟨c1, c2, c3⟩ := C68_initial_covariance g junk nav o
    rw [hs]
    refine ⟨c3, fun i j hi => ?_⟩
    by_cases hij : i = j
    · subst hij
      have a0 := (c1 0); have a1 := (c1 1); have a2 := (c1 2)
      simp only [hp, hvel] at a0 a1 a2
      have : i = 0 ∨ i = 1 ∨ i = 2 ∨ i = 3 ∨ i = 4 ∨ i = 5 := by
        rcases i with ⟨i, hi'⟩; simp only [Fin.ext_iff] at *; simp at *; omega
      rcases this with rfl | rfl | rfl | rfl | rfl | rfl
      · simpa using a0.1
      · simpa using a1.1
      · simpa using a2.1
      · simpa using a0.2.1
      · simpa using a1.2.1
      · simpa using a2.2.1
    · exact c2 i j hij
  rw [hprop]
  clear hprop hkf hok hins ha hsch hsch2 hn after htake
  generalize s.2.ins.forwardImu s.1 m = r at hdt hC hn'
  clear hs
  obtain ⟨f2, hf2⟩ : ∃ f2 : Fusion ℝ, f2 = { s.2 with smooth := s.2.smooth.update m, ins := r.2 } := ⟨_, rfl⟩
  obtain ⟨f, hf⟩ : ∃ f : Fusion ℝ, f = (s.2.afterIns m r).2 := ⟨_, rfl⟩
  have hfP : f.kf.P = f.transferMatrix r.1 * s.2.kf.P * (f.transferMatrix r.1)ᵀ + f.stepQ (f.transferMatrix r.1) := by
    rw [hf]
    exact (predict_P s.2.kf _ _).1
  have d1 : f.ins.dt = 1 / (o.dRate : ℝ) := by rw [hf]; exact hdt
  have hd : 0 < f.ins.dt := by rw [d1]; positivity
  rw [← hf]
  refine nhc_negative f (f.ins.dt * (1 / 2 * (f.ins.dt * (o.imuPara.vrw * o.imuPara.vrw)))) (by positivity) ?_ ?_ (by rw [hf]; exact hC) (by rw [hf]; exact hCbv)
    (nhcS_positive r.1 f o s.2.kf.P (by rw [hf]; exact hQ) (by rw [hf]; exact hlb) hP0.1 hfP (by rw [hf]; exact hC) (by rw [hf]; exact hCbv) hd ?_)
  · have h1 : s.2.kf.Pᵀ = s.2.kf.P := by ext i j; exact hP0.1.1 j i
    have hq : f.Q0ᵀ = f.Q0 := by rw [show f.Q0 = s.2.Q0 by rw [hf]; rfl, hQ, Fusion.initQ0, diagM_real, diagonal_transpose]
    have : f.kf.Pᵀ = f.kf.P := by
      rw [hfP]
      unfold Fusion.stepQ
      simp only [mmul_real, ms_real, sm_real, transpose_add, transpose_mul, transpose_smul, transpose_transpose, h1, hq, Matrix.mul_assoc]
      rw [add_comm (f.Q0 * _)]
    intro i j
    exact congrFun (congrFun this j) i
  · intro i j
    rw [hfP]
    exact pos_rows r.1 f o s.2.kf.P (by rw [hf]; exact hQ) hP0.2 i j
  · rw [d1]
    have e : f.ins.nav.vfKb = r.2.nav.vfKb := by rw [hf]; rfl
    rw [e]
    rw [show 1 / (o.dRate : ℝ) * o.imuPara.arw = o.imuPara.arw / o.dRate by ring]
    exact hn'

/-- C131, violation, through the C interface with the settings of a configuration file: an instance that is to start from
the given position (USE_GIVEN), with `nhc-enable` and without odometer, holds a negative position variance after its first
IMU sample, and the position deviation it reports is the square root of that number. -/
theorem C131_config_reports_nan (c : Config ℝ) (junk : Junk ℝ) (d0 d : Dev ℝ) (hm : c.align.mode = 2)
    (h : rgioeInit junk d0 (some c.getOption) (some c.align.initPva) = some (0, d)) (hr : 0 < c.imu.dRate)
    (hnhc : c.odo.nhcEnable = true) (hodo : c.odo.enable = false) (hl : c.odo.wheelLevelArm = 0) (g : ℝ) (m : Imu ℝ) (after : Dev ℝ)
    (ha : after = (runCalls [.time (some m)] (g, d)).2)
    (hn : (c.imu.para.arw / c.imu.dRate) ^ 2 * (after.df.ins.nav.vfKb ⬝ᵥ after.df.ins.nav.vfKb) < 4 * c.imu.para.vrw ^ 2) :
    ∃ (i : Fin 3) (x : ℝ), x < 0 ∧ ∀ p, (rgioeGetResult after p).2.posStd i = Fl.sqrt x := by
  obtain ⟨h1, h2⟩ := C126_given_start junk d0 d c.getOption c.align.initPva hm h [.time (some m)] (by simp [Call.isInit]) (by simp [imusOf]) g _ rfl
  rw [← ha] at h1 h2
  have hdf : after.df = (frun [.time m] (fstart g junk.df (makeNavEpoch c.align.initPva c.getOption) c.getOption)).2 := congrArg Prod.snd h1
  have hres := h2.result
  have hz : ∀ i, (zero3 : V3 ℝ) i = 0 := fun i => by fin_cases i <;> rfl
  have hu := live_given g junk.df c.align.initPva c.getOption
  obtain ⟨i, hi⟩ := C131_negative_variance g junk.df (makeNavEpoch c.align.initPva c.getOption) c.getOption m hz hz hr
    (by show Config.b2i c.odo.nhcEnable ≠ 0; rw [hnhc]; decide) (by show Config.b2i c.odo.enable = 0; rw [hodo]; rfl) hl
    ⟨hu.1, hu.2⟩ after.df hdf hn
  refine ⟨i, _, hi, fun p => ?_⟩
  rw [hres p, hdf]
  rfl

theorem phi_diag (g : ℝ) (f : Fusion ℝ) (i : Fin 15) :
    f.transferMatrix g i i = if i.val < 9 then 1 else if i.val < 12 then 1 - f.ins.dt / f.opt.imuPara.gtCorr else 1 - f.ins.dt / f.opt.imuPara.atCorr := by
  fin_cases i <;> simp [Fusion.transferMatrix, setBlock, ms, eyeM, md, skew, diagM]

/-- What one propagation adds to a variance: the step times the spectral density times the state's own decay. -/
theorem noise_diag (g : ℝ) (f : Fusion ℝ) (o : Opt ℝ) (hQ : f.Q0 = Fusion.initQ0 o) (i : Fin 15) :
    f.stepQ (f.transferMatrix g) i i = f.ins.dt * (f.transferMatrix g i i * Fusion.initQ0 o i i) := by
  have h0 : Fusion.initQ0 o = diagonal (fun i => Fusion.initQ0 o i i) := by
    rw [Fusion.initQ0, diagM_real]; ext i j; simp [diagonal_apply]
  unfold Fusion.stepQ
  rw [hQ, h0]
  simp only [mmul_real, ms_real, sm_real, Matrix.smul_apply, Matrix.add_apply, mul_diagonal, diagonal_mul,
    transpose_apply, smul_eq_mul, lit_real, diagonal_apply_eq]
  push_cast; ring

theorem noise_nonneg (o : Opt ℝ) (hg : 0 < o.imuPara.gtCorr) (ha : 0 < o.imuPara.atCorr) (i : Fin 15) : 0 ≤ Fusion.initQ0 o i i := by
  have h1 : ∀ j, 0 ≤ 2 * o.imuPara.gbStd j * o.imuPara.gbStd j / o.imuPara.gtCorr := fun j => by
    have := mul_self_nonneg (o.imuPara.gbStd j); apply div_nonneg _ hg.le; nlinarith
  have h2 : ∀ j, 0 ≤ 2 * o.imuPara.abStd j * o.imuPara.abStd j / o.imuPara.atCorr := fun j => by
    have := mul_self_nonneg (o.imuPara.abStd j); apply div_nonneg _ ha.le; nlinarith
  fin_cases i <;> simp [Fusion.initQ0, diagM, mul_self_nonneg] <;> first | apply h1 | apply h2

/-- C131, the part that holds: propagation by itself never makes a variance negative. From a valid covariance, with a
sampling interval that is not longer than the correlation times, every variance after mechanization and propagation is nonnegative,
and it is the transported variance plus the noise of the interval. -/
theorem C131_propagation_partial (g : ℝ) (f : Fusion ℝ) (m : Imu ℝ) (hQ : f.Q0 = Fusion.initQ0 f.opt) (hP : validCov f.kf.P)
    (hd : 0 ≤ f.ins.dt) (hg : 0 < f.opt.imuPara.gtCorr) (ha : 0 < f.opt.imuPara.atCorr) (hgt : f.ins.dt ≤ f.opt.imuPara.gtCorr)
    (hat : f.ins.dt ≤ f.opt.imuPara.atCorr) (i : Fin 15) : 0 ≤ (f.propagate g m).2.kf.P i i := by
  rw [Fusion.propagate_eq]
  obtain ⟨r, hr⟩ : ∃ r, r = f.ins.forwardImu g m := ⟨_, rfl⟩
  have hdt : r.2.dt = f.ins.dt := by rw [hr]; rfl
  rw [← hr]
  obtain ⟨f2, hf2⟩ : ∃ f2 : Fusion ℝ, f2 = { f with smooth := f.smooth.update m, ins := r.2 } := ⟨_, rfl⟩
  have e : (f.afterIns m r).2.kf.P = f2.transferMatrix r.1 * f.kf.P * (f2.transferMatrix r.1)ᵀ + f2.stepQ (f2.transferMatrix r.1) := by
    rw [hf2]; exact (predict_P f.kf _ _).1
  have ho : f2.opt = f.opt := by rw [hf2]
  have hd2 : f2.ins.dt = f.ins.dt := by rw [hf2]; exact hdt
  have hq2 : f2.Q0 = Fusion.initQ0 f.opt := by rw [hf2]; exact hQ
  rw [e, Matrix.add_apply, noise_diag r.1 f2 f.opt hq2, phi_diag, ho, hd2]
  have h1 : 0 ≤ (f2.transferMatrix r.1 * f.kf.P * (f2.transferMatrix r.1)ᵀ) i i := by
    rw [validCov_iff] at hP
    have := (hP.mul_mul_conjTranspose_same (f2.transferMatrix r.1)).diag_nonneg (i := i)
    rwa [conjTranspose_eq_transpose_of_trivial] at this
  have h2 : 0 ≤ (if i.val < 9 then (1 : ℝ) else if i.val < 12 then 1 - f.ins.dt / f.opt.imuPara.gtCorr else 1 - f.ins.dt / f.opt.imuPara.atCorr) := by
    split_ifs
    · norm_num
    · have : f.ins.dt / f.opt.imuPara.gtCorr ≤ 1 := by rw [div_le_one hg]; exact hgt
      linarith
    · have : f.ins.dt / f.opt.imuPara.atCorr ≤ 1 := by rw [div_le_one ha]; exact hat
      linarith
  have h3 := noise_nonneg f.opt hg ha i
  have := mul_nonneg hd (mul_nonneg h2 h3)
  linarith

/-- A configuration file's settings: start from the given position at 100 Hz, the constraint on, no odometer, velocity random walk 1. -/
noncomputable def nhcCfg : Config ℝ :=
  { demoCfg with
    align := { demoCfg.align with mode := 2 }, odo := { demoCfg.odo with nhcEnable := true, nhcStd := fun _ => 1 }
    imu := { demoCfg.imu with para := { demoCfg.imu.para with vrw := 1, arw := 0 } } }

/-- The hypotheses of the two violations are met, whatever the first sample. -/
example (junk : Junk ℝ) (g : ℝ) (m : Imu ℝ) : ∃ (d : Dev ℝ) (i : Fin 3) (x : ℝ), x < 0 ∧
    rgioeInit junk Ex.zDev (some nhcCfg.getOption) (some nhcCfg.align.initPva) = some (0, d) ∧
    ∀ p, (rgioeGetResult (runCalls [.time (some m)] (g, d)).2 p).2.posStd i = Fl.sqrt x := by
  have h : rgioeInit junk Ex.zDev (some nhcCfg.getOption) (some nhcCfg.align.initPva) = some (0, _) := rfl
  obtain ⟨i, x, hx, hp⟩ := C131_config_reports_nan nhcCfg junk Ex.zDev _ rfl h (by show (0 : Int) < 100; decide) rfl rfl
    (by ext j; fin_cases j <;> rfl) g m _ rfl (by
      show ((0 : ℝ) / _) ^ 2 * _ < 4 * (1 : ℝ) ^ 2
      rw [zero_div]; norm_num)
  exact ⟨_, i, x, hx, h, hp⟩

/-- The hypotheses of the positive part are met by every freshly initialised filter at 100 Hz with correlation times of an hour. -/
example (g : ℝ) (junk : Fusion ℝ) (nav : NavEpoch ℝ) (m : Imu ℝ) (o : Opt ℝ)
    (ho : o = { (Ex.opt 2 : Opt ℝ) with imuPara := { (Ex.opt 2 : Opt ℝ).imuPara with gtCorr := 3600, atCorr := 3600 } }) (i : Fin 15) :
    0 ≤ ((fstart g junk nav o).2.propagate (fstart g junk nav o).1 m).2.kf.P i i := by
  have hd : (fstart g junk nav o).2.ins.dt = 1 / (100 : ℝ) := by
    rw [ho]
    show 1 / (ofI 100 : ℝ) = _
    simp [ofI]
  have hg : (fstart g junk nav o).2.opt.imuPara.gtCorr = 3600 := by rw [ho]; rfl
  have ha : (fstart g junk nav o).2.opt.imuPara.atCorr = 3600 := by rw [ho]; rfl
  refine C131_propagation_partial _ _ m rfl (C68_initial_covariance g junk nav o).2.2 ?_ ?_ ?_ ?_ ?_ i
  all_goals simp only [hd, hg, ha]
  all_goals norm_num
end Verif.Props
