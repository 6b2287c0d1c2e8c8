import Verif.Props.Kalman
import Verif.Lemmas.Api
/-! C23 (symmetry over all histories) and the violation of C26, in exact arithmetic. -/
namespace Verif.Props
open Verif Verif.Spec Matrix

/-- Symmetric, in elementary terms. -/
def symm {n : Nat} (P : Matrix (Fin n) (Fin n) ℝ) : Prop := ∀ i j, P i j = P j i
theorem symm_iff {n : Nat} (P : Matrix (Fin n) (Fin n) ℝ) : symm P ↔ Pᵀ = P := by
  constructor
  · intro h; ext i j; exact h j i
  · intro h i j; exact congrFun (congrFun h j) i

theorem symm_update {n p : Nat} (k : Kf n ℝ) (H : Matrix (Fin p) (Fin n) ℝ) (z : Fin p → ℝ)
    (R : Matrix (Fin p) (Fin p) ℝ) (hP : symm k.P) (hR : symm R) : symm (k.update H z R).P := by
  rw [symm_iff] at *
  rw [(update_P k H z R).1]
  simp only [transpose_add, transpose_mul, transpose_transpose, hP, hR, Matrix.mul_assoc]
theorem symm_predict {n : Nat} (k : Kf n ℝ) (phi Q : Matrix (Fin n) (Fin n) ℝ) (hP : symm k.P) (hQ : symm Q) :
    symm (k.predict phi Q).P := by
  rw [symm_iff] at *
  rw [(predict_P k phi Q).1]
  simp only [transpose_add, transpose_mul, transpose_transpose, hP, hQ, Matrix.mul_assoc]
theorem symm_diag {n : Nat} (v : Fin n → ℝ) : symm (diagM v) := by
  rw [symm_iff, diagM_real]; exact diagonal_transpose _
theorem symm_diag2 {n : Nat} (v w : Fin n → ℝ) : symm (mmul (diagM v) (diagM w)) := by
  rw [symm_iff, diagM_real, diagM_real, mmul_real, diagonal_mul_diagonal]; exact diagonal_transpose _

/-- Filter covariance and process noise are symmetric. -/
structure SymInv (f : Fusion ℝ) : Prop where
  P : symm f.kf.P
  Q : symm f.Q0

theorem sym_zupt (f : Fusion ℝ) (h : SymInv f) : SymInv f.zuptStage := by
  have h1 : symm f.measureZupt.kf.P := symm_update _ _ _ _ h.P (symm_diag _)
  have h2 : symm f.measureZupt.measureZihr.kf.P := symm_update _ _ _ _ h1 (by intro i j; rfl)
  unfold Fusion.zuptStage Fusion.measureZeroVelocity
  dsimp only
  split_ifs
  · exact ⟨h1, h.Q⟩
  · exact ⟨h2, h.Q⟩
  · exact ⟨h.P, h.Q⟩
  · exact h
theorem sym_nhc (f : Fusion ℝ) (h : SymInv f) : SymInv f.nhcStage := by
  have h1 : symm f.measureNHC.kf.P := symm_update _ _ _ _ h.P (symm_diag2 _ _)
  unfold Fusion.nhcStage
  split_ifs
  · exact ⟨h1, h.Q⟩
  · exact ⟨h.P, h.Q⟩
theorem sym_time (g : ℝ) (f : Fusion ℝ) (m : Imu ℝ) (h : SymInv f) : SymInv (f.timeUpdate g m).2 := by
  have h1 : SymInv f.takeCorrection := by unfold Fusion.takeCorrection; split_ifs <;> exact ⟨h.P, h.Q⟩
  have h2 : SymInv f.takeCorrection.applyCorrection := by
    generalize f.takeCorrection = f at h1
    unfold Fusion.applyCorrection; split_ifs <;> exact ⟨h1.P, h1.Q⟩
  have h3 : SymInv (propagated (g, f) m) := by
    have e : propagated (g, f) m = (f.takeCorrection.applyCorrection.afterIns m
      (f.takeCorrection.applyCorrection.ins.forwardImu g m)).2 := by
        unfold propagated; rw [Fusion.propagate_eq]
    rw [e]
    generalize f.takeCorrection.applyCorrection = f at h2
    generalize f.ins.forwardImu g m = r
    refine ⟨symm_predict _ _ _ h2.P ?_, h2.Q⟩
    rw [symm_iff]
    unfold Fusion.stepQ
    have hq : f.Q0ᵀ = f.Q0 := (symm_iff _).1 h2.Q
    simp only [mmul_real, ms_real, sm_real, transpose_smul, transpose_add, transpose_mul, transpose_transpose, hq]
    rw [add_comm]
  have h4 := sym_nhc _ (sym_zupt _ h3)
  have e := timeUpdate_stages (g, f) m
  dsimp only at e
  rw [e]
  exact ⟨h4.P, h4.Q⟩
theorem sym_pos (f : Fusion ℝ) (p : V3 ℝ) (R : M3 ℝ) (h : SymInv f) (hR : symm R) : SymInv (f.measurePos p R) :=
  ⟨symm_update _ _ _ _ h.P hR, h.Q⟩
theorem sym_gnss (f : Fusion ℝ) (m : Gnss ℝ) (h : SymInv f) : SymInv (f.measureGnss m) := by
  unfold Fusion.measureGnss
  split_ifs
  · have := sym_pos ((f.setSensor SENSOR_GNSS).setGnssMode m.mode) (v3 (m.lat * deg) (m.lon * deg) m.height)
      (diagM fun i => m.posStd i * m.posStd i * f.opt.gnssStdScale) ⟨h.P, h.Q⟩ (symm_diag _)
    exact ⟨this.P, this.Q⟩
  · exact ⟨h.P, h.Q⟩
theorem sym_vel (f : Fusion ℝ) (v : V3 ℝ) (h : SymInv f) : SymInv (f.measureVel v) := by
  unfold Fusion.measureVel
  dsimp only
  split_ifs
  · exact ⟨symm_update _ _ _ _ h.P (symm_diag2 _ _), h.Q⟩
  · exact ⟨symm_update _ _ _ _ h.P (by intro i j; rfl), h.Q⟩
theorem sym_height (f : Fusion ℝ) (x : ℝ) (h : SymInv f) : SymInv (f.measureRelativeHeight x) := by
  unfold Fusion.measureRelativeHeight
  dsimp only
  split_ifs
  all_goals first
    | exact ⟨h.P, h.Q⟩
    | exact ⟨symm_update _ _ _ _ h.P (by intro i j; rfl), h.Q⟩
theorem sym_init (g : ℝ) (f : Fusion ℝ) (nav : NavEpoch ℝ) (o : Opt ℝ) : SymInv (f.initFusion g nav o).2 := by
  refine ⟨?_, symm_diag _⟩
  have h := (C68_initial_covariance g f nav o).2.2.1
  exact h

/-- C23: after initialisation and any history of time, GNSS, position (with symmetric noise), velocity and
height updates, with the ZUPT and NHC updates they trigger, the covariance is symmetric. -/
theorem C23_covariance_symmetric (g : ℝ) (junk : Fusion ℝ) (nav : NavEpoch ℝ) (o : Opt ℝ) (cs : List (FCall ℝ))
    (hR : ∀ p R, FCall.pos p R ∈ cs → ∀ i j, R i j = R j i) (i j : Fin 15) :
    (frun cs (fstart g junk nav o)).2.kf.P i j = (frun cs (fstart g junk nav o)).2.kf.P j i := by
  have key : ∀ (cs : List (FCall ℝ)) (s : ℝ × Fusion ℝ), (∀ p R, FCall.pos p R ∈ cs → symm R) → SymInv s.2 →
      SymInv (frun cs s).2 := by
    intro cs
    induction cs with
    | nil => intro s _ h; exact h
    | cons c cs ih =>
      intro s hR h
      have h1 : SymInv (c.exec s).2 := by
        cases c with
        | time m => exact sym_time s.1 _ m h
        | gnss m => exact sym_gnss _ m h
        | pos p R => exact sym_pos _ p R h (hR p R (by simp))
        | vel v => exact sym_vel _ v h
        | speed v => exact sym_vel _ _ h
        | height x => exact sym_height _ x h
      exact ih _ (fun p R hm => hR p R (by simp [hm])) h1
  exact (key cs _ hR (sym_init g _ nav o)).P i j

/-- C23 for the API: after any call history on an instance initialised at some point, the covariance the
results are computed from is symmetric. -/
theorem C23_api_covariance_symmetric (junk : Junk ℝ) (d0 d : Dev ℝ) (o : Opt ℝ) (nav : Option (NavOutput ℝ)) (g : ℝ)
    (h : rgioeInit junk d0 (some o) nav = some (E_OK, d)) (cs : List (Call ℝ)) (i j : Fin 15) :
    (runCalls cs (g, d)).2.df.kf.P i j = (runCalls cs (g, d)).2.df.kf.P j i := by
  have hnew : ∀ j : Fusion ℝ, SymInv (Fusion.new j) := fun j => ⟨fun _ _ => rfl, fun _ _ => rfl⟩
  have key : ∀ (cs : List (Call ℝ)) (s : ℝ × Dev ℝ), SymInv s.2.df → SymInv (runCalls cs s).2.df := by
    intro cs
    induction cs with
    | nil => intro s h; exact h
    | cons c cs ih =>
      intro s h
      refine ih _ ?_
      rcases c with ⟨o, n, j⟩ | (_ | m) | (_ | m) | _ | _ | _ | _ | p | _ <;> try exact h
      · show SymInv (Call.exec (.init o n j) s).1.2.df
        simp only [Call.exec]
        cases hi : rgioeInit j s.2 (some o) n with
        | none => exact h
        | some r =>
          unfold rgioeInit at hi
          dsimp only at hi
          split_ifs at hi
          · simp only [Option.some.injEq] at hi; subst hi; exact hnew _
          · simp only [Option.some.injEq] at hi; subst hi; cases n <;> exact hnew _
      · show SymInv (rgioeTimeupdate s.1 s.2 (some m)).2.2.df
        unfold rgioeTimeupdate
        dsimp only
        have h1 := sym_time s.1 s.2.df m h
        have h2 := sym_init s.1 s.2.df (s.2.am.updateImu m).nav s.2.opt
        have h3 := sym_time (s.2.df.initFusion s.1 (makeNavEpoch s.2.curPva s.2.opt) s.2.opt).1 _ m
          (sym_init s.1 s.2.df (makeNavEpoch s.2.curPva s.2.opt) s.2.opt)
        generalize s.2.df.timeUpdate s.1 m = a1 at *
        generalize s.2.df.initFusion s.1 (s.2.am.updateImu m).nav s.2.opt = a2 at *
        generalize (Fusion.timeUpdate _ (s.2.df.initFusion s.1 (makeNavEpoch s.2.curPva s.2.opt) s.2.opt).2 m) = a3 at *
        split_ifs <;> first | exact h | exact h1 | exact h2 | exact h3
      · show SymInv (rgioeGnssupdate s.1 s.2 (some m)).2.2.df
        unfold rgioeGnssupdate
        dsimp only
        split_ifs
        · exact h
        · exact h
        · exact sym_gnss _ _ h
        · exact h
  refine (key cs _ ?_).P i j
  have hh := h
  unfold rgioeInit at hh
  dsimp only at hh
  split_ifs at hh
  · simp only [Option.some.injEq, Prod.mk.injEq] at hh; obtain ⟨_, rfl⟩ := hh; exact hnew _
  · simp only [Option.some.injEq, Prod.mk.injEq] at hh; obtain ⟨_, rfl⟩ := hh; cases nav <;> exact hnew _

theorem phi_row (g : ℝ) (f : Fusion ℝ) (j : Fin 15) :
    f.transferMatrix g 0 j = if j.val < 3 then f.transferMatrix g 0 j else if j.val = 3 then f.ins.dt else 0 := by
  fin_cases j <;> simp [Fusion.transferMatrix, setBlock, ms, eyeM]

theorem stepQ_entry (g : ℝ) (f : Fusion ℝ) (o : Opt ℝ) (hQ : f.Q0 = Fusion.initQ0 o) :
    f.stepQ (f.transferMatrix g) 0 0 = 0 ∧
    f.stepQ (f.transferMatrix g) 0 3 = f.ins.dt * (1 / 2 * (f.ins.dt * (o.imuPara.vrw * o.imuPara.vrw))) := by
  have h0 : Fusion.initQ0 o = diagonal (fun i => Fusion.initQ0 o i i) := by
    rw [Fusion.initQ0, diagM_real]; ext i j; simp [diagonal_apply]
  have e0 : Fusion.initQ0 o 0 0 = 0 := by simp [Fusion.initQ0, diagM]
  have e3 : Fusion.initQ0 o 3 3 = o.imuPara.vrw * o.imuPara.vrw := by
    simp [Fusion.initQ0, diagM]
  have p03 : f.transferMatrix g 0 3 = f.ins.dt := by rw [phi_row]; rfl
  unfold Fusion.stepQ
  rw [hQ, h0]
  simp only [mmul_real, ms_real, sm_real, Matrix.smul_apply, Matrix.add_apply, mul_diagonal, diagonal_mul, e0, e3, p03,
    transpose_apply, smul_eq_mul, lit_real]
  constructor
  · ring
  · push_cast; ring

/-- C26, the violation: the process noise the filter adds at every step is never a valid covariance if the
velocity random walk is not zero. -/
theorem C26_process_noise_invalid (g : ℝ) (f : Fusion ℝ) (o : Opt ℝ) (hQ : f.Q0 = Fusion.initQ0 o) (hdt : f.ins.dt ≠ 0)
    (hv : o.imuPara.vrw ≠ 0) : ¬ validCov (f.stepQ (f.transferMatrix g)) := by
  obtain ⟨h1, h2⟩ := stepQ_entry g f o hQ
  refine not_validCov _ 0 3 h1 ?_
  rw [h2]
  have : o.imuPara.vrw * o.imuPara.vrw ≠ 0 := mul_ne_zero hv hv
  have : (1 / 2 : ℝ) ≠ 0 := by norm_num
  exact mul_ne_zero hdt (mul_ne_zero this (mul_ne_zero hdt (mul_ne_zero hv hv)))

/-- C26, the violation at the level of results: with exactly known initial position and velocity (deviations
zero), a non-zero velocity random walk and no ZUPT/NHC, the covariance after the very first IMU sample is not
positive semidefinite, whatever the sample. -/
theorem C26_first_sample_breaks_covariance (g : ℝ) (junk : Fusion ℝ) (nav : NavEpoch ℝ) (o : Opt ℝ) (m : Imu ℝ)
    (hp : nav.posStd = fun _ => 0) (hvel : nav.velStd = fun _ => 0) (hv : o.imuPara.vrw ≠ 0) (hr : o.dRate ≠ 0)
    (hz : o.zuptEnable = 0) (hn : o.nhcEnable = 0) :
    ¬ validCov (frun [.time m] (fstart g junk nav o)).2.kf.P := by
  set s := fstart g junk nav o with hs
  have hkf : (frun [.time m] s).2.kf = (propagated s m).kf := by
    show (s.2.timeUpdate s.1 m).2.kf = _
    rw [timeUpdate_stages]
    dsimp only
    have ho : (propagated s m).opt = o := (propagated_opt s m).trans rfl
    have h1 : (propagated s m).zuptStage = propagated s m := by
      unfold Fusion.zuptStage; rw [ho, if_neg (by simp [hz])]
    rw [h1]
    unfold Fusion.nhcStage
    rw [ho, if_neg (by simp [hn])]
    rfl
  have htake : s.2.takeCorrection.applyCorrection = s.2 := by
    have h1 : s.2.takeCorrection = s.2 := by
      unfold Fusion.takeCorrection; rw [if_neg]; show ¬ 0 < (0 : BitVec 32).toNat; decide
    rw [h1]; unfold Fusion.applyCorrection; rw [if_neg]; show ¬ (0 : Int) < 0; decide
  have hprop : propagated s m = (s.2.afterIns m (s.2.ins.forwardImu s.1 m)).2 := by
    unfold propagated; rw [htake]; rfl
  have hdt : (s.2.ins.forwardImu s.1 m).2.dt = 1 / (o.dRate : ℝ) := by
    have : (s.2.ins.forwardImu s.1 m).2.dt = s.2.ins.dt := rfl
    rw [this]
    show 1 / (ofI o.dRate : ℝ) = _
    simp [ofI]
  rw [hkf, hprop]
  generalize s.2.ins.forwardImu s.1 m = r at hdt
  set f2 : Fusion ℝ := { s.2 with smooth := s.2.smooth.update m, ins := r.2 } with hf2
  have hP : (s.2.afterIns m r).2.kf.P = f2.transferMatrix r.1 * s.2.kf.P * (f2.transferMatrix r.1)ᵀ +
      f2.stepQ (f2.transferMatrix r.1) := (predict_P s.2.kf _ _).1
  rw [hP]
  have hd0 : f2.ins.dt ≠ 0 := by
    show r.2.dt ≠ 0
    rw [hdt]; exact one_div_ne_zero (by exact_mod_cast hr)
  obtain ⟨h1, h2⟩ := stepQ_entry r.1 f2 o rfl
  obtain ⟨c1, c2, _⟩ := C68_initial_covariance g junk nav o
  have hrow : ∀ i j : Fin 15, i.val ≤ 3 → s.2.kf.P i j = 0 := by
    intro i j hi
    by_cases hij : i = j
    · subst hij
      have a0 := (c1 0).1; have a1 := (c1 1).1; have a2 := (c1 2).1; have a3 := (c1 0).2.1
      rw [hp] at a0 a1 a2; rw [hvel] at a3
      have : i = 0 ∨ i = 1 ∨ i = 2 ∨ i = 3 := by
        rcases i with ⟨i, hi'⟩; simp only [Fin.ext_iff] at *; simp at *; omega
      rcases this with rfl | rfl | rfl | rfl
      · simpa using a0
      · simpa using a1
      · simpa using a2
      · simpa using a3
    · exact c2 i j hij
  have hz0 : ∀ j, (f2.transferMatrix r.1 * s.2.kf.P) 0 j = 0 := by
    intro j
    rw [Matrix.mul_apply]
    refine Finset.sum_eq_zero fun k _ => ?_
    by_cases hk : k.val ≤ 3
    · rw [hrow k j hk, mul_zero]
    · rw [phi_row, if_neg (by omega), if_neg (by omega), zero_mul]
  have hz1 : ∀ j, (f2.transferMatrix r.1 * s.2.kf.P * (f2.transferMatrix r.1)ᵀ) 0 j = 0 := by
    intro j
    rw [Matrix.mul_apply]
    exact Finset.sum_eq_zero fun k _ => by rw [hz0, zero_mul]
  refine not_validCov _ 0 3 ?_ ?_
  · rw [Matrix.add_apply, hz1, h1, add_zero]
  · rw [Matrix.add_apply, hz1, h2, zero_add]
    have h12 : (1 / 2 : ℝ) ≠ 0 := by norm_num
    exact mul_ne_zero hd0 (mul_ne_zero h12 (mul_ne_zero hd0 (mul_ne_zero hv hv)))

/-- Hypotheses of `C26_first_sample_breaks_covariance` are met: given start values with zero deviations, which is
what a configuration file yields (C64), and a unit velocity random walk. -/
example : ∃ (nav : NavEpoch ℝ) (o : Opt ℝ), (nav.posStd = fun _ => 0) ∧ (nav.velStd = fun _ => 0) ∧ o.imuPara.vrw ≠ 0 ∧
    o.dRate ≠ 0 ∧ o.zuptEnable = 0 ∧ o.nhcEnable = 0 := by
  refine ⟨{ (Ex.zNav : NavEpoch ℝ) with posStd := fun _ => 0, velStd := fun _ => 0 },
    { (Ex.opt 2 : Opt ℝ) with imuPara := { (Ex.opt 2 : Opt ℝ).imuPara with vrw := 1 } }, rfl, rfl, one_ne_zero, ?_, rfl, rfl⟩
  show (100 : Int) ≠ 0
  decide
end Verif.Props
