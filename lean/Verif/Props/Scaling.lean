import Verif.Props.Stamps
import Verif.Lemmas.Real
import Mathlib.Tactic.SplitIfs
import Mathlib.Tactic.FieldSimp
/-! # C161: only the ratios of the stated uncertainties matter -/
namespace Verif.Props
open Verif Verif.Spec Matrix

/-- The options with every stated uncertainty (standard deviation or noise density) multiplied by `s`. -/
def scO (s : ℝ) (o : Opt ℝ) : Opt ℝ :=
  { o with
    imuPara := { o.imuPara with arw := s * o.imuPara.arw, vrw := s * o.imuPara.vrw, abStd := sv s o.imuPara.abStd,
                                gbStd := sv s o.imuPara.gbStd, gsStd := sv s o.imuPara.gsStd, asStd := sv s o.imuPara.asStd }
    nhcStd := fun i => s * o.nhcStd i
    zuptStd := s * o.zuptStd
    zuptaStd := s * o.zuptaStd
    odoStd := s * o.odoStd
    odoScaleStd := s * o.odoScaleStd
    posStd := sv s o.posStd
    velStd := sv s o.velStd
    attiStd := sv s o.attiStd }

/-- The same call with every stated uncertainty multiplied by `s`. -/
def lessSure (s : ℝ) : Call ℝ → Call ℝ
  | .init o n j => .init (scO s o) n j
  | .gnss (some m) => .gnss (some { m with posStd := sv s m.posStd })
  | c => c

/-- An initialisation, if the call is one, starts from a state that is given. -/
def stateGiven : Call ℝ → Prop
  | .init o n _ => o.alignMode = ALIGN_USE_GIVEN ∧ n.isSome
  | _ => True

/-- The filter with every uncertainty multiplied by `s`. -/
def scK {n : Nat} (s : ℝ) (k : Kf n ℝ) : Kf n ℝ := { k with P := (s * s) • k.P, ak := (s * s) * k.ak }
@[inherit_doc scK] def scN (s : ℝ) (n : NavEpoch ℝ) : NavEpoch ℝ :=
  { n with posStd := sv s n.posStd, velStd := sv s n.velStd, attStd := sv s n.attStd }
@[inherit_doc scK] def scI (s : ℝ) (i : Ins ℝ) : Ins ℝ := { i with nav := scN s i.nav }
@[inherit_doc scK] def scF (s : ℝ) (f : Fusion ℝ) : Fusion ℝ :=
  { f with ins := scI s f.ins, kf := scK s f.kf, Q0 := (s * s) • f.Q0, opt := scO s f.opt }

theorem scK_update {n p : Nat} (s : ℝ) (hs : 0 < s) (k : Kf n ℝ) (H : Matrix (Fin p) (Fin n) ℝ) (z : Fin p → ℝ)
    (R : Matrix (Fin p) (Fin p) ℝ) : (scK s k).update H z ((s * s) • R) = scK s (k.update H z R) := by
  have hss : s * s ≠ 0 := (mul_pos hs hs).ne'
  have e : H * ((s * s) • k.P) * Hᵀ + (s * s) • R = (s * s) • (H * k.P * Hᵀ + R) := by
    rw [Matrix.mul_smul, Matrix.smul_mul, smul_add]
  have inv : ∀ (c : ℝ) (A : Matrix (Fin p) (Fin p) ℝ), c ≠ 0 → (c • A)⁻¹ = c⁻¹ • A⁻¹ := by
    intro c A hc
    by_cases hA : IsUnit A.det
    · have : Invertible c := invertibleOfNonzero hc
      rw [Matrix.inv_smul A c hA, invOf_eq_inv]
    · rw [Matrix.nonsing_inv_apply_not_isUnit A hA, smul_zero, Matrix.nonsing_inv_apply_not_isUnit]
      rw [Matrix.det_smul, IsUnit.mul_iff]
      exact fun h => hA h.2
  have K : (s * s) • k.P * Hᵀ * ((s * s) • (H * k.P * Hᵀ + R))⁻¹ = k.P * Hᵀ * (H * k.P * Hᵀ + R)⁻¹ := by
    rw [inv _ _ hss, Matrix.smul_mul, Matrix.smul_mul, Matrix.mul_smul, smul_smul, mul_inv_cancel₀ hss, one_smul]
  have A : (((s * s) • (H * k.P * Hᵀ + R))⁻¹)⁻¹ = (s * s) • ((H * k.P * Hᵀ + R)⁻¹)⁻¹ := by
    rw [inv _ _ hss, inv _ _ (inv_ne_zero hss), inv_inv]
  have hq : ∀ B : Matrix (Fin p) (Fin p) ℝ, (sumF fun i => (((s * s) • B)ᵀ *ᵥ z) i * z i) = (s * s) * sumF fun i => (Bᵀ *ᵥ z) i * z i := by
    intro B
    rw [sumF_real, sumF_real, Finset.mul_sum]
    refine Finset.sum_congr rfl fun i _ => ?_
    rw [Matrix.transpose_smul, Matrix.smul_mulVec, Pi.smul_apply, smul_eq_mul]
    ring
  have hr : ∀ q : ℝ, Real.sqrt ((s * s) * q * ((s * s) * q)) = (s * s) * Real.sqrt (q * q) := by
    intro q
    rw [Real.sqrt_mul_self_eq_abs, Real.sqrt_mul_self_eq_abs, abs_mul, abs_of_pos (mul_pos hs hs)]
  simp only [Kf.update, scK, mmul_real, mvec_real, minv_real, eyeM_real, sqrt_real]
  rw [e, K, A, hq, hr]
  congr 1
  rw [Matrix.mul_smul, Matrix.smul_mul, Matrix.mul_smul, Matrix.smul_mul, smul_add]

theorem scK_predict {n : Nat} (s : ℝ) (k : Kf n ℝ) (phi Q : Matrix (Fin n) (Fin n) ℝ) :
    (scK s k).predict phi ((s * s) • Q) = scK s (k.predict phi Q) := by
  simp only [Kf.predict, scK, mmul_real, mvec_real]
  congr 1
  rw [Matrix.mul_smul, Matrix.smul_mul, smul_add]

theorem stds_forward {α : Type} [Add α] [Sub α] [Mul α] [Neg α] [Div α] [Zero α] [One α] [Fl α] (h : V3 α → V3 α) (g : α) (s : Ins α) (m : Imu α) :
    ({ s with nav := { s.nav with posStd := h s.nav.posStd, velStd := h s.nav.velStd, attStd := h s.nav.attStd } } : Ins α).forwardImu g m =
      ((s.forwardImu g m).1, { (s.forwardImu g m).2 with nav := { (s.forwardImu g m).2.nav with
        posStd := h (s.forwardImu g m).2.nav.posStd, velStd := h (s.forwardImu g m).2.nav.velStd, attStd := h (s.forwardImu g m).2.nav.attStd } }) := rfl

theorem scF_take (s : ℝ) (f : Fusion ℝ) : (scF s f).takeCorrection = scF s f.takeCorrection := by
  unfold Fusion.takeCorrection
  show (if 0 < f.updateFlag.toNat then _ else _) = _
  split_ifs <;> rfl

theorem scF_apply (s : ℝ) (f : Fusion ℝ) : (scF s f).applyCorrection = scF s f.applyCorrection := by
  unfold Fusion.applyCorrection
  show (if 0 < f.updateIter then _ else _) = _
  split_ifs <;> rfl

theorem scF_propagate (s g : ℝ) (f : Fusion ℝ) (m : Imu ℝ) :
    (scF s f).propagate g m = ((f.propagate g m).1, scF s (f.propagate g m).2) := by
  unfold Fusion.propagate
  have hi : (scI s f.ins).forwardImu g m = ((f.ins.forwardImu g m).1, scI s (f.ins.forwardImu g m).2) :=
    stds_forward (sv s) g f.ins m
  simp only
  have e : (scF s f).ins = scI s f.ins := rfl
  rw [e, hi]
  generalize f.ins.forwardImu g m = r
  obtain ⟨g1, i⟩ := r
  have ht : ∀ (u : Smooth ℝ), Fusion.transferMatrix g1 ({ scF s f with smooth := u, ins := scI s i } : Fusion ℝ) =
      Fusion.transferMatrix g1 ({ f with smooth := u, ins := i } : Fusion ℝ) := fun _ => rfl
  have hq : ∀ (u : Smooth ℝ) phi, Fusion.stepQ ({ scF s f with smooth := u, ins := scI s i } : Fusion ℝ) phi =
      (s * s) • Fusion.stepQ ({ f with smooth := u, ins := i } : Fusion ℝ) phi := by
    intro u phi
    simp only [Fusion.stepQ, scF, scI, ms_real, sm_real, mmul_real, Matrix.mul_smul, Matrix.smul_mul, ← smul_add]
    rw [smul_comm (s * s), smul_comm (s * s)]
  dsimp only
  rw [ht, hq]
  have hk : (scF s f).kf = scK s f.kf := rfl
  rw [hk, scK_predict]
  rfl

theorem sq_diag {n : Nat} (s : ℝ) (v : Fin n → ℝ) : mmul (diagM fun i => s * v i) (diagM fun i => s * v i) = (s * s) • mmul (diagM v) (diagM v) := by
  rw [mmul_real, mmul_real, diagM_real, diagM_real, diagonal_mul_diagonal, diagonal_mul_diagonal, ← diagonal_smul]
  congr 1
  funext i
  show s * v i * (s * v i) = s * s * (v i * v i)
  ring

theorem scF_zupt (s : ℝ) (hs : 0 < s) (f : Fusion ℝ) : (scF s f).zuptStage = scF s f.zuptStage := by
  have h1 : ∀ f : Fusion ℝ, (scF s f).measureZupt = scF s f.measureZupt := by
    intro f
    unfold Fusion.measureZupt
    have e : (diagM fun _ => Fl.f32 ((scF s f).opt.zuptStd * (scF s f).opt.zuptStd) : M3 ℝ) =
        (s * s) • (diagM fun _ => Fl.f32 (f.opt.zuptStd * f.opt.zuptStd) : M3 ℝ) := by
      rw [diagM_real, diagM_real, ← diagonal_smul]
      congr 1; funext i
      show s * f.opt.zuptStd * (s * f.opt.zuptStd) = s * s * (f.opt.zuptStd * f.opt.zuptStd)
      ring
    dsimp only
    rw [e]
    have hk : (scF s f).kf = scK s f.kf := rfl
    rw [hk, scK_update s hs]
    rfl
  have h2 : ∀ f : Fusion ℝ, (scF s f).measureZihr = scF s f.measureZihr := by
    intro f
    unfold Fusion.measureZihr
    have e : ((fun _ _ => Fl.f32 ((scF s f).opt.zuptaStd * (scF s f).opt.zuptaStd)) : Matrix (Fin 1) (Fin 1) ℝ) =
        (s * s) • ((fun _ _ => Fl.f32 (f.opt.zuptaStd * f.opt.zuptaStd)) : Matrix (Fin 1) (Fin 1) ℝ) := by
      ext i j
      show s * f.opt.zuptaStd * (s * f.opt.zuptaStd) = s * s * (f.opt.zuptaStd * f.opt.zuptaStd)
      ring
    dsimp only
    rw [e]
    exact congrArg (fun k => ({ scF s f with kf := k } : Fusion ℝ)) (scK_update s hs f.kf _ _ _)
  have h3 : (scF s f).measureZeroVelocity = scF s f.measureZeroVelocity := by
    unfold Fusion.measureZeroVelocity
    dsimp only
    show (if f.opt.zuptaEnable = 0 then _ else _) = _
    rw [h1, h2]
    split_ifs <;> rfl
  unfold Fusion.zuptStage
  rw [h3]
  show (if f.timeUpdateIdx.toNat % 8 ≠ 0 ∧ f.opt.zuptEnable ≠ 0 then (if f.smooth.isStatic = true then _ else _) else _) = _
  split_ifs <;> rfl

theorem scF_nhc (s : ℝ) (hs : 0 < s) (f : Fusion ℝ) : (scF s f).nhcStage = scF s f.nhcStage := by
  have h1 : (scF s f).measureNHC = scF s f.measureNHC := by
    unfold Fusion.measureNHC
    have e : (scF s f).velModel = f.velModel := rfl
    have e2 : mmul (diagM (scF s f).opt.nhcStd) (diagM (scF s f).opt.nhcStd) = (s * s) • mmul (diagM f.opt.nhcStd) (diagM f.opt.nhcStd) :=
      sq_diag s f.opt.nhcStd
    dsimp only
    rw [e, e2]
    exact congrArg (fun k => ({ scF s f with kf := k, updateFlag := f.updateFlag ||| Fusion.FLAG_VELOCITY } : Fusion ℝ)) (scK_update s hs f.kf _ _ _)
  unfold Fusion.nhcStage
  rw [h1]
  show (if f.timeUpdateIdx.toNat % 32 = 1 ∧ f.opt.nhcEnable ≠ 0 ∧ f.opt.odoEnable = 0 then _ else _) = _
  split_ifs <;> rfl

theorem scF_time (s : ℝ) (hs : 0 < s) (g : ℝ) (f : Fusion ℝ) (m : Imu ℝ) :
    (scF s f).timeUpdate g m = ((f.timeUpdate g m).1, scF s (f.timeUpdate g m).2) := by
  unfold Fusion.timeUpdate
  dsimp only
  rw [scF_take, scF_apply, scF_propagate]
  dsimp only
  rw [scF_zupt s hs, scF_nhc s hs]
  rfl

theorem scF_gnss (s : ℝ) (hs : 0 < s) (f : Fusion ℝ) (m : Gnss ℝ) :
    (scF s f).measureGnss { m with posStd := sv s m.posStd } = scF s (f.measureGnss m) := by
  unfold Fusion.measureGnss
  have e0 : Fusion.gnssCheck { m with posStd := sv s m.posStd } = Fusion.gnssCheck m := rfl
  have e1 : (diagM fun i => sv s m.posStd i * sv s m.posStd i * (scF s f).opt.gnssStdScale : M3 ℝ) =
      (s * s) • (diagM fun i => m.posStd i * m.posStd i * f.opt.gnssStdScale : M3 ℝ) := by
    rw [diagM_real, diagM_real, ← diagonal_smul]
    congr 1; funext i
    show s * m.posStd i * (s * m.posStd i) * f.opt.gnssStdScale = s * s * (m.posStd i * m.posStd i * f.opt.gnssStdScale)
    ring
  have e2 : ((scF s f).setSensor SENSOR_GNSS).setGnssMode m.mode = scF s ((f.setSensor SENSOR_GNSS).setGnssMode m.mode) := rfl
  have e3 : ∀ (f : Fusion ℝ) (p : V3 ℝ) (R : M3 ℝ), (scF s f).measurePos p ((s * s) • R) = scF s (f.measurePos p R) := by
    intro f p R
    unfold Fusion.measurePos
    have a : (scF s f).posH = f.posH := rfl
    have b : (scF s f).posZ p = f.posZ p := rfl
    have hk : (scF s f).kf = scK s f.kf := rfl
    rw [a, b, hk, scK_update s hs]
    rfl
  dsimp only
  rw [e0, e1, e2, e3]
  split_ifs <;> rfl

theorem scF_init (s g : ℝ) (f : Fusion ℝ) (n : NavEpoch ℝ) (o : Opt ℝ) :
    f.initFusion g (scN s n) (scO s o) = ((f.initFusion g n o).1, scF s (f.initFusion g n o).2) := by
  have hP : Fusion.initStd (scN s n) (scO s o) = s • Fusion.initStd n o := by
    ext i j
    have blk : ∀ (A B : Matrix (Fin 15) (Fin 15) ℝ) (C D : M3 ℝ) (r c : Nat), A = s • B → C = s • D → setBlock A r c C = s • setBlock B r c D := by
      rintro A B C D r c rfl rfl
      ext i j
      show setBlock (s • B) r c (s • D) i j = s * setBlock B r c D i j
      unfold setBlock
      split_ifs <;> rfl
    have dg : ∀ v : V3 ℝ, diagM (sv s v) = s • diagM v := by
      intro v
      rw [diagM_real, diagM_real, ← diagonal_smul, sv_real]
    have z : ((fun _ _ => 0) : Matrix (Fin 15) (Fin 15) ℝ) = s • ((fun _ _ => 0) : Matrix (Fin 15) (Fin 15) ℝ) := by
      ext i j
      show (0 : ℝ) = s * 0
      rw [mul_zero]
    have : Fusion.initStd (scN s n) (scO s o) = s • Fusion.initStd n o := by
      unfold Fusion.initStd
      exact blk _ _ _ _ _ _ (blk _ _ _ _ _ _ (blk _ _ _ _ _ _ (blk _ _ _ _ _ _ (blk _ _ _ _ _ _ z (dg _)) (dg _)) (dg _)) (dg _)) (dg _)
    rw [this]
  have hQ : Fusion.initQ0 (scO s o) = (s * s) • Fusion.initQ0 o := by
    unfold Fusion.initQ0
    rw [diagM_real, diagM_real, ← diagonal_smul]
    congr 1; funext i
    show _ = s * s * _
    simp only [scO, f32_real, sv, lit_real]
    split_ifs <;> ring
  have hPP : mmul (s • Fusion.initStd n o) (s • Fusion.initStd n o) = (s * s) • mmul (Fusion.initStd n o) (Fusion.initStd n o) := by
    rw [mmul_real, mmul_real, Matrix.smul_mul, Matrix.mul_smul, smul_smul]
  unfold Fusion.initFusion
  dsimp only
  rw [hP, hQ, hPP]
  have hk : ∀ P : Matrix (Fin 15) (Fin 15) ℝ, Kf.ofState (fun _ => (0:ℝ)) ((s * s) • P) = scK s (Kf.ofState (fun _ => 0) P) := by
    intro P
    simp only [Kf.ofState, scK, mul_zero]
  rw [hk]
  rfl

/-- The result with every reported deviation multiplied by `s`. -/
def scPva (s : ℝ) (r : NavOutput ℝ) : NavOutput ℝ :=
  { r with posStd := sv s r.posStd, vnStd := sv s r.vnStd, attiStd := sv s r.attiStd }

theorem scF_output (s : ℝ) (hs : 0 < s) (f : Fusion ℝ) : (scF s f).output = scPva s f.output := by
  have hr : ∀ x : ℝ, Real.sqrt (s * s * x) = s * Real.sqrt x := by
    intro x
    rw [Real.sqrt_mul (mul_self_nonneg s), Real.sqrt_mul_self hs.le]
  have a : (fun i : Fin 3 => Fl.sqrt ((scF s f).kf.P ⟨i.val, by omega⟩ ⟨i.val, by omega⟩)) =
      sv s fun i : Fin 3 => Fl.sqrt (f.kf.P ⟨i.val, by omega⟩ ⟨i.val, by omega⟩) := funext fun i => hr _
  have b : (fun i : Fin 3 => Fl.sqrt ((scF s f).kf.P ⟨3 + i.val, by omega⟩ ⟨3 + i.val, by omega⟩)) =
      sv s fun i : Fin 3 => Fl.sqrt (f.kf.P ⟨3 + i.val, by omega⟩ ⟨3 + i.val, by omega⟩) := funext fun i => hr _
  have c : (fun i : Fin 3 => Fl.sqrt ((scF s f).kf.P ⟨6 + i.val, by omega⟩ ⟨6 + i.val, by omega⟩)) =
      sv s fun i : Fin 3 => Fl.sqrt (f.kf.P ⟨6 + i.val, by omega⟩ ⟨6 + i.val, by omega⟩) := funext fun i => hr _
  unfold Fusion.output
  dsimp only
  rw [a, b, c]
  rfl

/-- Two processes whose devices differ in the stated and carried uncertainties only, by the factor `s`. -/
structure SameS (s : ℝ) (p p' : ℝ × Dev ℝ) : Prop where
  g : p'.1 = p.1
  status : p'.2.status = p.2.status
  mode : p.2.opt.alignMode = ALIGN_USE_GIVEN
  opt : p'.2.opt = scO s p.2.opt
  pva : p'.2.curPva = p.2.curPva
  phase : p.2.status = ST_INIT ∧ p'.2.df = p.2.df ∧ p.2.df.output = p'.2.df.output ∧ scPva s p.2.df.output = p.2.df.output ∨
    p.2.status = ST_NAVIGATION ∧ p'.2.df = scF s p.2.df

theorem scale_init (s : ℝ) (o : Opt ℝ) (n : Option (NavOutput ℝ)) (j : Junk ℝ) (p p' : ℝ × Dev ℝ)
    (hc : stateGiven (.init o n j)) (h0 : p'.1 = p.1) :
    ((lessSure s (.init o n j)).exec p').2 = ((Call.init o n j).exec p).2 ∧
    SameS s ((Call.init o n j).exec p).1 ((lessSure s (.init o n j)).exec p').1 := by
  obtain ⟨hm, hn⟩ := hc
  cases n with
  | none => simp at hn
  | some n =>
    have hn : ¬ (o.alignMode = ALIGN_USE_GIVEN ∧ (some n).isNone = true) := by simp
    have hn' : ¬ ((scO s o).alignMode = ALIGN_USE_GIVEN ∧ (some n).isNone = true) := by simp
    simp only [lessSure, Call.exec, rgioeInit, if_neg hn, if_neg hn']
    refine ⟨trivial, h0, rfl, hm, rfl, rfl, Or.inl ⟨rfl, rfl, rfl, ?_⟩⟩
    have z : (Fusion.new j.df).kf.P = (fun _ _ => 0) := rfl
    have e : sv s (fun _ : Fin 3 => Real.sqrt 0) = fun _ => Real.sqrt 0 := by funext i; simp [sv]
    show scPva s (Fusion.new j.df).output = (Fusion.new j.df).output
    unfold scPva
    show ({ (Fusion.new j.df).output with posStd := sv s fun _ => Real.sqrt 0, vnStd := sv s fun _ => Real.sqrt 0, attiStd := sv s fun _ => Real.sqrt 0 } : NavOutput ℝ) = _
    rw [e]
    rfl

theorem scale_step (s : ℝ) (hs : 0 < s) (c : Call ℝ) (hc : stateGiven c) (hq : c.isQuery = false) (p p' : ℝ × Dev ℝ)
    (h : SameS s p p') : ((lessSure s c).exec p').2 = (c.exec p).2 ∧ SameS s (c.exec p).1 ((lessSure s c).exec p').1 := by
  cases c with
  | init o n j => exact scale_init s o n j p p' hc h.g
  | time m =>
    cases m with
    | none => exact ⟨rfl, h⟩
    | some m =>
      show Answer.code (rgioeTimeupdate p'.1 p'.2 (some m)).1 = Answer.code (rgioeTimeupdate p.1 p.2 (some m)).1 ∧
        SameS s (rgioeTimeupdate p.1 p.2 (some m)).2 (rgioeTimeupdate p'.1 p'.2 (some m)).2
      have hm' : p'.2.opt.alignMode = ALIGN_USE_GIVEN := by rw [h.opt]; exact h.mode
      rcases h.phase with ⟨s0, hf, -, -⟩ | ⟨s3, hf⟩
      · have t0 : p'.2.status = ST_INIT := h.status.trans s0
        have hn : makeNavEpoch p'.2.curPva p'.2.opt = scN s (makeNavEpoch p.2.curPva p.2.opt) := by
          rw [h.pva, h.opt]; rfl
        have hi := scF_init s p.1 p.2.df (makeNavEpoch p.2.curPva p.2.opt) p.2.opt
        have ht := scF_time s hs (p.2.df.initFusion p.1 (makeNavEpoch p.2.curPva p.2.opt) p.2.opt).1
          (p.2.df.initFusion p.1 (makeNavEpoch p.2.curPva p.2.opt) p.2.opt).2 m
        unfold rgioeTimeupdate
        dsimp only
        simp only [if_pos s0, if_pos t0, if_pos h.mode, if_pos hm']
        rw [h.g, hf, hn, h.opt, hi]
        dsimp only
        rw [ht]
        exact ⟨trivial, rfl, rfl, h.mode, rfl, h.pva, Or.inr ⟨rfl, rfl⟩⟩
      · have t3 : p'.2.status = ST_NAVIGATION := h.status.trans s3
        have n0 : ∀ x : Int, x = ST_NAVIGATION → ¬ x = ST_INIT := by rintro x rfl; decide
        have n1 : ∀ x : Int, x = ST_NAVIGATION → ¬ x = ST_ALIGN := by rintro x rfl; decide
        have n2 : ∀ x : Int, x = ST_NAVIGATION → ¬ x = ST_ATTITUDE := by rintro x rfl; decide
        unfold rgioeTimeupdate
        dsimp only
        simp only [if_neg (n0 _ s3), if_neg (n0 _ t3), if_neg (n1 _ s3), if_neg (n1 _ t3), if_neg (n2 _ s3), if_neg (n2 _ t3), if_pos s3, if_pos t3]
        rw [h.g, hf, scF_time s hs]
        exact ⟨trivial, rfl, h.status, h.mode, h.opt, h.pva, Or.inr ⟨s3, rfl⟩⟩
  | gnss m =>
    cases m with
    | none => exact ⟨rfl, h⟩
    | some m =>
      show Answer.code (rgioeGnssupdate p'.1 p'.2 (some { m with posStd := sv s m.posStd })).1 = Answer.code (rgioeGnssupdate p.1 p.2 (some m)).1 ∧
        SameS s (rgioeGnssupdate p.1 p.2 (some m)).2 (rgioeGnssupdate p'.1 p'.2 (some { m with posStd := sv s m.posStd })).2
      rcases h.phase with ⟨s0, hf, hf'⟩ | ⟨s3, hf⟩
      · have t0 : p'.2.status = ST_INIT := h.status.trans s0
        unfold rgioeGnssupdate
        dsimp only
        simp only [if_pos s0, if_pos t0]
        exact ⟨trivial, h.g, h.status, h.mode, h.opt, h.pva, Or.inl ⟨s0, hf, hf'⟩⟩
      · have t3 : p'.2.status = ST_NAVIGATION := h.status.trans s3
        have n0 : ∀ x : Int, x = ST_NAVIGATION → ¬ x = ST_INIT := by rintro x rfl; decide
        have n1 : ∀ x : Int, x = ST_NAVIGATION → ¬ (x = ST_ALIGN ∨ x = ST_ATTITUDE) := by rintro x rfl; decide
        unfold rgioeGnssupdate
        dsimp only
        simp only [if_neg (n0 _ s3), if_neg (n0 _ t3), if_neg (n1 _ s3), if_neg (n1 _ t3), if_pos s3, if_pos t3]
        rw [hf, scF_gnss s hs]
        exact ⟨trivial, h.g, h.status, h.mode, h.opt, h.pva, Or.inr ⟨s3, rfl⟩⟩
  | deinit => exact ⟨rfl, h⟩
  | getAtti => simp [Call.isQuery] at hq
  | getPos => simp [Call.isQuery] at hq
  | getVel => simp [Call.isQuery] at hq
  | getStatus => simp [Call.isQuery] at hq
  | getResult => simp [Call.isQuery] at hq

theorem scale_run (s : ℝ) (hs : 0 < s) (cs : List (Call ℝ)) (hc : ∀ c ∈ cs, stateGiven c)
    (p p' : ℝ × Dev ℝ) (h : SameS s p p') : SameS s (runCalls cs p) (runCalls (cs.map (lessSure s)) p') := by
  induction cs generalizing p p' with
  | nil => exact h
  | cons c cs ih =>
    refine ih (fun c hc' => hc c (List.mem_cons_of_mem _ hc')) _ _ ?_
    cases hq : c.isQuery with
    | false => exact (scale_step s hs c (hc c List.mem_cons_self) hq p p' h).2
    | true => cases c <;> first | exact h | simp [Call.isQuery] at hq

/-- **C161.** A history of calls that starts from a given state is repeated with every stated uncertainty multiplied by
the same positive factor: the initial deviations, the noise densities and bias deviations of the IMU, the deviations of
the zero-velocity and non-holonomic updates, and the deviations of every fix. Whatever was in the devices before and at
every point of the history: return values and status are the same, the position, velocity and attitude, and everything
else in the result, are the same, and exactly the reported deviations are multiplied by that factor. -/
theorem C161_only_ratios_matter (s : ℝ) (hs : 0 < s) (o : Opt ℝ) (n : Option (NavOutput ℝ)) (j : Junk ℝ) (cs : List (Call ℝ))
    (h0 : stateGiven (.init o n j)) (hc : ∀ c ∈ cs, stateGiven c) (g : ℝ) (d d' : Dev ℝ) :
    let p := runCalls (.init o n j :: cs) (g, d)
    let p' := runCalls ((Call.init o n j :: cs).map (lessSure s)) (g, d')
    (∀ c, stateGiven c → c.isQuery = false → ((lessSure s c).exec p').2 = (c.exec p).2) ∧
    rgioeGetStatus p'.2 = rgioeGetStatus p.2 ∧
    rgioeGetAtti p'.2 = ((rgioeGetAtti p.2).1, sv s (rgioeGetAtti p.2).2) ∧
    rgioeGetPos p'.2 = ((rgioeGetPos p.2).1, sv s (rgioeGetPos p.2).2) ∧
    rgioeGetVel p'.2 = ((rgioeGetVel p.2).1, sv s (rgioeGetVel p.2).2) ∧
    ∀ r, (rgioeGetResult p'.2 r).1 = (rgioeGetResult p.2 r).1 ∧
      (rgioeGetResult p'.2 r).2 = if p.2.status = 3 then
        { (rgioeGetResult p.2 r).2 with
          posStd := sv s (rgioeGetResult p.2 r).2.posStd
          vnStd := sv s (rgioeGetResult p.2 r).2.vnStd
          attiStd := sv s (rgioeGetResult p.2 r).2.attiStd } else r := by
  intro p p'
  have k : SameS s p p' := scale_run s hs cs hc _ _ (scale_init s o n j (g, d) (g, d') h0 rfl).2
  have ho : p'.2.df.output = scPva s p.2.df.output := by
    rcases k.phase with ⟨_, hf, e1, e2⟩ | ⟨_, hf⟩
    · rw [← e1, e2]
    · rw [hf, scF_output s hs]
  refine ⟨fun c h1 h2 => (scale_step s hs c h1 h2 p p' k).1, k.status, ?_, ?_, ?_, ?_⟩
  · unfold rgioeGetAtti; dsimp only; rw [ho]; rfl
  · unfold rgioeGetPos; dsimp only; rw [ho]; rfl
  · unfold rgioeGetVel; dsimp only; rw [ho]; rfl
  · intro r
    refine ⟨rfl, ?_⟩
    have t := k.status
    unfold rgioeGetResult
    dsimp only
    rcases k.phase with ⟨s0, -⟩ | ⟨s3, -⟩
    · have n3 : ∀ x : Int, x = ST_INIT → ¬ x = ST_NAVIGATION := by rintro x rfl; decide
      have n3' : ∀ x : Int, x = ST_INIT → ¬ x = 3 := by rintro x rfl; decide
      have n1 : ∀ x : Int, x = ST_INIT → ¬ x = ST_ALIGN := by rintro x rfl; decide
      have n2 : ∀ x : Int, x = ST_INIT → ¬ x = ST_ATTITUDE := by rintro x rfl; decide
      simp only [if_neg (n3 _ (t.trans s0)), if_neg (n1 _ (t.trans s0)), if_neg (n2 _ (t.trans s0)), if_neg (n3' _ s0)]
    · have e3 : p.2.status = 3 := s3
      simp only [if_pos s3, if_pos (t.trans s3), if_pos e3]
      exact ho

/-- A run with everything twice as uncertain reports the same attitude with twice the deviation. -/
example (n : NavOutput ℝ) (j : Junk ℝ) (m : Imu ℝ) (x : Gnss ℝ) (d : Dev ℝ) :
    let p := runCalls [.init (Ex.opt 2) (some n) j, .time (some m), .gnss (some x), .time (some m)] (0, d)
    rgioeGetAtti (runCalls [.init (scO 2 (Ex.opt 2)) (some n) j, .time (some m), .gnss (some { x with posStd := sv 2 x.posStd }),
      .time (some m)] (0, d)).2 = ((rgioeGetAtti p.2).1, sv 2 (rgioeGetAtti p.2).2) :=
  (C161_only_ratios_matter 2 (by norm_num) (Ex.opt 2) (some n) j [.time (some m), .gnss (some x), .time (some m)]
    ⟨rfl, rfl⟩ (by intro c hc; simp at hc; rcases hc with rfl | rfl | rfl <;> exact trivial) 0 d d).2.2.1
end Verif.Props
