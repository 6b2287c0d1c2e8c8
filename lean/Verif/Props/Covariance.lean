import Verif.Props.Transition
/-! C93: the transition matrix and the covariance over a short step. -/
namespace Verif.Props
open Verif Verif.Spec Verif.Convert Matrix

/-- The specific force increment in the local frame, to first order. -/
theorem force_deriv (f w f0 w0 : V3 ℝ) (C : M3 ℝ) (g : ℝ → ℝ) (E V : ℝ → Ins ℝ)
    (hEn : VC (fun t => (E t).omegaEnN)) (hIe : VC (fun t => (E t).omegaIeN))
    (hdt : ∀ t, (E t).dt = t) (hC : ∀ t, (E t).nav.Cbn = C)
    (ha : ∀ t, (E t).accePre = vs f0 t) (hw : ∀ t, (E t).gyroPre = vs w0 t)
    (hV : V = fun t => (E t).velocityUpdate (g t) (vs f t) (vs w t)) :
    VD (fun t => t • (V t).nav.vfKb) (C *ᵥ f) := by
  set u : ℝ → V3 ℝ := fun t => C *ᵥ f + (t / 2) • (C *ᵥ xp w f) + (t / 12) • (C *ᵥ (xp w0 f + xp f0 w)) with hu
  set R : ℝ → V3 ℝ := fun t => u t - (t / 2) • xp ((E t).omegaEnN + (E t).omegaIeN) (u t) with hR
  have hu' : VC u := by
    intro i
    simp only [hu, Pi.add_apply, Pi.smul_apply, smul_eq_mul]
    fun_prop
  have h1 : VC R := by
    intro i
    have e0 := hEn 0; have e1 := hEn 1; have e2 := hEn 2
    have i0 := hIe 0; have i1 := hIe 1; have i2 := hIe 2
    have u0 := hu' 0; have u1 := hu' 1; have u2 := hu' 2
    clear_value u
    fin_cases i <;> simp only [hR, Pi.add_apply, Pi.sub_apply, Pi.smul_apply, smul_eq_mul, xp, Matrix.cons_val_zero, Matrix.cons_val_one, Matrix.cons_val, Fin.zero_eta, Fin.mk_one, Fin.reduceFinMk, Fin.isValue] <;> fun_prop
  have e : (fun t => t • (V t).nav.vfKb) = fun t => vs (R t) t := by
    funext t
    simp only [hV, Ins.velocityUpdate, hdt, hC, ha, hw, mmul_real, mvec_real, eyeM_real, sm_real, sv_real, cross_eq,
      ← Matrix.mulVec_mulVec]
    have : C *ᵥ (vs f t + (Fl.lit (1 / 2) : ℝ) • xp (vs w t) (vs f t) +
        vd (xp (vs w0 t) (vs f t) + xp (vs f0 t) (vs w t)) (Fl.lit 12)) = t • u t := by
      have : vs f t + (Fl.lit (1 / 2) : ℝ) • xp (vs w t) (vs f t) + vd (xp (vs w0 t) (vs f t) + xp (vs f0 t) (vs w t)) (Fl.lit 12) =
          t • (f + (t / 2) • xp w f + (t / 12) • (xp w0 f + xp f0 w)) := by
        funext i
        fin_cases i <;> simp only [vs_real, vd, lit_real, Pi.add_apply, Pi.sub_apply, Pi.smul_apply, smul_eq_mul, xp, Matrix.cons_val_zero, Matrix.cons_val_one, Matrix.cons_val, Fin.zero_eta, Fin.mk_one, Fin.reduceFinMk, Fin.isValue] <;> norm_num <;> ring
      rw [this, Matrix.mulVec_smul, Matrix.mulVec_add, Matrix.mulVec_add, Matrix.mulVec_smul, Matrix.mulVec_smul]
    rw [this, Matrix.sub_mulVec, Matrix.one_mulVec, Matrix.smul_mulVec, skew_mulVec]
    by_cases h0 : t = 0
    · subst h0
      funext i; simp [vs, vd]
    · funext i
      fin_cases i <;> simp only [hR, vs_real, vd, v3, lit_real, Pi.add_apply, Pi.sub_apply, Pi.smul_apply, smul_eq_mul, xp, Matrix.cons_val_zero, Matrix.cons_val_one, Matrix.cons_val, Fin.zero_eta, Fin.mk_one, Fin.reduceFinMk, Fin.isValue] <;> norm_num <;> field_simp <;> exact Or.inl trivial
  rw [e]
  have := VD.smul_t h1
  have z0 : R 0 = C *ᵥ f := by
    simp only [hR, hu, zero_div, zero_smul, sub_zero, add_zero]
  rwa [z0] at this

/-- A step of the mechanization over `t` seconds with its gravity. -/
noncomputable def insOver (s : Ins ℝ) (fm wm f0 w0 a0 : V3 ℝ) (g time t : ℝ) : ℝ × Ins ℝ :=
  Ins.forwardImu g { s with dt := t, accePre := fun i => f0 i * t, gyroPre := fun i => w0 i * t,
                            nav := { s.nav with dvn := fun i => a0 i * t } }
    { gpst := time, acce := fun i => fm i * t, gyro := fun i => wm i * t }

/-- Everything the transition matrix reads, over a short step. -/
theorem step_limits (s : Ins ℝ) (fm wm f0 w0 a0 : V3 ℝ) (g time : ℝ) (hc : Consistent s.nav)
    (f : V3 ℝ) (hf : ∀ i, f i = (1 - s.nav.as i) * (fm i - s.nav.ab i))
    (N : ℝ → ℝ × Ins ℝ) (hN : N = insOver s fm wm f0 w0 a0 g time) :
    (∀ t, (N t).2.dt = t) ∧ ContinuousAt (fun t => (N t).1) 0 ∧ (N 0).1 = Earth.gravity (s.nav.pos 0) (s.nav.pos 2) ∧
    VC (fun t => (N t).2.omegaEnN) ∧ (N 0).2.omegaEnN = transportRate s.nav.vn (s.nav.pos 0) (s.nav.pos 2) ∧
    VC (fun t => (N t).2.omegaIeN) ∧ (N 0).2.omegaIeN = earthRate (s.nav.pos 0) ∧
    VD (fun t => t • (N t).2.nav.vfKb) (s.nav.Cbn *ᵥ f) ∧ (∀ i j, ContinuousAt (fun t => (N t).2.nav.Cbn i j) 0) ∧
    (N 0).2.nav.Cbn = s.nav.Cbn ∧ VC (fun t => (N t).2.nav.pos) ∧ (N 0).2.nav.pos = s.nav.pos := by
  obtain ⟨w, hw⟩ : ∃ w : V3 ℝ, ∀ i, w i = (1 - s.nav.gs i) * (wm i - s.nav.gb i) := ⟨_, fun _ => rfl⟩
  obtain ⟨h1, h2, h3, h4, h5, h6⟩ := hc
  have hl : Located s.nav := ⟨⟨h4, h6⟩, h5, h3⟩
  set s' : ℝ → Ins ℝ := fun t => { s with accePre := vs f0 t, gyroPre := vs w0 t } with hs'
  set S : ℝ → Ins ℝ := fun t => { s' t with dt := t, nav := { s.nav with dvn := vs a0 t } } with hS
  obtain ⟨x1, x2, x3, x4, x5, x6, x7⟩ := extrapolate_cont s a0 hl _ rfl
  set E : ℝ → Ins ℝ := fun t => (S t).extrapolate.2 with hE
  set V : ℝ → Ins ℝ := fun t => (E t).velocityUpdate (S t).extrapolate.1 (vs f t) (vs w t) with hV
  set P : ℝ → Ins ℝ := fun t => (V t).positionUpdate with hP
  set A : ℝ → Ins ℝ := fun t => (P t).attiUpdate (vs w t) with hA
  have y4 : VC (fun t => (E t).omegaEnN) := x4
  have y5 : VC (fun t => (E t).omegaIeN) := x5
  have y2 : VC (fun t => (E t).posMid) := x2
  have y6 : (E 0).posMid = s.nav.pos := x6
  have y7 : (E 0).vnMid = s.nav.vn := x7
  have en0 : (E 0).omegaEnN = transportRate s.nav.vn (s.nav.pos 0) (s.nav.pos 2) := by
    have : (E 0).omegaEnN = Earth.omegaEnN (E 0).vnMid (E 0).posMid := rfl
    rw [this, y6, y7, en_eq]
  have ie0 : (E 0).omegaIeN = earthRate (s.nav.pos 0) := by
    have : (E 0).omegaIeN = Earth.omegaIeN ((E 0).posMid 0) := rfl
    rw [this, y6, ie_eq]
  have g0 : (S 0).extrapolate.1 = Earth.gravity (s.nav.pos 0) (s.nav.pos 2) := by
    have : (S 0).extrapolate.1 = Earth.gravity ((E 0).posMid 0) ((E 0).posMid 2) := rfl
    rw [this, y6]
  obtain ⟨v1, v2, v3, v4⟩ := velocity_deriv f w f0 w0 s.nav.Cbn s.nav.vn (fun t => (S t).extrapolate.1) E V x1 y4 y5
    (fun _ => rfl) (fun _ => rfl) (fun _ => rfl) (fun _ => rfl) (fun _ => rfl) rfl
  have vf := force_deriv f w f0 w0 s.nav.Cbn (fun t => (S t).extrapolate.1) E V y4 y5
    (fun _ => rfl) (fun _ => rfl) (fun _ => rfl) (fun _ => rfl) rfl
  have hVe : (fun t => (V t).omegaEnN) = fun t => transportRate (V t).vnMid ((E t).posMid 0) ((E t).posMid 2) := by
    funext t; rw [← en_eq]; rfl
  have z1 : VC (fun t => (V t).omegaEnN) := by
    rw [hVe]; exact transport_cont v3 y2 (by rw [y6]; exact hl.reg)
  have z2 : (V 0).omegaEnN = transportRate s.nav.vn (s.nav.pos 0) (s.nav.pos 2) := by
    rw [congrFun hVe 0, v4, y6]
  obtain ⟨p1, p2, p3, p4, p5, p6⟩ := position_deriv s.nav.vn s.nav hl V P (fun _ => rfl) (fun _ => rfl) (fun _ => rfl)
    v3 v4 z1 y5 z2 ie0 rfl
  obtain ⟨a1, a2⟩ := attitude_deriv s.nav.Qbn h1 w w0 _ _ P A (fun _ => rfl) (fun _ => rfl) (fun _ => rfl) p3 p4 p5 p6 rfl
  have hNA : N = fun t => ((S t).extrapolate.1, { A t with nav := { (A t).nav with gpst := time }, accePre := vs f t, gyroPre := vs w t }) := by
    funext t
    have ef : Ins.compensate t (fun i => fm i * t) s.nav.ab s.nav.as = vs f t := by
      have := compensate_eq fm s.nav.ab s.nav.as t
      rw [show (fun i => (1 - s.nav.as i) * (fm i - s.nav.ab i)) = f from (funext hf).symm] at this
      exact this
    have ew : Ins.compensate t (fun i => wm i * t) s.nav.gb s.nav.gs = vs w t := by
      have := compensate_eq wm s.nav.gb s.nav.gs t
      rw [show (fun i => (1 - s.nav.gs i) * (wm i - s.nav.gb i)) = w from (funext hw).symm] at this
      exact this
    rw [hN]
    unfold insOver Ins.forwardImu Ins.forward
    dsimp only
    rw [ef, ew]
    rfl
  rw [hNA]
  exact ⟨fun _ => rfl, x1, g0, p3, p5, p4, p6, vf, fun i j => (a1 i j).continuousAt, a2.trans h2.symm, VD.vc p1, p2⟩

theorem mat_vc {A : ℝ → M3 ℝ} (h : ∀ i j, ContinuousAt (fun t => A t i j) 0) (v : V3 ℝ) : VC (fun t => A t *ᵥ v) := by
  intro i
  have e : (fun t => (A t *ᵥ v) i) = fun t => A t i 0 * v 0 + A t i 1 * v 1 + A t i 2 * v 2 := by
    funext t; simp [Matrix.mulVec, dotProduct, Fin.sum_univ_three]
  have h0 := h i 0; have h1 := h i 1; have h2 := h i 2
  rw [e]
  fun_prop
theorem VD.t_smul {a : ℝ → V3 ℝ} (h : VC a) : VD (fun t => t • a t) (a 0) := by
  intro i
  refine (VD.smul_t h i).congr_of_eventuallyEq (Filter.Eventually.of_forall fun t => ?_)
  simp only [vs, Pi.smul_apply, smul_eq_mul]; ring
theorem VD.stack (x : Fin 15 → ℝ) {a b c d e : ℝ → V3 ℝ} {a' b' c' d' e' : V3 ℝ} (ha : VD a a') (hb : VD b b') (hc : VD c c')
    (hd : VD d d') (he : VD e e') (k : Fin 15) :
    HasDerivAt (fun t => (x + Props.stack (a t) (b t) (c t) (d t) (e t)) k) (Props.stack a' b' c' d' e' k) 0 := by
  have z : ∀ v : ℝ → ℝ, ∀ v' : ℝ, HasDerivAt v v' 0 → HasDerivAt (fun t => x k + v t) v' 0 := fun v v' h => h.const_add _
  refine z _ _ ?_
  fin_cases k
  exacts [ha 0, ha 1, ha 2, hb 0, hb 1, hb 2, hc 0, hc 1, hc 2, hd 0, hd 1, hd 2, he 0, he 1, he 2]
theorem mean_radius {lat h : ℝ} (r : Regular lat h) : 0 < Real.sqrt (rM lat * rN lat) + h := by
  have hm := r.m
  have hn := r.n
  by_cases h0 : 0 ≤ h
  · have hM : 0 < rM lat := by have := (⟨r.lat, by norm_num⟩ : Regular lat 0).m; linarith
    have hN : 0 < rN lat := by have := (⟨r.lat, by norm_num⟩ : Regular lat 0).n; linarith
    have := Real.sqrt_pos.2 (mul_pos hM hN)
    linarith
  · have : -h < Real.sqrt (rM lat * rN lat) := by
      apply Real.lt_sqrt_of_sq_lt
      nlinarith
    linarith

/-- The transition matrix of a step over `t` seconds. -/
noncomputable def transitionOver (f : Fusion ℝ) (fm wm f0 w0 a0 : V3 ℝ) (g time t : ℝ) : Matrix (Fin 15) (Fin 15) ℝ :=
  Fusion.transferMatrix (insOver f.ins fm wm f0 w0 a0 g time t).1 { f with ins := (insOver f.ins fm wm f0 w0 a0 g time t).2 }

/-- C93: over a short step, the transition matrix leaves the identity at the rate of the linear system whose
rotation rates, gravity, attitude and specific force are those of the state. -/
theorem C93_transition (f : Fusion ℝ) (fm wm f0 w0 a0 : V3 ℝ) (g time : ℝ) (hc : Consistent f.ins.nav)
    (F : V3 ℝ) (hF : ∀ i, F i = (1 - f.ins.nav.as i) * (fm i - f.ins.nav.ab i)) (lat h : ℝ) (el : lat = f.ins.nav.pos 0)
    (eh : h = f.ins.nav.pos 2) (x : Fin 15 → ℝ) :
    transitionOver f fm wm f0 w0 a0 g time 0 *ᵥ x = x ∧
    ∀ k, HasDerivAt (fun t => (transitionOver f fm wm f0 w0 a0 g time t *ᵥ x) k)
      (errorRate f.ins.nav.Cbn (earthRate lat) (transportRate f.ins.nav.vn lat h) (f.ins.nav.Cbn *ᵥ F) lat h
        (Earth.gravity lat h) f.opt.imuPara.gtCorr f.opt.imuPara.atCorr x k) 0 := by
  have r : Regular lat h := by rw [el, eh]; exact ⟨hc.lat, hc.height⟩
  obtain ⟨hdt, cg, g0, cT, T0, cE, E0, vf, cC, C0, cp, p0⟩ := step_limits f.ins fm wm f0 w0 a0 g time hc F hF _ rfl
  rw [← el, ← eh] at g0 T0
  rw [← el] at E0
  have pl : (insOver f.ins fm wm f0 w0 a0 g time 0).2.nav.pos 0 = lat := by rw [p0, el]
  have ph : (insOver f.ins fm wm f0 w0 a0 g time 0).2.nav.pos 2 = h := by rw [p0, eh]
  unfold transitionOver
  simp only [transfer_mulVec, hdt]
  set N := insOver f.ins fm wm f0 w0 a0 g time with hN
  have cm : ContinuousAt (fun t => Earth.RM ((N t).2.nav.pos 0) + (N t).2.nav.pos 2) 0 := by
    simp only [rM_eq]; exact (rM_cont.continuousAt.comp (cp 0)).add (cp 2)
  have cn : ContinuousAt (fun t => Earth.RN ((N t).2.nav.pos 0) + (N t).2.nav.pos 2) 0 := by
    simp only [rN_eq]; exact (rN_cont.continuousAt.comp (cp 0)).add (cp 2)
  have hm0 : Earth.RM ((N 0).2.nav.pos 0) + (N 0).2.nav.pos 2 ≠ 0 := by rw [pl, ph, rM_eq]; exact r.m.ne'
  have hn0 : Earth.RN ((N 0).2.nav.pos 0) + (N 0).2.nav.pos 2 ≠ 0 := by rw [pl, ph, rN_eq]; exact r.n.ne'
  have cq : ContinuousAt (fun t => Real.sqrt (Earth.RM ((N t).2.nav.pos 0) * Earth.RN ((N t).2.nav.pos 0)) + (N t).2.nav.pos 2) 0 := by
    simp only [rN_eq, rM_eq]
    exact (Real.continuous_sqrt.continuousAt.comp ((rM_cont.continuousAt.comp (cp 0)).mul (rN_cont.continuousAt.comp (cp 0)))).add (cp 2)
  have hq0 : Real.sqrt (Earth.RM ((N 0).2.nav.pos 0) * Earth.RN ((N 0).2.nav.pos 0)) + (N 0).2.nav.pos 2 ≠ 0 := by
    rw [pl, ph, rM_eq, rN_eq]; exact (mean_radius r).ne'
  constructor
  · simp only [zero_smul]
    ext k; fin_cases k <;> simp [stack]
  · have c1 : VC (fun t => ![x 3, x 4, x 5] - xp (N t).2.omegaEnN ![x 0, x 1, x 2]) := VC.sub (VC.const _) (VC.xp cT (VC.const _))
    have c2 : VC (fun t => -xp ((N t).2.omegaEnN + (2 : ℝ) • (N t).2.omegaIeN) ![x 3, x 4, x 5] +
        (N t).2.nav.Cbn *ᵥ ![x 12, x 13, x 14] +
        ![-(N t).1 / (Earth.RM ((N t).2.nav.pos 0) + (N t).2.nav.pos 2) * x 0,
          -(N t).1 / (Earth.RN ((N t).2.nav.pos 0) + (N t).2.nav.pos 2) * x 1,
          2 * (N t).1 / (Real.sqrt (Earth.RM ((N t).2.nav.pos 0) * Earth.RN ((N t).2.nav.pos 0)) + (N t).2.nav.pos 2) * x 2]) := by
      refine VC.add (VC.add (fun i => ((VC.xp (VC.add cT (VC.smul 2 cE)) (VC.const _)) i).neg) (mat_vc cC _)) ?_
      apply VC.mk
      · exact (cg.neg.div cm hm0).mul_const _
      · exact (cg.neg.div cn hn0).mul_const _
      · exact ((cg.const_mul 2).div cq hq0).mul_const _
    have c3 : VC (fun t => -xp ((N t).2.omegaEnN + (N t).2.omegaIeN) ![x 6, x 7, x 8] - (N t).2.nav.Cbn *ᵥ ![x 9, x 10, x 11]) :=
      VC.sub (fun i => ((VC.xp (VC.add cT cE) (VC.const _)) i).neg) (mat_vc cC _)
    have d1 := VD.t_smul c1
    have d2 := VD.add (VD.t_smul c2) (VD.xp vf (VD.const ![x 6, x 7, x 8]))
    have d3 := VD.t_smul c3
    have d4 := VD.t_smul (VC.const (-(1 / f.opt.imuPara.gtCorr) • ![x 9, x 10, x 11]))
    have d5 := VD.t_smul (VC.const (-(1 / f.opt.imuPara.atCorr) • ![x 12, x 13, x 14]))
    have e2 : ∀ t : ℝ, t • (-xp ((N t).2.omegaEnN + (2 : ℝ) • (N t).2.omegaIeN) ![x 3, x 4, x 5] + xp (N t).2.nav.vfKb ![x 6, x 7, x 8] +
        (N t).2.nav.Cbn *ᵥ ![x 12, x 13, x 14] +
        ![-(N t).1 / (Earth.RM ((N t).2.nav.pos 0) + (N t).2.nav.pos 2) * x 0,
          -(N t).1 / (Earth.RN ((N t).2.nav.pos 0) + (N t).2.nav.pos 2) * x 1,
          2 * (N t).1 / (Real.sqrt (Earth.RM ((N t).2.nav.pos 0) * Earth.RN ((N t).2.nav.pos 0)) + (N t).2.nav.pos 2) * x 2]) =
        t • (-xp ((N t).2.omegaEnN + (2 : ℝ) • (N t).2.omegaIeN) ![x 3, x 4, x 5] + (N t).2.nav.Cbn *ᵥ ![x 12, x 13, x 14] +
        ![-(N t).1 / (Earth.RM ((N t).2.nav.pos 0) + (N t).2.nav.pos 2) * x 0,
          -(N t).1 / (Earth.RN ((N t).2.nav.pos 0) + (N t).2.nav.pos 2) * x 1,
          2 * (N t).1 / (Real.sqrt (Earth.RM ((N t).2.nav.pos 0) * Earth.RN ((N t).2.nav.pos 0)) + (N t).2.nav.pos 2) * x 2]) +
        xp (t • (N t).2.nav.vfKb) ![x 6, x 7, x 8] := by
      intro t
      have : xp (t • (N t).2.nav.vfKb) ![x 6, x 7, x 8] = t • xp (N t).2.nav.vfKb ![x 6, x 7, x 8] := by
        ext i; fin_cases i <;> simp [xp] <;> ring
      rw [this, ← smul_add]
      congr 1
      abel
    simp only [e2]
    intro k
    refine (VD.stack x d1 d2 d3 d4 d5 k).congr_deriv ?_
    unfold errorRate
    rw [T0, E0, C0, g0, pl, ph, rM_eq, rN_eq]
    refine congrFun ?_ k
    congr 1
    simp only [zero_smul]
    have : xp (0 : V3 ℝ) 0 = 0 := by ext i; fin_cases i <;> simp [xp]
    rw [this]
    abel

/-- The filter after processing one inertial sample that covers `t` seconds (first half of a time update). -/
noncomputable def propagateOver (f : Fusion ℝ) (fm wm f0 w0 a0 : V3 ℝ) (g time t : ℝ) : Fusion ℝ :=
  (Fusion.propagate g { f with ins := { f.ins with dt := t, accePre := fun i => f0 i * t, gyroPre := fun i => w0 i * t,
                                                   nav := { f.ins.nav with dvn := fun i => a0 i * t } } }
    { gpst := time, acce := fun i => fm i * t, gyro := fun i => wm i * t }).2

theorem propagateOver_kf (f : Fusion ℝ) (fm wm f0 w0 a0 : V3 ℝ) (g time t : ℝ) :
    (propagateOver f fm wm f0 w0 a0 g time t).kf = f.kf.predict (transitionOver f fm wm f0 w0 a0 g time t)
      (Fusion.stepQ { f with ins := (insOver f.ins fm wm f0 w0 a0 g time t).2 } (transitionOver f fm wm f0 w0 a0 g time t)) := by
  unfold propagateOver Fusion.propagate transitionOver insOver
  dsimp only
  generalize Ins.forwardImu (α := ℝ) _ _ _ = p
  rfl

/-- C93: over a short step the covariance follows the Lyapunov equation of the linear system with the configured
noise, and the estimated correction follows the linear system. -/
theorem C93_covariance (f : Fusion ℝ) (fm wm f0 w0 a0 : V3 ℝ) (g time : ℝ) (hc : Consistent f.ins.nav)
    (F : V3 ℝ) (hF : ∀ i, F i = (1 - f.ins.nav.as i) * (fm i - f.ins.nav.ab i)) (lat h : ℝ) (el : lat = f.ins.nav.pos 0)
    (eh : h = f.ins.nav.pos 2) :
    ∃ A : Matrix (Fin 15) (Fin 15) ℝ,
      (∀ x, A *ᵥ x = errorRate f.ins.nav.Cbn (earthRate lat) (transportRate f.ins.nav.vn lat h) (f.ins.nav.Cbn *ᵥ F) lat h
        (Earth.gravity lat h) f.opt.imuPara.gtCorr f.opt.imuPara.atCorr x) ∧
      (propagateOver f fm wm f0 w0 a0 g time 0).kf.P = f.kf.P ∧ (propagateOver f fm wm f0 w0 a0 g time 0).kf.Xd = f.kf.Xd ∧
      (∀ i j, HasDerivAt (fun t => (propagateOver f fm wm f0 w0 a0 g time t).kf.P i j) ((A * f.kf.P + f.kf.P * Aᵀ + f.Q0) i j) 0) ∧
      (∀ i, HasDerivAt (fun t => (propagateOver f fm wm f0 w0 a0 g time t).kf.Xd i) ((A *ᵥ f.kf.Xd) i) 0) := by
  have hT := C93_transition f fm wm f0 w0 a0 g time hc F hF lat h el eh
  have hdt := (step_limits f.ins fm wm f0 w0 a0 g time hc F hF _ rfl).1
  set Φ := transitionOver f fm wm f0 w0 a0 g time with hΦ
  set R := errorRate f.ins.nav.Cbn (earthRate lat) (transportRate f.ins.nav.vn lat h) (f.ins.nav.Cbn *ᵥ F) lat h
        (Earth.gravity lat h) f.opt.imuPara.gtCorr f.opt.imuPara.atCorr with hR
  have hcol : ∀ t i j, Φ t i j = (Φ t *ᵥ Pi.single j 1) i := by
    intro t i j; rw [Matrix.mulVec_single_one]; rfl
  have h0 : Φ 0 = 1 := by
    ext i j
    rw [hcol, (hT _).1, Matrix.one_apply, Pi.single_apply]
  set A : Matrix (Fin 15) (Fin 15) ℝ := fun i j => R (Pi.single j 1) i with hA
  have hD : ∀ i j, HasDerivAt (fun t => Φ t i j) (A i j) 0 := by
    intro i j
    have := (hT (Pi.single j 1)).2 i
    simp only [← hcol] at this
    exact this
  have hsum : ∀ (u : Fin 15 → ℝ → ℝ) (u' : Fin 15 → ℝ), (∀ j, HasDerivAt (u j) (u' j) 0) →
      HasDerivAt (fun t => ∑ j, u j t) (∑ j, u' j) 0 := by
    intro u u' hu
    have := HasDerivAt.sum (u := Finset.univ) (fun j _ => hu j)
    refine this.congr_of_eventuallyEq (Filter.Eventually.of_forall fun t => ?_)
    simp
  have hmul : ∀ (U W : ℝ → Matrix (Fin 15) (Fin 15) ℝ) (U' W' : Matrix (Fin 15) (Fin 15) ℝ),
      (∀ i j, HasDerivAt (fun t => U t i j) (U' i j) 0) → (∀ i j, HasDerivAt (fun t => W t i j) (W' i j) 0) →
      ∀ i j, HasDerivAt (fun t => (U t * W t) i j) ((U' * W 0 + U 0 * W') i j) 0 := by
    intro U W U' W' hU hW i j
    simp only [Matrix.mul_apply, Matrix.add_apply]
    rw [← Finset.sum_add_distrib]
    exact hsum (fun k t => U t i k * W t k j) _ fun k => (hU i k).mul (hW k j)
  have hconst : ∀ (M : Matrix (Fin 15) (Fin 15) ℝ) (i j : Fin 15), HasDerivAt (fun _ : ℝ => M i j) ((0 : Matrix (Fin 15) (Fin 15) ℝ) i j) 0 :=
    fun M i j => hasDerivAt_const ..
  have hAx : ∀ x, A *ᵥ x = R x := by
    intro x
    ext i
    have h1 := (hT x).2 i
    have h2 : HasDerivAt (fun t => (Φ t *ᵥ x) i) ((A *ᵥ x) i) 0 := by
      simp only [Matrix.mulVec, dotProduct]
      exact hsum (fun k t => Φ t i k * x k) _ fun k => (hD i k).mul_const _
    exact h2.unique h1
  have hP : ∀ t, (propagateOver f fm wm f0 w0 a0 g time t).kf.P =
      Φ t * f.kf.P * (Φ t)ᵀ + t • ((1 / 2 : ℝ) • (Φ t * f.Q0 + f.Q0 * (Φ t)ᵀ)) := by
    intro t
    rw [propagateOver_kf, ← hΦ, (predict_P _ _ _).1]
    unfold Fusion.stepQ
    rw [mmul_real, mmul_real, ms_real, sm_real]
    have : ({ f with ins := (insOver f.ins fm wm f0 w0 a0 g time t).2 } : Fusion ℝ).ins.dt = t := hdt t
    rw [this, lit_real]
    norm_num
  have hX : ∀ t, (propagateOver f fm wm f0 w0 a0 g time t).kf.Xd = Φ t *ᵥ f.kf.Xd := by
    intro t
    rw [propagateOver_kf, ← hΦ, (predict_P _ _ _).2]
  refine ⟨A, hAx, ?_, ?_, ?_, ?_⟩
  · rw [hP, h0]; simp
  · rw [hX, h0, Matrix.one_mulVec]
  · intro i j
    simp only [hP]
    have hDt : ∀ i j, HasDerivAt (fun t => (Φ t)ᵀ i j) (Aᵀ i j) 0 := fun i j => hD j i
    have a1 := hmul (fun t => Φ t * f.kf.P) (fun t => (Φ t)ᵀ) _ _ (hmul _ _ _ _ hD (hconst f.kf.P)) hDt i j
    have a2 := hmul _ _ _ _ hD (hconst f.Q0) i j
    have a3 := hmul (fun _ => f.Q0) (fun t => (Φ t)ᵀ) _ _ (hconst f.Q0) hDt i j
    have a4 : HasDerivAt (fun t => t * ((1 / 2 : ℝ) * ((Φ t * f.Q0) i j + (f.Q0 * (Φ t)ᵀ) i j))) (f.Q0 i j) 0 := by
      have c : ContinuousAt (fun t => (1 / 2 : ℝ) * ((Φ t * f.Q0) i j + (f.Q0 * (Φ t)ᵀ) i j)) 0 :=
        (a2.continuousAt.add a3.continuousAt).const_mul _
      have := deriv_mul_t _ c
      simp only [mul_comm] at this ⊢
      refine this.congr_deriv ?_
      rw [h0, Matrix.transpose_one, Matrix.one_mul, Matrix.mul_one]
      ring
    refine (a1.add a4).congr_deriv ?_
    simp only [h0, Matrix.transpose_one, Matrix.mul_one, Matrix.one_mul, Matrix.mul_zero, add_zero, Matrix.add_apply]
  · intro i
    have := (hT f.kf.Xd).2 i
    simp only [hX]
    rw [hAx]
    exact this

/-- C93's hypotheses are met by the vehicle of C81. -/
example (f : Fusion ℝ) : Consistent ({ f with ins := demoIns } : Fusion ℝ).ins.nav := by
  have h3 := Real.pi_gt_three
  exact ⟨by simp [demoIns, qsq], rfl, by simp [demoIns], by constructor <;> simp [demoIns] <;> linarith,
    by constructor <;> simp [demoIns] <;> linarith, by simp [demoIns]; norm_num⟩
end Verif.Props
