import Verif.Lemmas.Deriv
import Verif.Spec.Navigation
import Verif.Model.Ins
import Mathlib.Analysis.SpecialFunctions.Pow.Continuity
import Mathlib.Analysis.SpecialFunctions.Trigonometric.Deriv
/-! C81: the strapdown integrator follows the navigation equations. -/
namespace Verif.Props
open Verif Verif.Spec Verif.Convert Matrix

theorem rM_eq (lat : ℝ) : Earth.RM lat = rM lat := by
  simp only [Earth.RM, Earth.a, Earth.e2, rM, lit_real, sin_real, pow_real]
  norm_num
  ring_nf
theorem rN_eq (lat : ℝ) : Earth.RN lat = rN lat := by
  simp only [Earth.RN, Earth.a, Earth.e2, rN, lit_real, sin_real, sqrt_real]
  norm_num
  ring_nf
theorem ie_eq (lat : ℝ) : Earth.omegaIeN lat = earthRate lat := by
  ext i; fin_cases i <;> simp [Earth.omegaIeN, Earth.omegaE, earthRate, earthW, v3] <;> norm_num
theorem en_eq (v p : V3 ℝ) : Earth.omegaEnN v p = transportRate v (p 0) (p 2) := by
  ext i; fin_cases i <;> simp [Earth.omegaEnN, transportRate, v3, rM_eq, rN_eq]
theorem cross_eq (a b : V3 ℝ) : cross a b = xp a b := rfl
theorem skew_eq (a : V3 ℝ) : skew a = xm a := rfl

theorem e2sq_pos (x : ℝ) : 0 < 1 - 0.00669437999013 * Real.sin x ^ 2 := by
  have := Real.sin_sq_le_one x; linarith
theorem rM_cont : Continuous rM := by
  unfold rM
  apply Continuous.div (by fun_prop)
  · refine Continuous.rpow_const (by fun_prop) ?_
    intro x; left; exact (e2sq_pos x).ne'
  · intro x; exact (Real.rpow_pos_of_pos (e2sq_pos x) _).ne'
theorem rN_cont : Continuous rN := by
  unfold rN
  apply Continuous.div (by fun_prop) (by fun_prop)
  intro x; exact (Real.sqrt_pos.2 (e2sq_pos x)).ne'

theorem VC.mk {v : ℝ → V3 ℝ} (h0 : ContinuousAt (fun t => v t 0) 0) (h1 : ContinuousAt (fun t => v t 1) 0)
    (h2 : ContinuousAt (fun t => v t 2) 0) : VC v := by
  intro i; fin_cases i <;> assumption

/-- A place where the equations make sense. -/
structure Regular (lat h : ℝ) : Prop where
  lat : lat ∈ Set.Ioo (-(Real.pi / 2)) (Real.pi / 2)
  h : -6000000 < h
theorem Regular.cos {lat h : ℝ} (r : Regular lat h) : 0 < Real.cos lat := Real.cos_pos_of_mem_Ioo r.lat
theorem Regular.m {lat h : ℝ} (r : Regular lat h) : 0 < rM lat + h := by
  rw [← rM_eq]; exact ((C44_radii lat).2.2.2.2.2.2 h r.h).1
theorem Regular.n {lat h : ℝ} (r : Regular lat h) : 0 < rN lat + h := by
  rw [← rN_eq]; exact ((C44_radii lat).2.2.2.2.2.2 h r.h).2

theorem earthRate_cont {p : ℝ → V3 ℝ} (hp : VC p) : VC (fun t => earthRate (p t 0)) := by
  have h0 := hp 0
  apply VC.mk
  · simp only [earthRate, Matrix.cons_val_zero]
    exact (Real.continuous_cos.continuousAt.comp h0).const_mul _
  · simp only [earthRate, Matrix.cons_val_one]
    exact continuousAt_const
  · simp only [earthRate, Matrix.cons_val]
    exact (Real.continuous_sin.continuousAt.comp h0).const_mul _
theorem transport_cont {v p : ℝ → V3 ℝ} (hv : VC v) (hp : VC p) (r : Regular (p 0 0) (p 0 2)) :
    VC (fun t => transportRate (v t) (p t 0) (p t 2)) := by
  have hm : ContinuousAt (fun t => rM (p t 0) + p t 2) 0 := (rM_cont.continuousAt.comp (hp 0)).add (hp 2)
  have hn : ContinuousAt (fun t => rN (p t 0) + p t 2) 0 := (rN_cont.continuousAt.comp (hp 0)).add (hp 2)
  apply VC.mk
  · simp only [transportRate, Matrix.cons_val_zero]
    exact (hv 1).div hn r.n.ne'
  · simp only [transportRate, Matrix.cons_val_one]
    exact (hv 0).neg.div hm r.m.ne'
  · simp only [transportRate, Matrix.cons_val]
    exact ((hv 1).neg.mul (ContinuousAt.comp (f := fun t => p t 0) (Real.continuousAt_tan.2 r.cos.ne') (hp 0))).div hn r.n.ne'

/-- A vector rate times the time. -/
theorem VD.smul_t {F : ℝ → V3 ℝ} (h : VC F) : VD (fun t => vs (F t) t) (F 0) := fun i => deriv_mul_t _ (h i)

/-- The value of the position quaternion's scalar part is positive. -/
theorem qne_w_pos (lat lon : ℝ) (h1 : lat ∈ Set.Ioo (-(Real.pi / 2)) (Real.pi / 2)) (h2 : lon ∈ Set.Ioo (-Real.pi) Real.pi) :
    0 < (llaToQne (⟨lat, lon⟩ : LatLon ℝ)).w := by
  obtain ⟨a, b⟩ := h1
  obtain ⟨c, d⟩ := h2
  have hp := Real.pi_pos
  simp only [llaToQne, lit_real, pi_real, cos_real]
  push_cast
  apply mul_pos
  · apply Real.cos_pos_of_mem_Ioo; constructor <;> linarith
  · apply Real.cos_pos_of_mem_Ioo; constructor <;> linarith


/-- Latitude and longitude when the position quaternion is turned by `k` about the earth's axis on one side and
by `z` on the other. -/
theorem lla_step {a b : ℝ → V3 ℝ} {z : V3 ℝ} {lat lon k : ℝ} (hlat : lat ∈ Set.Ioo (-(Real.pi / 2)) (Real.pi / 2))
    (hlon : lon ∈ Set.Ioo (-Real.pi) Real.pi) (ha : VD a ![0, 0, k]) (hb : VD b z) (ha0 : a 0 = 0) (hb0 : b 0 = 0)
    (hz : z 0 * Real.sin lat + z 2 * Real.cos lat = 0) (q : ℝ → Quat ℝ)
    (hqd : q = fun t => (((rvToQuat (a t)).conj.mul (llaToQne ⟨lat, lon⟩)).mul (rvToQuat (b t))).normalized) :
    HasDerivAt (fun t => (qneToLla (q t)).lat) (-z 1) 0 ∧
    HasDerivAt (fun t => (qneToLla (q t)).lon) (-k + z 2 + z 0 * ((1 + Real.sin lat) / Real.cos lat)) 0 ∧
    qneToLla (q 0) = ⟨lat, lon⟩ := by
  have hq1 : qsq (llaToQne (⟨lat, lon⟩ : LatLon ℝ)) = 1 := (C41_position_quaternion _).1
  obtain ⟨hd, h0⟩ := QD.step ha hb ha0 hb0 _ hq1
  rw [← hqd] at hd
  have h0 : q 0 = llaToQne ⟨lat, lon⟩ := by rw [hqd]; exact h0
  have hw := qne_w_pos lat lon hlat hlon
  have hl := lla_deriv hd (by rw [h0]; exact hw)
  have hcos := Real.cos_pos_of_mem_Ioo hlat
  rw [h0] at hl
  set P := -(1 / 4) * Real.pi - 1 / 2 * lat with hP
  set L := 1 / 2 * lon with hL
  have eQ : llaToQne (⟨lat, lon⟩ : LatLon ℝ) = ⟨Real.cos P * Real.cos L, -Real.sin P * Real.sin L, Real.sin P * Real.cos L,
      Real.cos P * Real.sin L⟩ := by
    simp only [llaToQne, lit_real, pi_real, cos_real, sin_real, hP, hL]
    norm_num
  rw [eQ] at hl hw
  simp only [qadd, Quat.mul, Quat.conj, qhalf, Matrix.cons_val_zero, Matrix.cons_val_one, Matrix.cons_val] at hl hw
  have sP := Real.sin_sq_add_cos_sq P
  have sL := Real.sin_sq_add_cos_sq L
  have hs : Real.sin lat = Real.sin P ^ 2 - Real.cos P ^ 2 := by
    have : lat = -(Real.pi / 2 + 2 * P) := by rw [hP]; ring
    have h2 := Real.cos_sq' P
    rw [this, Real.sin_neg, add_comm, Real.sin_add_pi_div_two, Real.cos_two_mul]; linarith
  have hc : Real.cos lat = -(2 * Real.sin P * Real.cos P) := by
    have : lat = -(2 * P + Real.pi / 2) := by rw [hP]; ring
    rw [this, Real.cos_neg, Real.cos_add_pi_div_two, Real.sin_two_mul]
  have cP : Real.cos P ≠ 0 := fun h => by rw [h] at hw; simp at hw
  have cL : Real.cos L ≠ 0 := fun h => by rw [h] at hw; simp at hw
  refine ⟨hl.1.congr_deriv ?_, hl.2.congr_deriv ?_, ?_⟩
  · have e : (Real.cos P * Real.cos L) ^ 2 + (Real.sin P * Real.cos L) ^ 2 = Real.cos L ^ 2 := by
      linear_combination Real.cos L ^ 2 * sP
    rw [e]
    rw [hs, hc] at hz
    rw [← mul_div_assoc, div_eq_iff (by positivity)]
    linear_combination (-z 1 * Real.cos L ^ 2) * sP + Real.sin L * Real.cos L * hz
  · have e : (Real.cos P * Real.cos L) ^ 2 + (Real.cos P * Real.sin L) ^ 2 = Real.cos P ^ 2 := by
      linear_combination Real.cos P ^ 2 * sL
    have hc0 : Real.sin P ≠ 0 := fun h => by rw [hc, h] at hcos; simp at hcos
    have e2 : (1 + Real.sin lat) / Real.cos lat = - Real.sin P / Real.cos P := by
      rw [hs, hc, div_eq_div_iff (by rw [← hc]; exact hcos.ne') cP]
      linear_combination -Real.cos P * sP
    rw [e, e2]
    have hT : Real.sin P / Real.cos P * Real.cos P = Real.sin P := div_mul_cancel₀ _ cP
    rw [← mul_div_assoc, div_eq_iff (by positivity), neg_div]
    linear_combination (-k * Real.cos P ^ 2 + z 2 * Real.cos P ^ 2 - z 0 * Real.sin P * Real.cos P) * sL + z 0 * Real.cos P * hT
  · rw [h0]; exact C41_lat_lon_round_trip _ hlat hlon

theorem VC.const (c : V3 ℝ) : VC (fun _ => c) := fun _ => continuousAt_const
theorem VC.add {a b : ℝ → V3 ℝ} (ha : VC a) (hb : VC b) : VC (fun t => a t + b t) := fun i => (ha i).add (hb i)
theorem VC.sub {a b : ℝ → V3 ℝ} (ha : VC a) (hb : VC b) : VC (fun t => a t - b t) := fun i => (ha i).sub (hb i)
theorem VC.smul {a : ℝ → V3 ℝ} (c : ℝ) (ha : VC a) : VC (fun t => c • a t) := fun i => (ha i).const_mul c
theorem VC.xp {a b : ℝ → V3 ℝ} (ha : VC a) (hb : VC b) : VC (fun t => Spec.xp (a t) (b t)) :=
  VC.mk (((ha 1).mul (hb 2)).sub ((ha 2).mul (hb 1))) (((ha 2).mul (hb 0)).sub ((ha 0).mul (hb 2)))
    (((ha 0).mul (hb 1)).sub ((ha 1).mul (hb 0)))
theorem VD.add {a b : ℝ → V3 ℝ} {u v : V3 ℝ} (ha : VD a u) (hb : VD b v) : VD (fun t => a t + b t) (u + v) :=
  fun i => (ha i).add (hb i)
theorem VD.const (c : V3 ℝ) : VD (fun _ => c) 0 := fun _ => hasDerivAt_const ..
theorem VD.smul {a : ℝ → V3 ℝ} {u : V3 ℝ} (c : ℝ) (ha : VD a u) : VD (fun t => c • a t) (c • u) :=
  fun i => (ha i).const_mul c

/-- The rotation of the local frame keeps the meridian: what it does to the position. -/
theorem frame_meridian (v : V3 ℝ) (lat h : ℝ) (hc : Real.cos lat ≠ 0) :
    (earthRate lat + transportRate v lat h) 0 * Real.sin lat + (earthRate lat + transportRate v lat h) 2 * Real.cos lat = 0 := by
  simp only [earthRate, transportRate, Pi.add_apply, Matrix.cons_val_zero, Matrix.cons_val, Real.tan_eq_sin_div_cos]
  field_simp
  ring

/-- Position when the position quaternion is turned by the earth rate on one side and by the rotation of the
local frame on the other. -/
theorem pos_step {F : ℝ → V3 ℝ} {v : V3 ℝ} {lat lon h : ℝ} (r : Regular lat h) (hlon : lon ∈ Set.Ioo (-Real.pi) Real.pi)
    (c : ℝ) (hF : VC F) (hF0 : F 0 = c • (earthRate lat + transportRate v lat h)) (E : ℝ → V3 ℝ) (hE : VD E (c • ![0, 0, earthW]))
    (hE0 : E 0 = 0) (q : ℝ → Quat ℝ)
    (hq : q = fun t => (((rvToQuat (E t)).conj.mul (llaToQne ⟨lat, lon⟩)).mul (rvToQuat (vs (F t) t))).normalized) :
    HasDerivAt (fun t => (qneToLla (q t)).lat) (c * posRate v lat h 0) 0 ∧
    HasDerivAt (fun t => (qneToLla (q t)).lon) (c * posRate v lat h 1) 0 ∧ qneToLla (q 0) = ⟨lat, lon⟩ := by
  have hc := r.cos.ne'
  have hn := r.n.ne'
  have hE' : VD E ![0, 0, c * earthW] := by
    intro i; refine (hE i).congr_deriv ?_; fin_cases i <;> simp
  obtain ⟨h1, h2, h3⟩ := lla_step r.lat hlon hE' (VD.smul_t hF) hE0 (by rw [vs_real, zero_smul]) (by
    rw [hF0]
    have := frame_meridian v lat h hc
    simp only [Pi.smul_apply, smul_eq_mul]
    linear_combination c * this) q hq
  refine ⟨h1.congr_deriv ?_, h2.congr_deriv ?_, h3⟩
  · rw [hF0]
    simp [earthRate, transportRate, posRate]
    ring
  · rw [hF0]
    simp only [earthRate, transportRate, posRate, Pi.smul_apply, Pi.add_apply, Matrix.cons_val_zero, Matrix.cons_val_one,
      Matrix.cons_val, smul_eq_mul, Real.tan_eq_sin_div_cos]
    field_simp
    ring


/-- Where the position sits on the sphere of longitudes. -/
structure Located (n : NavEpoch ℝ) : Prop where
  reg : Regular (n.pos 0) (n.pos 2)
  lon : n.pos 1 ∈ Set.Ioo (-Real.pi) Real.pi
  q : n.Qne = llaToQne ⟨n.pos 0, n.pos 1⟩

/-- Continuity and value at zero of the extrapolation to the middle of the step. -/
theorem extrapolate_cont (s : Ins ℝ) (a0 : V3 ℝ) (hl : Located s.nav) (S : ℝ → Ins ℝ)
    (hS : S = fun t => { s with dt := t, nav := { s.nav with dvn := vs a0 t } }) :
    ContinuousAt (fun t => (S t).extrapolate.1) 0 ∧ VC (fun t => (S t).extrapolate.2.posMid) ∧
    VC (fun t => (S t).extrapolate.2.vnMid) ∧ VC (fun t => (S t).extrapolate.2.omegaEnN) ∧
    VC (fun t => (S t).extrapolate.2.omegaIeN) ∧
    (S 0).extrapolate.2.posMid = s.nav.pos ∧ (S 0).extrapolate.2.vnMid = s.nav.vn := by
  obtain ⟨r, hlon, hq⟩ := hl
  subst hS
  obtain ⟨d1, d2, d3⟩ := pos_step (v := s.nav.vn) r hlon (1 / 2)
    (F := fun _ => (1 / 2 : ℝ) • (earthRate (s.nav.pos 0) + transportRate s.nav.vn (s.nav.pos 0) (s.nav.pos 2)))
    (VC.const _) rfl (fun t => vd (vs Earth.omegaIeE t) (Fl.lit 2)) (by
      intro i
      have : HasDerivAt (fun t : ℝ => Earth.omegaIeE i * t / 2) (Earth.omegaIeE i / 2) 0 := by
        simpa using ((hasDerivAt_id (0 : ℝ)).const_mul (Earth.omegaIeE i : ℝ)).div_const 2
      refine (this.congr_deriv ?_)
      fin_cases i <;> simp [Earth.omegaIeE, Earth.omegaE, v3, earthW] <;> norm_num) (by
      ext i; simp [vd, vs]) _ rfl
  have hz : ∀ t : ℝ, vd (vs (Earth.omegaIeN (s.nav.pos 0) + Earth.omegaEnN s.nav.vn s.nav.pos) t) (Fl.lit 2) =
      vs ((1 / 2 : ℝ) • (earthRate (s.nav.pos 0) + transportRate s.nav.vn (s.nav.pos 0) (s.nav.pos 2))) t := by
    intro t
    rw [ie_eq, en_eq]
    ext i
    simp only [vd, vs, lit_real, Pi.smul_apply, smul_eq_mul, Rat.cast_ofNat]
    ring
  have hpos : VC (fun t => ({ s with dt := t, nav := { s.nav with dvn := vs a0 t } } : Ins ℝ).extrapolate.2.posMid) := by
    apply VC.mk
    · simp only [Ins.extrapolate, hz, hq]
      exact d1.continuousAt
    · simp only [Ins.extrapolate, hz, hq]
      exact d2.continuousAt
    · simp only [Ins.extrapolate, v3, Matrix.cons_val]
      fun_prop
  have hvn : VC (fun t => ({ s with dt := t, nav := { s.nav with dvn := vs a0 t } } : Ins ℝ).extrapolate.2.vnMid) := by
    simp only [Ins.extrapolate]
    intro i
    simp only [sv, vs, Pi.add_apply]
    fun_prop
  have p0 : ({ s with dt := 0, nav := { s.nav with dvn := vs a0 0 } } : Ins ℝ).extrapolate.2.posMid = s.nav.pos := by
    simp only [Ins.extrapolate, hz, hq]
    rw [d3]
    ext i; fin_cases i <;> simp [v3]
  have v0 : ({ s with dt := 0, nav := { s.nav with dvn := vs a0 0 } } : Ins ℝ).extrapolate.2.vnMid = s.nav.vn := by
    simp only [Ins.extrapolate]
    ext i; simp [vs, sv]
  refine ⟨?_, hpos, hvn, ?_, ?_, p0, v0⟩
  · have h0 := hpos 0
    have h2 := hpos 2
    have : (fun t => ({ s with dt := t, nav := { s.nav with dvn := vs a0 t } } : Ins ℝ).extrapolate.1) = fun t =>
        Earth.gravity (({ s with dt := t, nav := { s.nav with dvn := vs a0 t } } : Ins ℝ).extrapolate.2.posMid 0)
          (({ s with dt := t, nav := { s.nav with dvn := vs a0 t } } : Ins ℝ).extrapolate.2.posMid 2) := rfl
    rw [this]
    simp only [Earth.gravity, sin_real]
    have hs := Real.continuous_sin.continuousAt.comp h0
    fun_prop
  · have : (fun t => ({ s with dt := t, nav := { s.nav with dvn := vs a0 t } } : Ins ℝ).extrapolate.2.omegaEnN) = fun t =>
        transportRate (({ s with dt := t, nav := { s.nav with dvn := vs a0 t } } : Ins ℝ).extrapolate.2.vnMid)
          (({ s with dt := t, nav := { s.nav with dvn := vs a0 t } } : Ins ℝ).extrapolate.2.posMid 0)
          (({ s with dt := t, nav := { s.nav with dvn := vs a0 t } } : Ins ℝ).extrapolate.2.posMid 2) := by
      funext t; rw [← en_eq]; rfl
    rw [this]
    exact transport_cont hvn hpos (by rw [p0]; exact r)
  · have : (fun t => ({ s with dt := t, nav := { s.nav with dvn := vs a0 t } } : Ins ℝ).extrapolate.2.omegaIeN) = fun t =>
        earthRate (({ s with dt := t, nav := { s.nav with dvn := vs a0 t } } : Ins ℝ).extrapolate.2.posMid 0) := by
      funext t; rw [← ie_eq]; rfl
    rw [this]
    exact earthRate_cont hpos


theorem omegaIeE_eq : (Earth.omegaIeE : V3 ℝ) = ![0, 0, earthW] := by
  ext i; fin_cases i <;> simp [Earth.omegaIeE, Earth.omegaE, v3, earthW] <;> norm_num

/-- Compensation of increments of a constant rate. -/
theorem compensate_eq (m b k : V3 ℝ) (t : ℝ) :
    Ins.compensate t (vs m t) b k = vs (fun i => (1 - k i) * (m i - b i)) t := by
  ext i
  simp only [Ins.compensate, mvec_real, eyeM_real, diagM_real]
  rw [Matrix.sub_mulVec, Matrix.one_mulVec, Pi.sub_apply, Matrix.mulVec_diagonal]
  simp only [vs, Pi.sub_apply]
  ring
theorem skew_mulVec (a b : V3 ℝ) : skew a *ᵥ b = xp a b := by
  ext i; fin_cases i <;> simp [skew, xp, Matrix.mulVec, dotProduct, Fin.sum_univ_three] <;> ring

/-- The body frame velocity increment, to first order. -/
theorem velocity_deriv (f w f0 w0 : V3 ℝ) (C : M3 ℝ) (v : V3 ℝ) (g : ℝ → ℝ) (E V : ℝ → Ins ℝ)
    (hg : ContinuousAt g 0) (hEn : VC (fun t => (E t).omegaEnN)) (hIe : VC (fun t => (E t).omegaIeN))
    (hdt : ∀ t, (E t).dt = t) (hC : ∀ t, (E t).nav.Cbn = C) (hv : ∀ t, (E t).nav.vn = v)
    (ha : ∀ t, (E t).accePre = vs f0 t) (hw : ∀ t, (E t).gyroPre = vs w0 t)
    (hV : V = fun t => (E t).velocityUpdate (g t) (vs f t) (vs w t)) :
    VD (fun t => (V t).nav.vn) (C *ᵥ f + ![0, 0, g 0] - xp ((2 : ℝ) • (E 0).omegaIeN + (E 0).omegaEnN) v) ∧
    (V 0).nav.vn = v ∧ VC (fun t => (V t).vnMid) ∧ (V 0).vnMid = v := by
  have hd : VD (fun t => (V t).nav.dvn) (C *ᵥ f + ![0, 0, g 0] - xp ((2 : ℝ) • (E 0).omegaIeN + (E 0).omegaEnN) v) := by
    set u : ℝ → V3 ℝ := fun t => C *ᵥ f + (t / 2) • (C *ᵥ xp w f) + (t / 12) • (C *ᵥ (xp w0 f + xp f0 w)) with hu
    set R : ℝ → V3 ℝ := fun t => u t - (t / 2) • xp ((E t).omegaEnN + (E t).omegaIeN) (u t) +
      (![0, 0, g t] - xp ((2 : ℝ) • (E t).omegaIeN + (E t).omegaEnN) v) with hR
    have hu' : VC u := by
      intro i
      simp only [hu, Pi.add_apply, Pi.smul_apply, smul_eq_mul]
      fun_prop
    have h1 : VC R := by
      intro i
      have e0 := hEn 0; have e1 := hEn 1; have e2 := hEn 2
      have i0 := hIe 0; have i1 := hIe 1; have i2 := hIe 2
      have u0 := hu' 0; have u1 := hu' 1; have u2 := hu' 2
      clear_value u
      fin_cases i <;> simp only [hR, Pi.add_apply, Pi.sub_apply, Pi.smul_apply, smul_eq_mul, xp, Matrix.cons_val_zero, Matrix.cons_val_one, Matrix.cons_val, Fin.zero_eta, Fin.mk_one, Fin.reduceFinMk, Fin.isValue] <;> fun_prop
    have e : (fun t => (V t).nav.dvn) = fun t => vs (R t) t := by
      funext t
      simp only [hV, Ins.velocityUpdate, hdt, hC, hv, ha, hw, mmul_real, mvec_real, eyeM_real, sm_real, sv_real, cross_eq,
        ← Matrix.mulVec_mulVec]
      have : C *ᵥ (vs f t + (Fl.lit (1 / 2) : ℝ) • xp (vs w t) (vs f t) +
          vd (xp (vs w0 t) (vs f t) + xp (vs f0 t) (vs w t)) (Fl.lit 12)) = t • u t := by
        have : vs f t + (Fl.lit (1 / 2) : ℝ) • xp (vs w t) (vs f t) + vd (xp (vs w0 t) (vs f t) + xp (vs f0 t) (vs w t)) (Fl.lit 12) =
            t • (f + (t / 2) • xp w f + (t / 12) • (xp w0 f + xp f0 w)) := by
          funext i
          fin_cases i <;> simp only [vs_real, vd, lit_real, Pi.add_apply, Pi.sub_apply, Pi.smul_apply, smul_eq_mul, xp, Matrix.cons_val_zero, Matrix.cons_val_one, Matrix.cons_val, Fin.zero_eta, Fin.mk_one, Fin.reduceFinMk, Fin.isValue] <;> norm_num <;> ring
        rw [this, Matrix.mulVec_smul, Matrix.mulVec_add, Matrix.mulVec_add, Matrix.mulVec_smul, Matrix.mulVec_smul]
      rw [this, Matrix.sub_mulVec, Matrix.one_mulVec, Matrix.smul_mulVec, skew_mulVec]
      funext i
      fin_cases i <;> simp only [hR, vs_real, v3, lit_real, Pi.add_apply, Pi.sub_apply, Pi.smul_apply, smul_eq_mul, xp, Matrix.cons_val_zero, Matrix.cons_val_one, Matrix.cons_val, Fin.zero_eta, Fin.mk_one, Fin.reduceFinMk, Fin.isValue] <;> norm_num <;> ring
    rw [e]
    have := VD.smul_t h1
    have z0 : R 0 = C *ᵥ f + ![0, 0, g 0] - xp ((2 : ℝ) • (E 0).omegaIeN + (E 0).omegaEnN) v := by
      simp only [hR, hu, zero_div, zero_smul, sub_zero, add_zero]
      abel
    rw [z0] at this
    exact this
  have d0 : (V 0).nav.dvn = 0 := by
    simp only [hV, Ins.velocityUpdate, hdt, mvec_real, vs_real, zero_smul, cross_eq]
    have x0 : ∀ a : V3 ℝ, xp 0 a = 0 := fun a => by ext i; fin_cases i <;> simp [xp]
    have x1 : ∀ a : V3 ℝ, xp a 0 = 0 := fun a => by ext i; fin_cases i <;> simp [xp]
    simp only [x0, x1, ha, hw, vs_real, zero_smul]
    ext i; simp [sv, vd, Matrix.mulVec, dotProduct]
  have ev : (fun t => (V t).nav.vn) = fun t => v + (V t).nav.dvn := by
    funext t; rw [hV, ← hv t]; rfl
  have em : (fun t => (V t).vnMid) = fun t => v + vd (V t).nav.dvn (Fl.lit 2) := by
    funext t; rw [hV, ← hv t]; rfl
  refine ⟨?_, ?_, ?_, ?_⟩
  · rw [ev]; intro i; simpa using (hd i).const_add (v i)
  · have : (V 0).nav.vn = v + (V 0).nav.dvn := congrFun ev 0
    rw [this, d0, add_zero]
  · rw [em]
    intro i
    have := (hd i).continuousAt
    simp only [Pi.add_apply, vd]
    fun_prop
  · have : (V 0).vnMid = v + vd (V 0).nav.dvn (Fl.lit 2) := congrFun em 0
    rw [this, d0]
    ext i; simp [vd]

/-- The position after the step. -/
theorem position_deriv (v : V3 ℝ) (n : NavEpoch ℝ) (hl : Located n) (V P : ℝ → Ins ℝ) (hn : ∀ t, (V t).nav.pos = n.pos)
    (hQ : ∀ t, (V t).nav.Qne = n.Qne) (hdt : ∀ t, (V t).dt = t) (hm : VC (fun t => (V t).vnMid)) (hm0 : (V 0).vnMid = v)
    (hEn : VC (fun t => (V t).omegaEnN)) (hIe : VC (fun t => (V t).omegaIeN))
    (e0 : (V 0).omegaEnN = transportRate v (n.pos 0) (n.pos 2)) (i0 : (V 0).omegaIeN = earthRate (n.pos 0))
    (hP : P = fun t => (V t).positionUpdate) :
    VD (fun t => (P t).nav.pos) (posRate v (n.pos 0) (n.pos 2)) ∧ (P 0).nav.pos = n.pos ∧
    VC (fun t => (P t).omegaEnN) ∧ VC (fun t => (P t).omegaIeN) ∧
    (P 0).omegaEnN = transportRate v (n.pos 0) (n.pos 2) ∧ (P 0).omegaIeN = earthRate (n.pos 0) := by
  obtain ⟨r, hlon, hq⟩ := hl
  obtain ⟨d1, d2, d3⟩ := pos_step (v := v) r hlon 1 (F := fun t => (V t).omegaIeN + (V t).omegaEnN) (VC.add hIe hEn)
    (by simp only [e0, i0, one_smul]) (fun t => vs Earth.omegaIeE t) (by
      rw [omegaIeE_eq, one_smul]
      exact VD.smul_t (VC.const _)) (by rw [vs_real, zero_smul]) _ rfl
  have hp : VD (fun t => (P t).nav.pos) (posRate v (n.pos 0) (n.pos 2)) := by
    intro i
    simp only [hP, Ins.positionUpdate, hdt, hQ, hn, hq]
    fin_cases i
    · simp only [one_mul] at d1; exact d1
    · simp only [one_mul] at d2; exact d2
    · have h2 := (deriv_mul_t _ (hm 2)).const_sub (n.pos 2)
      refine h2.congr_deriv ?_
      simp [posRate, hm0]
  have p0 : (P 0).nav.pos = n.pos := by
    simp only [hP, Ins.positionUpdate, hdt, hQ, hn, hq]
    rw [d3]
    ext i; fin_cases i <;> simp [v3]
  have hpm : VC (fun t => (P t).posMid) := by
    have c0 := (hp 0).continuousAt; have c1 := (hp 1).continuousAt; have c2 := (hp 2).continuousAt
    have e : (fun t => (P t).posMid) = fun t => v3 ((P t).nav.pos 0 + Fl.lit (1 / 2) * ((P t).nav.pos 0 - n.pos 0))
                   ((P t).nav.pos 1 + Fl.lit (1 / 2) * ((P t).nav.pos 1 - n.pos 1))
                   (Fl.lit (1 / 2) * ((P t).nav.pos 2 + n.pos 2)) := by
      funext t; rw [hP, ← hn t]; rfl
    rw [e]
    apply VC.mk <;> simp only [v3, Matrix.cons_val_zero, Matrix.cons_val_one, Matrix.cons_val] <;> fun_prop
  have pm0 : (P 0).posMid = n.pos := by
    have e : (P 0).posMid = v3 ((P 0).nav.pos 0 + Fl.lit (1 / 2) * ((P 0).nav.pos 0 - n.pos 0))
                   ((P 0).nav.pos 1 + Fl.lit (1 / 2) * ((P 0).nav.pos 1 - n.pos 1))
                   (Fl.lit (1 / 2) * ((P 0).nav.pos 2 + n.pos 2)) := by
      rw [hP, ← hn 0]; rfl
    rw [e, p0]
    ext i; fin_cases i <;> simp [v3]; ring
  have ee : (fun t => (P t).omegaEnN) = fun t => transportRate ((V t).vnMid) ((P t).posMid 0) ((P t).posMid 2) := by
    funext t; rw [← en_eq, hP]; rfl
  have ei : (fun t => (P t).omegaIeN) = fun t => earthRate ((P t).posMid 0) := by
    funext t; rw [← ie_eq, hP]; rfl
  refine ⟨hp, p0, ?_, ?_, ?_, ?_⟩
  · rw [ee]; exact transport_cont hm hpm (by rw [pm0]; exact r)
  · rw [ei]; exact earthRate_cont hpm
  · have : (P 0).omegaEnN = transportRate ((V 0).vnMid) ((P 0).posMid 0) ((P 0).posMid 2) := congrFun ee 0
    rw [this, hm0, pm0]
  · have : (P 0).omegaIeN = earthRate ((P 0).posMid 0) := congrFun ei 0
    rw [this, pm0]

/-- The attitude after the step. -/
theorem attitude_deriv (q : Quat ℝ) (hq : qsq q = 1) (w w0 en ie : V3 ℝ) (P A : ℝ → Ins ℝ) (hQ : ∀ t, (P t).nav.Qbn = q)
    (hdt : ∀ t, (P t).dt = t) (hw : ∀ t, (P t).gyroPre = vs w0 t)
    (hEn : VC (fun t => (P t).omegaEnN)) (hIe : VC (fun t => (P t).omegaIeN))
    (e0 : (P 0).omegaEnN = en) (i0 : (P 0).omegaIeN = ie) (hA : A = fun t => (P t).attiUpdate (vs w t)) :
    MD (fun t => (A t).nav.Cbn) (quatToDcm q * xm w - xm (ie + en) * quatToDcm q) ∧ (A 0).nav.Cbn = quatToDcm q := by
  have hg : VD (fun t => gyroToRv (vs w t) (vs w0 t)) w := by
    intro i
    have e : (fun t => gyroToRv (vs w t) (vs w0 t) i) = fun t => (w i + xp w0 w i * t / 12) * t := by
      funext t
      fin_cases i <;> simp [gyroToRv, vd, vs, cross, v3, xp] <;> ring
    rw [e]
    refine (deriv_mul_t _ (by fun_prop)).congr_deriv (by simp)
  obtain ⟨h1, h2⟩ := QD.step (VD.smul_t (VC.add hIe hEn)) hg (by rw [vs_real, zero_smul]) (by
    simp only [vs_real, zero_smul]
    ext i; fin_cases i <;> simp [gyroToRv, vd, cross, v3]) q hq
  have hm := rot_step h1 h2 hq
  have e : (fun t => (A t).nav.Cbn) = fun t => quatToDcm (((rvToQuat (vs ((P t).omegaIeN + (P t).omegaEnN) t)).conj.mul q).mul
      (rvToQuat (gyroToRv (vs w t) (vs w0 t)))).normalized := by
    funext t
    simp only [hA, Ins.attiUpdate, hQ, hdt, hw]
  rw [e]
  constructor
  · simpa [e0, i0, skew_eq] using hm
  · exact (congrFun e 0).trans (congrArg quatToDcm h2)

/-- One step of the mechanization over `t` seconds at constant rates: `wm`, `fm` are what the gyroscopes and
accelerometers measure, `w0`, `f0` what they measured in the step before (already compensated), `a0` the
acceleration of the step before. -/
noncomputable def stepOver (s : Ins ℝ) (fm wm f0 w0 a0 : V3 ℝ) (g time t : ℝ) : NavEpoch ℝ :=
  (Ins.forwardImu g { s with dt := t, accePre := fun i => f0 i * t, gyroPre := fun i => w0 i * t,
                             nav := { s.nav with dvn := fun i => a0 i * t } }
    { gpst := time, acce := fun i => fm i * t, gyro := fun i => wm i * t }).2.nav

/-- A place and an attitude the mechanization starts from: unit attitude quaternion with its matrix, the position quaternion of
the position, away from the poles and the date line. -/
structure Consistent (n : NavEpoch ℝ) : Prop where
  unit : qsq n.Qbn = 1
  dcm : n.Cbn = quatToDcm n.Qbn
  qne : n.Qne = llaToQne ⟨n.pos 0, n.pos 1⟩
  lat : n.pos 0 ∈ Set.Ioo (-(Real.pi / 2)) (Real.pi / 2)
  lon : n.pos 1 ∈ Set.Ioo (-Real.pi) Real.pi
  height : -6000000 < n.pos 2

/-- C81: as the step shrinks, the mechanization follows the navigation equations: velocity, position and
attitude leave their old values at exactly the rates of the equations, for the measured rates corrected by the
estimated biases and scale factors. -/
theorem C81_strapdown_consistent (s : Ins ℝ) (fm wm f0 w0 a0 : V3 ℝ) (g time : ℝ) (hc : Consistent s.nav)
    (f w : V3 ℝ) (hf : ∀ i, f i = (1 - s.nav.as i) * (fm i - s.nav.ab i)) (hw : ∀ i, w i = (1 - s.nav.gs i) * (wm i - s.nav.gb i))
    (N : ℝ → NavEpoch ℝ) (hN : N = stepOver s fm wm f0 w0 a0 g time) :
    ((N 0).vn = s.nav.vn ∧ (N 0).pos = s.nav.pos ∧ (N 0).Cbn = s.nav.Cbn) ∧
    (∀ i, HasDerivAt (fun t => (N t).vn i)
      (velRate s.nav.Cbn f s.nav.vn (s.nav.pos 0) (s.nav.pos 2) (Earth.gravity (s.nav.pos 0) (s.nav.pos 2)) i) 0) ∧
    (∀ i, HasDerivAt (fun t => (N t).pos i) (posRate s.nav.vn (s.nav.pos 0) (s.nav.pos 2) i) 0) ∧
    (∀ i j, HasDerivAt (fun t => (N t).Cbn i j) (attRate s.nav.Cbn w s.nav.vn (s.nav.pos 0) (s.nav.pos 2) i j) 0) := by
  obtain ⟨h1, h2, h3, h4, h5, h6⟩ := hc
  have hl : Located s.nav := ⟨⟨h4, h6⟩, h5, h3⟩
  set s' : ℝ → Ins ℝ := fun t => { s with accePre := vs f0 t, gyroPre := vs w0 t } with hs'
  set S : ℝ → Ins ℝ := fun t => { s' t with dt := t, nav := { s.nav with dvn := vs a0 t } } with hS
  obtain ⟨x1, x2, x3, x4, x5, x6, x7⟩ := extrapolate_cont s a0 hl _ rfl
  set E : ℝ → Ins ℝ := fun t => (S t).extrapolate.2 with hE
  set V : ℝ → Ins ℝ := fun t => (E t).velocityUpdate (S t).extrapolate.1 (vs f t) (vs w t) with hV
  set P : ℝ → Ins ℝ := fun t => (V t).positionUpdate with hP
  set A : ℝ → Ins ℝ := fun t => (P t).attiUpdate (vs w t) with hA
  have y4 : VC (fun t => (E t).omegaEnN) := x4
  have y5 : VC (fun t => (E t).omegaIeN) := x5
  have y2 : VC (fun t => (E t).posMid) := x2
  have y6 : (E 0).posMid = s.nav.pos := x6
  have y7 : (E 0).vnMid = s.nav.vn := x7
  have en0 : (E 0).omegaEnN = transportRate s.nav.vn (s.nav.pos 0) (s.nav.pos 2) := by
    have : (E 0).omegaEnN = Earth.omegaEnN (E 0).vnMid (E 0).posMid := rfl
    rw [this, y6, y7, en_eq]
  have ie0 : (E 0).omegaIeN = earthRate (s.nav.pos 0) := by
    have : (E 0).omegaIeN = Earth.omegaIeN ((E 0).posMid 0) := rfl
    rw [this, y6, ie_eq]
  have g0 : (S 0).extrapolate.1 = Earth.gravity (s.nav.pos 0) (s.nav.pos 2) := by
    have : (S 0).extrapolate.1 = Earth.gravity ((E 0).posMid 0) ((E 0).posMid 2) := rfl
    rw [this, y6]
  obtain ⟨v1, v2, v3, v4⟩ := velocity_deriv f w f0 w0 s.nav.Cbn s.nav.vn (fun t => (S t).extrapolate.1) E V x1 y4 y5
    (fun _ => rfl) (fun _ => rfl) (fun _ => rfl) (fun _ => rfl) (fun _ => rfl) rfl
  have hVe : (fun t => (V t).omegaEnN) = fun t => transportRate (V t).vnMid ((E t).posMid 0) ((E t).posMid 2) := by
    funext t; rw [← en_eq]; rfl
  have z1 : VC (fun t => (V t).omegaEnN) := by
    rw [hVe]; exact transport_cont v3 y2 (by rw [y6]; exact hl.reg)
  have z2 : (V 0).omegaEnN = transportRate s.nav.vn (s.nav.pos 0) (s.nav.pos 2) := by
    rw [congrFun hVe 0, v4, y6]
  obtain ⟨p1, p2, p3, p4, p5, p6⟩ := position_deriv s.nav.vn s.nav hl V P (fun _ => rfl) (fun _ => rfl) (fun _ => rfl)
    v3 v4 z1 y5 z2 ie0 rfl
  obtain ⟨a1, a2⟩ := attitude_deriv s.nav.Qbn h1 w w0 _ _ P A (fun _ => rfl) (fun _ => rfl) (fun _ => rfl) p3 p4 p5 p6 rfl
  have hNA : ∀ t, (N t).vn = (V t).nav.vn ∧ (N t).pos = (P t).nav.pos ∧ (N t).Cbn = (A t).nav.Cbn := by
    intro t
    have ef : Ins.compensate t (fun i => fm i * t) s.nav.ab s.nav.as = vs f t := by
      have := compensate_eq fm s.nav.ab s.nav.as t
      rw [show (fun i => (1 - s.nav.as i) * (fm i - s.nav.ab i)) = f from (funext hf).symm] at this
      exact this
    have ew : Ins.compensate t (fun i => wm i * t) s.nav.gb s.nav.gs = vs w t := by
      have := compensate_eq wm s.nav.gb s.nav.gs t
      rw [show (fun i => (1 - s.nav.gs i) * (wm i - s.nav.gb i)) = w from (funext hw).symm] at this
      exact this
    have : (N t) = { (A t).nav with gpst := time } := by
      rw [hN]
      unfold stepOver Ins.forwardImu Ins.forward
      dsimp only
      rw [ef, ew]
      rfl
    rw [this]
    exact ⟨rfl, rfl, rfl⟩
  refine ⟨⟨?_, ?_, ?_⟩, ?_, ?_, ?_⟩
  · rw [(hNA 0).1, v2]
  · rw [(hNA 0).2.1, p2]
  · rw [(hNA 0).2.2, a2, h2]
  · intro i
    have : (fun t => (N t).vn i) = fun t => (V t).nav.vn i := by funext t; rw [(hNA t).1]
    rw [this]
    refine (v1 i).congr_deriv ?_
    rw [ie0, en0, g0]; rfl
  · intro i
    have : (fun t => (N t).pos i) = fun t => (P t).nav.pos i := by funext t; rw [(hNA t).2.1]
    rw [this]
    exact p1 i
  · intro i j
    have : (fun t => (N t).Cbn i j) = fun t => (A t).nav.Cbn i j := by funext t; rw [(hNA t).2.2]
    rw [this]
    refine (a1 i j).congr_deriv ?_
    rw [← h2]; rfl

/-- A vehicle moving north-east at 100 m height in mid latitudes with non-zero estimated errors. -/
noncomputable def demoIns : Ins ℝ :=
  { nav := { gpst := 0, pos := ![1 / 2, 1, 100], vn := ![10, 5, 1], atti := 0, dvn := 0, vfKb := 0, Cbn := quatToDcm ⟨1, 0, 0, 0⟩,
             Cne := llaToCne ⟨1 / 2, 1⟩, Qbn := ⟨1, 0, 0, 0⟩, Qne := llaToQne ⟨1 / 2, 1⟩, gb := ![1 / 1000, 0, 0], ab := ![0, 1 / 100, 0],
             gs := 0, as := 0, posStd := 0, velStd := 0, attStd := 0, kd := 1, info := ⟨0, 0⟩, week := 0 }
    dt := 1 / 100, accePre := 0, gyroPre := 0, omegaEnN := 0, omegaIeN := 0, vnMid := 0, posMid := 0 }
/-- C81's hypotheses are met by it. -/
example : Consistent demoIns.nav := by
  have h3 := Real.pi_gt_three
  exact ⟨by simp [demoIns, qsq], rfl, by simp [demoIns], by constructor <;> simp [demoIns] <;> linarith,
    by constructor <;> simp [demoIns] <;> linarith, by simp [demoIns]; norm_num⟩
end Verif.Props
