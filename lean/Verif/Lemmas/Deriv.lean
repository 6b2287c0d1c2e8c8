import Verif.Props.Convert
import Mathlib.Analysis.Calculus.Deriv.Mul
import Mathlib.Analysis.Calculus.Deriv.Inv
import Mathlib.Analysis.Calculus.Deriv.Add
import Mathlib.Analysis.Calculus.Deriv.Comp
import Mathlib.Analysis.Calculus.Deriv.Pow
import Mathlib.Analysis.SpecialFunctions.Sqrt
import Mathlib.Analysis.SpecialFunctions.Trigonometric.ArctanDeriv
import Mathlib.Analysis.SpecialFunctions.Complex.Arg
/-! Derivatives at time zero of paths of quaternions, rotations and positions. -/
namespace Verif
open Matrix Verif.Spec Verif.Convert Verif.Props

/-- A product whose second factor vanishes at zero. -/
theorem deriv_mul_zero (a b : ℝ → ℝ) (b' : ℝ) (ha : ContinuousAt a 0) (hb : HasDerivAt b b' 0) (h0 : b 0 = 0) :
    HasDerivAt (fun t => a t * b t) (a 0 * b') 0 := by
  rw [hasDerivAt_iff_tendsto_slope_zero] at hb ⊢
  simp only [zero_add, h0, sub_zero, mul_zero, smul_eq_mul] at hb ⊢
  have : Filter.Tendsto (fun t => a t * (t⁻¹ * b t)) (nhdsWithin 0 {0}ᶜ) (nhds (a 0 * b')) :=
    Filter.Tendsto.mul (ha.tendsto.mono_left nhdsWithin_le_nhds) hb
  refine this.congr fun t => ?_
  ring
/-- The same with the time itself as the factor. -/
theorem deriv_mul_t (a : ℝ → ℝ) (ha : ContinuousAt a 0) : HasDerivAt (fun t => a t * t) (a 0) 0 := by
  have := deriv_mul_zero a id 1 ha (hasDerivAt_id 0) rfl
  simpa using this

/-- Componentwise derivative at zero of a path of vectors. -/
def VD (v : ℝ → V3 ℝ) (u : V3 ℝ) : Prop := ∀ i, HasDerivAt (fun t => v t i) (u i) 0
/-- Componentwise derivative at zero of a path of matrices. -/
def MD (A : ℝ → M3 ℝ) (B : M3 ℝ) : Prop := ∀ i j, HasDerivAt (fun t => A t i j) (B i j) 0
/-- Componentwise continuity at zero of a path of vectors. -/
def VC (v : ℝ → V3 ℝ) : Prop := ∀ i, ContinuousAt (fun t => v t i) 0
/-- Componentwise derivative at zero of a path of quaternions. -/
structure QD (q : ℝ → Quat ℝ) (p : Quat ℝ) : Prop where
  w : HasDerivAt (fun t => (q t).w) p.w 0
  x : HasDerivAt (fun t => (q t).x) p.x 0
  y : HasDerivAt (fun t => (q t).y) p.y 0
  z : HasDerivAt (fun t => (q t).z) p.z 0

theorem VD.vc {v : ℝ → V3 ℝ} {u : V3 ℝ} (h : VD v u) : VC v := fun i => (h i).continuousAt

/-- The sum of two quaternions. -/
def qadd (a b : Quat ℝ) : Quat ℝ := ⟨a.w + b.w, a.x + b.x, a.y + b.y, a.z + b.z⟩
/-- The quaternion of half an angular rate. -/
noncomputable def qhalf (u : V3 ℝ) : Quat ℝ := ⟨0, u 0 / 2, u 1 / 2, u 2 / 2⟩
/-- The identity rotation. -/
def qone : Quat ℝ := ⟨1, 0, 0, 0⟩

theorem QD.const (q : Quat ℝ) : QD (fun _ => q) ⟨0, 0, 0, 0⟩ :=
  ⟨hasDerivAt_const .., hasDerivAt_const .., hasDerivAt_const .., hasDerivAt_const ..⟩
theorem QD.mul {a b : ℝ → Quat ℝ} {a' b' : Quat ℝ} (ha : QD a a') (hb : QD b b') :
    QD (fun t => (a t).mul (b t)) (qadd (a'.mul (b 0)) ((a 0).mul b')) := by
  constructor
  · exact ((((ha.w.mul hb.w).sub (ha.x.mul hb.x)).sub (ha.y.mul hb.y)).sub (ha.z.mul hb.z)).congr_deriv
      (by simp [qadd, Quat.mul]; ring)
  · exact ((((ha.w.mul hb.x).add (ha.x.mul hb.w)).add (ha.y.mul hb.z)).sub (ha.z.mul hb.y)).congr_deriv
      (by simp [qadd, Quat.mul]; ring)
  · exact ((((ha.w.mul hb.y).add (ha.y.mul hb.w)).add (ha.z.mul hb.x)).sub (ha.x.mul hb.z)).congr_deriv
      (by simp [qadd, Quat.mul]; ring)
  · exact ((((ha.w.mul hb.z).add (ha.z.mul hb.w)).add (ha.x.mul hb.y)).sub (ha.y.mul hb.x)).congr_deriv
      (by simp [qadd, Quat.mul]; ring)
theorem QD.conj {a : ℝ → Quat ℝ} {a' : Quat ℝ} (ha : QD a a') : QD (fun t => (a t).conj) a'.conj :=
  ⟨ha.w, ha.x.neg, ha.y.neg, ha.z.neg⟩

/-- A path that starts at a unit quaternion and moves orthogonally to it may be normalised. -/
theorem QD.normalized {q : ℝ → Quat ℝ} {p : Quat ℝ} (h : QD q p) (h1 : qsq (q 0) = 1)
    (ho : (q 0).w * p.w + (q 0).x * p.x + (q 0).y * p.y + (q 0).z * p.z = 0) :
    QD (fun t => (q t).normalized) p := by
  have hn : HasDerivAt (fun t => (q t).nsq) 0 0 := by
    refine ((((h.x.mul h.x).add (h.y.mul h.y)).add (h.z.mul h.z)).add (h.w.mul h.w)).congr_deriv ?_
    linear_combination 2 * ho
  have hn0 : (q 0).nsq = 1 := by rw [nsq_eq, h1]
  have hs : HasDerivAt (fun t => Real.sqrt ((q t).nsq)) 0 0 := by
    have := hn.sqrt (by rw [hn0]; norm_num)
    simpa using this
  have hs0 : Real.sqrt ((q 0).nsq) = 1 := by rw [hn0, Real.sqrt_one]
  have hev : ∀ᶠ t in nhds (0 : ℝ), 0 < (q t).nsq :=
    hn.continuousAt.eventually (lt_mem_nhds (by show 0 < (q 0).nsq; rw [hn0]; norm_num))
  have key : ∀ (c : Quat ℝ → ℝ) (c' : ℝ), HasDerivAt (fun t => c (q t)) c' 0 →
      HasDerivAt (fun t => c (q t) / Real.sqrt ((q t).nsq)) c' 0 := by
    intro c c' hc
    refine (hc.div hs (by rw [hs0]; norm_num)).congr_deriv ?_
    rw [hs0]; ring
  have hnorm : ∀ t, 0 < (q t).nsq → (q t).normalized =
      ⟨(q t).w / Real.sqrt ((q t).nsq), (q t).x / Real.sqrt ((q t).nsq), (q t).y / Real.sqrt ((q t).nsq),
       (q t).z / Real.sqrt ((q t).nsq)⟩ := by
    intro t ht
    unfold Quat.normalized
    rw [if_pos (by rw [lt_real]; exact ht)]; rfl
  constructor
  · exact (key Quat.w _ h.w).congr_of_eventuallyEq (hev.mono fun t ht => by simp only [hnorm t ht])
  · exact (key Quat.x _ h.x).congr_of_eventuallyEq (hev.mono fun t ht => by simp only [hnorm t ht])
  · exact (key Quat.y _ h.y).congr_of_eventuallyEq (hev.mono fun t ht => by simp only [hnorm t ht])
  · exact (key Quat.z _ h.z).congr_of_eventuallyEq (hev.mono fun t ht => by simp only [hnorm t ht])

theorem rv_zero : rvToQuat (0 : V3 ℝ) = qone := by
  have hp := Real.pi_pos
  unfold rvToQuat
  simp only [lt_real, Pi.zero_apply, mul_zero, add_zero, pi_real, lit_real]
  rw [if_pos (by positivity)]
  simp [qone]

/-- The quaternion of a rotation vector that starts at zero. -/
theorem QD.rv {v : ℝ → V3 ℝ} {u : V3 ℝ} (h : VD v u) (h0 : v 0 = 0) : QD (fun t => rvToQuat (v t)) (qhalf u) := by
  have hp := Real.pi_pos
  have hz : ∀ i, v 0 i = 0 := fun i => by rw [h0]; rfl
  set m : ℝ → ℝ := fun t => v t 0 * v t 0 + v t 1 * v t 1 + v t 2 * v t 2 with hm
  have hmd : HasDerivAt m 0 0 := by
    refine ((((h 0).mul (h 0)).add ((h 1).mul (h 1))).add ((h 2).mul (h 2))).congr_deriv ?_
    simp [hz]
  have hm0 : m 0 = 0 := by simp [hm, hz]
  have hev : ∀ᶠ t in nhds (0 : ℝ), m t < Real.pi * Real.pi :=
    hmd.continuousAt.eventually (gt_mem_nhds (by rw [hm0]; positivity))
  set P : ℝ → ℝ := fun m => 1 - m * (1 / 4) / 2 * (1 - m * (1 / 4) / 12 * (1 - m * (1 / 4) / 30)) with hP
  set S : ℝ → ℝ := fun m => 1 - m * (1 / 4) / 6 * (1 - m * (1 / 4) / 20 * (1 - m * (1 / 4) / 42)) with hS
  have hPd : HasDerivAt (fun t => P (m t)) 0 0 := by
    have hd : DifferentiableAt ℝ P (m 0) := by rw [hP]; fun_prop
    exact (hd.hasDerivAt.comp 0 hmd).congr_deriv (mul_zero _)
  have hSd : HasDerivAt (fun t => S (m t)) 0 0 := by
    have hd : DifferentiableAt ℝ S (m 0) := by rw [hS]; fun_prop
    exact (hd.hasDerivAt.comp 0 hmd).congr_deriv (mul_zero _)
  have hS0 : S (m 0) = 1 := by rw [hm0]; simp [hS]
  have hval : ∀ t, m t < Real.pi * Real.pi → rvToQuat (v t) =
      ⟨P (m t), 1 / 2 * S (m t) * v t 0, 1 / 2 * S (m t) * v t 1, 1 / 2 * S (m t) * v t 2⟩ := by
    intro t ht
    unfold rvToQuat
    simp only [lt_real, pi_real]
    rw [if_pos ht]
    simp only [lit_real, hP, hS, hm]
    norm_num
  have key : ∀ i, HasDerivAt (fun t => 1 / 2 * S (m t) * v t i) (u i / 2) 0 := by
    intro i
    refine ((hSd.const_mul (1 / 2)).mul (h i)).congr_deriv ?_
    rw [hz i, hS0]; ring
  constructor
  · exact hPd.congr_of_eventuallyEq (hev.mono fun t ht => by simp only [hval t ht])
  · exact (key 0).congr_of_eventuallyEq (hev.mono fun t ht => by simp only [hval t ht])
  · exact (key 1).congr_of_eventuallyEq (hev.mono fun t ht => by simp only [hval t ht])
  · exact (key 2).congr_of_eventuallyEq (hev.mono fun t ht => by simp only [hval t ht])

theorem qone_mul (q : Quat ℝ) : qone.mul q = q := by simp [qone, Quat.mul]
theorem mul_qone (q : Quat ℝ) : q.mul qone = q := by simp [qone, Quat.mul]
theorem qone_conj : qone.conj = qone := by simp [qone, Quat.conj]

/-- Turning a unit quaternion from both sides: the step every attitude and position update makes. -/
theorem QD.step {a b : ℝ → V3 ℝ} {α β : V3 ℝ} (ha : VD a α) (hb : VD b β) (ha0 : a 0 = 0) (hb0 : b 0 = 0)
    (q : Quat ℝ) (hq : qsq q = 1) :
    QD (fun t => (((rvToQuat (a t)).conj.mul q).mul (rvToQuat (b t))).normalized)
      (qadd ((qhalf α).conj.mul q) (q.mul (qhalf β))) ∧
    (((rvToQuat (a 0)).conj.mul q).mul (rvToQuat (b 0))).normalized = q := by
  have h1 := ((QD.rv ha ha0).conj.mul (QD.const q)).mul (QD.rv hb hb0)
  have e0 : ((rvToQuat (a 0)).conj.mul q).mul (rvToQuat (b 0)) = q := by
    rw [ha0, hb0, rv_zero, qone_conj, qone_mul, mul_qone]
  constructor
  · have h2 := QD.normalized h1 (by rw [e0, hq]) (by
      rw [e0, ha0, hb0, rv_zero, qone_conj, qone_mul]
      simp [qadd, Quat.mul, Quat.conj, qhalf, qone]; ring)
    convert h2 using 1
    rw [ha0, hb0, rv_zero, qone_conj, qone_mul]
    simp [qadd, Quat.mul, Quat.conj, qhalf, qone]
  · rw [e0, normalized_unit q hq]

/-- Turning from the left only (the feedback of an attitude error). -/
theorem QD.left {a : ℝ → V3 ℝ} {α : V3 ℝ} (ha : VD a α) (ha0 : a 0 = 0) (q : Quat ℝ) (hq : qsq q = 1) :
    QD (fun t => ((rvToQuat (a t)).mul q).normalized) ((qhalf α).mul q) ∧
    ((rvToQuat (a 0)).mul q).normalized = q := by
  have h1 := (QD.rv ha ha0).mul (QD.const q)
  have e0 : (rvToQuat (a 0)).mul q = q := by rw [ha0, rv_zero, qone_mul]
  constructor
  · have h2 := QD.normalized h1 (by rw [e0, hq]) (by
      rw [e0]; simp [qadd, Quat.mul, qhalf]; ring)
    convert h2 using 1
    simp [qadd, Quat.mul, qhalf]
  · rw [e0, normalized_unit q hq]
/-- Turning from the right only. -/
theorem QD.right {b : ℝ → V3 ℝ} {β : V3 ℝ} (hb : VD b β) (hb0 : b 0 = 0) (q : Quat ℝ) (hq : qsq q = 1) :
    QD (fun t => (q.mul (rvToQuat (b t))).normalized) (q.mul (qhalf β)) ∧
    (q.mul (rvToQuat (b 0))).normalized = q := by
  have h1 := (QD.const q).mul (QD.rv hb hb0)
  have e0 : q.mul (rvToQuat (b 0)) = q := by rw [hb0, rv_zero, mul_qone]
  constructor
  · have h2 := QD.normalized h1 (by rw [e0, hq]) (by
      rw [e0]; simp [qadd, Quat.mul, qhalf]; ring)
    convert h2 using 1
    simp [qadd, Quat.mul, qhalf]
  · rw [e0, normalized_unit q hq]

/-- The rotation matrix of a path that turns from both sides. -/
theorem rot_step {q : ℝ → Quat ℝ} {α β : V3 ℝ} {q0 : Quat ℝ}
    (h : QD q (qadd ((qhalf α).conj.mul q0) (q0.mul (qhalf β)))) (h0 : q 0 = q0) (hq : qsq q0 = 1) :
    MD (fun t => quatToDcm (q t)) (quatToDcm q0 * skew β - skew α * quatToDcm q0) := by
  have hw := h.w; have hx := h.x; have hy := h.y; have hz := h.z
  have hc : ∀ c : ℝ, HasDerivAt (fun _ : ℝ => c) 0 0 := fun c => hasDerivAt_const ..
  unfold qsq at hq
  have entry : ∀ (f : ℝ → ℝ) (f' g' : ℝ), HasDerivAt f f' 0 → f' = g' → HasDerivAt f g' 0 := fun f f' g' h e => e ▸ h
  have tx := hx.const_mul 2; have ty := hy.const_mul 2; have tz := hz.const_mul 2
  intro i j
  simp only [quatToDcm, Quat.toRot, lit_real, Rat.cast_ofNat]
  fin_cases i <;> fin_cases j
  · refine entry _ _ _ ((hc 1).sub ((ty.mul hy).add (tz.mul hz))) ?_
    simp [qadd, Quat.mul, Quat.conj, qhalf, skew, h0]; ring
  · refine entry _ _ _ ((ty.mul hx).sub (tz.mul hw)) ?_
    simp [qadd, Quat.mul, Quat.conj, qhalf, skew, h0]
    linear_combination (α 2 - β 2) * hq
  · refine entry _ _ _ ((tz.mul hx).add (ty.mul hw)) ?_
    simp [qadd, Quat.mul, Quat.conj, qhalf, skew, h0]
    linear_combination (-α 1 + β 1) * hq
  · refine entry _ _ _ ((ty.mul hx).add (tz.mul hw)) ?_
    simp [qadd, Quat.mul, Quat.conj, qhalf, skew, h0]
    linear_combination (-α 2 + β 2) * hq
  · refine entry _ _ _ ((hc 1).sub ((tx.mul hx).add (tz.mul hz))) ?_
    simp [qadd, Quat.mul, Quat.conj, qhalf, skew, h0]; ring
  · refine entry _ _ _ ((tz.mul hy).sub (tx.mul hw)) ?_
    simp [qadd, Quat.mul, Quat.conj, qhalf, skew, h0]
    linear_combination (α 0 - β 0) * hq
  · refine entry _ _ _ ((tz.mul hx).sub (ty.mul hw)) ?_
    simp [qadd, Quat.mul, Quat.conj, qhalf, skew, h0]
    linear_combination (α 1 - β 1) * hq
  · refine entry _ _ _ ((tz.mul hy).add (tx.mul hw)) ?_
    simp [qadd, Quat.mul, Quat.conj, qhalf, skew, h0]
    linear_combination (-α 0 + β 0) * hq
  · refine entry _ _ _ ((hc 1).sub ((tx.mul hx).add (ty.mul hy))) ?_
    simp [qadd, Quat.mul, Quat.conj, qhalf, skew, h0]; ring

/-- Latitude and longitude along a path of quaternions with positive scalar part. -/
theorem lla_deriv {q : ℝ → Quat ℝ} {p : Quat ℝ} (h : QD q p) (hw : 0 < (q 0).w) :
    HasDerivAt (fun t => (qneToLla (q t)).lat)
      (-2 * ((p.y * (q 0).w - (q 0).y * p.w) / ((q 0).w ^ 2 + (q 0).y ^ 2))) 0 ∧
    HasDerivAt (fun t => (qneToLla (q t)).lon)
      (2 * ((p.z * (q 0).w - (q 0).z * p.w) / ((q 0).w ^ 2 + (q 0).z ^ 2))) 0 := by
  have hw0 : (q 0).w ≠ 0 := hw.ne'
  have d1 := (h.y.div h.w hw0).arctan
  have d2 := (h.z.div h.w hw0).arctan
  constructor
  · have : (fun t => (qneToLla (q t)).lat) = fun t => -(1 / 2) * Real.pi - 2 * Real.arctan ((q t).y / (q t).w) := by
      ext t; simp [qneToLla]
    rw [this]
    refine ((d1.const_mul 2).const_sub (-(1 / 2) * Real.pi)).congr_deriv ?_
    have : (q 0).w ^ 2 + (q 0).y ^ 2 ≠ 0 := by positivity
    have h2 : 1 + ((q 0).y / (q 0).w) ^ 2 ≠ 0 := by positivity
    simp only [Pi.div_apply]
    field_simp
  · have hev : ∀ᶠ t in nhds (0 : ℝ), 0 < (q t).w := h.w.continuousAt.eventually (lt_mem_nhds hw)
    have e : (fun t => (qneToLla (q t)).lon) =ᶠ[nhds 0] fun t => 2 * Real.arctan ((q t).z / (q t).w) := by
      refine hev.mono fun t ht => ?_
      simp only [qneToLla, lit_real, Rat.cast_ofNat]
      congr 1
      rw [atan2_real, Complex.arg_of_re_nonneg (by exact ht.le)]
      rw [Real.arctan_eq_arcsin]
      congr 1
      have hn : ‖(⟨(q t).w, (q t).z⟩ : ℂ)‖ = (q t).w * Real.sqrt (1 + ((q t).z / (q t).w) ^ 2) := by
        rw [Complex.norm_def, Complex.normSq_mk]
        have : (q t).w * (q t).w + (q t).z * (q t).z = (q t).w ^ 2 * (1 + ((q t).z / (q t).w) ^ 2) := by
          field_simp
        rw [this, Real.sqrt_mul (by positivity), Real.sqrt_sq ht.le]
      rw [hn]
      have : Real.sqrt (1 + ((q t).z / (q t).w) ^ 2) ≠ 0 := by positivity
      field_simp
    refine HasDerivAt.congr_of_eventuallyEq ?_ e
    refine (d2.const_mul 2).congr_deriv ?_
    have : (q 0).w ^ 2 + (q 0).z ^ 2 ≠ 0 := by positivity
    simp only [Pi.div_apply]
    field_simp
end Verif
