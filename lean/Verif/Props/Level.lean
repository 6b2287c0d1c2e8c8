import Verif.Props.Ahrs
import Mathlib.Analysis.SpecificLimits.Basic
/-! Which way the attitude reference filter `AttiAhrs` turns a device at rest, and what its magnetometer form does
to the quaternion, in exact arithmetic. -/
namespace Verif.Props
open Verif Verif.Spec Verif.Convert Matrix

/-- The third axis of the navigation frame, seen in the body, according to the attitude held. -/
def thirdAxis (a : Ahrs ℝ) : V3 ℝ := fun j => a.Cnb 2 j
/-- Cosine of the angle between two unit vectors. -/
def cosTo (u v : V3 ℝ) : ℝ := u 0 * v 0 + u 1 * v 1 + u 2 * v 2
/-- The attitude filter holds a unit quaternion and its matrix (true after every IMU sample, C47, and after setting angles). -/
def holdsRot (a : Ahrs ℝ) : Prop := qsq a.qnb = 1 ∧ a.Cnb = quatToDcm a.qnb
/-- Specific force over one sample, in the direction `f`, of magnitude `n`. -/
def forceSample (n : ℝ) (f : V3 ℝ) : V3 ℝ := fun i => n * f i

theorem rotH_normalized (p : Quat ℝ) (h : 0 < qsq p) (i j : Fin 3) :
    quatToDcm p.normalized i j = rotH p i j / qsq p := by
  show p.normalized.toRot i j = _
  rw [toRot_eq _ (qsq_normalized p h)]
  have hn : p.nsq = qsq p := nsq_eq p
  have hs : Real.sqrt (qsq p) ^ 2 = qsq p := Real.sq_sqrt h.le
  have hs0 : Real.sqrt (qsq p) ≠ 0 := (Real.sqrt_pos.2 h).ne'
  unfold Quat.normalized
  rw [if_pos (by rw [lt_real, hn]; exact h)]
  simp only [hn, sqrt_real]
  generalize Real.sqrt (qsq p) = s at *
  rw [← hs]
  fin_cases i <;> fin_cases j <;> simp [rotH] <;> field_simp

theorem acc0_unit (a : Ahrs ℝ) (n : ℝ) (f : V3 ℝ) (hf : cosTo f f = 1) (hts : 0 < a.ts) (hn : a.ts / 2 < n) :
    a.acc0 (forceSample n f) = f := by
  have hn0 : 0 < n := by linarith
  have hv : vnorm (forceSample n f) = n := by
    unfold vnorm sqNorm forceSample
    rw [sqrt_real, sumF_real, Fin.sum_univ_three, show n * f 0 * (n * f 0) + n * f 1 * (n * f 1) + n * f 2 * (n * f 2) = n ^ 2 * cosTo f f by
      unfold cosTo; ring, hf, mul_one, Real.sqrt_sq hn0.le]
  unfold Ahrs.acc0
  dsimp only
  rw [hv, if_pos (by rw [lt_real, lit_real]; push_cast; rw [lt_div_iff₀ hts]; linarith)]
  funext i
  show n * f i / (n / a.ts * a.ts) = f i
  field_simp

/-- The algebra of one correction: turning `r` about `r × f`. -/
theorem level_num (r f : V3 ℝ) (cs sn k z : ℝ) (hr : cosTo r r = 1) (hf : cosTo f f = 1) (hz : z = cosTo r f) (δ : Quat ℝ)
    (hδ : δ = ⟨cs, sn * (-k * cross r f 0), sn * (-k * cross r f 1), sn * (-k * cross r f 2)⟩) :
    (r 0 * rotH δ 0 0 + r 1 * rotH δ 1 0 + r 2 * rotH δ 2 0) * f 0 +
        (r 0 * rotH δ 0 1 + r 1 * rotH δ 1 1 + r 2 * rotH δ 2 1) * f 1 +
        (r 0 * rotH δ 0 2 + r 1 * rotH δ 1 2 + r 2 * rotH δ 2 2) * f 2
        = (cs ^ 2 - sn ^ 2 * k ^ 2 * (1 - z ^ 2)) * z + 2 * cs * sn * k * (1 - z ^ 2) := by
  have hx : cross r f 0 = r 1 * f 2 - r 2 * f 1 := by simp [cross, v3]
  have hy : cross r f 1 = r 2 * f 0 - r 0 * f 2 := by simp [cross, v3]
  have hw : cross r f 2 = r 0 * f 1 - r 1 * f 0 := by simp [cross, v3]
  unfold cosTo at hr hf hz
  have hlag : (cross r f 0) ^ 2 + cross r f 1 ^ 2 + cross r f 2 ^ 2 = 1 - z ^ 2 := by
    rw [hx, hy, hw, hz]; linear_combination (f 0 * f 0 + f 1 * f 1 + f 2 * f 2) * hr + hf
  have i1 : r 0 * cross r f 0 + r 1 * cross r f 1 + r 2 * cross r f 2 = 0 := by rw [hx, hy, hw]; ring
  subst hδ
  simp only [rotH, Matrix.of_apply, Matrix.cons_val_zero, Matrix.cons_val_one, Matrix.cons_val]
  generalize cross r f 0 = X at *
  generalize cross r f 1 = Y at *
  generalize cross r f 2 = W at *
  have t : X * (r 1 * f 2 - r 2 * f 1) + Y * (r 2 * f 0 - r 0 * f 2) + W * (r 0 * f 1 - r 1 * f 0) = 1 - z ^ 2 := by
    rw [← hx, ← hy, ← hw, ← hlag]; ring
  clear hx hy hw
  linear_combination (cs ^ 2 - sn ^ 2 * k ^ 2 * (X ^ 2 + Y ^ 2 + W ^ 2)) * (-hz) + 2 * cs * sn * k * t - sn ^ 2 * k ^ 2 * z * hlag + 2 * sn ^ 2 * k ^ 2 * (X * f 0 + Y * f 1 + W * f 2) * i1

/-- The two series of the rotation vector conversion for a rotation of at most one radian. -/
theorem level_series (t : ℝ) (h0 : 0 ≤ t) (h1 : t ≤ 1 / 2) : 3 / 4 < csP t ∧ 1 / 4 < 1 / 2 * snP t ∧ 1 / 2 * snP t < 3 / 4 := by
  have p2 : t ^ 2 ≤ 1 / 4 := by nlinarith
  have q2 : 0 ≤ t ^ 2 := by positivity
  have p4 : t ^ 4 ≤ 1 / 4 := by nlinarith
  have q4 : 0 ≤ t ^ 4 := by positivity
  have p6 : t ^ 6 ≤ 1 / 4 := by
    have : t ^ 6 = t ^ 2 * t ^ 4 := by ring
    rw [this]; nlinarith
  have q6 : 0 ≤ t ^ 6 := by positivity
  unfold csP snP
  refine ⟨?_, ?_, ?_⟩ <;> linarith

/-- The gain of one correction is positive. -/
theorem level_pos (cs sn k z n : ℝ) (hcs : 3 / 4 < cs) (hsn : 1 / 4 < sn) (hsn1 : sn < 3 / 4) (hk : 0 < k) (hk1 : k ≤ 1)
    (hz : z ≤ 1) (hn : 0 < n) : 0 < 2 * sn * k * (cs - sn * k * z) / n := by
  have h0 : 0 < sn := by linarith
  have h1 : sn * k * z ≤ sn * k := by nlinarith [mul_pos h0 hk]
  have h2 : sn * k ≤ sn := by nlinarith
  have : 0 < cs - sn * k * z := by linarith
  positivity

/-- The third axis after one sample without rotation. -/
theorem level_step (a : Ahrs ℝ) (vm f : V3 ℝ) (ha : holdsRot a) (hf : cosTo f f = 1) (hacc : a.acc0 vm = f)
    (c : ℝ) (he : a.exyzInt = fun i => c * cross (thirdAxis a) f i) (k : ℝ)
    (hk : k = (a.Kp + c + a.Ki * a.ts) * a.ts) (hk0 : 0 < k) (hk1 : k ≤ 1) :
    ∃ g, 0 < g ∧ cosTo (thirdAxis (a.update zero3 vm)) f - cosTo (thirdAxis a) f
      = g * (1 - cosTo (thirdAxis a) f ^ 2) := by
  obtain ⟨hq, hC⟩ := ha
  have hr : cosTo (thirdAxis a) (thirdAxis a) = 1 := by
    have := congrFun (congrFun (toRot_isRot a.qnb hq).1 2) 2
    rw [Matrix.mul_apply, Fin.sum_univ_three] at this
    simp only [Matrix.transpose_apply, Matrix.one_apply_eq] at this
    unfold cosTo thirdAxis
    rw [hC]; exact this
  obtain ⟨z, hz⟩ : ∃ z, z = cosTo (thirdAxis a) f := ⟨_, rfl⟩
  obtain ⟨r, hrd⟩ : ∃ r : V3 ℝ, r = thirdAxis a := ⟨_, rfl⟩
  rw [← hrd] at hr hz he ⊢
  -- the rotation applied
  have hth : (zero3 : V3 ℝ) - vs (sv a.Kp (a.err vm) + (a.exyzInt + vs (a.err vm) (a.Ki * a.ts))) a.ts
      = fun i => -k * cross r f i := by
    have herr : a.err vm = cross r f := by
      unfold Ahrs.err
      rw [hacc, hrd]
      funext i
      fin_cases i <;> simp [cross, thirdAxis, zero3, v3]
    rw [herr, he]
    funext i
    simp only [Pi.sub_apply, Pi.add_apply, vs, sv, zero3, hk]
    fin_cases i <;> simp [v3] <;> ring
  have hcr : cross r f 0 ^ 2 + cross r f 1 ^ 2 + cross r f 2 ^ 2 = 1 - z ^ 2 := by
    have h1 : cross r f 0 ^ 2 + cross r f 1 ^ 2 + cross r f 2 ^ 2 = cosTo r r * cosTo f f - cosTo r f ^ 2 := by
      simp [cross, cosTo, v3]; ring
    rw [h1, hr, hf, ← hz]; ring
  have hz1 : 0 ≤ 1 - z ^ 2 := by rw [← hcr]; positivity
  obtain ⟨θ, hθ⟩ : ∃ θ : V3 ℝ, θ = fun i => -k * cross r f i := ⟨_, rfl⟩
  have hl2 : len θ ^ 2 = k ^ 2 * (1 - z ^ 2) := by rw [len_sq, hθ, ← hcr]; ring
  have hl1 : len θ ≤ 1 := by
    have : len θ ^ 2 ≤ 1 := by rw [hl2]; nlinarith [sq_nonneg z, mul_nonneg hk0.le hk0.le]
    nlinarith [len_nonneg θ]
  have hrv := rv_small θ (by linarith [Real.pi_gt_three])
  obtain ⟨cs, hcs⟩ : ∃ cs, cs = csP (len θ / 2) := ⟨_, rfl⟩
  obtain ⟨sn, hsn⟩ : ∃ sn, sn = 1 / 2 * snP (len θ / 2) := ⟨_, rfl⟩
  rw [← hcs, ← hsn] at hrv
  obtain ⟨hcs0, hsn0, hsn1⟩ := level_series (len θ / 2) (by linarith [len_nonneg θ]) (by linarith)
  rw [← hcs] at hcs0
  rw [← hsn] at hsn0 hsn1
  obtain ⟨δ, hδ⟩ : ∃ δ, δ = rvToQuat θ := ⟨_, rfl⟩
  rw [← hδ] at hrv
  have hn : qsq δ = cs ^ 2 + sn ^ 2 * k ^ 2 * (1 - z ^ 2) := by
    rw [hrv, ← hcr, hθ]; simp only [qsq]; ring
  have hn0 : 0 < qsq δ := by rw [hn]; positivity
  have hcol : ∀ j, thirdAxis (a.update zero3 vm) j
      = (r 0 * rotH δ 0 j + r 1 * rotH δ 1 j + r 2 * rotH δ 2 j) / qsq δ := by
    intro j
    show quatToDcm ((a.qnb.mul (rvToQuat ((zero3 : V3 ℝ) -
      vs (sv a.Kp (a.err vm) + (a.exyzInt + vs (a.err vm) (a.Ki * a.ts))) a.ts))).normalized) 2 j = _
    rw [hth, ← hθ, ← hδ, rotH_normalized _ (by rw [qsq_mul, hq, one_mul]; exact hn0), rotH_mul, qsq_mul, hq, one_mul,
      Matrix.mul_apply, Fin.sum_univ_three, ← toRot_eq _ hq, hrd]
    unfold thirdAxis
    rw [hC]; rfl
  have hz' : z ≤ 1 := by nlinarith
  refine ⟨2 * sn * k * (cs - sn * k * z) / qsq δ, level_pos cs sn k z _ hcs0 hsn0 hsn1 hk0 hk1 hz' hn0, ?_⟩
  have hnum := level_num r f cs sn k z hr hf hz δ (by rw [hrv, hθ])
  have : cosTo (thirdAxis (a.update zero3 vm)) f = ((r 0 * rotH δ 0 0 + r 1 * rotH δ 1 0 + r 2 * rotH δ 2 0) * f 0 +
      (r 0 * rotH δ 0 1 + r 1 * rotH δ 1 1 + r 2 * rotH δ 2 1) * f 1 +
      (r 0 * rotH δ 0 2 + r 1 * rotH δ 1 2 + r 2 * rotH δ 2 2) * f 2) / qsq δ := by
    show thirdAxis _ 0 * f 0 + thirdAxis _ 1 * f 1 + thirdAxis _ 2 * f 2 = _
    rw [hcol 0, hcol 1, hcol 2]; ring
  rw [this, hnum, ← hz, div_mul_eq_mul_div, div_sub' hn0.ne', hn]
  congr 1
  ring

/-- An IMU sample of a device that does not turn. -/
noncomputable def unturned (t n : ℝ) (f : V3 ℝ) : Imu ℝ := { gpst := t, gyro := zero3, acce := forceSample n f }

/-- C136, what one sample does: without rotation the third axis of the attitude turns towards the measured specific
force, strictly unless the two are already on one line, for every attitude set, every sampling interval up to a
second and every specific force above half a metre per second squared. -/
theorem C136_turns_to_the_force_partial (dt : ℝ) (h0 : 0 < dt) (h1 : dt ≤ 1) (e : V3 ℝ) (t n : ℝ) (hn : dt / 2 < n) (f : V3 ℝ)
    (hf : cosTo f f = 1) :
    let a := (Ahrs.new dt).setAttiEuler e
    let b := a.updateImu (unturned t n f)
    cosTo (thirdAxis a) f ≤ cosTo (thirdAxis b) f ∧
    (cosTo (thirdAxis a) f ^ 2 < 1 → cosTo (thirdAxis a) f < cosTo (thirdAxis b) f) ∧
    (cosTo (thirdAxis a) f ^ 2 = 1 → cosTo (thirdAxis b) f = cosTo (thirdAxis a) f) := by
  intro a b
  have ha : holdsRot a := ⟨qsq_euler e, rfl⟩
  have hlit : (Fl.f32 (Fl.f32 (Fl.lit (2146 / 1000)) / Fl.lit 100) : ℝ) = 2146 / 100000 := by
    simp only [lit_real, f32_real]; norm_num
  have hKp : a.Kp = 2 * (2146 / 100000) := by
    show (Fl.lit 2 : ℝ) * Fl.f32 (Fl.f32 (Fl.lit (2146 / 1000)) / Fl.lit 100) = _
    rw [hlit, lit_real]; norm_num
  have hKi : a.Ki = (2146 / 100000) * (2146 / 100000) := by
    show (Fl.f32 (Fl.f32 (Fl.lit (2146 / 1000)) / Fl.lit 100) : ℝ) * Fl.f32 (Fl.f32 (Fl.lit (2146 / 1000)) / Fl.lit 100) = _
    rw [hlit]
  have hts : a.ts = dt := rfl
  obtain ⟨g, hg, he⟩ := level_step a (forceSample n f) f ha hf (acc0_unit a n f hf (by rw [hts]; exact h0) (by rw [hts]; exact hn)) 0
    (by show (zero3 : V3 ℝ) = _; funext i; fin_cases i <;> simp [zero3, v3]) _ rfl
    (by rw [hKp, hKi, hts]; positivity) (by rw [hKp, hKi, hts]; nlinarith)
  change cosTo (thirdAxis b) f - _ = _ at he
  have hz : cosTo (thirdAxis a) f ^ 2 ≤ 1 := by
    have hr : cosTo (thirdAxis a) (thirdAxis a) = 1 := by
      have := congrFun (congrFun (toRot_isRot a.qnb ha.1).1 2) 2
      rw [Matrix.mul_apply, Fin.sum_univ_three] at this
      simp only [Matrix.transpose_apply, Matrix.one_apply_eq] at this
      exact this
    have : cosTo (thirdAxis a) (thirdAxis a) * cosTo f f - cosTo (thirdAxis a) f ^ 2 =
        cross (thirdAxis a) f 0 ^ 2 + cross (thirdAxis a) f 1 ^ 2 + cross (thirdAxis a) f 2 ^ 2 := by
      simp [cross, cosTo, v3]; ring
    rw [hr, hf] at this
    nlinarith [sq_nonneg (cross (thirdAxis a) f 0), sq_nonneg (cross (thirdAxis a) f 1), sq_nonneg (cross (thirdAxis a) f 2)]
  refine ⟨?_, fun h => ?_, fun h => ?_⟩
  · nlinarith
  · nlinarith
  · rw [h] at he; linarith

/-- C136, the violation: at rest the accelerometer of a front-right-down device (the convention of the IMU samples)
reads minus gravity along the true down axis, so every sample turns the estimated down axis away from the true
one, however small the tilt error, unless it is exactly zero or exactly half a turn. -/
theorem C136_at_rest_the_tilt_error_grows (dt : ℝ) (h0 : 0 < dt) (h1 : dt ≤ 1) (e : V3 ℝ) (C : M3 ℝ) (hC : isRot C) (t g : ℝ)
    (hg : 1 / 2 < g) :
    let a := (Ahrs.new dt).setAttiEuler e
    let down : V3 ℝ := fun j => C 2 j
    let b := a.updateImu (unturned t (g * dt) (fun j => -down j))
    cosTo (thirdAxis a) down ^ 2 < 1 → cosTo (thirdAxis b) down < cosTo (thirdAxis a) down := by
  intro a down b h
  have hneg : ∀ u : V3 ℝ, cosTo u (fun j => -down j) = -cosTo u down := by intro u; unfold cosTo; ring
  have hd : cosTo (fun j => -down j) (fun j => -down j) = 1 := by
    have := congrFun (congrFun hC.1 2) 2
    rw [Matrix.mul_apply, Fin.sum_univ_three] at this
    simp only [Matrix.transpose_apply, Matrix.one_apply_eq] at this
    rw [← this]; unfold cosTo; ring
  have := (C136_turns_to_the_force_partial dt h0 h1 e t (g * dt) (by nlinarith) _ hd).2.1
  rw [hneg, hneg] at this
  have := this (by rw [neg_sq]; exact h)
  linarith

/-- A tenth of a radian of roll error on a level device meets the hypotheses (and the error therefore grows). -/
example : isRot (1 : M3 ℝ) ∧ (1 : ℝ) / 2 < 9.8 ∧
    cosTo (thirdAxis ((Ahrs.new 1).setAttiEuler (v3 (Real.pi / 3) 0 0))) (fun j => (1 : M3 ℝ) 2 j) = 1 / 2 := by
  refine ⟨⟨by simp, by simp, by simp⟩, by norm_num, ?_⟩
  show cosTo (fun j => quatToDcm (eulerToQuat (v3 (Real.pi / 3) 0 0)) 2 j) _ = _
  rw [(C39_euler_quaternion_agrees _).2, eulerToDcm_eq]
  simp [cosTo, Rx, Ry, Rz, v3, Matrix.mul_apply, Fin.sum_univ_three, Matrix.one_apply]

/-- C136: with the attitude right or upside down, no rotation and nothing integrated, nothing changes but the clock. -/
theorem C136_equilibria (a : Ahrs ℝ) (ha : holdsRot a) (vm : V3 ℝ) (s : ℝ) (hpar : a.acc0 vm = fun i => s * thirdAxis a i)
    (he : a.exyzInt = zero3) (hm : ∀ i, 0 ≤ a.ebMax i) :
    (a.update zero3 vm).qnb = a.qnb ∧ (a.update zero3 vm).Cnb = a.Cnb ∧ (a.update zero3 vm).exyzInt = zero3 := by
  have herr : a.err vm = zero3 := by
    unfold Ahrs.err
    rw [hpar]
    funext i
    fin_cases i <;> simp [cross, thirdAxis, zero3, v3] <;> ring
  have hz : (zero3 : V3 ℝ) - vs (sv a.Kp zero3 + (zero3 + vs zero3 (a.Ki * a.ts))) a.ts = 0 := by
    funext i; simp only [Pi.sub_apply, Pi.add_apply, vs, sv, Pi.zero_apply]; fin_cases i <;> simp [zero3, v3]
  have hq : (a.qnb.mul (rvToQuat 0)).normalized = a.qnb := by
    have : rvToQuat (0 : V3 ℝ) = ⟨1, 0, 0, 0⟩ := by
      rw [rv_small 0 (by simp [len]; exact Real.pi_pos)]
      simp [len, csP, snP]
    rw [this]
    have : a.qnb.mul ⟨1, 0, 0, 0⟩ = a.qnb := by simp [Quat.mul]
    rw [this, normalized_unit _ ha.1]
  have e1 : (a.update zero3 vm).qnb = a.qnb := by
    show (a.qnb.mul (rvToQuat ((zero3 : V3 ℝ) - vs (sv a.Kp (a.err vm) + (a.exyzInt + vs (a.err vm) (a.Ki * a.ts))) a.ts))).normalized = _
    rw [herr, he, hz, hq]
  refine ⟨e1, ?_, ?_⟩
  · show quatToDcm (a.update zero3 vm).qnb = _
    rw [e1, ha.2]
  · funext i
    show Ahrs.clamp ((a.exyzInt + vs (a.err vm) (a.Ki * a.ts)) i) (a.ebMax i) = _
    rw [herr, he]
    have : ((zero3 : V3 ℝ) + vs zero3 (a.Ki * a.ts)) i = 0 := by fin_cases i <;> simp [zero3, v3, vs]
    rw [this]
    unfold Ahrs.clamp
    have := hm i
    rw [if_neg (by rw [lt_real]; linarith), if_neg (by rw [lt_real]; linarith)]
    fin_cases i <;> simp [zero3, v3]

/-- `n` magnetometer updates in a row. -/
noncomputable def magRun (a : Ahrs ℝ) (w f b : V3 ℝ) : ℕ → Ahrs ℝ
  | 0 => a
  | n + 1 => (magRun a w f b n).updateMag w f b

/-- C137, the violation: in free fall without a magnetic field, turning at two radians a second sampled every second, the magnetometer form
multiplies the squared length of the quaternion by the same factor below one at every call, so it tends to zero and
the attitude held is no rotation. -/
theorem C137_magnetometer_form_shrinks_the_quaternion :
    ∃ ρ : ℝ, 0 < ρ ∧ ρ < 1 ∧
    (∀ n, qsq (magRun (Ahrs.new 1) (v3 2 0 0) zero3 zero3 n).getQnb = ρ ^ n) ∧
    Filter.Tendsto (fun n => qsq (magRun (Ahrs.new 1) (v3 2 0 0) zero3 zero3 n).getQnb) Filter.atTop (nhds 0) ∧
    ¬ isRot (magRun (Ahrs.new 1) (v3 2 0 0) zero3 zero3 1).Cnb := by
  have hlen : len (v3 2 0 0 : V3 ℝ) = 2 := by
    unfold len; simp [v3]
  have hrv := rv_small (v3 2 0 0 : V3 ℝ) (by rw [hlen]; linarith [Real.pi_gt_three])
  rw [hlen] at hrv
  have hu : Ahrs.unit0 (zero3 : V3 ℝ) = zero3 := by
    unfold Ahrs.unit0
    dsimp only
    rw [if_neg (by rw [lt_real, lit_real]; unfold vnorm sqNorm; simp [sumF_real, sqrt_real, Fin.sum_univ_three, zero3, v3])]
  have key : ∀ a : Ahrs ℝ, a.ts = 1 → a.exyzInt = zero3 →
      (a.updateMag (v3 2 0 0) zero3 zero3).ts = 1 ∧ (a.updateMag (v3 2 0 0) zero3 zero3).exyzInt = zero3 ∧
      (a.updateMag (v3 2 0 0) zero3 zero3).qnb = a.qnb.mul (rvToQuat (v3 2 0 0)) := by
    intro a h1 h2
    have hz : cross (a.Cnb 2) (zero3 : V3 ℝ) + cross (mvec a.Cnb.transpose (v3 0 (Ahrs.normXY (mvec a.Cnb zero3)) (mvec a.Cnb zero3 2))) zero3
        = zero3 := by
      funext i; fin_cases i <;> simp [cross, zero3, v3]
    unfold Ahrs.updateMag
    dsimp only
    rw [hu, hz, h1, h2]
    refine ⟨rfl, ?_, ?_⟩
    · funext i; simp only [Pi.add_apply, vs]; fin_cases i <;> simp [zero3, v3]
    · congr 2
      funext i; simp only [Pi.sub_apply, Pi.add_apply, vs, sv]; fin_cases i <;> simp [zero3, v3]
  have inv : ∀ n, (magRun (Ahrs.new 1) (v3 2 0 0) zero3 zero3 n).ts = 1 ∧ (magRun (Ahrs.new 1) (v3 2 0 0) zero3 zero3 n).exyzInt = zero3 ∧
      qsq (magRun (Ahrs.new 1) (v3 2 0 0) zero3 zero3 n).qnb = qsq (rvToQuat (v3 2 0 0 : V3 ℝ)) ^ n := by
    intro n
    induction n with
    | zero => exact ⟨rfl, rfl, by show qsq (eulerToQuat _) = _; rw [qsq_euler, pow_zero]⟩
    | succ n ih =>
      obtain ⟨k1, k2, k3⟩ := key _ ih.1 ih.2.1
      refine ⟨k1, k2, ?_⟩
      show qsq ((magRun (Ahrs.new 1) (v3 2 0 0) zero3 zero3 n).updateMag (v3 2 0 0) zero3 zero3).qnb = _
      rw [k3, qsq_mul, ih.2.2, pow_succ]
  have hρ : qsq (rvToQuat (v3 2 0 0 : V3 ℝ)) = csP 1 ^ 2 + snP 1 ^ 2 := by
    rw [hrv]; simp [qsq, v3]
    norm_num
    ring
  have hp : 0 < qsq (rvToQuat (v3 2 0 0 : V3 ℝ)) := by rw [hρ]; unfold csP snP; norm_num
  have hl : qsq (rvToQuat (v3 2 0 0 : V3 ℝ)) < 1 := by rw [hρ]; unfold csP snP; norm_num
  refine ⟨_, hp, hl, fun n => (inv n).2.2, ?_, ?_⟩
  · have : (fun n => qsq (magRun (Ahrs.new 1) (v3 2 0 0) zero3 zero3 n).getQnb) = fun n => qsq (rvToQuat (v3 2 0 0 : V3 ℝ)) ^ n := by
      funext n; exact (inv n).2.2
    rw [this]
    exact tendsto_pow_atTop_nhds_zero_of_lt_one hp.le hl
  · intro h
    obtain ⟨k1, k2, k3⟩ := key (Ahrs.new 1) rfl rfl
    have hC : (magRun (Ahrs.new 1) (v3 2 0 0) zero3 zero3 1).Cnb = quatToDcm (rvToQuat (v3 2 0 0 : V3 ℝ)) := by
      show quatToDcm ((Ahrs.new 1).updateMag (v3 2 0 0) zero3 zero3).qnb = _
      rw [k3]
      have : (Ahrs.new 1 : Ahrs ℝ).qnb = ⟨1, 0, 0, 0⟩ := by
        show eulerToQuat (zero3 : V3 ℝ) = _
        simp [eulerToQuat, zero3, v3, sin_real, cos_real]
      rw [this]
      simp [Quat.mul]
    have := congrFun (congrFun h.1 1) 1
    rw [hC, hrv, Matrix.mul_apply, Fin.sum_univ_three] at this
    simp [quatToDcm, Quat.toRot, v3, csP, snP] at this
    norm_num at this

/-- C137, the part that holds: whatever the calls, the quaternion is never zero, and the next IMU sample restores a rotation
(C47). -/
theorem C137_nonzero_partial (dt : ℝ) (cs : List ACall) (hc : quatsOk cs) : 0 < qsq (arun cs (Ahrs.new dt)).getQnb :=
  (arun_inv cs hc _ (by show 0 < qsq (eulerToQuat _); rw [qsq_euler]; norm_num)
    (by show vs (v3 1 1 1) (deg : ℝ) = _; ext i; fin_cases i <;> simp [vs, v3, deg])).1

/-- C137: the magnetometer form corrects nothing exactly when it should not: if the third axis is along the specific force and the
field seen in the navigation frame has no first component and a non-negative second one, only the gyro turns the attitude. -/
theorem C137_magnetometer_fixed_point (a : Ahrs ℝ) (hC : isRot a.Cnb) (w acc mag : V3 ℝ) (ha : Ahrs.unit0 acc = thirdAxis a)
    (hx : mvec a.Cnb (Ahrs.unit0 mag) 0 = 0) (hy : 0 ≤ mvec a.Cnb (Ahrs.unit0 mag) 1) (he : a.exyzInt = zero3) :
    (a.updateMag w acc mag).qnb = a.qnb.mul (rvToQuat (vs w a.ts)) ∧ (a.updateMag w acc mag).exyzInt = zero3 := by
  obtain ⟨u, hu⟩ : ∃ u, u = Ahrs.unit0 mag := ⟨_, rfl⟩
  rw [← hu] at hx hy
  obtain ⟨b, hb⟩ : ∃ b, b = mvec a.Cnb u := ⟨_, rfl⟩
  rw [← hb] at hx hy
  have hn : Ahrs.normXY b = b 1 := by
    unfold Ahrs.normXY
    rw [hx, sqrt_real, mul_zero, zero_add, Real.sqrt_mul_self hy]
  have hw : mvec a.Cnb.transpose (v3 0 (Ahrs.normXY b) (b 2)) = u := by
    rw [hn]
    have : (v3 0 (b 1) (b 2) : V3 ℝ) = b := by
      funext i; fin_cases i
      · simp [v3, hx]
      · simp [v3]
      · simp [v3]
    rw [this, hb, mvec_real, mvec_real, Matrix.mulVec_mulVec, hC.2.1, Matrix.one_mulVec]
  have hz : cross (a.Cnb 2) (thirdAxis a) + cross u u = zero3 := by
    funext i; fin_cases i <;> simp [cross, thirdAxis, zero3, v3] <;> ring
  unfold Ahrs.updateMag
  dsimp only
  rw [ha, ← hu, ← hb, hw, hz, he]
  refine ⟨?_, ?_⟩
  · congr 2
    funext i; simp only [Pi.sub_apply, Pi.add_apply, vs, sv]; fin_cases i <;> simp [zero3, v3]
  · funext i; simp only [Pi.add_apply, vs]; fin_cases i <;> simp [zero3, v3]

/-- A device at rest, third axis up, second axis to magnetic north, meets the hypotheses. -/
example : isRot (Ahrs.new 1 : Ahrs ℝ).Cnb ∧ Ahrs.unit0 (v3 0 0 9 : V3 ℝ) = thirdAxis (Ahrs.new 1) ∧
    mvec (Ahrs.new 1 : Ahrs ℝ).Cnb (Ahrs.unit0 (v3 0 1 0)) 0 = 0 ∧ 0 ≤ mvec (Ahrs.new 1 : Ahrs ℝ).Cnb (Ahrs.unit0 (v3 0 1 0)) 1 := by
  have hC : (Ahrs.new 1 : Ahrs ℝ).Cnb = 1 := by
    show quatToDcm (eulerToQuat (zero3 : V3 ℝ)) = _
    rw [(C39_euler_quaternion_agrees _).2, eulerToDcm_eq]
    ext i j
    fin_cases i <;> fin_cases j <;> simp [Rx, Ry, Rz, v3, zero3, Matrix.mul_apply, Fin.sum_univ_three]
  have h9 : vnorm (v3 0 0 9 : V3 ℝ) = 9 := by
    unfold vnorm sqNorm
    simp only [sqrt_real, sumF_real, Fin.sum_univ_three]
    simp [v3]
  have h1 : vnorm (v3 0 1 0 : V3 ℝ) = 1 := by
    unfold vnorm sqNorm
    simp only [sqrt_real, sumF_real, Fin.sum_univ_three]
    simp [v3]
  have u9 : Ahrs.unit0 (v3 0 0 9 : V3 ℝ) = v3 0 0 1 := by
    unfold Ahrs.unit0
    dsimp only
    rw [h9, if_pos (by rw [lt_real, lit_real]; norm_num)]
    funext i; fin_cases i <;> simp [vd, v3]
  have u1 : Ahrs.unit0 (v3 0 1 0 : V3 ℝ) = v3 0 1 0 := by
    unfold Ahrs.unit0
    dsimp only
    rw [h1, if_pos (by rw [lt_real, lit_real]; norm_num)]
    funext i; fin_cases i <;> simp [vd, v3]
  unfold thirdAxis
  rw [hC, u9, u1]
  refine ⟨⟨by simp, by simp, by simp⟩, ?_, ?_, ?_⟩
  · funext i; fin_cases i <;> simp [v3, Matrix.one_apply]
  · rw [mvec_real, Matrix.one_mulVec]; simp [v3]
  · rw [mvec_real, Matrix.one_mulVec]; simp [v3]
end Verif.Props
