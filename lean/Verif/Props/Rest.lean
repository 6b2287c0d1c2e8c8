import Verif.Spec.Rest
import Verif.Props.Perfect
import Verif.Props.Gravity
import Verif.Props.Refine
/-! C125: a vehicle at rest stays at rest, in exact arithmetic. -/
namespace Verif.Props
open Verif Verif.Spec Verif.Convert Matrix

/-- The quaternion of a rotation vector is a function of its length and a multiple of the vector. -/
theorem rv_form (t : ℝ) : ∃ c k : ℝ, ∀ v : V3 ℝ, len v = t → rvToQuat v = ⟨c, k * v 0, k * v 1, k * v 2⟩ := by
  by_cases h : t < Real.pi
  · exact ⟨csP (t / 2), 1 / 2 * snP (t / 2), fun v hv => by rw [rv_small v (by rw [hv]; exact h), hv]⟩
  · by_cases hc : Real.cos (t / 2) < 0
    · refine ⟨-Real.cos (t / 2), -(Real.sin (t / 2) / t), fun v hv => ?_⟩
      rw [rv_large v (by rw [hv]; exact not_lt.1 h), hv, if_pos hc]
      simp only [rotQuat, hv, Quat.mk.injEq]
      refine ⟨trivial, ?_, ?_, ?_⟩ <;> ring
    · refine ⟨Real.cos (t / 2), Real.sin (t / 2) / t, fun v hv => ?_⟩
      rw [rv_large v (by rw [hv]; exact not_lt.1 h), hv, if_neg hc]
      simp only [rotQuat, hv]

theorem len_rot (q : Quat ℝ) (h : qsq q = 1) (v : V3 ℝ) : len (rotH q *ᵥ v) = len v := by
  unfold len
  congr 1
  have h2 : qsq q ^ 2 = 1 := by rw [h]; norm_num
  unfold qsq at h2
  simp only [rotH, Matrix.mulVec, dotProduct, Fin.sum_univ_three, Matrix.cons_val', Matrix.cons_val_zero, Matrix.cons_val_one,
    Matrix.cons_val, Matrix.of_apply]
  linear_combination (v 0 ^ 2 + v 1 ^ 2 + v 2 ^ 2) * h2

/-- Turning by `v` first is turning by the image of `v` last. -/
theorem turn_comm (q : Quat ℝ) (hq : qsq q = 1) (v w : V3 ℝ) (hw : rotH q *ᵥ v = w) :
    q.mul (rvToQuat v) = (rvToQuat w).mul q := by
  have hl : len w = len v := by rw [← hw, len_rot q hq]
  obtain ⟨c, k, hf⟩ := rv_form (len v)
  rw [hf v rfl, hf w hl, ← hw]
  unfold qsq at hq
  simp only [rotH, Matrix.mulVec, dotProduct, Fin.sum_univ_three, Matrix.cons_val', Matrix.cons_val_zero, Matrix.cons_val_one,
    Matrix.cons_val, Matrix.of_apply, Quat.mul, Quat.mk.injEq]
  refine ⟨?_, ?_, ?_, ?_⟩
  · linear_combination (k * (q.x * v 0 + q.y * v 1 + q.z * v 2)) * hq
  · linear_combination (-(k * (q.w * v 0 + q.y * v 2 - q.z * v 1))) * hq
  · linear_combination (-(k * (q.w * v 1 + q.z * v 0 - q.x * v 2))) * hq
  · linear_combination (-(k * (q.w * v 2 + q.x * v 1 - q.y * v 0))) * hq

theorem normalized_scale (q : Quat ℝ) (hq : qsq q = 1) (c : ℝ) (hc : 0 < c) :
    (⟨c * q.w, c * q.x, c * q.y, c * q.z⟩ : Quat ℝ).normalized = q := by
  have h : (⟨c * q.w, c * q.x, c * q.y, c * q.z⟩ : Quat ℝ).nsq = c ^ 2 := by
    rw [nsq_eq]; unfold qsq at *; linear_combination c ^ 2 * hq
  unfold Quat.normalized
  rw [h, if_pos (by rw [lt_real]; positivity), sqrt_real, Real.sqrt_sq hc.le]
  cases q
  simp only [Quat.mk.injEq]
  refine ⟨?_, ?_, ?_, ?_⟩ <;> field_simp

/-- A turn of the frame undone by the turn of the vehicle. -/
theorem turn_cancels (q : Quat ℝ) (hq : qsq q = 1) (v w : V3 ℝ) (hw : rotH q *ᵥ v = w) :
    (((rvToQuat w).conj.mul q).mul (rvToQuat v)).normalized = q := by
  have e : ((rvToQuat w).conj.mul q).mul (rvToQuat v) =
      ⟨qsq (rvToQuat w) * q.w, qsq (rvToQuat w) * q.x, qsq (rvToQuat w) * q.y, qsq (rvToQuat w) * q.z⟩ := by
    have hc := turn_comm q hq v w hw
    generalize rvToQuat w = p at *
    generalize rvToQuat v = r at *
    have h0 : (q.mul r).w = (p.mul q).w := by rw [hc]
    have h1 : (q.mul r).x = (p.mul q).x := by rw [hc]
    have h2 : (q.mul r).y = (p.mul q).y := by rw [hc]
    have h3 : (q.mul r).z = (p.mul q).z := by rw [hc]
    simp only [Quat.mul] at h0 h1 h2 h3
    simp only [Quat.mul, Quat.conj, qsq, Quat.mk.injEq]
    refine ⟨?_, ?_, ?_, ?_⟩
    · linear_combination p.w * h0 + p.x * h1 + p.y * h2 + p.z * h3
    · linear_combination p.w * h1 - p.x * h0 - p.y * h3 + p.z * h2
    · linear_combination p.w * h2 - p.y * h0 - p.z * h1 + p.x * h3
    · linear_combination p.w * h3 - p.z * h0 - p.x * h2 + p.y * h1
  rw [e]
  exact normalized_scale q hq _ (rv_pos w)

/-- The earth's axis, seen from the local frame and from the earth. -/
theorem earthAxis (lat lon t : ℝ) : rotH (llaToQne ⟨lat, lon⟩) *ᵥ (t • earthRate lat) = vs Earth.omegaIeE t := by
  obtain ⟨h1, h2, -⟩ := C41_position_quaternion ⟨lat, lon⟩
  rw [← toRot_eq _ h1, show (llaToQne ⟨lat, lon⟩ : Quat ℝ).toRot = llaToCne ⟨lat, lon⟩ from h2, omegaIeE_eq]
  have := Real.sin_sq_add_cos_sq lat
  ext i
  fin_cases i <;> simp [llaToCne, vs, Matrix.mulVec, dotProduct, Fin.sum_univ_three, earthRate]
  · ring
  · ring
  · linear_combination (earthW * t) * this

/-- A parked vehicle: at rest, its attitude and place given consistently, away from the poles and the date line. -/
structure Parked (n : NavEpoch ℝ) : Prop where
  con : Consistent n
  euler : n.atti = dcmToEuler n.Cbn
  cne : n.Cne = llaToCne ⟨n.pos 0, n.pos 1⟩
  vn : n.vn = 0
  dvn : n.dvn = 0

theorem en_rest (p : V3 ℝ) : Earth.omegaEnN (0 : V3 ℝ) p = 0 := by
  rw [en_eq]; ext i; fin_cases i <;> simp [transportRate]

theorem extrapolate_rest (s : Ins ℝ) (h : Parked s.nav) :
    s.extrapolate.1 = Earth.gravity (s.nav.pos 0) (s.nav.pos 2) ∧ s.extrapolate.2.posMid = s.nav.pos ∧
    s.extrapolate.2.omegaEnN = 0 ∧ s.extrapolate.2.omegaIeN = earthRate (s.nav.pos 0) ∧ s.extrapolate.2.nav = s.nav ∧
    s.extrapolate.2.dt = s.dt ∧ s.extrapolate.2.accePre = s.accePre ∧ s.extrapolate.2.gyroPre = s.gyroPre := by
  have hq : (((rvToQuat (vd (vs Earth.omegaIeE s.dt) (Fl.lit 2))).conj.mul s.nav.Qne).mul
      (rvToQuat (vd (vs (Earth.omegaIeN (s.nav.pos 0) + Earth.omegaEnN s.nav.vn s.nav.pos) s.dt) (Fl.lit 2)))).normalized = s.nav.Qne := by
    rw [h.con.qne]
    apply turn_cancels _ (C41_position_quaternion _).1
    have e1 : vd (vs (Earth.omegaIeN (s.nav.pos 0) + Earth.omegaEnN s.nav.vn s.nav.pos) s.dt) (Fl.lit 2) =
        (s.dt / 2) • earthRate (s.nav.pos 0) := by
      rw [h.vn, en_rest, add_zero, ie_eq]; ext i; simp [vd, vs]; ring
    have e2 : vd (vs Earth.omegaIeE s.dt) (Fl.lit 2) = vs (Earth.omegaIeE : V3 ℝ) (s.dt / 2) := by
      ext i; simp [vd, vs]; ring
    rw [e1, e2, earthAxis]
  have hll : qneToLla s.nav.Qne = ⟨s.nav.pos 0, s.nav.pos 1⟩ := by
    rw [h.con.qne]; exact C41_lat_lon_round_trip _ h.con.lat h.con.lon
  have hm : (v3 (s.nav.pos 0) (s.nav.pos 1) (s.nav.pos 2 - s.nav.vn 2 * s.dt / Fl.lit 2) : V3 ℝ) = s.nav.pos := by
    rw [h.vn]; ext i; fin_cases i <;> simp [v3]
  have hv : s.nav.vn + sv (Fl.lit (1 / 2)) s.nav.dvn = 0 := by
    rw [h.vn, h.dvn]; ext i; simp [sv]
  unfold Ins.extrapolate
  dsimp only
  rw [hq, hll]
  dsimp only
  rw [hm, hv, en_rest, ie_eq]
  exact ⟨rfl, rfl, rfl, rfl, rfl, rfl, rfl, rfl⟩

theorem rot_xp (q : Quat ℝ) (hq : qsq q = 1) (a b : V3 ℝ) : rotH q *ᵥ xp a b = xp (rotH q *ᵥ a) (rotH q *ᵥ b) := by
  have key : xp (rotH q *ᵥ a) (rotH q *ᵥ b) = qsq q • (rotH q *ᵥ xp a b) := by
    ext i
    fin_cases i <;> simp [rotH, xp, qsq, Matrix.mulVec, dotProduct, Fin.sum_univ_three] <;> ring
  rw [key, hq, one_smul]

/-- The samples remembered from the step before: none yet, or the same as now. -/
def SamePre (s : Ins ℝ) (acce gyro : V3 ℝ) : Prop :=
  (s.accePre = 0 ∧ s.gyroPre = 0) ∨ (s.accePre = acce ∧ s.gyroPre = gyro)

theorem xp_anti (a b : V3 ℝ) : xp a b + xp b a = 0 := by
  ext i; fin_cases i <;> simp [xp] <;> ring
theorem xp_zero (a : V3 ℝ) : xp 0 a = 0 := by
  ext i; fin_cases i <;> simp [xp]

/-- The velocity increment the mechanization makes of a specific force increment whose image in the local
frame is `F`, while the vehicle turns with the earth. -/
theorem force_rest (q : Quat ℝ) (hq : qsq q = 1) (z f w : V3 ℝ) (hw : rotH q *ᵥ w = z) (pa pw : V3 ℝ)
    (hp : (pa = 0 ∧ pw = 0) ∨ (pa = f ∧ pw = w)) (F : V3 ℝ) (hF : rotH q *ᵥ f = F) :
    mvec (mmul (eyeM 3 - sm (Fl.lit (1 / 2)) (skew z)) (rotH q))
      (f + sv (Fl.lit (1 / 2)) (cross w f) + vd (cross pw f + cross pa w) (Fl.lit 12)) = F - (1 / 4 : ℝ) • xp z (xp z F) := by
  have h0 : cross pw f + cross pa w = 0 := by
    rcases hp with ⟨h1, h2⟩ | ⟨h1, h2⟩
    · rw [h1, h2, cross_eq, cross_eq, xp_zero, xp_zero, add_zero]
    · rw [h1, h2]; exact xp_anti w f
  have e1 : f + sv (Fl.lit (1 / 2)) (cross w f) + vd (cross pw f + cross pa w) (Fl.lit 12) = f + (1 / 2 : ℝ) • xp w f := by
    rw [h0, cross_eq]; ext i; simp [sv, vd]
  have e2 : sm (Fl.lit (1 / 2)) (skew z) = (1 / 2 : ℝ) • xm z := by
    rw [sm_real, lit_real, skew_eq]; norm_num
  have e3 : ∀ x : V3 ℝ, xm z *ᵥ x = xp z x := fun x => skew_mulVec z x
  rw [e1, e2, mvec_real, mmul_real, eyeM_real, ← Matrix.mulVec_mulVec, Matrix.mulVec_add, Matrix.mulVec_smul, rot_xp q hq, hw, hF,
    Matrix.sub_mulVec, Matrix.one_mulVec, Matrix.smul_mulVec, e3]
  ext i
  fin_cases i <;> simp only [xp, Pi.add_apply, Pi.sub_apply, Pi.smul_apply, smul_eq_mul, Fin.zero_eta, Fin.mk_one, Fin.reduceFinMk,
    Matrix.cons_val_zero, Matrix.cons_val_one, Matrix.cons_val] <;> ring

theorem rotH_inv (q : Quat ℝ) (hq : qsq q = 1) (v : V3 ℝ) : rotH q *ᵥ ((rotH q)ᵀ *ᵥ v) = v := by
  rw [Matrix.mulVec_mulVec, rotH_orth, hq]; simp

/-- The balancing force balances. -/
theorem balance (q : Quat ℝ) (hq : qsq q = 1) (lat dt g : ℝ) (F : V3 ℝ)
    (hF : rotH q *ᵥ restAcce (rotH q) lat dt g = F) :
    F - (1 / 4 : ℝ) • xp (earthTurn lat dt) (xp (earthTurn lat dt) F) = ![0, 0, -(g * dt)] := by
  have hl := len_sq (earthTurn lat dt)
  have hpos : (0 : ℝ) < 1 + len (earthTurn lat dt) ^ 2 / 4 := by positivity
  rw [restAcce, gravityReaction, restGyro, Matrix.mulVec_smul, Matrix.mulVec_add, Matrix.mulVec_smul, rotH_inv q hq, rotH_inv q hq] at hF
  generalize earthTurn lat dt = z at *
  have h0 := congrFun hF 0
  have h1 := congrFun hF 1
  have h2 := congrFun hF 2
  simp only [Pi.smul_apply, Pi.add_apply, smul_eq_mul, Matrix.cons_val_zero, Matrix.cons_val_one, Matrix.cons_val] at h0 h1 h2
  rw [inv_mul_eq_iff_eq_mul₀ hpos.ne', hl] at h0 h1 h2
  have hd : (1 + (z 0 ^ 2 + z 1 ^ 2 + z 2 ^ 2) / 4) ≠ 0 := by rw [← hl]; exact hpos.ne'
  have hdot : z 0 * F 0 + z 1 * F 1 + z 2 * F 2 = -(g * dt) * z 2 := by
    apply mul_left_cancel₀ hd
    linear_combination -(z 0 * h0 + z 1 * h1 + z 2 * h2)
  ext i
  fin_cases i <;> simp [xp]
  · linear_combination (-h0) - (1 / 4) * z 0 * hdot
  · linear_combination (-h1) - (1 / 4) * z 1 * hdot
  · linear_combination (-h2) - (1 / 4) * z 2 * hdot

/-- What the compensated readings of a step are: the turn of the earth, and a specific force increment. -/
structure Reads (s : Ins ℝ) (m : Imu ℝ) (acce gyro : V3 ℝ) : Prop where
  acce : ∀ i, (1 - s.nav.as i) * (m.acce i - s.nav.ab i * s.dt) = acce i
  gyro : ∀ i, (1 - s.nav.gs i) * (m.gyro i - s.nav.gb i * s.dt) = gyro i

theorem compensated (dt : ℝ) (m b k x : V3 ℝ) (h : ∀ i, (1 - k i) * (m i - b i * dt) = x i) : Ins.compensate dt m b k = x := by
  ext i
  rw [← h i]
  simp only [Ins.compensate, mvec_real, eyeM_real, diagM_real]
  rw [Matrix.sub_mulVec, Matrix.one_mulVec, Pi.sub_apply, Matrix.mulVec_diagonal]
  simp only [vs, Pi.sub_apply]
  ring

theorem rest_cbn (n : NavEpoch ℝ) (h : Consistent n) : n.Cbn = rotH n.Qbn := by
  rw [h.dcm]; exact toRot_eq _ h.unit

/-- Velocity: what a step adds to it at rest. -/
theorem velocity_rest (s : Ins ℝ) (h : Parked s.nav) (f w : V3 ℝ) (hw : w = restGyro s.nav.Cbn (s.nav.pos 0) s.dt)
    (hp : SamePre s f w) (g : ℝ) (F : V3 ℝ) (hF : s.nav.Cbn *ᵥ f = F) :
    (s.extrapolate.2.velocityUpdate g f w).nav.dvn =
      F - (1 / 4 : ℝ) • xp (earthTurn (s.nav.pos 0) s.dt) (xp (earthTurn (s.nav.pos 0) s.dt) F) + ![0, 0, g * s.dt] := by
  obtain ⟨-, -, e3, e4, e5, e6, e7, e8⟩ := extrapolate_rest s h
  generalize s.extrapolate.2 = e at *
  have hC := rest_cbn _ h.con
  have hz : vs (e.omegaEnN + e.omegaIeN) e.dt = earthTurn (s.nav.pos 0) s.dt := by
    rw [e3, e4, e6, zero_add]; ext i; simp [vs, earthTurn]; ring
  have hrot : rotH s.nav.Qbn *ᵥ w = earthTurn (s.nav.pos 0) s.dt := by
    rw [hw, restGyro, hC, rotH_inv _ h.con.unit]
  have hcor : vs (v3 0 0 g - cross (sv (Fl.lit 2) e.omegaIeN + e.omegaEnN) e.nav.vn) e.dt = ![0, 0, g * s.dt] := by
    rw [e5, e6, h.vn, cross_eq]
    ext i; fin_cases i <;> simp [vs, v3, xp]
  have hF' : rotH s.nav.Qbn *ᵥ f = F := by rw [← hC]; exact hF
  have key := force_rest s.nav.Qbn h.con.unit (earthTurn (s.nav.pos 0) s.dt) f w hrot s.accePre s.gyroPre hp F hF'
  have : (e.velocityUpdate g f w).nav.dvn =
      mvec (mmul (eyeM 3 - sm (Fl.lit (1 / 2)) (skew (vs (e.omegaEnN + e.omegaIeN) e.dt))) e.nav.Cbn)
        (f + sv (Fl.lit (1 / 2)) (cross w f) + vd (cross e.gyroPre f + cross e.accePre w) (Fl.lit 12)) +
      vs (v3 0 0 g - cross (sv (Fl.lit 2) e.omegaIeN + e.omegaEnN) e.nav.vn) e.dt := rfl
  rw [this, hz, hcor, e5, e7, e8, hC, key]

/-- A parked vehicle whose readings balance stays parked. -/
theorem step_rest (g0 : ℝ) (s : Ins ℝ) (m : Imu ℝ) (h : Parked s.nav) (f w : V3 ℝ)
    (hw : w = restGyro s.nav.Cbn (s.nav.pos 0) s.dt)
    (hf : f = restAcce s.nav.Cbn (s.nav.pos 0) s.dt (Earth.gravity (s.nav.pos 0) (s.nav.pos 2)))
    (hr : Reads s m f w) (hp : SamePre s f w) :
    (s.forwardImu g0 m).1 = Earth.gravity (s.nav.pos 0) (s.nav.pos 2) ∧
    (∃ k, (s.forwardImu g0 m).2.nav = { s.nav with gpst := m.gpst, vfKb := k }) ∧
    (s.forwardImu g0 m).2.dt = s.dt ∧ (s.forwardImu g0 m).2.accePre = f ∧ (s.forwardImu g0 m).2.gyroPre = w ∧
    (s.forwardImu g0 m).2.omegaIeN = earthRate (s.nav.pos 0) ∧ (s.forwardImu g0 m).2.omegaEnN = 0 := by
  obtain ⟨g, hg⟩ : ∃ g, g = Earth.gravity (s.nav.pos 0) (s.nav.pos 2) := ⟨_, rfl⟩
  have hd : (s.extrapolate.2.velocityUpdate g f w).nav.dvn = 0 := by
    rw [velocity_rest s h f w hw hp g _ rfl, balance s.nav.Qbn h.con.unit (s.nav.pos 0) s.dt g _ (by
      rw [rest_cbn _ h.con, hf, rest_cbn _ h.con, hg])]
    ext i; fin_cases i <;> simp
  obtain ⟨e1, e2, e3, e4, e5, e6, e7, e8⟩ := extrapolate_rest s h
  have ca := compensated s.dt m.acce s.nav.ab s.nav.as f hr.acce
  have cw := compensated s.dt m.gyro s.nav.gb s.nav.gs w hr.gyro
  unfold Ins.forwardImu Ins.forward
  dsimp only
  rw [ca, cw, e1, ← hg]
  generalize s.extrapolate.2 = e at *
  -- velocity
  obtain ⟨v, hv⟩ : ∃ v, v = e.velocityUpdate g f w := ⟨_, rfl⟩
  rw [← hv] at hd ⊢
  obtain ⟨k, hk⟩ : ∃ k, v.nav = { s.nav with vfKb := k } := by
    refine ⟨v.nav.vfKb, ?_⟩
    have h1 : v.nav = { e.nav with dvn := v.nav.dvn, vn := e.nav.vn + v.nav.dvn, vfKb := v.nav.vfKb } := by rw [hv]; rfl
    rw [h1, hd, e5, add_zero, ← h.dvn]
  have v1 : v.dt = s.dt := by rw [hv]; exact e6
  have v2 : v.vnMid = 0 := by
    have : v.vnMid = e.nav.vn + vd v.nav.dvn (Fl.lit 2) := by rw [hv]; rfl
    rw [this, hd, e5, h.vn]; ext i; simp [vd]
  have v3' : v.posMid = s.nav.pos := by rw [hv]; exact e2
  have v4 : v.omegaIeN = earthRate (s.nav.pos 0) := by rw [hv]; exact e4
  have v5 : v.omegaEnN = 0 := by
    have : v.omegaEnN = Earth.omegaEnN v.vnMid v.posMid := by rw [hv]; rfl
    rw [this, v2, en_rest]
  have v6 : v.gyroPre = s.gyroPre := by rw [hv]; exact e8
  clear hv
  -- position
  have q1 : (((rvToQuat (vs Earth.omegaIeE v.dt)).conj.mul v.nav.Qne).mul
      (rvToQuat (vs (v.omegaIeN + v.omegaEnN) v.dt))).normalized = s.nav.Qne := by
    rw [hk, v1, v4, v5, add_zero]
    show (((rvToQuat (vs Earth.omegaIeE s.dt)).conj.mul s.nav.Qne).mul _).normalized = s.nav.Qne
    rw [h.con.qne]
    apply turn_cancels _ (C41_position_quaternion _).1
    rw [show vs (earthRate (s.nav.pos 0)) s.dt = s.dt • earthRate (s.nav.pos 0) by ext i; simp [vs]; ring, earthAxis]
  have hll : qneToLla s.nav.Qne = ⟨s.nav.pos 0, s.nav.pos 1⟩ := by
    rw [h.con.qne]; exact C41_lat_lon_round_trip _ h.con.lat h.con.lon
  have hpos : (v3 (s.nav.pos 0) (s.nav.pos 1) (s.nav.pos 2 - v.vnMid 2 * v.dt) : V3 ℝ) = s.nav.pos := by
    rw [v2]; ext i; fin_cases i <;> simp [v3]
  have hmid : (v3 (s.nav.pos 0 + Fl.lit (1 / 2) * (s.nav.pos 0 - s.nav.pos 0)) (s.nav.pos 1 + Fl.lit (1 / 2) * (s.nav.pos 1 - s.nav.pos 1))
      (Fl.lit (1 / 2) * (s.nav.pos 2 + s.nav.pos 2)) : V3 ℝ) = s.nav.pos := by
    ext i; fin_cases i <;> simp [v3] <;> ring
  have hP : v.positionUpdate = { v with posMid := s.nav.pos, omegaIeN := earthRate (s.nav.pos 0), omegaEnN := 0 } := by
    unfold Ins.positionUpdate
    dsimp only
    rw [q1, hll]
    dsimp only
    rw [hk]
    dsimp only
    rw [hpos, hmid, v2, en_rest, ie_eq, ← h.cne]
  obtain ⟨p, hp'⟩ : ∃ p, p = v.positionUpdate := ⟨_, rfl⟩
  rw [← hp'] at hP ⊢
  have p1 : p.nav = { s.nav with vfKb := k } := by rw [hP]; exact hk
  have p2 : p.omegaIeN = earthRate (s.nav.pos 0) := by rw [hP]
  have p3 : p.omegaEnN = 0 := by rw [hP]
  have p4 : p.dt = s.dt := by rw [hP]; exact v1
  have p5 : p.gyroPre = s.gyroPre := by rw [hP]; exact v6
  clear hP hp'
  -- attitude
  have hrv : gyroToRv w s.gyroPre = w := by
    have : cross s.gyroPre w = 0 := by
      rcases hp with ⟨-, h2⟩ | ⟨-, h2⟩
      · rw [h2, cross_eq, xp_zero]
      · rw [h2]; ext i; fin_cases i <;> simp [cross, v3, mul_comm]
    unfold gyroToRv
    rw [this]; ext i; simp [vd]
  have q2 : (((rvToQuat (vs (p.omegaIeN + p.omegaEnN) p.dt)).conj.mul p.nav.Qbn).mul (rvToQuat (gyroToRv w p.gyroPre))).normalized = s.nav.Qbn := by
    rw [p1, p2, p3, p4, p5, hrv, add_zero]
    apply turn_cancels _ h.con.unit
    rw [hw, restGyro, rest_cbn _ h.con, rotH_inv _ h.con.unit]
    ext i; simp [vs, earthTurn]; ring
  have hA : (p.attiUpdate w).nav = { s.nav with vfKb := k } := by
    unfold Ins.attiUpdate
    dsimp only
    rw [q2, p1]
    dsimp only
    rw [← h.con.dcm, ← h.euler]
  refine ⟨rfl, ⟨k, ?_⟩, p4, rfl, rfl, p2, p3⟩
  rw [hA]

/-! ## Whole histories of the filter -/

/-- What a vehicle parked at `n` sees and is told: its sensors balance, position measurements that are used are
those of the antenna, the odometer stands still. Relative heights are left out. -/
def restCall (n : NavEpoch ℝ) (o : Opt ℝ) : FCall ℝ → Prop
  | .time m => (∀ i, (1 - n.as i) * (m.acce i - n.ab i * (1 / (o.dRate : ℝ))) =
        restAcce n.Cbn (n.pos 0) (1 / o.dRate) (normalGravity (n.pos 0) (n.pos 2)) i) ∧
      ∀ i, (1 - n.gs i) * (m.gyro i - n.gb i * (1 / (o.dRate : ℝ))) = restGyro n.Cbn (n.pos 0) (1 / o.dRate) i
  | .gnss m => usable m.mode →
      llaToXyz (v3 (m.lat * (Real.pi / 180)) (m.lon * (Real.pi / 180)) m.height) = llaToXyz n.pos + n.Cne *ᵥ (n.Cbn *ᵥ o.lbGnss)
  | .pos p _ => llaToXyz p = llaToXyz n.pos + n.Cne *ᵥ (n.Cbn *ᵥ o.lbGnss)
  | .vel v => v = 0
  | .speed v => v = 0
  | .height _ => False

/-- The filter of a vehicle parked at `n`. -/
structure Still (n : NavEpoch ℝ) (o : Opt ℝ) (f : Fusion ℝ) : Prop where
  nav : ∃ t k i, f.ins.nav = { n with gpst := t, vfKb := k, info := i }
  dt : f.ins.dt = 1 / o.dRate
  opt : f.opt = o
  lb : f.lbGnss = o.lbGnss
  xd : f.kf.Xd = 0
  kx : f.kfXd = 0
  pre : SamePre f.ins (restAcce n.Cbn (n.pos 0) (1 / o.dRate) (normalGravity (n.pos 0) (n.pos 2)))
    (restGyro n.Cbn (n.pos 0) (1 / o.dRate))
/-- After the first sample: the rates the filter holds are those of the earth. -/
structure Turning (n : NavEpoch ℝ) (o : Opt ℝ) (f : Fusion ℝ) : Prop where
  still : Still n o f
  gyro : f.ins.gyroPre = restGyro n.Cbn (n.pos 0) (1 / o.dRate)
  ie : f.ins.omegaIeN = earthRate (n.pos 0)
  en : f.ins.omegaEnN = 0

theorem parked_with {n : NavEpoch ℝ} (h : Parked n) (t : ℝ) (k : V3 ℝ) (i : NavInfo) :
    Parked { n with gpst := t, vfKb := k, info := i } :=
  ⟨⟨h.con.unit, h.con.dcm, h.con.qne, h.con.lat, h.con.lon, h.con.height⟩, h.euler, h.cne, h.vn, h.dvn⟩
theorem parked_att {n : NavEpoch ℝ} (h : Parked n) : attitudeOk n :=
  ⟨h.con.unit, h.con.dcm, by rw [h.con.dcm]; exact toRot_isRot _ h.con.unit, h.euler⟩
theorem parked_pos {n : NavEpoch ℝ} (h : Parked n) : positionOk n :=
  ⟨by rw [h.con.qne]; exact (C41_position_quaternion _).1,
   by rw [h.con.qne]; exact (C41_lat_lon_round_trip _ h.con.lat h.con.lon).symm, h.cne,
   by rw [h.cne]; exact (C41_position_quaternion _).2.2⟩
theorem still_parked {n : NavEpoch ℝ} (h : Parked n) {o : Opt ℝ} {f : Fusion ℝ} (s : Still n o f) : Parked f.ins.nav := by
  obtain ⟨t, k, i, e⟩ := s.nav
  rw [e]; exact parked_with h t k i

/-- A measurement with zero innovation. -/
theorem update_zero {p : Nat} (k : Kf 15 ℝ) (H : Matrix (Fin p) (Fin 15) ℝ) (z : Fin p → ℝ) (R : Matrix (Fin p) (Fin p) ℝ)
    (hz : z = 0) : (k.update H z R).Xd = 0 := by
  rw [(update_P _ _ _ _).2, hz, mulVec_zero]

theorem still_correct {n : NavEpoch ℝ} (h : Parked n) {o : Opt ℝ} {f : Fusion ℝ} (s : Still n o f) :
    Still n o f.takeCorrection.applyCorrection ∧ f.takeCorrection.applyCorrection.ins = f.ins := by
  have h1 : Still n o f.takeCorrection ∧ f.takeCorrection.ins = f.ins := by
    unfold Fusion.takeCorrection
    split_ifs
    · exact ⟨⟨s.nav, s.dt, s.opt, s.lb, rfl, s.xd, s.pre⟩, rfl⟩
    · exact ⟨s, rfl⟩
  obtain ⟨s1, e⟩ := h1
  generalize f.takeCorrection = f1 at *
  unfold Fusion.applyCorrection
  split_ifs
  · have hz : vd f1.kfXd (ofI f1.monitor.maxIter : ℝ) = fun _ => 0 := by
      rw [s1.kx]; ext i; simp [vd]
    dsimp only
    have hp := still_parked h s1
    rw [hz, feedBack_zero f1 (parked_att hp) (parked_pos hp)]
    exact ⟨⟨s1.nav, s1.dt, s1.opt, s1.lb, s1.xd, s1.kx, s1.pre⟩, e⟩
  · exact ⟨s1, e⟩

theorem antenna_still {n : NavEpoch ℝ} {o : Opt ℝ} {f : Fusion ℝ} (s : Still n o f) :
    antenna f = llaToXyz n.pos + n.Cne *ᵥ (n.Cbn *ᵥ o.lbGnss) := by
  obtain ⟨t, k, i, e⟩ := s.nav
  unfold antenna
  rw [e, s.lb]

theorem vel_still {n : NavEpoch ℝ} (h : Parked n) {o : Opt ℝ} (ho : o.dRate ≠ 0) {f : Fusion ℝ} (s : Turning n o f) : f.velModel.1 = 0 := by
  obtain ⟨t, k, i, e⟩ := s.still.nav
  have hr : ((o.dRate : ℤ) : ℝ) ≠ 0 := by exact_mod_cast ho
  have hw : vs f.ins.gyroPre (ofI f.opt.dRate) - mvec f.ins.nav.Cbn.transpose (f.ins.omegaIeN + f.ins.omegaEnN) = 0 := by
    rw [s.gyro, s.ie, s.en, s.still.opt, e, add_zero, mvec_real, restGyro, earthTurn, Matrix.mulVec_smul]
    ext j
    simp [vs, ofI]
    field_simp
    ring
  show mvec (mmul f.Cbv f.ins.nav.Cbn.transpose) f.ins.nav.vn + mvec f.Cbv (cross (vs f.ins.gyroPre (ofI f.opt.dRate) -
    mvec f.ins.nav.Cbn.transpose (f.ins.omegaIeN + f.ins.omegaEnN)) f.lbWheel) = 0
  rw [hw, cross_eq, xp_zero, e, mvec_real, mvec_real]
  show _ *ᵥ n.vn + _ = _
  rw [h.vn, mulVec_zero, mulVec_zero, add_zero]

theorem still_sensor {n : NavEpoch ℝ} {o : Opt ℝ} {f : Fusion ℝ} (s : Still n o f) (b : BitVec 16) :
    Still n o (f.setSensor b) ∧ Still n o (f.clearSensor b) := by
  obtain ⟨t, k, i, e⟩ := s.nav
  refine ⟨⟨⟨t, k, (f.setSensor b).ins.nav.info, ?_⟩, s.dt, s.opt, s.lb, s.xd, s.kx, s.pre⟩,
    ⟨⟨t, k, (f.clearSensor b).ins.nav.info, ?_⟩, s.dt, s.opt, s.lb, s.xd, s.kx, s.pre⟩⟩
  · unfold Fusion.setSensor; dsimp only; rw [e]
  · unfold Fusion.clearSensor; dsimp only; rw [e]
theorem turning_sensor {n : NavEpoch ℝ} {o : Opt ℝ} {f : Fusion ℝ} (s : Turning n o f) (b : BitVec 16) :
    Turning n o (f.setSensor b) ∧ Turning n o (f.clearSensor b) :=
  ⟨⟨(still_sensor s.still b).1, s.gyro, s.ie, s.en⟩, ⟨(still_sensor s.still b).2, s.gyro, s.ie, s.en⟩⟩
theorem still_mode {n : NavEpoch ℝ} {o : Opt ℝ} {f : Fusion ℝ} (s : Still n o f) (b : Int) : Still n o (f.setGnssMode b) := by
  obtain ⟨t, k, i, e⟩ := s.nav
  refine ⟨⟨t, k, (f.setGnssMode b).ins.nav.info, ?_⟩, s.dt, s.opt, s.lb, s.xd, s.kx, s.pre⟩
  unfold Fusion.setGnssMode; dsimp only; rw [e]
/-- Replacing the Kalman part by one with zero state. -/
theorem still_kf {n : NavEpoch ℝ} {o : Opt ℝ} {f f' : Fusion ℝ} (s : Still n o f) (h1 : f'.ins = f.ins) (h2 : f'.opt = f.opt)
    (h3 : f'.lbGnss = f.lbGnss) (h4 : f'.kfXd = f.kfXd) (h5 : f'.kf.Xd = 0) : Still n o f' := by
  obtain ⟨a, b, c, d, _, x, y⟩ := s
  exact ⟨by rw [h1]; exact a, by rw [h1]; exact b, by rw [h2]; exact c, by rw [h3]; exact d, h5, by rw [h4]; exact x, by rw [h1]; exact y⟩
theorem turning_kf {n : NavEpoch ℝ} {o : Opt ℝ} {f f' : Fusion ℝ} (s : Turning n o f) (h1 : f'.ins = f.ins) (h2 : f'.opt = f.opt)
    (h3 : f'.lbGnss = f.lbGnss) (h4 : f'.kfXd = f.kfXd) (h5 : f'.kf.Xd = 0) : Turning n o f' :=
  ⟨still_kf s.still h1 h2 h3 h4 h5, by rw [h1]; exact s.gyro, by rw [h1]; exact s.ie, by rw [h1]; exact s.en⟩

theorem zupt_still {n : NavEpoch ℝ} (h : Parked n) {o : Opt ℝ} (hz : o.zuptEnable = 0 ∨ o.zuptaEnable = 0) {f : Fusion ℝ} (s : Turning n o f) :
    Turning n o f.zuptStage := by
  unfold Fusion.zuptStage
  split_ifs with h1 h2
  · have h3 : o.zuptaEnable = 0 := by
      rcases hz with h0 | h0
      · exact absurd h0 (by rw [← s.still.opt]; exact h1.2)
      · exact h0
    apply (turning_sensor _ _).1
    unfold Fusion.measureZeroVelocity
    rw [if_pos (by rw [s.still.opt]; exact h3)]
    refine turning_kf s rfl rfl rfl rfl (update_zero _ _ _ _ ?_)
    exact (still_parked h s.still).vn
  · exact (turning_sensor s _).2
  · exact s
theorem nhc_still {n : NavEpoch ℝ} (h : Parked n) {o : Opt ℝ} (ho : o.dRate ≠ 0) {f : Fusion ℝ} (s : Turning n o f) : Turning n o f.nhcStage := by
  unfold Fusion.nhcStage
  split_ifs with h1
  · apply (turning_sensor _ _).1
    refine turning_kf s rfl rfl rfl rfl (update_zero _ _ _ _ ?_)
    funext i
    show f.velModel.1 _ = 0
    rw [vel_still h ho s]; rfl
  · exact (turning_sensor s _).2

theorem time_still {n : NavEpoch ℝ} (h : Parked n) {o : Opt ℝ} (ho : o.dRate ≠ 0) (hz : o.zuptEnable = 0 ∨ o.zuptaEnable = 0) {f : Fusion ℝ} (s : Still n o f)
    (g : ℝ) (m : Imu ℝ) (hm : restCall n o (.time m)) : Turning n o (f.timeUpdate g m).2 := by
  obtain ⟨s1, e1⟩ := still_correct h s
  unfold Fusion.timeUpdate
  dsimp only
  generalize f.takeCorrection.applyCorrection = f1 at *
  have hp := still_parked h s1
  obtain ⟨t, k, i, e⟩ := s1.nav
  have hst := step_rest g f1.ins m hp (restAcce n.Cbn (n.pos 0) (1 / o.dRate) (normalGravity (n.pos 0) (n.pos 2)))
    (restGyro n.Cbn (n.pos 0) (1 / o.dRate)) (by rw [e, s1.dt]) (by rw [e, s1.dt, gravity_eq])
    ⟨by rw [e, s1.dt]; exact hm.1, by rw [e, s1.dt]; exact hm.2⟩ s1.pre
  obtain ⟨-, ⟨k2, a2⟩, a3, a4, a5, a6, a7⟩ := hst
  have t1 : Turning n o (f1.propagate g m).2 := by
    refine ⟨⟨⟨m.gpst, k2, i, ?_⟩, a3.trans s1.dt, s1.opt, s1.lb, ?_, s1.kx, Or.inr ⟨a4, a5⟩⟩, a5, ?_, a7⟩
    · show (f1.ins.forwardImu g m).2.nav = _
      rw [a2, e]
    · have : (f1.propagate g m).2.kf.Xd = (f1.propagate g m).2.kf.Xd := rfl
      unfold Fusion.propagate
      dsimp only
      rw [(predict_P _ _ _).2]
      show _ *ᵥ f1.kf.Xd = 0
      rw [s1.xd, mulVec_zero]
    · show (f1.ins.forwardImu g m).2.omegaIeN = _
      rw [a6, e]
  have t2 := nhc_still h ho (zupt_still h hz t1)
  exact turning_kf t2 rfl rfl rfl rfl t2.still.xd

theorem pos_still {n : NavEpoch ℝ} (h : Parked n) {o : Opt ℝ} {f : Fusion ℝ} (s : Still n o f) (p : V3 ℝ) (R : M3 ℝ)
    (hp : llaToXyz p = llaToXyz n.pos + n.Cne *ᵥ (n.Cbn *ᵥ o.lbGnss)) : Still n o (f.measurePos p R) := by
  refine still_kf s rfl rfl rfl rfl (update_zero _ _ _ _ ?_)
  rw [C36_zero_innovation f p (parked_pos (still_parked h s)).2.2.2 (by rw [hp, antenna_still s])]
  ext i; fin_cases i <;> rfl
theorem gnss_still {n : NavEpoch ℝ} (h : Parked n) {o : Opt ℝ} {f : Fusion ℝ} (s : Still n o f) (m : Gnss ℝ)
    (hm : restCall n o (.gnss m)) : Still n o (f.measureGnss m) := by
  unfold Fusion.measureGnss
  split_ifs with hc
  · have hu : usable m.mode := by
      unfold Fusion.gnssCheck at hc
      simp only [decide_eq_true_eq] at hc
      rcases hc with h | h | h | h <;> rw [h] <;> simp [usable, MODE_SPP, MODE_RTK_FIX, MODE_RTK_FLOAT, MODE_RTK_DGPS]
    have hd : (deg : ℝ) = Real.pi / 180 := by simp [deg]
    have := pos_still h (still_mode (still_sensor s SENSOR_GNSS).1 m.mode) (v3 (m.lat * deg) (m.lon * deg) m.height)
      (diagM fun i => m.posStd i * m.posStd i * f.opt.gnssStdScale) (by rw [hd]; exact hm hu)
    exact still_kf this rfl rfl rfl rfl this.xd
  · exact still_mode (still_sensor s _).2 _
theorem odo_still {n : NavEpoch ℝ} (h : Parked n) {o : Opt ℝ} (ho : o.dRate ≠ 0) {f : Fusion ℝ} (s : Turning n o f) (v : V3 ℝ)
    (hv : v = 0) : Turning n o (f.measureVel v) := by
  unfold Fusion.measureVel
  dsimp only
  have s1 := (turning_sensor s SENSOR_ODO).1
  generalize f.setSensor SENSOR_ODO = f1 at *
  have hz : f1.velModel.1 - sv f1.ins.nav.kd v = 0 := by
    rw [vel_still h ho s1, hv]; ext i; simp [sv]
  split_ifs
  · obtain ⟨k, hk⟩ : ∃ k, k = f1.kf.update f1.velModel.2 (f1.velModel.1 - sv f1.ins.nav.kd v)
        (mmul (diagM (v3 f1.opt.odoStd (f1.opt.nhcStd 0) (f1.opt.nhcStd 1))) (diagM (v3 f1.opt.odoStd (f1.opt.nhcStd 0) (f1.opt.nhcStd 1)))) := ⟨_, rfl⟩
    have hx : k.Xd = 0 := by rw [hk]; exact update_zero _ _ _ _ hz
    rw [← hk]
    have : Turning n o { f1 with kf := k } := turning_kf s1 rfl rfl rfl rfl hx
    have t := (turning_sensor this SENSOR_NHC).1
    exact turning_kf t rfl rfl rfl rfl t.still.xd
  · have t := (turning_sensor s1 SENSOR_NHC).2
    exact turning_kf t rfl rfl rfl rfl (update_zero _ _ _ _ (by funext i; exact congrFun hz 0))

theorem rest_run {n : NavEpoch ℝ} (h : Parked n) {o : Opt ℝ} (ho : o.dRate ≠ 0) (hz : o.zuptEnable = 0 ∨ o.zuptaEnable = 0)
    (cs : List (FCall ℝ)) (hcs : ∀ c ∈ cs, restCall n o c) (s : ℝ × Fusion ℝ) (hs : Turning n o s.2) : Turning n o (frun cs s).2 := by
  induction cs generalizing s with
  | nil => exact hs
  | cons c cs ih =>
    refine ih (fun c hc => hcs c (List.mem_cons_of_mem _ hc)) _ ?_
    have hc := hcs c List.mem_cons_self
    have keep : ∀ f' : Fusion ℝ, Still n o f' → MeasKeeps s.2 f' → Turning n o f' := by
      intro f' h' hk
      obtain ⟨i, hi⟩ := hk.ins
      exact ⟨h', by rw [hi]; exact hs.gyro, by rw [hi]; exact hs.ie, by rw [hi]; exact hs.en⟩
    cases c with
    | time m => exact time_still h ho hz hs.still s.1 m hc
    | gnss m => exact keep _ (gnss_still h hs.still m hc) (meas_gnss _ _)
    | pos p R => exact keep _ (pos_still h hs.still p R hc) (meas_pos _ _ _)
    | vel v => exact odo_still h ho hs v hc
    | speed v =>
      refine odo_still h ho hs _ ?_
      have hc : v = 0 := hc
      rw [hc]; ext i; fin_cases i <;> rfl
    | height x => exact False.elim hc

/-- C125: a vehicle parked anywhere off the poles and the date line, in any attitude, whose sensors balance: after any
number of samples, perfect position measurements, zero-velocity, non-holonomic and standing odometer updates the
solution is exactly where it started, and no sensor error has been estimated. -/
theorem C125_rest_stays (g : ℝ) (junk : Fusion ℝ) (nav : NavEpoch ℝ) (o : Opt ℝ) (m : Imu ℝ) (cs : List (FCall ℝ)) (hp : Parked nav)
    (ho : o.dRate ≠ 0) (hz : o.zuptEnable = 0 ∨ o.zuptaEnable = 0) (h : ∀ c ∈ FCall.time m :: cs, restCall nav o c)
    (f : Fusion ℝ) (hf : f = (frun (.time m :: cs) (fstart g junk nav o)).2) (out : NavOutput ℝ) (hout : out = f.output)
    (first : NavOutput ℝ) (hfirst : first = (fstart g junk nav o).2.output) :
    (f.ins.nav.pos = nav.pos ∧ f.ins.nav.vn = 0 ∧ f.ins.nav.atti = nav.atti ∧ f.ins.nav.Cbn = nav.Cbn ∧ f.ins.nav.Qbn = nav.Qbn ∧
      f.ins.nav.Qne = nav.Qne ∧ f.ins.nav.gb = nav.gb ∧ f.ins.nav.ab = nav.ab) ∧
    (out.lat = first.lat ∧ out.lon = first.lon ∧ out.height = first.height ∧ out.vn = 0 ∧ out.atti = first.atti ∧ out.gb = first.gb ∧
      out.ab = first.ab ∧ out.gs = first.gs ∧ out.as = first.as) := by
  have h0 : Parked { nav with kd := o.odoScale } := ⟨⟨hp.con.unit, hp.con.dcm, hp.con.qne, hp.con.lat, hp.con.lon, hp.con.height⟩,
    hp.euler, hp.cne, hp.vn, hp.dvn⟩
  have s0 : Still { nav with kd := o.odoScale } o (fstart g junk nav o).2 := by
    refine ⟨⟨nav.gpst, nav.vfKb, nav.info, rfl⟩, ?_, rfl, rfl, rfl, rfl, Or.inl ⟨?_, ?_⟩⟩
    · show 1 / ofI o.dRate = _
      simp [ofI]
    · ext i; fin_cases i <;> rfl
    · ext i; fin_cases i <;> rfl
  have hc : ∀ c ∈ FCall.time m :: cs, restCall { nav with kd := o.odoScale } o c := by
    intro c hc
    have := h c hc
    cases c <;> exact this
  have t0 := time_still h0 ho hz s0 (fstart g junk nav o).1 m (hc _ List.mem_cons_self)
  have t1 := rest_run h0 ho hz cs (fun c hm => hc c (List.mem_cons_of_mem _ hm)) _ t0
  have hf' : f = (frun cs ((fstart g junk nav o).2.timeUpdate (fstart g junk nav o).1 m)).2 := hf
  rw [← hf'] at t1
  obtain ⟨a, b, i, e⟩ := t1.still.nav
  have o1 : f.opt = o := t1.still.opt
  refine ⟨by rw [e]; exact ⟨rfl, hp.vn, rfl, rfl, rfl, rfl, rfl, rfl⟩, ?_⟩
  rw [hout, hfirst]
  unfold Fusion.output Fusion.projPos Fusion.projAtti
  dsimp only
  rw [e, o1]
  exact ⟨rfl, rfl, rfl, hp.vn, rfl, rfl, rfl, rfl, rfl⟩

theorem len_smul (c : ℝ) (v : V3 ℝ) : len (c • v) = |c| * len v := by
  unfold len
  rw [← Real.sqrt_sq_eq_abs, ← Real.sqrt_mul (sq_nonneg c)]
  congr 1
  simp only [Pi.smul_apply, smul_eq_mul]
  ring
theorem len_xp_le (a b : V3 ℝ) : len (xp a b) ≤ len a * len b := by
  unfold len
  rw [← Real.sqrt_mul (by positivity)]
  apply Real.sqrt_le_sqrt
  simp only [xp, Matrix.cons_val_zero, Matrix.cons_val_one, Matrix.cons_val]
  nlinarith [sq_nonneg (a 0 * b 0 + a 1 * b 1 + a 2 * b 2)]
theorem len_inv (q : Quat ℝ) (hq : qsq q = 1) (v : V3 ℝ) : len ((rotH q)ᵀ *ᵥ v) = len v := by
  rw [← len_rot q hq ((rotH q)ᵀ *ᵥ v), rotH_inv q hq]
theorem len_axis (x : ℝ) : len (![0, 0, x] : V3 ℝ) = |x| := by
  unfold len
  rw [← Real.sqrt_sq_eq_abs]
  simp
theorem len_earthTurn (lat dt : ℝ) : len (earthTurn lat dt) = |dt| * earthW := by
  have hw : 0 ≤ earthW := by unfold earthW; norm_num
  rw [earthTurn, len_smul]
  congr 1
  have e : earthRate lat 0 ^ 2 + earthRate lat 1 ^ 2 + earthRate lat 2 ^ 2 = earthW ^ 2 := by
    simp only [earthRate, Matrix.cons_val_zero, Matrix.cons_val_one, Matrix.cons_val]
    linear_combination earthW ^ 2 * Real.sin_sq_add_cos_sq lat
  unfold len
  rw [e, Real.sqrt_sq hw]

/-- C125: the balancing accelerometer increment is the physical reaction to gravity up to a quarter of the squared
turn of the earth: at sampling intervals up to a tenth of a second up to 2 parts in a hundred billion. -/
theorem C125_balance_is_physical (q : Quat ℝ) (hq : qsq q = 1) (lat dt g : ℝ) :
    len (restAcce (quatToDcm q) lat dt g - gravityReaction (quatToDcm q) dt g) ≤ (earthW * dt) ^ 2 / 4 * len (gravityReaction (quatToDcm q) dt g) ∧
    (|dt| ≤ 1 / 10 → len (restAcce (quatToDcm q) lat dt g - gravityReaction (quatToDcm q) dt g) ≤ 2e-11 * len (gravityReaction (quatToDcm q) dt g)) := by
  have hC : quatToDcm q = rotH q := toRot_eq q hq
  have key : len (restAcce (quatToDcm q) lat dt g - gravityReaction (quatToDcm q) dt g) ≤
      (earthW * dt) ^ 2 / 4 * len (gravityReaction (quatToDcm q) dt g) := by
    rw [hC]
    have hl := len_earthTurn lat dt
    have hsq := len_sq (earthTurn lat dt)
    obtain ⟨u, hu⟩ : ∃ u : V3 ℝ, u = ![0, 0, -(g * dt)] := ⟨_, rfl⟩
    have hm : (0 : ℝ) < 1 + len (earthTurn lat dt) ^ 2 / 4 := by positivity
    have e : restAcce (rotH q) lat dt g - gravityReaction (rotH q) dt g =
        (rotH q)ᵀ *ᵥ (((1 + len (earthTurn lat dt) ^ 2 / 4)⁻¹ / 4) • xp (earthTurn lat dt) (xp (earthTurn lat dt) u)) := by
      have e1 : restAcce (rotH q) lat dt g - gravityReaction (rotH q) dt g = (rotH q)ᵀ *ᵥ ((1 + len (earthTurn lat dt) ^ 2 / 4)⁻¹ •
          (u + (-(g * dt) * earthTurn lat dt 2 / 4) • earthTurn lat dt) - u) := by
        rw [Matrix.mulVec_sub, Matrix.mulVec_smul, Matrix.mulVec_add, Matrix.mulVec_smul, hu]; rfl
      rw [e1]
      congr 1
      generalize earthTurn lat dt = z at *
      have h1 : u 0 = 0 := by rw [hu]; rfl
      have h2 : u 1 = 0 := by rw [hu]; rfl
      have h3 : u 2 = -(g * dt) := by rw [hu]; rfl
      ext i
      simp only [Pi.sub_apply, Pi.smul_apply, Pi.add_apply, smul_eq_mul]
      have hc : ∀ x y w : ℝ, x - w * (1 + len z ^ 2 / 4) = y → (1 + len z ^ 2 / 4)⁻¹ * x - w = (1 + len z ^ 2 / 4)⁻¹ * y := by
        intro x y w h
        rw [← h]; field_simp
      rw [div_mul_eq_mul_div (1 + len z ^ 2 / 4)⁻¹, mul_div_assoc (1 + len z ^ 2 / 4)⁻¹]
      apply hc
      rw [hsq]
      fin_cases i <;> simp only [xp, Fin.zero_eta, Fin.mk_one, Fin.reduceFinMk, Matrix.cons_val_zero, Matrix.cons_val_one, Matrix.cons_val, h1, h2, h3] <;> ring
    have hF : len (gravityReaction (rotH q) dt g) = len u := by rw [gravityReaction, len_inv q hq, hu]
    rw [e, len_inv q hq, len_smul, hF]
    have h1 := len_xp_le (earthTurn lat dt) (xp (earthTurn lat dt) u)
    have h2 := len_xp_le (earthTurn lat dt) u
    have h3 : len (xp (earthTurn lat dt) (xp (earthTurn lat dt) u)) ≤ len (earthTurn lat dt) ^ 2 * len u := by
      nlinarith [len_nonneg (earthTurn lat dt)]
    have h4 : |(1 + len (earthTurn lat dt) ^ 2 / 4)⁻¹ / 4| ≤ 1 / 4 := by
      rw [abs_of_nonneg (by positivity)]
      have : (1 + len (earthTurn lat dt) ^ 2 / 4)⁻¹ ≤ 1 := inv_le_one_of_one_le₀ (by nlinarith [sq_nonneg (len (earthTurn lat dt))])
      linarith
    have h5 : len (earthTurn lat dt) ^ 2 = (earthW * dt) ^ 2 := by rw [hl]; rw [mul_pow, sq_abs]; ring
    calc _ ≤ 1 / 4 * (len (earthTurn lat dt) ^ 2 * len u) := by
          apply mul_le_mul h4 h3 (len_nonneg _) (by norm_num)
      _ = _ := by rw [h5]; ring
  refine ⟨key, fun hd => key.trans ?_⟩
  apply mul_le_mul_of_nonneg_right _ (len_nonneg _)
  have : dt ^ 2 ≤ 1 / 100 := by rw [← sq_abs]; nlinarith [abs_nonneg dt]
  rw [mul_pow]
  have hw : earthW ^ 2 ≤ 5.32e-9 := by unfold earthW; norm_num
  have hw0 : (0 : ℝ) ≤ earthW ^ 2 := sq_nonneg _
  nlinarith

/-- C125: with the physical reaction to gravity itself, one step from rest changes the velocity by a quarter of the squared turn of the
earth times gravity: less than 10⁻¹⁰ of gravity's own increment at up to a tenth of a second. -/
theorem C125_physical_step (s : Ins ℝ) (m : Imu ℝ) (g0 : ℝ) (h : Parked s.nav) (f w : V3 ℝ)
    (hw : w = restGyro s.nav.Cbn (s.nav.pos 0) s.dt) (g : ℝ) (hg : g = normalGravity (s.nav.pos 0) (s.nav.pos 2))
    (hf : f = gravityReaction s.nav.Cbn s.dt g) (hr : Reads s m f w) (hp : SamePre s f w) :
    (s.forwardImu g0 m).2.nav.vn = -(1 / 4 : ℝ) • xp (earthTurn (s.nav.pos 0) s.dt) (xp (earthTurn (s.nav.pos 0) s.dt) ![0, 0, -(g * s.dt)]) ∧
    len (s.forwardImu g0 m).2.nav.vn ≤ (earthW * s.dt) ^ 2 / 4 * |g * s.dt| := by
  have ca := compensated s.dt m.acce s.nav.ab s.nav.as f hr.acce
  have cw := compensated s.dt m.gyro s.nav.gb s.nav.gs w hr.gyro
  obtain ⟨e1, -, -, -, e5, -⟩ := extrapolate_rest s h
  have hv : (s.forwardImu g0 m).2.nav.vn = s.extrapolate.2.nav.vn + (s.extrapolate.2.velocityUpdate s.extrapolate.1 f w).nav.dvn := by
    rw [← ca, ← cw]; rfl
  have hd := velocity_rest s h f w hw hp s.extrapolate.1 (![0, 0, -(g * s.dt)]) (by
    rw [hf, gravityReaction, rest_cbn _ h.con, rotH_inv _ h.con.unit])
  have key : (s.forwardImu g0 m).2.nav.vn =
      -(1 / 4 : ℝ) • xp (earthTurn (s.nav.pos 0) s.dt) (xp (earthTurn (s.nav.pos 0) s.dt) ![0, 0, -(g * s.dt)]) := by
    rw [hv, hd, e5, h.vn, e1, gravity_eq, ← hg, zero_add]
    generalize xp (earthTurn (s.nav.pos 0) s.dt) (xp (earthTurn (s.nav.pos 0) s.dt) ![0, 0, -(g * s.dt)]) = y
    ext i
    fin_cases i <;> simp only [Pi.add_apply, Pi.sub_apply, Pi.smul_apply, smul_eq_mul, Fin.zero_eta, Fin.mk_one, Fin.reduceFinMk,
      Matrix.cons_val_zero, Matrix.cons_val_one, Matrix.cons_val] <;> ring
  refine ⟨key, ?_⟩
  rw [key, len_smul]
  have h1 := len_xp_le (earthTurn (s.nav.pos 0) s.dt) (xp (earthTurn (s.nav.pos 0) s.dt) ![0, 0, -(g * s.dt)])
  have h2 := len_xp_le (earthTurn (s.nav.pos 0) s.dt) ![0, 0, -(g * s.dt)]
  have h0 := len_nonneg (earthTurn (s.nav.pos 0) s.dt)
  have h5 : len (earthTurn (s.nav.pos 0) s.dt) ^ 2 = (earthW * s.dt) ^ 2 := by rw [len_earthTurn, mul_pow, sq_abs]; ring
  rw [len_axis, abs_neg] at h2
  rw [← h5, show |(-(1 / 4) : ℝ)| = 1 / 4 by rw [abs_neg, abs_of_pos (by norm_num)]]
  nlinarith

/-- C125: the zero-angular-rate update, by contrast, measures the earth's rotation and learns it as a bias: its innovation at rest is the
vertical component of the earth's rotation in body axes, not zero for a level vehicle off the equator. -/
theorem C125_zihr_learns_the_earth (n : NavEpoch ℝ) (o : Opt ℝ) (ho : o.dRate ≠ 0) (f : Fusion ℝ) (s : Turning n o f) :
    (f.measureZihr.kf.Xd 11 = f.kf.P 11 11 / (f.kf.P 11 11 + o.zuptaStd ^ 2) * (n.Cbnᵀ *ᵥ earthRate (n.pos 0)) 2) ∧
    (n.Cbn = 1 → (n.Cbnᵀ *ᵥ earthRate (n.pos 0)) 2 = -earthW * Real.sin (n.pos 0)) := by
  have hr : ((o.dRate : ℤ) : ℝ) ≠ 0 := by exact_mod_cast ho
  constructor
  · have hz : f.ins.gyroPre 2 / f.ins.dt = (n.Cbnᵀ *ᵥ earthRate (n.pos 0)) 2 := by
      rw [s.gyro, s.still.dt, restGyro, earthTurn, Matrix.mulVec_smul, Pi.smul_apply, smul_eq_mul]
      field_simp
    obtain ⟨H, hH⟩ : ∃ H : Matrix (Fin 1) (Fin 15) ℝ, H = fun _ j => if j.val = 11 then 1 else 0 := ⟨_, rfl⟩
    obtain ⟨R, hR⟩ : ∃ R : Matrix (Fin 1) (Fin 1) ℝ, R = fun _ _ => o.zuptaStd * o.zuptaStd := ⟨_, rfl⟩
    have hk : f.measureZihr.kf = f.kf.update H (fun _ => f.ins.gyroPre 2 / f.ins.dt) R := by
      rw [hH, hR, ← s.still.opt]; rfl
    rw [hk, (update_P _ _ _ _).2, hz]
    generalize (n.Cbnᵀ *ᵥ earthRate (n.pos 0)) 2 = z
    have hHe : ∀ j, H 0 j = if j = 11 then 1 else 0 := by
      intro j; rw [hH]; simp only [Fin.ext_iff]; rfl
    have hPH : ∀ i, (f.kf.P * Hᵀ) i 0 = f.kf.P i 11 := by
      intro i; rw [Matrix.mul_apply]; simp [Matrix.transpose_apply, hHe]
    have hR0 : R 0 0 = o.zuptaStd ^ 2 := by rw [hR]; ring
    obtain ⟨S, hSd⟩ : ∃ S : Matrix (Fin 1) (Fin 1) ℝ, S = H * f.kf.P * Hᵀ + R := ⟨_, rfl⟩
    have hS : S 0 0 = f.kf.P 11 11 + o.zuptaStd ^ 2 := by
      rw [hSd, Matrix.add_apply, hR0, Matrix.mul_assoc, Matrix.mul_apply]
      simp only [hPH, hHe]
      simp
    rw [← hSd]
    have hI : S⁻¹ 0 0 = (f.kf.P 11 11 + o.zuptaStd ^ 2)⁻¹ := by
      rw [Matrix.inv_def, ← hS]
      simp
    simp only [Matrix.mulVec, dotProduct, Fin.sum_univ_one]
    rw [Matrix.mul_apply, Fin.sum_univ_one, hI]
    rw [hPH 11]
    ring
  · intro hc
    rw [hc, Matrix.transpose_one, Matrix.one_mulVec]
    rfl

/-- Every position, level of tilt and heading away from the exceptions gives a parked vehicle, through the library's own way of making a start. -/
theorem parked_make (n : NavOutput ℝ) (o : Opt ℝ) (e : V3 ℝ) (he : ∀ i, e i = n.atti i * (Real.pi / 180)) (hroll : e 0 ∈ Set.Ioc (-Real.pi) Real.pi)
    (hyaw : e 2 ∈ Set.Ioc (-Real.pi) Real.pi) (hpitch : e 1 ∈ Set.Ioo (-(Real.pi / 2)) (Real.pi / 2)) (hlock : |Real.sin (e 1)| < 999 / 1000)
    (hlat : n.lat * (Real.pi / 180) ∈ Set.Ioo (-(Real.pi / 2)) (Real.pi / 2)) (hlon : n.lon * (Real.pi / 180) ∈ Set.Ioo (-Real.pi) Real.pi)
    (hh : -6000000 < n.height) (hv : n.vn = 0) : Parked (makeNavEpoch n o) := by
  have hd : (deg : ℝ) = Real.pi / 180 := by simp [deg]
  have ha : (makeNavEpoch n o).atti = e := by
    ext i; rw [he]; fin_cases i <;> simp [makeNavEpoch, v3, hd]
  have hC : (makeNavEpoch n o).Cbn = eulerToDcm e := by rw [← ha]; rfl
  have hQ : (makeNavEpoch n o).Qbn = eulerToQuat e := by rw [← ha]; rfl
  have p0 : (makeNavEpoch n o).pos 0 = n.lat * (Real.pi / 180) := by simp [makeNavEpoch, v3, hd]
  have p1 : (makeNavEpoch n o).pos 1 = n.lon * (Real.pi / 180) := by simp [makeNavEpoch, v3, hd]
  have p2 : (makeNavEpoch n o).pos 2 = n.height := rfl
  refine ⟨⟨?_, ?_, rfl, by rw [p0]; exact hlat, by rw [p1]; exact hlon, by rw [p2]; exact hh⟩, ?_, rfl, hv, ?_⟩
  · rw [hQ]; exact qsq_euler e
  · rw [hC, hQ]; exact (C39_euler_quaternion_agrees e).2.symm
  · rw [hC, ha]; exact (C40_euler_round_trip e hroll hyaw hpitch hlock).symm
  · ext i; fin_cases i <;> rfl

/-- The sample that balances, for sensors whose assumed scale errors are not one. -/
noncomputable def restImu (n : NavEpoch ℝ) (o : Opt ℝ) (t : ℝ) : Imu ℝ :=
  { gpst := t
    acce := fun i => restAcce n.Cbn (n.pos 0) (1 / o.dRate) (normalGravity (n.pos 0) (n.pos 2)) i / (1 - n.as i) + n.ab i * (1 / (o.dRate : ℝ))
    gyro := fun i => restGyro n.Cbn (n.pos 0) (1 / o.dRate) i / (1 - n.gs i) + n.gb i * (1 / (o.dRate : ℝ)) }
theorem restImu_rests (n : NavEpoch ℝ) (o : Opt ℝ) (t : ℝ) (h1 : ∀ i, n.as i ≠ 1) (h2 : ∀ i, n.gs i ≠ 1) : restCall n o (.time (restImu n o t)) := by
  constructor
  · intro i
    have : 1 - n.as i ≠ 0 := sub_ne_zero.2 (h1 i).symm
    simp only [restImu]
    field_simp
    ring
  · intro i
    have : 1 - n.gs i ≠ 0 := sub_ne_zero.2 (h2 i).symm
    simp only [restImu]
    field_simp
    ring

/-- The hypotheses of `C125_rest_stays` for a vehicle in Wuhan heading east: any number of samples, odometer readings, and fixes of any usable or unusable kind at the
place itself, for every option set with that sampling rate, no lever arm and ordinary scale factors. -/
example (o : Opt ℝ) (ho : o.dRate = 100) (hl : o.lbGnss = 0) (hs : o.imuPara.asIni = 0) (hg : o.imuPara.gsIni = 0)
    (n : NavOutput ℝ) (hn : n.lat = 30 ∧ n.lon = 114 ∧ n.height = 20 ∧ n.vn = 0 ∧ n.atti = ![0, 0, 90]) (k : Nat) :
    Parked (makeNavEpoch n o) ∧
    ∀ c ∈ (List.range k).flatMap (fun t => [FCall.time (restImu (makeNavEpoch n o) o t), .speed 0, .gnss ⟨30, 114, 20, ![1, 1, 2], t, 4⟩]),
      restCall (makeNavEpoch n o) o c := by
  obtain ⟨n1, n2, n3, n4, n5⟩ := hn
  have hpi := Real.pi_pos
  refine ⟨parked_make n o ![0, 0, Real.pi / 2] ?_ ?_ ?_ ?_ ?_ ?_ ?_ ?_ n4, ?_⟩
  · intro i; rw [n5]; fin_cases i <;> simp; ring
  · constructor <;> simp <;> linarith
  · constructor <;> simp <;> linarith
  · constructor <;> simp <;> linarith
  · simp
  · rw [n1]; constructor <;> linarith
  · rw [n2]; constructor <;> linarith
  · rw [n3]; norm_num
  · intro c hc
    simp only [List.mem_flatMap, List.mem_range, List.mem_cons, List.not_mem_nil, or_false] at hc
    obtain ⟨t, -, h | h | h⟩ := hc
    · rw [h]
      exact restImu_rests _ _ _ (fun i => by show o.imuPara.asIni i ≠ 1; rw [hs]; simp) (fun i => by show o.imuPara.gsIni i ≠ 1; rw [hg]; simp)
    · rw [h]; rfl
    · rw [h]
      intro _
      rw [hl, Matrix.mulVec_zero, Matrix.mulVec_zero, add_zero]
      have hd : (deg : ℝ) = Real.pi / 180 := by simp [deg]
      congr 1
      ext i
      fin_cases i <;> simp [makeNavEpoch, v3, hd, n1, n2, n3]

/-- C125 for the C interface: started with a given place, attitude and zero velocity, an instance whose samples
balance and whose fixes are those of the antenna reports exactly the given place, attitude and no velocity, for ever. -/
theorem C125_rest_api (junk : Junk ℝ) (d0 d : Dev ℝ) (o : Opt ℝ) (n : NavOutput ℝ) (hm : o.alignMode = 2)
    (hi : rgioeInit junk d0 (some o) (some n) = some (0, d)) (hp : Parked (makeNavEpoch n o))
    (ho : o.dRate ≠ 0) (hz : o.zuptEnable = 0 ∨ o.zuptaEnable = 0) (hout : o.outputProjectEnable = 0)
    (cs : List (Call ℝ)) (hc : ∀ c ∈ cs, c.isInit = false) (hs : imusOf cs ≠ [])
    (ht : ∀ m, Call.time (some m) ∈ cs → restCall (makeNavEpoch n o) o (.time m))
    (hg : ∀ m, Call.gnss (some m) ∈ cs → restCall (makeNavEpoch n o) o (.gnss m)) (g : ℝ) (p r : NavOutput ℝ)
    (hr : (0, r) = rgioeGetResult (runCalls cs (g, d)).2 p) :
    r.lat = n.lat ∧ r.lon = n.lon ∧ r.height = n.height ∧ r.vn = 0 ∧ r.atti = n.atti := by
  obtain ⟨-, rep⟩ := C126_given_start junk d0 d o n hm hi cs hc hs g _ rfl
  have hr' := rep.result p
  rw [← hr] at hr'
  have hr2 : r = (frun (filterCalls (fromFirstSample cs)) (fstart g junk.df (makeNavEpoch n o) o)).2.output := congrArg Prod.snd hr'
  have hfirst : ∃ m cs', fromFirstSample cs = .time (some m) :: cs' ∧ ∀ c ∈ fromFirstSample cs, c ∈ cs := by
    clear hr hr' hr2 rep hi ht hg hc
    induction cs with
    | nil => exact absurd rfl hs
    | cons c cs ih =>
      rcases c with ⟨o, n, j⟩ | (_ | m) | (_ | m) | _ | _ | _ | _ | p | _
      case time.some => exact ⟨m, cs, rfl, fun c h => h⟩
      all_goals
        obtain ⟨m, cs', e, f⟩ := ih hs
        exact ⟨m, cs', e, fun c h => List.mem_cons_of_mem _ (f c h)⟩
  obtain ⟨m, cs', e, sub⟩ := hfirst
  have hcalls : ∀ cs' : List (Call ℝ), (∀ c ∈ cs', c ∈ cs) → ∀ c ∈ filterCalls cs', restCall (makeNavEpoch n o) o c := by
    intro cs' hsub
    induction cs' with
    | nil => intro c h; cases h
    | cons c cs' ih =>
      have ih := ih (fun c h => hsub c (List.mem_cons_of_mem _ h))
      rcases c with ⟨o, n, j⟩ | (_ | m) | (_ | m) | _ | _ | _ | _ | p | _
      case time.some =>
        intro c h
        rcases List.mem_cons.1 h with h | h
        · rw [h]; exact ht m (hsub _ List.mem_cons_self)
        · exact ih c h
      case gnss.some =>
        intro c h
        rcases List.mem_cons.1 h with h | h
        · rw [h]; exact hg m (hsub _ List.mem_cons_self)
        · exact ih c h
      all_goals exact ih
  have key := C125_rest_stays g junk.df (makeNavEpoch n o) o m (filterCalls cs') hp ho hz
    (by have := hcalls (fromFirstSample cs) sub; rw [e] at this; exact this) _ rfl r (by rw [hr2, e]; rfl) _ rfl
  obtain ⟨-, k1, k2, k3, k4, k5, -⟩ := key
  have hd : (deg : ℝ) = Real.pi / 180 := by simp [deg]
  have hd0 : (deg : ℝ) ≠ 0 := by rw [hd]; have := Real.pi_pos; positivity
  have ho' : (fstart g junk.df (makeNavEpoch n o) o).2.opt.outputProjectEnable = 0 := hout
  have q1 : (fstart g junk.df (makeNavEpoch n o) o).2.output.lat = n.lat * deg / deg := by
    unfold Fusion.output; dsimp only; rw [if_neg (by simpa using ho')]; rfl
  have q2 : (fstart g junk.df (makeNavEpoch n o) o).2.output.lon = n.lon * deg / deg := by
    unfold Fusion.output; dsimp only; rw [if_neg (by simpa using ho')]; rfl
  have q3 : (fstart g junk.df (makeNavEpoch n o) o).2.output.height = n.height := by
    unfold Fusion.output; dsimp only; rw [if_neg (by simpa using ho')]; rfl
  have q4 : (fstart g junk.df (makeNavEpoch n o) o).2.output.atti = vd (v3 (n.atti 0 * deg) (n.atti 1 * deg) (n.atti 2 * deg)) deg := by
    unfold Fusion.output; dsimp only; rw [if_neg (by simpa using ho')]; rfl
  refine ⟨by rw [k1, q1, mul_div_cancel_right₀ _ hd0], by rw [k2, q2, mul_div_cancel_right₀ _ hd0], by rw [k3, q3], k4, ?_⟩
  rw [k5, q4]
  ext i
  fin_cases i <;> simp [vd, v3, mul_div_cancel_right₀ _ hd0]
end Verif.Props
