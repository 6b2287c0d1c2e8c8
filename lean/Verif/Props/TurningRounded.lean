import Verif.Props.Turning
import Verif.Props.Rounding
import Verif.Lemmas.RoundingRv
import Verif.Spec.TurningRounded
/-! C195: in rounded arithmetic the attitude drifts from the exact composition of its turns at most linearly. -/
namespace Verif.Props
open Verif Verif.Spec Verif.Convert Verif.Rnd Matrix
open scoped Quaternion
variable {R : Rounding} {u : ℝ}

/-- Normalising in Mathlib's algebra. -/
noncomputable def nrm (a : ℍ[ℝ]) : ℍ[ℝ] := ‖a‖⁻¹ • a
theorem nrm_norm (a : ℍ[ℝ]) (h : 0 < ‖a‖) : ‖nrm a‖ = 1 := by
  unfold nrm
  rw [norm_smul, norm_inv, norm_norm, inv_mul_cancel₀ h.ne']
theorem nrm_mul (a b : ℍ[ℝ]) : nrm (a * b) = nrm a * nrm b := by
  unfold nrm
  rw [norm_mul, mul_inv, smul_mul_smul_comm]
theorem nrm_star (a : ℍ[ℝ]) : nrm (star a) = star (nrm a) := by
  unfold nrm
  rw [norm_star]
  simp
theorem nrm_smul (a : ℍ[ℝ]) (k : ℝ) (hk : 0 < k) : nrm (k • a) = nrm a := by
  unfold nrm
  rw [norm_smul, Real.norm_of_nonneg hk.le, mul_inv, smul_smul]
  congr 1
  field_simp
theorem nrm_lip (x y : ℍ[ℝ]) (hx : 0 < ‖x‖) (hy : 0 < ‖y‖) : ‖nrm x - nrm y‖ ≤ 2 * ‖x - y‖ / ‖y‖ := by
  have e : nrm x - nrm y = ‖y‖⁻¹ • (x - y) + (‖x‖⁻¹ - ‖y‖⁻¹) • x := by
    unfold nrm; rw [smul_sub, sub_smul]; abel
  have e2 : ‖(‖x‖⁻¹ - ‖y‖⁻¹) • x‖ ≤ ‖x - y‖ / ‖y‖ := by
    have : (‖x‖⁻¹ - ‖y‖⁻¹) = (‖y‖ - ‖x‖) / (‖x‖ * ‖y‖) := by field_simp
    rw [norm_smul, this, norm_div, norm_mul, norm_norm, norm_norm, Real.norm_eq_abs, div_mul_eq_mul_div, mul_comm ‖x‖ ‖y‖,
      mul_div_mul_right _ _ hx.ne']
    have := abs_norm_sub_norm_le y x
    rw [norm_sub_rev] at this
    gcongr
  rw [e]
  refine (norm_add_le _ _).trans ?_
  rw [norm_smul, norm_inv, norm_norm]
  have : 2 * ‖x - y‖ / ‖y‖ = ‖y‖⁻¹ * ‖x - y‖ + ‖x - y‖ / ‖y‖ := by field_simp; ring
  rw [this]
  gcongr

/-- Coefficients close, quaternions close. -/
theorem toH_close (p q : Quat ℝ) {d : ℝ} (h1 : |p.w - q.w| ≤ d) (h2 : |p.x - q.x| ≤ d) (h3 : |p.y - q.y| ≤ d) (h4 : |p.z - q.z| ≤ d) :
    ‖toH p - toH q‖ ≤ 2 * d := by
  have d0 : 0 ≤ d := (abs_nonneg _).trans h1
  have e : toH p - toH q = toH ⟨p.w - q.w, p.x - q.x, p.y - q.y, p.z - q.z⟩ := by ext <;> simp
  have k : ∀ a : ℝ, |a| ≤ d → a ^ 2 ≤ d ^ 2 := fun a ha => by rw [← sq_abs a]; gcongr
  have : ‖toH p - toH q‖ ^ 2 ≤ (2 * d) ^ 2 := by
    rw [e, toH_norm_sq]
    unfold qsq
    dsimp only
    have := k _ h1
    have := k _ h2
    have := k _ h3
    have := k _ h4
    linarith
  exact (abs_le_of_sq_le_sq' this (by positivity)).2

theorem rv_near (h : Accurate R u) (v : V3 (RR R)) (hv : len (rvec v) ≤ 3) :
    ‖toH (re (rvToQuat v)) - toH (rvToQuat (rvec v))‖ ≤ 1200 * u := by
  have u0 := h.pos
  have u1 := h.small
  obtain ⟨S, hS⟩ : ∃ S, S = (v 0).v ^ 2 + (v 1).v ^ 2 + (v 2).v ^ 2 := ⟨_, rfl⟩
  have hL : len (rvec v) ^ 2 = S := by rw [len_sq, hS]; rfl
  have S0 : 0 ≤ S := by rw [hS]; positivity
  have S9 : S ≤ 9 := by
    rw [← hL]
    have := pow_le_pow_left₀ (len_nonneg _) hv 2
    linarith
  have M := mag_near h (v 0).v (v 1).v (v 2).v
  rw [← hS] at M
  have P := pi_sq h
  have M' := abs_le.1 M
  have uS : 0 ≤ u * S ∧ u * S ≤ S / 1000000 := ⟨by positivity, by nlinarith⟩
  have c : Fl.lt (v 0 * v 0 + v 1 * v 1 + v 2 * v 2) (Fl.pi * Fl.pi : RR R) = true := by
    rw [lt_iff]
    simp only [v_add, v_mul, v_pi]
    linarith [P.1, M'.2]
  have c' : Fl.lt (rvec v 0 * rvec v 0 + rvec v 1 * rvec v 1 + rvec v 2 * rvec v 2) (Fl.pi * Fl.pi : ℝ) = true := by
    rw [lt_real]
    show (v 0).v * (v 0).v + (v 1).v * (v 1).v + (v 2).v * (v 2).v < Real.pi * Real.pi
    have := Real.pi_gt_d4
    nlinarith
  have e4 : R.rnd (((1 / 4 : ℚ) : ℝ)) = R.rnd (1 / 4) := by norm_num
  have e2 : R.rnd (((1 / 2 : ℚ) : ℝ)) = R.rnd (1 / 2) := by norm_num
  -- the squared half angle
  have mS : |R.rnd (R.rnd (R.rnd ((v 0).v * (v 0).v) + R.rnd ((v 1).v * (v 1).v)) + R.rnd ((v 2).v * (v 2).v)) - S| ≤ 110 * u := M.trans (by nlinarith)
  have q4 := lit_near h (1 / 4) (by norm_num)
  have m0 := Rnd.near_mul h mS q4 (B := 10) (B' := 1 / 4) (by rw [abs_of_nonneg S0]; linarith) (by rw [abs_of_pos] <;> norm_num)
    (by norm_num) (by norm_num) (by norm_num) (by norm_num)
  have m1 := weaken h m0 (l := 60) (by norm_num)
  obtain ⟨m, hm⟩ : ∃ m, m = S * (1 / 4) := ⟨_, rfl⟩
  rw [← hm] at m1
  have ma : 0 ≤ m := by rw [hm]; linarith
  have mb : m ≤ 5 / 2 := by rw [hm]; linarith
  have cs := series_near h m1 ma mb (le_refl 2) (le_refl 12) (le_refl 30)
  have sn := series_near h m1 ma mb (by norm_num : (2:ℝ) ≤ 6) (by norm_num : (12:ℝ) ≤ 20) (by norm_num : (30:ℝ) ≤ 42)
  have h2 := lit_near h (1 / 2) (by norm_num)
  have hn := Rnd.near_mul h h2 sn.1 (B := 1 / 2) (B' := 1) (by rw [abs_of_pos] <;> norm_num) sn.2 (by norm_num) (by norm_num) (by norm_num) (by norm_num)
  have hn := weaken h hn (l := 170) (by norm_num)
  have hnB : |1 / 2 * (1 - m / 6 * (1 - m / 20 * (1 - m / 42)))| ≤ 1 / 2 := by
    rw [abs_mul, abs_of_pos (by norm_num : (0:ℝ) < 1 / 2)]; linarith [sn.2]
  have cmp : ∀ x : ℝ, x ^ 2 ≤ S → _ := fun x hx =>
    weaken h (Rnd.near_mul h hn (x' := x) (y' := x) (k' := 0) (B' := 16 / 5) (by simp) hnB
      (abs_le_of_sq_le_sq (by norm_num; linarith) (by norm_num)) (by norm_num) (by norm_num) (by norm_num) (by norm_num)) (by norm_num : _ ≤ (600:ℝ))
  have a2 := sq_nonneg (v 0).v
  have b2 := sq_nonneg (v 1).v
  have c2 := sq_nonneg (v 2).v
  have em : (rvec v 0 * rvec v 0 + rvec v 1 * rvec v 1 + rvec v 2 * rvec v 2) * ((1 / 4 : ℚ) : ℝ) = m := by
    rw [hm, hS]; simp only [rvec]; push_cast; ring
  have r : (600 * u) * 2 = 1200 * u := by ring
  rw [← r, mul_comm]
  have e5 : ((1 / 2 : ℚ) : ℝ) = 1 / 2 := by norm_num
  have e6 : rvToQuat (rvec v) = ⟨1 - m / 2 * (1 - m / 12 * (1 - m / 30)), 1 / 2 * (1 - m / 6 * (1 - m / 20 * (1 - m / 42))) * (v 0).v,
      1 / 2 * (1 - m / 6 * (1 - m / 20 * (1 - m / 42))) * (v 1).v, 1 / 2 * (1 - m / 6 * (1 - m / 20 * (1 - m / 42))) * (v 2).v⟩ := by
    unfold rvToQuat
    dsimp only
    rw [if_pos c']
    simp only [lit_real, em, e5, Rat.cast_ofNat]
    rfl
  rw [e6]
  unfold rvToQuat
  dsimp only
  rw [if_pos c]
  refine toH_close _ _ ?_ ?_ ?_ ?_ <;>
    simp only [re, v_sub, v_div, v_one, v_mul, v_add, v_lit, e4, e2, Rat.cast_ofNat]
  · exact weaken h cs.1 (by norm_num)
  · exact cmp _ (by linarith)
  · exact cmp _ (by linarith)
  · exact cmp _ (by linarith)


/-- Normalising a computed quaternion divides it by a number of about its length, up to rounding. -/
theorem rnormalized_scale (h : Accurate R u) (q : Quat (RR R)) (h1 : 9 / 10 ≤ rsq q) (h2 : rsq q ≤ 11 / 10) :
    ∃ m : ℝ, 89 / 100 ≤ m ∧ m ≤ 111 / 100 ∧ ‖toH (re q.normalized) - m⁻¹ • toH (re q)‖ ≤ 22 / 5 * u := by
  have u0 := h.pos
  have u1 := h.small
  obtain ⟨bw, bx, bY, bz⟩ := comp_bound (re q) (N := 11 / 10) (b := 21 / 20) (by rw [← rsq_re]; exact h2) (by norm_num) (by norm_num)
  have sq : ∀ a : ℝ, |a| ≤ 21 / 20 → |R.rnd (a * a) - a * a| ≤ 5 / 2 * u := by
    intro a ha
    have : |a * a| ≤ 3 / 2 := by rw [abs_mul]; nlinarith [abs_nonneg a]
    exact weaken h (near0 h this) (by norm_num)
  have N : rsq q = q.x.v * q.x.v + q.y.v * q.y.v + q.z.v * q.z.v + q.w.v * q.w.v := by unfold rsq; ring
  have n : |q.nsq.v - rsq q| ≤ 20 * u := by
    have := sum4 h (B := 11 / 10) (sq _ bx) (sq _ bY) (sq _ bz) (sq _ bw) (by
        rw [abs_of_nonneg (by nlinarith [mul_self_nonneg (re q).x, mul_self_nonneg (re q).y])]
        show q.x.v * q.x.v + q.y.v * q.y.v ≤ _
        nlinarith [mul_self_nonneg q.z.v, mul_self_nonneg q.w.v])
      (by
        rw [abs_of_nonneg (by nlinarith [mul_self_nonneg (re q).x, mul_self_nonneg (re q).y, mul_self_nonneg (re q).z])]
        show q.x.v * q.x.v + q.y.v * q.y.v + q.z.v * q.z.v ≤ _
        nlinarith [mul_self_nonneg q.w.v])
      (by
        show |q.x.v * q.x.v + q.y.v * q.y.v + q.z.v * q.z.v + q.w.v * q.w.v| ≤ _
        rw [← N, abs_of_nonneg (by linarith)]; exact h2) (by norm_num) (by norm_num) (by norm_num)
    rw [N]
    exact weaken h this (by norm_num)
  have n' := abs_le.1 n
  have np : 0 < q.nsq.v := by linarith [n'.1]
  have c : Fl.lt 0 q.nsq = true := (lt_iff _ _).2 np
  set s := Real.sqrt q.nsq.v with hs
  have s2 : s ^ 2 = q.nsq.v := Real.sq_sqrt np.le
  have s0 : 0 ≤ s := Real.sqrt_nonneg _
  have s1 : s ≤ 11 / 10 := by
    have : s ^ 2 ≤ (11 / 10) ^ 2 := by rw [s2]; norm_num; linarith [n'.2]
    exact (abs_le_of_sq_le_sq' this (by norm_num)).2
  have s9 : 9 / 10 ≤ s := by
    have : (9 / 10) ^ 2 ≤ s ^ 2 := by rw [s2]; norm_num; linarith [n'.1]
    exact (abs_le_of_sq_le_sq' this s0).2
  have t := near0 h (x := s) (B := 11 / 10) (by rw [abs_of_nonneg s0]; exact s1)
  set m := R.rnd s with hm
  have t' := abs_le.1 t
  have m9 : 89 / 100 ≤ m := by linarith [t'.1]
  have m1 : m ≤ 111 / 100 := by linarith [t'.2]
  have mp : 0 < m := by linarith
  have e : q.normalized = ⟨q.w / Fl.sqrt q.nsq, q.x / Fl.sqrt q.nsq, q.y / Fl.sqrt q.nsq, q.z / Fl.sqrt q.nsq⟩ := by
    unfold Quat.normalized
    rw [if_pos c]
  have f : ∀ a : ℝ, |a| ≤ 21 / 20 → |R.rnd (a / m) - a / m| ≤ 11 / 5 * u := by
    intro a ha
    have : |a / m| ≤ 6 / 5 := by
      rw [abs_div, abs_of_pos mp, div_le_iff₀ mp]; linarith
    exact weaken h (near0 h this) (by norm_num)
  refine ⟨m, m9, m1, ?_⟩
  have e2 : m⁻¹ • toH (re q) = toH ⟨(re q).w / m, (re q).x / m, (re q).y / m, (re q).z / m⟩ := by
    ext <;> simp [div_eq_inv_mul]
  have e3 : 2 * (11 / 5 * u) = 22 / 5 * u := by ring
  rw [e, e2, ← e3]
  exact toH_close _ _ (f _ bw) (f _ bx) (f _ bY) (f _ bz)

theorem norm_of_sq (q : Quat ℝ) {a b : ℝ} (_ : 0 ≤ a) (hb : 0 ≤ b) (h1 : a ^ 2 ≤ qsq q) (h2 : qsq q ≤ b ^ 2) : a ≤ ‖toH q‖ ∧ ‖toH q‖ ≤ b := by
  rw [← toH_norm_sq] at h1 h2
  exact ⟨(abs_le_of_sq_le_sq' h1 (norm_nonneg _)).2, (abs_le_of_sq_le_sq' h2 hb).2⟩

/-- The exact series has about unit length. -/
theorem rv_norm (v : V3 ℝ) (hv : len v ≤ 3) : 99 / 100 ≤ ‖toH (rvToQuat v)‖ := by
  have hp : len v < Real.pi := by have := Real.pi_gt_d4; linarith
  have n := (norm_small (len v / 2) (by linarith [len_nonneg v]) (half_lt v hp)).2
  have e : qsq (rvToQuat v) = csP (len v / 2) ^ 2 + (len v / 2 * snP (len v / 2)) ^ 2 := by
    rw [rv_small v hp]; unfold qsq; dsimp only
    linear_combination (-(1 / 4 * snP (len v / 2) ^ 2)) * len_sq v
  refine (abs_le_of_sq_le_sq' ?_ (norm_nonneg _)).2
  rw [toH_norm_sq, e]
  linarith

/-- One computed turn, normalised, is up to its sign the exact one to within series error and rounding. -/
theorem rturn_near (h : Accurate R u) (v : V3 (RR R)) (hv : len (rvec v) ≤ 3) :
    ∃ σ : ℝ, (σ = 1 ∨ σ = -1) ∧ ‖nrm (toH (re (rvToQuat v))) - σ • toH (rotQuat (rvec v))‖ ≤ seriesError (rvec v) + 2430 * u := by
  have u0 := h.pos
  have u1 := h.small
  obtain ⟨σ, hσ, hn⟩ := turn_near (rvec v)
  refine ⟨σ, hσ, ?_⟩
  have a := rv_near h v hv
  have b := rv_norm (rvec v) hv
  have hr := abs_le.1 (rv_rsq h v)
  rw [rsq_re] at hr
  have c := norm_of_sq (re (rvToQuat v)) (a := 9 / 10) (b := 2) (by norm_num) (by norm_num) (by norm_num; linarith [hr.1]) (by norm_num; linarith [hr.2])
  have l := nrm_lip (toH (re (rvToQuat v))) (toH (rvToQuat (rvec v))) (by linarith [c.1]) (by linarith)
  have l2 : 2 * ‖toH (re (rvToQuat v)) - toH (rvToQuat (rvec v))‖ / ‖toH (rvToQuat (rvec v))‖ ≤ 2430 * u := by
    rw [div_le_iff₀ (by linarith)]
    have := mul_le_mul_of_nonneg_left b (by linarith : 0 ≤ 2430 * u)
    linarith
  rw [toH_normalized _ (rv_pos _)] at hn
  have e : nrm (toH (re (rvToQuat v))) - σ • toH (rotQuat (rvec v)) =
      (nrm (toH (re (rvToQuat v))) - nrm (toH (rvToQuat (rvec v)))) + (nrm (toH (rvToQuat (rvec v))) - σ • toH (rotQuat (rvec v))) := by abel
  rw [e]
  refine (norm_add_le _ _).trans ?_
  have hn' : ‖nrm (toH (rvToQuat (rvec v))) - σ • toH (rotQuat (rvec v))‖ ≤ seriesError (rvec v) := hn
  linarith

/-- A product of three computed quaternions, normalised. -/
theorem prod3_close (h : Accurate R u) {a q b : Quat (RR R)} (ha : about a) (hq : about q) (hb : about b) :
    ‖nrm (toH (re ((a.mul q).mul b).normalized)) - nrm (toH (re a)) * nrm (toH (re q)) * nrm (toH (re b))‖ ≤ 500 * u := by
  have u0 := h.pos
  have u1 := h.small
  have ha' := abs_le.1 ha
  have hq' := abs_le.1 hq
  have hb' := abs_le.1 hb
  have m := abs_le.1 (mul_rsq h a q (by linarith) (by linarith))
  have l1 : 959 / 1000 ≤ rsq (a.mul q) := by nlinarith [m.1]
  have l2 : rsq (a.mul q) ≤ 1042 / 1000 := by nlinarith [m.2]
  have n := abs_le.1 (mul_rsq h (a.mul q) b (by linarith) (by linarith))
  have p1 : 91 / 100 ≤ rsq ((a.mul q).mul b) := by nlinarith [n.1]
  have p2 : rsq ((a.mul q).mul b) ≤ 11 / 10 := by nlinarith [n.2]
  obtain ⟨w1, x1, y1, z1⟩ := mul_near h a q (by linarith) (by linarith)
  have k1 := toH_close (re (a.mul q)) ((re a).mul (re q)) w1 x1 y1 z1
  obtain ⟨w2, x2, y2, z2⟩ := mul_near h (a.mul q) b (by linarith) (by linarith)
  have k2 := toH_close (re ((a.mul q).mul b)) ((re (a.mul q)).mul (re b)) w2 x2 y2 z2
  obtain ⟨r, r1, r2, k3⟩ := rnormalized_scale h ((a.mul q).mul b) (by linarith) p2
  have pn := abs_le.1 (prod3_near h ha hq hb)
  rw [toH_mul] at k1 k2
  rw [rsq_re] at ha' hq' hb' p1 p2 pn
  have na := norm_of_sq (re a) (a := 98 / 100) (b := 102 / 100) (by norm_num) (by norm_num) (by norm_num; linarith [ha'.1]) (by norm_num; linarith [ha'.2])
  have nq := norm_of_sq (re q) (a := 98 / 100) (b := 102 / 100) (by norm_num) (by norm_num) (by norm_num; linarith [hq'.1]) (by norm_num; linarith [hq'.2])
  have nb := norm_of_sq (re b) (a := 98 / 100) (b := 102 / 100) (by norm_num) (by norm_num) (by norm_num; linarith [hb'.1]) (by norm_num; linarith [hb'.2])
  have np := norm_of_sq (re ((a.mul q).mul b)) (a := 95 / 100) (b := 2) (by norm_num) (by norm_num) (by norm_num; linarith) (by norm_num; linarith)
  have nn := norm_of_sq (re ((a.mul q).mul b).normalized) (a := 95 / 100) (b := 2) (by norm_num) (by norm_num) (by norm_num; linarith [pn.1])
    (by norm_num; linarith [pn.2])
  generalize toH (re ((a.mul q).mul b).normalized) = Z at *
  generalize toH (re ((a.mul q).mul b)) = Y at *
  generalize toH (re (a.mul q)) = X at *
  generalize toH (re a) = A at *
  generalize toH (re q) = Q at *
  generalize toH (re b) = B at *
  rw [← nrm_mul, ← nrm_mul]
  have rp : 0 < r⁻¹ := inv_pos.2 (by linarith)
  have ri : 9 / 10 ≤ r⁻¹ := by rw [le_inv_comm₀ (by norm_num) (by linarith)]; norm_num; linarith
  have d1 : ‖nrm Z - nrm Y‖ ≤ 12 * u := by
    rw [← nrm_smul Y r⁻¹ rp]
    have hw : 85 / 100 ≤ ‖r⁻¹ • Y‖ := by
      rw [norm_smul, Real.norm_of_nonneg rp.le]
      nlinarith [np.1]
    refine (nrm_lip _ _ (by linarith [nn.1]) (by linarith)).trans ?_
    rw [div_le_iff₀ (by linarith)]
    have := mul_le_mul_of_nonneg_left hw (by linarith : 0 ≤ 12 * u)
    linarith
  have hn : 9 / 10 ≤ ‖A * Q * B‖ := by
    rw [norm_mul, norm_mul]
    have := mul_le_mul na.1 nq.1 (by norm_num) (norm_nonneg A)
    have := mul_le_mul this nb.1 (by norm_num) (by positivity)
    linarith
  have d2 : ‖Y - A * Q * B‖ ≤ 202 * u := by
    have e : Y - A * Q * B = (Y - X * B) + (X - A * Q) * B := by noncomm_ring
    rw [e]
    refine (norm_add_le _ _).trans ?_
    rw [norm_mul]
    have := mul_le_mul k1 nb.2 (norm_nonneg _) (by linarith)
    linarith
  have d3 : ‖nrm Y - nrm (A * Q * B)‖ ≤ 460 * u := by
    refine (nrm_lip _ _ (by linarith [np.1]) (by linarith)).trans ?_
    rw [div_le_iff₀ (by linarith)]
    have := mul_le_mul_of_nonneg_left hn (by linarith : 0 ≤ 460 * u)
    linarith
  have e : nrm Z - nrm (A * Q * B) = (nrm Z - nrm Y) + (nrm Y - nrm (A * Q * B)) := by abel
  rw [e]
  refine (norm_add_le _ _).trans ?_
  linarith

/-- What one sample adds. -/
noncomputable def turnCost (u : ℝ) (t : Turn) : ℝ := seriesError t.frame + seriesError t.body + 5400 * u

theorem rstep_near (h : Accurate R u) (g : RR R) (s : Ins (RR R)) (m : Imu (RR R)) (hq : about s.nav.Qbn) (t : Turn)
    (ht : t = ⟨rvec (vs ((s.forwardImu g m).2.omegaIeN + (s.forwardImu g m).2.omegaEnN) (s.forwardImu g m).2.dt),
      rvec (gyroToRv (s.forwardImu g m).2.gyroPre s.gyroPre)⟩) (hf : len t.frame ≤ 3) (hb : len t.body ≤ 3)
    (E : ℍ[ℝ]) (hE : ‖E‖ = 1) (σ : ℝ) (hσ : σ = 1 ∨ σ = -1) :
    about (s.forwardImu g m).2.nav.Qbn ∧ ∃ τ : ℝ, (τ = 1 ∨ τ = -1) ∧
    ‖nrm (toH (re (s.forwardImu g m).2.nav.Qbn)) - τ • (star (toH (rotQuat t.frame)) * E * toH (rotQuat t.body))‖
      ≤ ‖nrm (toH (re s.nav.Qbn)) - σ • E‖ + turnCost u t := by
  obtain ⟨f, hff⟩ : ∃ f, f = vs ((s.forwardImu g m).2.omegaIeN + (s.forwardImu g m).2.omegaEnN) (s.forwardImu g m).2.dt := ⟨_, rfl⟩
  obtain ⟨b, hbb⟩ : ∃ b, b = gyroToRv (s.forwardImu g m).2.gyroPre s.gyroPre := ⟨_, rfl⟩
  have hQ : (s.forwardImu g m).2.nav.Qbn = (((rvToQuat f).conj.mul s.nav.Qbn).mul (rvToQuat b)).normalized := by rw [hff, hbb]; rfl
  rw [← hff, ← hbb] at ht
  rw [hQ]
  have htf : t.frame = rvec f := by rw [ht]
  have htb : t.body = rvec b := by rw [ht]
  rw [htf] at hf
  rw [htb] at hb
  unfold turnCost
  rw [htf, htb]
  have ac : about (rvToQuat f).conj := by unfold about; rw [conj_rsq]; exact rv_rsq h f
  have ab : about (rvToQuat b) := rv_rsq h b
  refine ⟨tight_about h (prod3_near h ac hq ab), ?_⟩
  have k := prod3_close h ac hq ab
  have ec : nrm (toH (re (rvToQuat f).conj)) = star (nrm (toH (re (rvToQuat f)))) := by
    rw [← nrm_star, ← toH_conj]; rfl
  rw [ec] at k
  obtain ⟨α, hα, nα⟩ := rturn_near h f hf
  obtain ⟨β, hβ, nβ⟩ := rturn_near h b hb
  have un : ∀ q : Quat (RR R), about q → ‖nrm (toH (re q))‖ = 1 := by
    intro q hq
    have hq' := abs_le.1 hq
    rw [rsq_re] at hq'
    exact nrm_norm _ (by linarith [(norm_of_sq (re q) (a := 9 / 10) (b := 2) (by norm_num) (by norm_num) (by norm_num; linarith [hq'.1]) (by norm_num; linarith [hq'.2])).1])
  have h1 : ‖star (nrm (toH (re (rvToQuat f)))) - α • star (toH (rotQuat (rvec f)))‖ ≤ seriesError (rvec f) + 2430 * u := by
    have : star (nrm (toH (re (rvToQuat f)))) - α • star (toH (rotQuat (rvec f))) = star (nrm (toH (re (rvToQuat f))) - α • toH (rotQuat (rvec f))) := by simp
    rw [this, norm_star]; exact nα
  have u1 := un _ ab
  have u2 : ‖α • star (toH (rotQuat (rvec f)))‖ = 1 := by rw [sign_norm α hα, norm_star, toH_norm _ (qsq_rotQuat _)]
  have u3 : ‖σ • E‖ = 1 := by rw [sign_norm σ hσ, hE]
  have u4 := un _ hq
  generalize nrm (toH (re (((rvToQuat f).conj.mul s.nav.Qbn).mul (rvToQuat b)).normalized)) = Z at *
  generalize star (nrm (toH (re (rvToQuat f)))) = A at *
  generalize nrm (toH (re (rvToQuat b))) = B at *
  generalize nrm (toH (re s.nav.Qbn)) = Q at *
  generalize star (toH (rotQuat (rvec f))) = F at *
  generalize toH (rotQuat (rvec b)) = G at *
  refine ⟨α * σ * β, ?_, ?_⟩
  · rcases hα with h | h <;> rcases hσ with h' | h' <;> rcases hβ with h'' | h'' <;> simp [h, h', h'']
  · have e : (α * σ * β) • (F * E * G) = (α • F) * (σ • E) * (β • G) := by
      rw [smul_mul_smul_comm, smul_mul_smul_comm]
    have e2 : Z - (α • F) * (σ • E) * (β • G) = (Z - A * Q * B) + (A * Q * B - (α • F) * (σ • E) * (β • G)) := by abel
    rw [e, e2]
    refine (norm_add_le _ _).trans ?_
    have j1 := near_mul (A * Q) B ((α • F) * (σ • E)) (β • G) u1 (by rw [norm_mul, u2, u3, one_mul])
    have j2 := near_mul A Q (α • F) (σ • E) u4 u2
    have := h.pos
    linarith

theorem rflight_near (h : Accurate R u) (ms : List (Imu (RR R))) : ∀ (g : RR R) (s : Ins (RR R)) (hq : about s.nav.Qbn)
    (ht : ∀ t ∈ computedTurns g s ms, len t.frame ≤ 3 ∧ len t.body ≤ 3) (E : ℍ[ℝ]) (hE : ‖E‖ = 1) (σ : ℝ) (hσ : σ = 1 ∨ σ = -1),
    ∃ τ : ℝ, (τ = 1 ∨ τ = -1) ∧ ‖nrm (toH (re (rflight g s ms).2.nav.Qbn)) - τ • turnedH (computedTurns g s ms) E‖
      ≤ ‖nrm (toH (re s.nav.Qbn)) - σ • E‖ + ((computedTurns g s ms).map (turnCost u)).sum := by
  induction ms with
  | nil => intro g s hq ht E hE σ hσ; exact ⟨σ, hσ, by simp [rflight, computedTurns, turnedH]⟩
  | cons m ms ih =>
    intro g s hq ht E hE σ hσ
    rw [computedTurns] at ht ⊢
    obtain ⟨t, htt⟩ : ∃ t : Turn, t = ⟨rvec (vs ((s.forwardImu g m).2.omegaIeN + (s.forwardImu g m).2.omegaEnN) (s.forwardImu g m).2.dt),
      rvec (gyroToRv (s.forwardImu g m).2.gyroPre s.gyroPre)⟩ := ⟨_, rfl⟩
    rw [← htt] at ht ⊢
    obtain ⟨tf, tb⟩ := ht t (by simp)
    obtain ⟨ha, τ, hτ, hn⟩ := rstep_near h g s m hq t htt tf tb E hE σ hσ
    have hE' : ‖star (toH (rotQuat t.frame)) * E * toH (rotQuat t.body)‖ = 1 := by
      rw [norm_mul, norm_mul, norm_star, toH_norm _ (qsq_rotQuat _), toH_norm _ (qsq_rotQuat _), hE]; norm_num
    obtain ⟨τ', hτ', h2⟩ := ih (s.forwardImu g m).1 (s.forwardImu g m).2 ha (fun t' ht' => ht t' (by simp [ht'])) _ hE' τ hτ
    refine ⟨τ', hτ', ?_⟩
    rw [List.map_cons, List.sum_cons]
    refine h2.trans ?_
    linarith

/-- A quaternion of about unit length: its matrix and that of the normalised one. -/
theorem toRot_nrm (q : Quat ℝ) (h : 0 < qsq q) (i j : Fin 3) : |q.toRot i j - rotH (ofH (nrm (toH q))) i j| ≤ 2 * |qsq q - 1| := by
  obtain ⟨ρ, hρ⟩ : ∃ ρ, ρ = ‖toH q‖ := ⟨_, rfl⟩
  have hρ2 : ρ ^ 2 = qsq q := by rw [hρ, toH_norm_sq]
  have hρ0 : 0 < ρ := by
    have h0 : 0 ≤ ρ := by rw [hρ]; exact norm_nonneg _
    nlinarith
  obtain ⟨n, hn⟩ : ∃ n, n = ofH (nrm (toH q)) := ⟨_, rfl⟩
  have hnu : qsq n = 1 := by
    have := toH_norm_sq n
    rw [hn, toH_ofH, nrm_norm _ (by rw [← hρ]; exact hρ0)] at this
    rw [hn]; linarith
  have hq : q = ⟨ρ * n.w, ρ * n.x, ρ * n.y, ρ * n.z⟩ := by
    rw [hn]
    obtain ⟨w, x, y, z⟩ := q
    unfold nrm
    rw [← hρ]
    have e1 : ∀ a : ℝ, a = ρ * (ρ⁻¹ * a) := fun a => by field_simp
    show (⟨w, x, y, z⟩ : Quat ℝ) = ⟨ρ * (ρ⁻¹ * w), ρ * (ρ⁻¹ * x), ρ * (ρ⁻¹ * y), ρ * (ρ⁻¹ * z)⟩
    rw [← e1, ← e1, ← e1, ← e1]
  rw [← hn, ← toRot_eq n hnu, ← hρ2]
  obtain ⟨w, x, y, z⟩ := n
  have hu : w ^ 2 + x ^ 2 + y ^ 2 + z ^ 2 = 1 := hnu
  rw [hq]
  have key : ∀ D c : ℝ, D = (ρ ^ 2 - 1) * c → |c| ≤ 2 → |D| ≤ 2 * |ρ ^ 2 - 1| := by
    intro D c hD hc
    rw [hD, abs_mul, mul_comm]
    exact mul_le_mul_of_nonneg_right hc (abs_nonneg _)
  fin_cases i <;> fin_cases j <;>
    simp only [Quat.toRot, Matrix.of_apply, Fin.zero_eta, Fin.mk_one, Fin.reduceFinMk, Matrix.cons_val_zero,
        Matrix.cons_val_one, Matrix.cons_val, lit_real, Rat.cast_ofNat]
  · exact key _ (-(2 * y * y + 2 * z * z)) (by ring) (by rw [abs_le]; constructor <;> nlinarith)
  · exact key _ (2 * y * x - 2 * z * w) (by ring) (by rw [abs_le]; constructor <;> nlinarith [sq_nonneg (x - y), sq_nonneg (x + y), sq_nonneg (z - w), sq_nonneg (z + w)])
  · exact key _ (2 * z * x + 2 * y * w) (by ring) (by rw [abs_le]; constructor <;> nlinarith [sq_nonneg (x - z), sq_nonneg (x + z), sq_nonneg (y - w), sq_nonneg (y + w)])
  · exact key _ (2 * y * x + 2 * z * w) (by ring) (by rw [abs_le]; constructor <;> nlinarith [sq_nonneg (x - y), sq_nonneg (x + y), sq_nonneg (z - w), sq_nonneg (z + w)])
  · exact key _ (-(2 * x * x + 2 * z * z)) (by ring) (by rw [abs_le]; constructor <;> nlinarith)
  · exact key _ (2 * z * y - 2 * x * w) (by ring) (by rw [abs_le]; constructor <;> nlinarith [sq_nonneg (y - z), sq_nonneg (y + z), sq_nonneg (x - w), sq_nonneg (x + w)])
  · exact key _ (2 * z * x - 2 * y * w) (by ring) (by rw [abs_le]; constructor <;> nlinarith [sq_nonneg (x - z), sq_nonneg (x + z), sq_nonneg (y - w), sq_nonneg (y + w)])
  · exact key _ (2 * z * y + 2 * x * w) (by ring) (by rw [abs_le]; constructor <;> nlinarith [sq_nonneg (y - z), sq_nonneg (y + z), sq_nonneg (x - w), sq_nonneg (x + w)])
  · exact key _ (-(2 * x * x + 2 * y * y)) (by ring) (by rw [abs_le]; constructor <;> nlinarith)

/-- Entries of the matrices of two unit quaternions. -/
theorem rotH_entry_close (p e : ℍ[ℝ]) (hp : ‖p‖ = 1) (he : ‖e‖ = 1) (τ : ℝ) (hτ : τ = 1 ∨ τ = -1) (i j : Fin 3) :
    |rotH (ofH p) i j - rotH (ofH e) i j| ≤ 2 * ‖p - τ • e‖ := by
  obtain ⟨x, hx⟩ : ∃ x : V3 ℝ, x = fun k => if k = j then 1 else 0 := ⟨_, rfl⟩
  have hl : len x = 1 := by
    have h1 : len x ^ 2 = 1 := by rw [len_sq, hx]; fin_cases j <;> simp
    have := len_nonneg x
    nlinarith
  have hc : ∀ A : M3 ℝ, (A *ᵥ x) i = A i j := by
    intro A
    rw [hx]
    simp [mulVec, dotProduct]
  have a := act_near p e (pureH x) hp he τ hτ
  have ep := pureH_act (ofH p) x
  have ee := pureH_act (ofH e) x
  rw [toH_ofH] at ep ee
  rw [← ep, ← ee, ← pureH_sub, pureH_norm, pureH_norm, hl, mul_one] at a
  refine le_trans ?_ a
  rw [← hc (rotH (ofH p)), ← hc (rotH (ofH e))]
  generalize (rotH (ofH p) *ᵥ x) = y
  generalize (rotH (ofH e) *ᵥ x) = z
  have hsq := len_sq fun k => y k - z k
  refine abs_le_of_sq_le_sq ?_ (len_nonneg _)
  rw [hsq]
  fin_cases i <;> dsimp only [Fin.zero_eta, Fin.mk_one, Fin.reduceFinMk] <;> nlinarith [sq_nonneg (y 0 - z 0), sq_nonneg (y 1 - z 1), sq_nonneg (y 2 - z 2)]

/-- C195: however every operation is rounded, after any number of samples every entry of the attitude matrix is within twice the sum of the
series errors plus a fixed multiple of one rounding error per sample of the exact composition of all the turns the program computed, applied to
the attitude it started from. What is lost to rounding in the attitude grows at most in proportion to the number of samples. -/
theorem C195_rounding_drift (h : Accurate R u) (g : RR R) (s : Ins (RR R)) (hq : |rsq s.nav.Qbn - 1| ≤ 60 * u) (hC : s.nav.Cbn = quatToDcm s.nav.Qbn)
    (ms : List (Imu (RR R))) (ht : ∀ t ∈ computedTurns g s ms, len t.frame ≤ 3 ∧ len t.body ≤ 3) (i j : Fin 3) :
    |((rflight g s ms).2.nav.Cbn i j).v - (computedTurns g s ms).foldl (fun C t => t.applyTo C) (re s.nav.Qbn).normalized.toRot i j|
      ≤ 2 * ((computedTurns g s ms).map fun t => seriesError t.frame + seriesError t.body).sum + (10800 * ms.length + 170) * u := by
  have u0 := h.pos
  have hab := tight_about h hq
  have pos : ∀ q : Quat (RR R), about q → 0 < qsq (re q) := by
    intro q hq
    have := abs_le.1 hq
    rw [rsq_re] at this
    linarith [this.1]
  have npos : ∀ q : Quat ℝ, 0 < qsq q → 0 < ‖toH q‖ := by
    intro q hq
    rw [← toH_norm_sq] at hq
    have := norm_nonneg (toH q)
    nlinarith
  have hE := nrm_norm _ (npos _ (pos _ hab))
  obtain ⟨τ, hτ, hn⟩ := rflight_near h ms g s hab ht _ hE 1 (.inl rfl)
  simp only [one_smul, sub_self, norm_zero, zero_add] at hn
  have hfin : |rsq (rflight g s ms).2.nav.Qbn - 1| ≤ 60 * u ∧ (rflight g s ms).2.nav.Cbn = quatToDcm (rflight g s ms).2.nav.Qbn := by
    have gen : ∀ (ms : List (Imu (RR R))) (g : RR R) (s : Ins (RR R)), |rsq s.nav.Qbn - 1| ≤ 60 * u → s.nav.Cbn = quatToDcm s.nav.Qbn →
        |rsq (rflight g s ms).2.nav.Qbn - 1| ≤ 60 * u ∧ (rflight g s ms).2.nav.Cbn = quatToDcm (rflight g s ms).2.nav.Qbn := by
      intro ms
      induction ms with
      | nil => intro g s a b; exact ⟨a, b⟩
      | cons m ms ih =>
        intro g s a b
        refine ih (s.forwardImu g m).1 (s.forwardImu g m).2 ?_ rfl
        exact prod3_near h (by unfold about; rw [conj_rsq]; exact rv_rsq h _) (tight_about h a) (rv_rsq h _)
    exact gen ms g s hq hC
  have hEn : ‖turnedH (computedTurns g s ms) (nrm (toH (re s.nav.Qbn)))‖ = 1 := by
    have : ∀ (ts : List Turn) (E : ℍ[ℝ]), ‖E‖ = 1 → ‖turnedH ts E‖ = 1 := by
      intro ts
      induction ts with
      | nil => intro E h; exact h
      | cons t ts ih =>
        intro E h
        apply ih
        rw [norm_mul, norm_mul, norm_star, toH_norm _ (qsq_rotQuat _), toH_norm _ (qsq_rotQuat _), h]; norm_num
    exact this _ _ hE
  have hst : (re s.nav.Qbn).normalized.toRot = rotH (ofH (nrm (toH (re s.nav.Qbn)))) := by
    have e : (re s.nav.Qbn).normalized = ofH (nrm (toH (re s.nav.Qbn))) := by
      have := toH_normalized _ (pos _ hab)
      have e2 : nrm (toH (re s.nav.Qbn)) = toH (re s.nav.Qbn).normalized := this.symm
      rw [e2]; rfl
    rw [← e]
    exact toRot_eq _ (qsq_normalized _ (pos _ hab))
  rw [hst, ← turned_matrix]
  have habf := tight_about h hfin.1
  have d1 := dcm_entry h _ hfin.1 i j
  have d2 := toRot_nrm _ (pos _ habf) i j
  have d3 := rotH_entry_close _ _ (nrm_norm _ (npos _ (pos _ habf))) hEn τ hτ i j
  have hlen : ∀ (ms : List (Imu (RR R))) g (s : Ins (RR R)), ((computedTurns g s ms).map (turnCost u)).sum =
      ((computedTurns g s ms).map fun t => seriesError t.frame + seriesError t.body).sum + 5400 * ms.length * u := by
    intro ms
    induction ms with
    | nil => intros; simp [computedTurns]
    | cons m ms ih =>
      intro g s
      simp only [computedTurns, List.map_cons, List.sum_cons, ih, List.length_cons, turnCost]
      push_cast
      ring
  rw [hlen] at hn
  rw [hfin.2]
  have hrs := hfin.1
  rw [rsq_re] at hrs
  have e : ((quatToDcm (rflight g s ms).2.nav.Qbn i j).v - rotH (ofH (turnedH (computedTurns g s ms) (nrm (toH (re s.nav.Qbn))))) i j) =
      (reM (quatToDcm (rflight g s ms).2.nav.Qbn) i j - (re (rflight g s ms).2.nav.Qbn).toRot i j) +
      ((re (rflight g s ms).2.nav.Qbn).toRot i j - rotH (ofH (nrm (toH (re (rflight g s ms).2.nav.Qbn)))) i j) +
      (rotH (ofH (nrm (toH (re (rflight g s ms).2.nav.Qbn)))) i j - rotH (ofH (turnedH (computedTurns g s ms) (nrm (toH (re s.nav.Qbn))))) i j) := by
    unfold reM; ring
  rw [e]
  refine (abs_add_le _ _).trans ?_
  refine (add_le_add_left (abs_add_le _ _) _).trans ?_
  linarith

/-- C195 in numbers: in double precision, with turns of at most a fiftieth of a radian per sample, two hours of samples at two hundred Hertz cost
less than two millionths of a radian. -/
theorem C195_two_hours (h : Accurate R (1 / 2 ^ 53)) (g : RR R) (s : Ins (RR R)) (hq : |rsq s.nav.Qbn - 1| ≤ 60 * (1 / 2 ^ 53)) (hC : s.nav.Cbn = quatToDcm s.nav.Qbn)
    (ms : List (Imu (RR R))) (hms : ms.length ≤ 1440000) (ht : ∀ t ∈ computedTurns g s ms, len t.frame ≤ 1 / 50 ∧ len t.body ≤ 1 / 50) (i j : Fin 3) :
    |((rflight g s ms).2.nav.Cbn i j).v - (computedTurns g s ms).foldl (fun C t => t.applyTo C) (re s.nav.Qbn).normalized.toRot i j| ≤ 2 / 1000000 := by
  refine (C195_rounding_drift h g s hq hC ms (fun t hh => ⟨(ht t hh).1.trans (by norm_num), (ht t hh).2.trans (by norm_num)⟩) i j).trans ?_
  have hlen : ∀ (ms : List (Imu (RR R))) g (s : Ins (RR R)), (computedTurns g s ms).length = ms.length := by
    intro ms
    induction ms with
    | nil => intros; rfl
    | cons m ms ih => intro g s; simp only [computedTurns, List.length_cons, ih]
  have hsum : ((computedTurns g s ms).map fun t => seriesError t.frame + seriesError t.body).sum ≤ ms.length * (1 / 10 ^ 20) := by
    rw [← hlen ms g s]
    generalize computedTurns g s ms = ts at ht
    induction ts with
    | nil => simp
    | cons t ts ih =>
      have h1 := ht t (by simp)
      have h2 := ih fun t' ht' => ht t' (by simp [ht'])
      have b : ∀ v : V3 ℝ, len v ≤ 1 / 50 → seriesError v ≤ 1 / 10 ^ 21 := by
        intro v hv
        have : len v ^ 9 ≤ (1 / 50) ^ 9 := pow_le_pow_left₀ (len_nonneg v) hv 9
        unfold seriesError
        norm_num at this ⊢
        linarith
      have b1 := b _ h1.1
      have b2 := b _ h1.2
      rw [List.map_cons, List.sum_cons, List.length_cons]
      push_cast
      norm_num at b1 b2 h2 ⊢
      linarith
  have hN : (ms.length : ℝ) ≤ 1440000 := by exact_mod_cast hms
  norm_num at hsum ⊢
  linarith

/-- Numbers of the small grid arithmetic, for the example. -/
abbrev GR := RR (grid (1 / 1000000))
theorem gr_ext {a b : GR} (h : a.v = b.v) : a = b := by cases a; cases b; exact congrArg RR.mk h
theorem gr_rnd0 : (grid (1 / 1000000)).rnd 0 = 0 := by simp [grid]
theorem gr_mul0 (a : GR) : a * 0 = 0 := gr_ext (by rw [v_mul, v_zero, mul_zero, gr_rnd0])
theorem gr_0mul (a : GR) : 0 * a = 0 := gr_ext (by rw [v_mul, v_zero, zero_mul, gr_rnd0])
theorem gr_0add : (0 + 0 : GR) = 0 := gr_ext (by rw [v_add, v_zero, add_zero, gr_rnd0])
theorem gr_0sub : (0 - 0 : GR) = 0 := gr_ext (by rw [v_sub, v_zero, sub_zero, gr_rnd0])
theorem gr_0div (a : GR) : 0 / a = 0 := gr_ext (by rw [v_div, v_zero, zero_div, gr_rnd0])
theorem gr_neg0 : (-0 : GR) = 0 := gr_ext (by rw [v_neg, v_zero, neg_zero])

theorem gr_bound (x B : ℝ) (h : |x| ≤ B) : |(grid (1 / 1000000)).rnd x| ≤ B + (B + 1) / 1000000 := by
  have h1 := near0 (grid_accurate (1 / 1000000) (by norm_num) (by norm_num)) h
  have h2 := abs_le.1 h1
  have h3 := abs_le.1 h
  rw [abs_le]
  constructor <;> linarith [h2.1, h2.2, h3.1, h3.2]
theorem gr_mulb (a b : GR) (ha : |a.v| ≤ 1 / 2) (hb : |b.v| ≤ 11 / 10) : |(a * b).v| ≤ 3 / 5 := by
  rw [v_mul]
  refine (gr_bound _ (11 / 20) ?_).trans (by norm_num)
  rw [abs_mul]
  exact (mul_le_mul ha hb (abs_nonneg _) (by norm_num)).trans (by norm_num)
theorem gr_sumb (a b : GR) {x y : ℝ} (ha : |a.v| ≤ x) (hb : |b.v| ≤ y) (hxy : x + y ≤ 2) : |(a + b).v| ≤ x + y + 1 / 100000 := by
  rw [v_add]
  exact (gr_bound _ (x + y) (bound2 ha hb)).trans (by linarith)
theorem gr_cos (a : GR) : |(Fl.cos a).v| ≤ 11 / 10 := by
  have h := abs_le.1 ((grid_accurate (1 / 1000000) (by norm_num) (by norm_num)).cos a.v)
  have h2 := abs_le.1 (Real.abs_cos_le_one a.v)
  rw [v_cos, abs_le]
  constructor <;> linarith [h.1, h.2, h2.1, h2.2]
theorem gr_sin (a : GR) : |(Fl.sin a).v| ≤ 11 / 10 := by
  have h := abs_le.1 ((grid_accurate (1 / 1000000) (by norm_num) (by norm_num)).sin a.v)
  have h2 := abs_le.1 (Real.abs_sin_le_one a.v)
  rw [v_sin, abs_le]
  constructor <;> linarith [h.1, h.2, h2.1, h2.2]

theorem len_of_comp (v : V3 ℝ) (h : ∀ i, |v i| ≤ 1) : len v ≤ 3 := by
  refine (abs_le_of_sq_le_sq' ?_ (by norm_num)).2
  rw [len_sq]
  have k : ∀ i, v i ^ 2 ≤ 1 := fun i => by rw [← sq_abs]; nlinarith [h i, abs_nonneg (v i)]
  have := k 0
  have := k 1
  have := k 2
  linarith

/-- A vehicle at rest that turns by a hundredth of a radian about its first axis: the first sample. -/
theorem gr_turns (g : GR) (s : Ins GR) (m : Imu GR) (hdt : s.dt.v = 1 / 100) (hvn : s.nav.vn = fun _ => 0) (hpa : s.accePre = fun _ => 0)
    (hpg : s.gyroPre = fun _ => 0) (hgb : s.nav.gb = fun _ => 0) (hgs : s.nav.gs = fun _ => 0) (hab : s.nav.ab = fun _ => 0) (has : s.nav.as = fun _ => 0)
    (ha : m.acce = fun _ => 0) (hg : m.gyro = v3 ⟨1 / 100⟩ 0 0) :
    ∀ t ∈ computedTurns g s [m], len t.frame ≤ 3 ∧ len t.body ≤ 3 := by
  have z3 : ∀ i, (zero3 : V3 GR) i = 0 := fun i => by fin_cases i <;> rfl
  have ca : Ins.compensate s.dt m.acce s.nav.ab s.nav.as = fun _ => 0 := by
    rw [ha, hab, has]
    funext i
    simp [Ins.compensate, mvec, sumF, vs, gr_0mul, gr_mul0, gr_0sub, gr_0add, List.ofFn_succ]
  intro t ht
  simp only [computedTurns, List.mem_singleton] at ht
  constructor
  · apply len_of_comp
    intro i
    rw [ht]
    show |(((s.forwardImu g m).2.omegaIeN i + (s.forwardImu g m).2.omegaEnN i) * (s.forwardImu g m).2.dt).v| ≤ 1
    have hd : (s.forwardImu g m).2.dt = s.dt := rfl
    obtain ⟨lat, hie⟩ : ∃ lat, (s.forwardImu g m).2.omegaIeN = Earth.omegaIeN lat := ⟨_, rfl⟩
    obtain ⟨vm, pos, hen, hv⟩ : ∃ vm pos, (s.forwardImu g m).2.omegaEnN = Earth.omegaEnN vm pos ∧ vm 0 = 0 ∧ vm 1 = 0 := by
      refine ⟨_, _, rfl, ?_⟩
      have e1 : s.extrapolate.2.nav = s.nav := rfl
      have e2 : s.extrapolate.2.accePre = s.accePre := rfl
      generalize s.extrapolate.2 = e at e1 e2
      simp only [Ins.forwardImu, Ins.forward, Ins.attiUpdate, Ins.positionUpdate, Ins.velocityUpdate]
      rw [ca]
      simp [e1, e2, hvn, hpa, hpg, mvec, sumF, vs, sv, vd, cross, v3, gr_0mul, gr_mul0, gr_0sub, gr_0add, gr_0div, List.ofFn_succ]
    rw [hd, hie, hen]
    have hz : ∀ i, Earth.omegaEnN vm pos i = 0 := by
      intro i
      fin_cases i <;> simp [Earth.omegaEnN, v3, hv.1, hv.2, gr_0div, gr_neg0, gr_0mul]
    rw [hz]
    have hw : |(Earth.omegaE : GR).v| ≤ 1 / 2 := (gr_bound _ (1 / 1000) (by norm_num)).trans (by norm_num)
    have hi : |(Earth.omegaIeN lat i).v| ≤ 3 / 5 := by
      fin_cases i
      · exact gr_mulb _ _ hw (gr_cos lat)
      · show |(0 : ℝ)| ≤ 3 / 5
        norm_num
      · exact gr_mulb _ _ (by rw [v_neg, abs_neg]; exact hw) (gr_sin lat)
    have h2 := gr_sumb _ 0 hi (y := 0) (by rw [v_zero]; simp) (by norm_num)
    rw [v_mul]
    refine (gr_bound _ (1 / 100) ?_).trans (by norm_num)
    rw [abs_mul, hdt, abs_of_pos (by norm_num : (0:ℝ) < 1 / 100)]
    linarith
  · apply len_of_comp
    intro i
    rw [ht]
    show |(gyroToRv (Ins.compensate s.dt m.gyro s.nav.gb s.nav.gs) s.gyroPre i).v| ≤ 1
    rw [hgb, hgs, hpg, hg]
    obtain ⟨c, hc⟩ : ∃ c, c = Ins.compensate s.dt (v3 (⟨1 / 100⟩ : GR) 0 0) (fun _ => 0) fun _ => 0 := ⟨_, rfl⟩
    rw [← hc]
    have hcr : gyroToRv c (fun _ => 0) i = c i + 0 := by
      have : vd (cross (fun _ => 0) c) (Fl.lit 12) i = (0 : GR) := by
        fin_cases i <;> simp [vd, cross, v3, gr_0mul, gr_0sub, gr_0div]
      show c i + vd (cross (fun _ => 0) c) (Fl.lit 12) i = _
      rw [this]
    rw [hcr]
    obtain ⟨A, hA⟩ : ∃ A : Matrix (Fin 3) (Fin 3) GR, A = eyeM 3 - diagM (fun _ => 0) := ⟨_, rfl⟩
    have hA1 : |(A i 0).v| ≤ 11 / 10 := by
      have : A i 0 = (if i = 0 then 1 else 0) - 0 := by
        rw [hA]
        fin_cases i <;> simp [eyeM, diagM]
      rw [this, v_sub, v_zero, sub_zero]
      refine (gr_bound _ 1 ?_).trans (by norm_num)
      split_ifs
      · rw [v_one, abs_one]
      · rw [v_zero, abs_zero]; norm_num
    have hci : c i = 0 + A i 0 * (⟨1 / 100⟩ - 0) + 0 + 0 := by
      rw [hc, hA]
      simp [Ins.compensate, mvec, sumF, vs, v3, gr_0mul, gr_mul0, gr_0sub, List.ofFn_succ]
    have hw : |((⟨1 / 100⟩ : GR) - 0).v| ≤ 1 / 2 := by
      rw [v_sub, v_zero, sub_zero]
      exact (gr_bound _ (1 / 100) (by norm_num)).trans (by norm_num)
    have hp : |(A i 0 * ((⟨1 / 100⟩ : GR) - 0)).v| ≤ 3 / 5 := by
      rw [v_mul, mul_comm, ← v_mul]
      exact gr_mulb _ _ hw hA1
    have h0 : |(0 : GR).v| ≤ 0 := by rw [v_zero, abs_zero]
    have s1 := gr_sumb _ _ h0 hp (by norm_num)
    have s2 := gr_sumb _ _ s1 h0 (by norm_num)
    have s3 := gr_sumb _ _ s2 h0 (by norm_num)
    rw [← hci] at s3
    have s4 := gr_sumb _ _ s3 h0 (by norm_num)
    exact s4.trans (by norm_num)

/-- The hypotheses of C195 are met by arithmetic that rounds: from any state, put the vehicle at rest at the start attitude. -/
example (g : GR) (s0 : Ins GR) (m0 : Imu GR) : ∃ (s : Ins GR) (m : Imu GR), Accurate (grid (1 / 1000000)) (1 / 1000000) ∧
    |rsq s.nav.Qbn - 1| ≤ 60 * (1 / 1000000) ∧ s.nav.Cbn = quatToDcm s.nav.Qbn ∧ (m.gyro 0).v = 1 / 100 ∧
    ∀ t ∈ computedTurns g s [m], len t.frame ≤ 3 ∧ len t.body ≤ 3 := by
  refine ⟨{ s0 with
      dt := ⟨1 / 100⟩, accePre := fun _ => 0, gyroPre := fun _ => 0,
      nav := { s0.nav with vn := fun _ => 0, gb := fun _ => 0, gs := fun _ => 0, ab := fun _ => 0, as := fun _ => 0,
                           Qbn := ⟨1, 0, 0, 0⟩, Cbn := quatToDcm ⟨1, 0, 0, 0⟩ } },
    { m0 with acce := fun _ => 0, gyro := v3 ⟨1 / 100⟩ 0 0 }, grid_accurate _ (by norm_num) (by norm_num), ?_, rfl, rfl, ?_⟩
  · simp [rsq]
  · exact gr_turns _ _ _ rfl rfl rfl rfl rfl rfl rfl rfl rfl rfl
end Verif.Props
