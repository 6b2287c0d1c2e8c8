import Verif.Props.RoundedStep
/-! A state near the truth is far from all singular places. -/
namespace Verif.Props
open Verif Verif.Spec Verif.Convert Matrix
open scoped Quaternion

variable {B : Limits} {K ρ e dt t T : ℝ} {s : Ins ℝ} {lat lon h : ℝ → ℝ} {v : ℝ → V3 ℝ} {C : ℝ → M3 ℝ} {w θ f α : ℝ → V3 ℝ}

theorem Kit.mono (k : Kit B K ρ) (r : ℝ) (h0 : 0 < r) (hr : r ≤ ρ) : Kit B K r :=
  ⟨k.bounds, k.sane, h0, hr.trans k.one, (mul_le_mul_of_nonneg_left hr (by linarith [k.bounds.one])).trans k.gap, fun l o q h1 h2 h3 => k.lla l o q h1 h2 (h3.trans hr)⟩

/-- A quaternion near that of a place has its first number away from zero. -/
theorem front_near (Λ μ : ℝ) (hΛ : Λ < Real.pi / 2) (hμ : μ < Real.pi) : ∃ w0 : ℝ, 0 < w0 ∧ ∀ (l o : ℝ) (q : Quat ℝ), |l| ≤ Λ → |o| ≤ μ → ‖toH q - toH (llaToQne ⟨l, o⟩)‖ ≤ w0 → w0 ≤ q.w := by
  by_cases hn : 0 ≤ Λ ∧ 0 ≤ μ
  swap
  · refine ⟨1, one_pos, ?_⟩
    intro l o q h1 h2
    exact absurd ⟨(abs_nonneg _).trans h1, (abs_nonneg _).trans h2⟩ hn
  obtain ⟨hΛ0, hμ0⟩ := hn
  have hpi := Real.pi_pos
  obtain ⟨w0, hw0⟩ : ∃ w0, w0 = Real.cos (Real.pi / 4 + Λ / 2) * Real.cos (μ / 2) := ⟨_, rfl⟩
  have c1 : 0 < Real.cos (Real.pi / 4 + Λ / 2) := Real.cos_pos_of_mem_Ioo ⟨by linarith, by linarith⟩
  have c2 : 0 < Real.cos (μ / 2) := Real.cos_pos_of_mem_Ioo ⟨by linarith, by linarith⟩
  have pw : 0 < w0 := by rw [hw0]; exact mul_pos c1 c2
  refine ⟨w0 / 2, by linarith, ?_⟩
  intro l o q h1 h2 h3
  have al := abs_le.1 h1
  have ao := abs_le.1 h2
  have hwp : w0 ≤ (llaToQne (⟨l, o⟩ : LatLon ℝ)).w := by
    have e : (llaToQne (⟨l, o⟩ : LatLon ℝ)).w = Real.cos (-(1 / 4) * Real.pi - 1 / 2 * l) * Real.cos (1 / 2 * o) := by
      simp [llaToQne, lit_real, pi_real, cos_real]
    rw [e, hw0]
    have k1 : Real.cos (Real.pi / 4 + Λ / 2) ≤ Real.cos (-(1 / 4) * Real.pi - 1 / 2 * l) := by
      rw [← Real.cos_abs (-(1 / 4) * Real.pi - 1 / 2 * l)]
      refine Real.cos_le_cos_of_nonneg_of_le_pi (abs_nonneg _) (by linarith) ?_
      rw [abs_le]; constructor <;> linarith [al.1, al.2]
    have k2 : Real.cos (μ / 2) ≤ Real.cos (1 / 2 * o) := by
      rw [← Real.cos_abs (1 / 2 * o)]
      refine Real.cos_le_cos_of_nonneg_of_le_pi (abs_nonneg _) (by linarith) ?_
      rw [abs_le]; constructor <;> linarith [ao.1, ao.2]
    exact mul_le_mul k1 k2 c2.le (c1.le.trans k1)
  have hd := re_le (toH q - toH (llaToQne ⟨l, o⟩))
  simp only [Quaternion.re_sub, toH_re] at hd
  have := (abs_le.1 (hd.1.trans h3)).1
  linarith

theorem rv_sq (v : V3 ℝ) : 999 / 1000 ≤ qsq (rvToQuat v) ∧ qsq (rvToQuat v) ≤ 1001 / 1000 := by
  rcases lt_or_ge (len v) Real.pi with h | h
  · have := abs_lt.1 ((C43_rotation_vector v).2.2.1 h).2.2.2.2
    constructor <;> linarith [this.1, this.2]
  · rw [((C43_rotation_vector v).2.2.2 h).1]; norm_num

theorem turned_sq (a : V3 ℝ) (q : Quat ℝ) (b : V3 ℝ) (hq : qsq q = 1) : 1 / 2 ≤ qsq (((rvToQuat a).conj.mul q).mul (rvToQuat b)) ∧ qsq (((rvToQuat a).conj.mul q).mul (rvToQuat b)) ≤ 2 := by
  rw [qsq_mul, qsq_mul, qsq_conj, hq, mul_one]
  obtain ⟨a1, a2⟩ := rv_sq a
  obtain ⟨b1, b2⟩ := rv_sq b
  constructor <;> nlinarith

theorem turned_nsq (a : V3 ℝ) (q : Quat ℝ) (b : V3 ℝ) (hq : qsq q = 1) : 1 / 2 ≤ (((rvToQuat a).conj.mul q).mul (rvToQuat b)).nsq := by
  rw [nsq_eq]; exact (turned_sq a q b hq).1

theorem sumsq_le (v : V3 ℝ) (h : len v ≤ 1) : sumsq v ≤ 1 := by
  have h1 := len_sq v
  have h2 := len_nonneg v
  unfold sumsq
  nlinarith

theorem eps_half (d : ℝ) : vd (vs Earth.omegaIeE d) (Fl.lit 2) = (1 / 2 : ℝ) • earthAxisTurn d := by
  funext i
  fin_cases i <;> simp [vd, vs, Earth.omegaIeE, v3, earthAxisTurn, Earth.omegaE, earthW]
  ring_nf

theorem eps_full (d : ℝ) : vs Earth.omegaIeE d = earthAxisTurn d := by
  funext i
  fin_cases i <;> simp [vs, Earth.omegaIeE, v3, earthAxisTurn, Earth.omegaE, earthW]
  left; norm_num

theorem zeta_half (s : Ins ℝ) : vd (vs (Earth.omegaIeN (s.nav.pos 0) + Earth.omegaEnN s.nav.vn s.nav.pos) s.dt) (Fl.lit 2) = (s.dt / 2) • frameRate (s.nav.pos 0) s.nav.vn (s.nav.pos 2) := by
  rw [ie_eq, en_eq]
  funext i
  simp only [vd, vs, lit_real, frameRate, Pi.add_apply, Pi.smul_apply, smul_eq_mul]
  push_cast; ring

theorem cos_ge (Λ x : ℝ) (h : |x| ≤ (Λ + Real.pi / 2) / 2) (hΛ : Λ < Real.pi / 2) (h0 : 0 ≤ Λ) : Real.cos ((Λ + Real.pi / 2) / 2) ≤ |Real.cos x| := by
  rw [← Real.cos_abs x]
  exact (Real.cos_le_cos_of_nonneg_of_le_pi (abs_nonneg _) (by linarith [Real.pi_pos]) h).trans (le_abs_self _)

/-- How far. -/
structure Clear (B : Limits) (m ρ : ℝ) : Prop where
  pos : 0 < m
  half : m ≤ 1 / 2
  cos : m ≤ Real.cos ((B.lat + Real.pi / 2) / 2)
  front : ∀ (l o : ℝ) (q : Quat ℝ), |l| ≤ B.lat → |o| ≤ B.lon → ‖toH q - toH (llaToQne ⟨l, o⟩)‖ ≤ ρ → m ≤ q.w

theorem clear_exists (hs : B.Sane) (hl : 0 ≤ B.lat) : ∃ m ρ, 0 < ρ ∧ Clear B m ρ := by
  obtain ⟨w0, p0, hw⟩ := front_near B.lat B.lon hs.lat hs.lon
  have hc : 0 < Real.cos ((B.lat + Real.pi / 2) / 2) := Real.cos_pos_of_mem_Ioo ⟨by linarith [Real.pi_pos], by linarith [hs.lat]⟩
  refine ⟨min (1 / 2) (min (Real.cos ((B.lat + Real.pi / 2) / 2)) w0), w0, p0, lt_min (by norm_num) (lt_min hc p0), min_le_left _ _, (min_le_right _ _).trans (min_le_left _ _), ?_⟩
  intro l o q h1 h2 h3
  exact ((min_le_right _ _).trans (min_le_right _ _)).trans (hw l o q h1 h2 h3)

theorem Clear.mono {m : ℝ} (c : Clear B m ρ) (r : ℝ) (hr : r ≤ ρ) : Clear B m r := ⟨c.pos, c.half, c.cos, fun l o q h1 h2 h3 => c.front l o q h1 h2 (h3.trans hr)⟩

theorem good_near {m : ℝ} (c : Clear B m ρ) (k : Kit B K ρ) (F : TrueFlight B T lat lon h v C w θ f α) (n : Near K e dt t s lat lon h v C) (sm : Small K ρ e dt) (ht : 0 ≤ t) (hT : t + dt ≤ T)
    (M : Imu ℝ) (hg : len (increment s.nav s.dt M.gyro - (θ (t + dt) - θ t)) ≤ dt * e) (ha : len (forceIncrement s.nav s.dt M.acce - (α (t + dt) - α t)) ≤ dt * e) : Good m s M := by
  obtain ⟨f1, f2, f3, f4, f5, f6, f7⟩ := small_facts k sm
  have hd := sm.dt0
  have he := sm.e0
  have hK := k.bounds.one
  have hT' : t ≤ T := by linarith
  have hB : 0 ≤ B.lat := (abs_nonneg _).trans (F.lat_le t ht hT')
  have hH := k.sane.height
  have hKe : 0 ≤ K * (e + dt) := mul_nonneg (by linarith) (by linarith)
  obtain ⟨b1, b2, b3, b4⟩ := near_box k F n sm ht hT'
  obtain ⟨z1, z2, z3⟩ := ahead_place k F n sm ht hT'
  have A := ahead k F n sm ht hT'
  have cg : ∀ x, |x| ≤ (B.lat + Real.pi / 2) / 2 → m ≤ |Real.cos x| := fun x hx => c.cos.trans (cos_ge _ _ hx k.sane.lat hB)
  have hg' : ∀ z, |z| ≤ B.height + 1 → -1000001 ≤ z := fun z hz => by have := (abs_le.1 hz).1; linarith
  have el : len (earthAxisTurn s.dt) ≤ dt := by
    rw [earthAxisTurn, len_axis, n.dt_eq, abs_of_pos (mul_pos earthW_small.1 hd)]
    have := mul_le_mul_of_nonneg_right earthW_small.2 hd.le
    linarith
  obtain ⟨mv, mu⟩ := mean_vel k F n sm ht hT 0 M hg ha _ rfl
  obtain ⟨pu, pp⟩ := step_place k F n sm ht hT 0 M hg ha
  obtain ⟨_, fl, l1, l2⟩ := frame_turn k F n sm ht hT 0 M hg ha
  obtain ⟨lw, _⟩ := read_le k F sm ht hT _ _ hg ha
  have hvm := vel_mid s.extrapolate.1 s.extrapolate.2 (Ins.compensate s.dt M.acce s.nav.ab s.nav.as) (Ins.compensate s.dt M.gyro s.nav.gb s.nav.gs)
  have hz : vs ((afterVel s M).omegaIeN + (afterVel s M).omegaEnN) (afterVel s M).dt = placeTurn s (s.forwardImu 0 M).2.nav :=
    place_eq s (afterVel s M) rfl hvm rfl rfl rfl _ rfl
  have hz2 : placeTurn s (s.forwardImu 0 M).2.nav = dt • frameRate (s.extrapolate.2.posMid 0) (fun j => (s.nav.vn j + (s.forwardImu 0 M).2.nav.vn j) / 2) (s.extrapolate.2.posMid 2) := by
    funext i
    unfold placeTurn frameRate
    rw [n.dt_eq]
    simp only [Pi.add_apply, Pi.smul_apply, smul_eq_mul]; ring
  have lz : len (placeTurn s (s.forwardImu 0 M).2.nav) ≤ K * dt := by
    rw [hz2, len_smul, abs_of_pos hd, mul_comm]
    exact mul_le_mul_of_nonneg_right (k.bounds.lip.frame_le _ _ _ A.lat_in mu A.height_in) hd.le
  have hz3 : vs ((afterVel s M).positionUpdate.omegaIeN + (afterVel s M).positionUpdate.omegaEnN) (afterVel s M).positionUpdate.dt = navFrameTurn s.dt s.nav (s.forwardImu 0 M).2.nav :=
    zeta_eq s.nav (afterVel s M) rfl hvm
  have p0 : (afterVel s M).positionUpdate.posMid 0 = (s.forwardImu 0 M).2.nav.pos 0 + ((s.forwardImu 0 M).2.nav.pos 0 - s.nav.pos 0) / 2 := by
    show (s.forwardImu 0 M).2.nav.pos 0 + Fl.lit (1 / 2) * ((s.forwardImu 0 M).2.nav.pos 0 - s.nav.pos 0) = _
    rw [lit_real]; push_cast; ring
  have p2 : (afterVel s M).positionUpdate.posMid 2 = (s.nav.pos 2 + (s.forwardImu 0 M).2.nav.pos 2) / 2 := by
    show Fl.lit (1 / 2) * ((s.forwardImu 0 M).2.nav.pos 2 + s.nav.pos 2) = _
    rw [lit_real]; push_cast; ring
  have body : gyroToRv (Ins.compensate s.dt M.gyro s.nav.gb s.nav.gs) s.gyroPre = increment s.nav s.dt M.gyro + (1 / 12 : ℝ) • xp s.gyroPre (increment s.nav s.dt M.gyro) := by
    rw [turn_compensated]
    funext i; simp only [gyroToRv, Pi.add_apply, vd, lit_real, cross_eq, Pi.smul_apply, smul_eq_mul]; norm_num; ring
  have lb : len (gyroToRv (Ins.compensate s.dt M.gyro s.nav.gb s.nav.gs) s.gyroPre) ≤ 1 := by
    rw [body]
    refine (len_add_le _ _).trans ?_
    rw [len_smul, abs_of_pos (by norm_num)]
    have q := (len_xp_le s.gyroPre (increment s.nav s.dt M.gyro)).trans (mul_le_mul (n.gyro.trans f6) (lw.trans f6) (len_nonneg _) (by norm_num))
    linarith
  refine ⟨⟨cg _ b1, hg' _ b3, ?_, ?_, ?_, ?_, cg _ A.lat_in, hg' _ A.height_in⟩, ⟨?_, ?_, ?_, ?_, ?_, ?_⟩, ⟨sumsq_le _ lb, ?_, ?_⟩⟩
  · rw [zeta_half]; exact sumsq_le _ (z1.trans (by linarith))
  · rw [eps_half]; exact sumsq_le _ (z2.trans (by linarith))
  · exact c.half.trans (turned_nsq _ _ _ n.unitP)
  · rw [zeta_half, eps_half]
    exact c.front (lat t) (lon t) _ (F.lat_le t ht hT') (F.lon_le t ht hT') (z3.trans (by linarith))
  · show sumsq (vs Earth.omegaIeE s.dt) ≤ 1
    rw [eps_full]; exact sumsq_le _ (el.trans (by linarith))
  · rw [hz]; exact sumsq_le _ (lz.trans (by linarith))
  · exact c.half.trans (turned_nsq _ _ _ n.unitP)
  · have e1 : e + 17 * K ^ 3 * dt * (e + dt) ≤ 2 * (e + dt) := by
      have := mul_le_mul_of_nonneg_right sm.step (by linarith : 0 ≤ e + dt)
      linarith
    have e2 : 1 * (e + dt) ≤ K * (e + dt) := mul_le_mul_of_nonneg_right hK (by linarith)
    exact c.front (lat (t + dt)) (lon (t + dt)) _ (F.lat_le _ (by linarith) hT) (F.lon_le _ (by linarith) hT) (pp.trans (by linarith))
  · rw [p0]; exact cg _ l1
  · rw [p2]; exact hg' _ l2
  · rw [hz3]; exact sumsq_le _ (fl.trans (by linarith))
  · exact c.half.trans (turned_nsq _ _ _ n.unit)
end Verif.Props
