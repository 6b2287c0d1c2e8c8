import Verif.Props.FlightStep
/-! One sample of the mechanization against one interval of the truth: the error grows by a factor and the square of the interval. -/
namespace Verif.Props
open Verif Verif.Spec Verif.Convert Matrix
open scoped Quaternion

/-- One constant, and how near is near. -/
structure Kit (B : Limits) (K ρ : ℝ) : Prop where
  bounds : Bounds B K
  sane : B.Sane
  pos : 0 < ρ
  one : ρ ≤ 1
  gap : K * ρ ≤ (Real.pi / 2 - B.lat) / 2
  lla : ∀ (l o : ℝ) (q : Quat ℝ), |l| ≤ B.lat → |o| ≤ B.lon → ‖toH q - toH (llaToQne ⟨l, o⟩)‖ ≤ ρ →
    |(qneToLla q).lat - l| ≤ K * ‖toH q - toH (llaToQne ⟨l, o⟩)‖ ∧ |(qneToLla q).lon - o| ≤ K * ‖toH q - toH (llaToQne ⟨l, o⟩)‖

/-- The state is within `e` of the truth at `t`. -/
structure Near (K e dt t : ℝ) (s : Ins ℝ) (lat lon h : ℝ → ℝ) (v : ℝ → V3 ℝ) (C : ℝ → M3 ℝ) : Prop where
  unit : qsq s.nav.Qbn = 1
  dcm : s.nav.Cbn = quatToDcm s.nav.Qbn
  unitP : qsq s.nav.Qne = 1
  pos0 : s.nav.pos 0 = (qneToLla s.nav.Qne).lat
  pos1 : s.nav.pos 1 = (qneToLla s.nav.Qne).lon
  dt_eq : s.dt = dt
  dvn : len s.nav.dvn ≤ 4 * K * dt
  gyro : len s.gyroPre ≤ K * dt
  acce : len s.accePre ≤ K * dt
  place : ‖toH s.nav.Qne - placeH lat lon t‖ ≤ e
  vel : len (s.nav.vn - v t) ≤ e
  height : |s.nav.pos 2 - h t| ≤ e
  att : ∀ x, len (s.nav.Cbn *ᵥ x - C t *ᵥ x) ≤ e * len x

/-- The numbers of one step. -/
structure Small (K ρ e dt : ℝ) : Prop where
  e0 : 0 ≤ e
  dt0 : 0 < dt
  near : 10 * K ^ 2 * (e + dt) ≤ ρ
  step : 50 * K ^ 3 * dt ≤ 1

variable {B : Limits} {K ρ e dt t T : ℝ} {s : Ins ℝ} {lat lon h : ℝ → ℝ} {v : ℝ → V3 ℝ} {C : ℝ → M3 ℝ} {w θ f α : ℝ → V3 ℝ}

theorem near_box (k : Kit B K ρ) (F : TrueFlight B T lat lon h v C w θ f α) (n : Near K e dt t s lat lon h v C) (sm : Small K ρ e dt) (ht : 0 ≤ t) (hT : t ≤ T) :
    |s.nav.pos 0| ≤ (B.lat + Real.pi / 2) / 2 ∧ len s.nav.vn ≤ B.speed + 1 ∧ |s.nav.pos 2| ≤ B.height + 1 ∧ |s.nav.pos 0 - lat t| ≤ K * e := by
  have hK := k.bounds.one
  have hK2 : 1 ≤ K ^ 2 := by nlinarith
  have he : e ≤ ρ := by have := sm.near; have := sm.e0; have := sm.dt0; nlinarith
  have l1 := (k.lla (lat t) (lon t) s.nav.Qne (F.lat_le t ht hT) (F.lon_le t ht hT) (n.place.trans he)).1
  have l2 : |s.nav.pos 0 - lat t| ≤ K * e := by rw [n.pos0]; exact l1.trans (mul_le_mul_of_nonneg_left n.place (by linarith))
  have l3 : K * e ≤ K * ρ := mul_le_mul_of_nonneg_left he (by linarith)
  refine ⟨?_, ?_, ?_, l2⟩
  · have := abs_sub_abs_le_abs_sub (s.nav.pos 0) (lat t); have := F.lat_le t ht hT; have := k.gap; linarith
  · have e1 : s.nav.vn = (s.nav.vn - v t) + v t := by abel
    rw [e1]
    have := len_add_le (s.nav.vn - v t) (v t); have := F.speed_le t ht hT; have := n.vel; have := k.one; linarith
  · have := abs_sub_abs_le_abs_sub (s.nav.pos 2) (h t); have := F.height_le t ht hT; have := n.height; have := k.one; linarith

theorem half_turns (s : Ins ℝ) : s.extrapolate.2.posMid 0 = (qneToLla (placeTurned ((1 / 2 : ℝ) • earthAxisTurn s.dt) s.nav.Qne ((s.dt / 2) • frameRate (s.nav.pos 0) s.nav.vn (s.nav.pos 2)))).lat := by
  have h1 : vd (vs Earth.omegaIeE s.dt) (Fl.lit 2) = (1 / 2 : ℝ) • earthAxisTurn s.dt := by
    funext i
    fin_cases i <;> simp [vd, vs, Earth.omegaIeE, v3, earthAxisTurn, Earth.omegaE, earthW]
    ring_nf
  have h2 : vd (vs (Earth.omegaIeN (s.nav.pos 0) + Earth.omegaEnN s.nav.vn s.nav.pos) s.dt) (Fl.lit 2) = (s.dt / 2) • frameRate (s.nav.pos 0) s.nav.vn (s.nav.pos 2) := by
    rw [ie_eq, en_eq]
    funext i
    simp only [vd, vs, lit_real, frameRate, Pi.add_apply, Pi.smul_apply, smul_eq_mul]
    push_cast; ring
  unfold placeTurned
  rw [← h1, ← h2]
  rfl

/-- The place and velocity the program extrapolates for the middle of the interval. -/
structure Ahead (K η V H Λ t : ℝ) (s : Ins ℝ) (lat h : ℝ → ℝ) (v : ℝ → V3 ℝ) : Prop where
  lat_in : |s.extrapolate.2.posMid 0| ≤ Λ
  vel_in : len s.extrapolate.2.vnMid ≤ V
  height_in : |s.extrapolate.2.posMid 2| ≤ H
  lat_near : |s.extrapolate.2.posMid 0 - lat t| ≤ 2 * K ^ 2 * η
  vel_near : len (s.extrapolate.2.vnMid - v t) ≤ 2 * K * η
  height_near : |s.extrapolate.2.posMid 2 - h t| ≤ K * η

/-- Consequences of smallness. -/
theorem small_facts (k : Kit B K ρ) (sm : Small K ρ e dt) : K ≤ K ^ 2 ∧ K ^ 2 ≤ K ^ 3 ∧ 10 * K ^ 2 * (e + dt) ≤ 1 ∧ 10 * K * (e + dt) ≤ ρ ∧ 10 * K * (e + dt) ≤ 1 ∧ K * dt ≤ 1 / 10 ∧ dt ≤ 1 / 10 := by
  have hK := k.bounds.one
  have h1 := sm.e0; have h2 := sm.dt0; have h3 := sm.near; have h4 := k.one
  have a : K ≤ K ^ 2 := by nlinarith
  have b : K ^ 2 ≤ K ^ 3 := by nlinarith
  have c : 10 * K * (e + dt) ≤ 10 * K ^ 2 * (e + dt) := by
    have := mul_le_mul_of_nonneg_right a (by linarith : 0 ≤ e + dt); linarith
  have d : K * dt ≤ K * (e + dt) := mul_le_mul_of_nonneg_left (by linarith) (by linarith)
  have f : 1 * dt ≤ K * dt := mul_le_mul_of_nonneg_right hK h2.le
  exact ⟨a, b, by linarith, by linarith, by linarith, by linarith, by linarith⟩

/-- The place extrapolated. -/
theorem ahead_place (k : Kit B K ρ) (F : TrueFlight B T lat lon h v C w θ f α) (n : Near K e dt t s lat lon h v C) (sm : Small K ρ e dt) (ht : 0 ≤ t) (hT : t ≤ T) :
    len ((s.dt / 2) • frameRate (s.nav.pos 0) s.nav.vn (s.nav.pos 2)) ≤ K * dt / 2 ∧ len ((1 / 2 : ℝ) • earthAxisTurn s.dt) ≤ dt / 2 ∧
    ‖toH (placeTurned ((1 / 2 : ℝ) • earthAxisTurn s.dt) s.nav.Qne ((s.dt / 2) • frameRate (s.nav.pos 0) s.nav.vn (s.nav.pos 2))) - placeH lat lon t‖ ≤ 2 * K * (e + dt) := by
  obtain ⟨b1, b2, b3, b4⟩ := near_box k F n sm ht hT
  obtain ⟨f1, f2, f3, f4, f5, f6, f7⟩ := small_facts k sm
  have hK := k.bounds.one
  have h1 := sm.e0; have h2 := sm.dt0; have h4 := k.one
  have Ke : 1 * e ≤ K * e := mul_le_mul_of_nonneg_right hK h1
  have hz : len ((s.dt / 2) • frameRate (s.nav.pos 0) s.nav.vn (s.nav.pos 2)) ≤ K * dt / 2 := by
    rw [len_smul, n.dt_eq, abs_of_pos (by linarith)]
    have := mul_le_mul_of_nonneg_left (k.bounds.lip.frame_le _ _ _ b1 b2 b3) (by linarith : 0 ≤ dt / 2)
    linarith
  have he : len ((1 / 2 : ℝ) • earthAxisTurn s.dt) ≤ dt / 2 := by
    rw [len_smul, earthAxisTurn, len_axis, n.dt_eq, abs_of_pos (by norm_num), abs_of_pos (mul_pos earthW_small.1 h2)]
    have := mul_le_mul_of_nonneg_right earthW_small.2 h2.le
    linarith
  have tq := turned_one _ _ _ n.unitP (he.trans (by linarith)) (hz.trans (by linarith))
  have dK : 1 * dt ≤ K * dt := mul_le_mul_of_nonneg_right hK h2.le
  have pl : ‖toH (placeTurned ((1 / 2 : ℝ) • earthAxisTurn s.dt) s.nav.Qne ((s.dt / 2) • frameRate (s.nav.pos 0) s.nav.vn (s.nav.pos 2))) - placeH lat lon t‖ ≤ 2 * K * (e + dt) := by
    refine (norm_sub_le_norm_sub_add_norm_sub _ (toH s.nav.Qne) _).trans ?_
    have := n.place
    linarith
  exact ⟨hz, he, pl⟩

theorem ahead (k : Kit B K ρ) (F : TrueFlight B T lat lon h v C w θ f α) (n : Near K e dt t s lat lon h v C) (sm : Small K ρ e dt) (ht : 0 ≤ t) (hT : t ≤ T) :
    Ahead K (e + dt) (B.speed + 1) (B.height + 1) ((B.lat + Real.pi / 2) / 2) t s lat h v := by
  obtain ⟨b1, b2, b3, b4⟩ := near_box k F n sm ht hT
  obtain ⟨f1, f2, f3, f4, f5, f6, f7⟩ := small_facts k sm
  have hK := k.bounds.one
  have h1 := sm.e0; have h2 := sm.dt0; have h4 := k.one
  have Ke : 1 * e ≤ K * e := mul_le_mul_of_nonneg_right hK h1
  -- latitude
  obtain ⟨hz, he, pl⟩ := ahead_place k F n sm ht hT
  have dK : 1 * dt ≤ K * dt := mul_le_mul_of_nonneg_right hK h2.le
  have ll := (k.lla (lat t) (lon t) _ (F.lat_le t ht hT) (F.lon_le t ht hT) (pl.trans (by linarith))).1
  have ln : |s.extrapolate.2.posMid 0 - lat t| ≤ K * (2 * K * (e + dt)) := by
    rw [half_turns]; exact ll.trans (mul_le_mul_of_nonneg_left pl (by linarith))
  -- velocity
  have vm : s.extrapolate.2.vnMid = s.nav.vn + (1 / 2 : ℝ) • s.nav.dvn := by
    show s.nav.vn + sv (Fl.lit (1 / 2)) s.nav.dvn = _
    rw [sv_real]; norm_num
  have vn : len (s.extrapolate.2.vnMid - v t) ≤ 2 * K * (e + dt) := by
    have e1 : s.extrapolate.2.vnMid - v t = (s.nav.vn - v t) + (1 / 2 : ℝ) • s.nav.dvn := by rw [vm]; abel
    rw [e1]
    refine (len_add_le _ _).trans ?_
    rw [len_smul, abs_of_pos (by norm_num)]
    have := n.vel; have := n.dvn
    linarith
  have hm : s.extrapolate.2.posMid 2 = s.nav.pos 2 - s.nav.vn 2 * dt / 2 := by
    show s.nav.pos 2 - s.nav.vn 2 * s.dt / Fl.lit 2 = _
    rw [n.dt_eq]; norm_num
  have hn : |s.extrapolate.2.posMid 2 - h t| ≤ K * (e + dt) := by
    have e1 : s.extrapolate.2.posMid 2 - h t = (s.nav.pos 2 - h t) - s.nav.vn 2 * (dt / 2) := by rw [hm]; ring
    rw [e1]
    refine (abs_sub _ _).trans ?_
    rw [abs_mul, abs_of_pos (by linarith : 0 < dt / 2)]
    have q1 := (comp_le_len s.nav.vn 2).trans (b2.trans k.bounds.speed)
    have q2 := mul_le_mul_of_nonneg_right q1 (by linarith : 0 ≤ dt / 2)
    have := n.height
    linarith
  refine ⟨?_, ?_, ?_, by rw [show 2 * K ^ 2 * (e + dt) = K * (2 * K * (e + dt)) by ring]; exact ln, vn, hn⟩
  · have := abs_sub_abs_le_abs_sub (s.extrapolate.2.posMid 0) (lat t); have := F.lat_le t ht hT; have := k.gap
    have : K * (2 * K * (e + dt)) ≤ K * ρ := mul_le_mul_of_nonneg_left (by linarith) (by linarith)
    linarith
  · have e1 : s.extrapolate.2.vnMid = (s.extrapolate.2.vnMid - v t) + v t := by abel
    rw [e1]
    have := len_add_le (s.extrapolate.2.vnMid - v t) (v t); have := F.speed_le t ht hT; linarith
  · have := abs_sub_abs_le_abs_sub (s.extrapolate.2.posMid 2) (h t); have := F.height_le t ht hT; linarith

theorem frame_diff (k : Kit B K ρ) (F : TrueFlight B T lat lon h v C w θ f α) (ht : 0 ≤ t) (hT : t ≤ T) (l z : ℝ) (u : V3 ℝ) (a b c : ℝ)
    (h1 : |l| ≤ (B.lat + Real.pi / 2) / 2) (h2 : len u ≤ B.speed + 1) (h3 : |z| ≤ B.height + 1) (d1 : |l - lat t| ≤ a) (d2 : len (u - v t) ≤ b) (d3 : |z - h t| ≤ c) :
    len (frameRate l u z - trueFrame lat h v t) ≤ K * (a + b + c) := by
  obtain ⟨c1, c2, c3⟩ := true_box F k.sane t ht hT
  refine (k.bounds.lip.frame_lip _ _ _ _ _ _ h1 c1 h2 c2 h3 c3).trans ?_
  exact mul_le_mul_of_nonneg_left (by linarith) k.bounds.lip.nonneg

theorem fall_diff (k : Kit B K ρ) (F : TrueFlight B T lat lon h v C w θ f α) (ht : 0 ≤ t) (hT : t ≤ T) (l z : ℝ) (u u' : V3 ℝ) (a b c d : ℝ)
    (h1 : |l| ≤ (B.lat + Real.pi / 2) / 2) (h2 : len u ≤ B.speed + 1) (h3 : |z| ≤ B.height + 1) (h4 : len u' ≤ B.speed + 1)
    (d1 : |l - lat t| ≤ a) (d2 : len (u - v t) ≤ b) (d3 : |z - h t| ≤ c) (d4 : len (u' - v t) ≤ d) :
    len (fallRate l u z u' - trueFall lat h v t) ≤ K * (a + b + c + d) := by
  obtain ⟨c1, c2, c3⟩ := true_box F k.sane t ht hT
  refine (k.bounds.lip.fall_lip _ _ _ _ _ _ _ _ h1 c1 h2 c2 h3 c3 h4 c2).trans ?_
  exact mul_le_mul_of_nonneg_left (by linarith) k.bounds.lip.nonneg
end Verif.Props
