import Verif.Props.Rounding
import Verif.Props.RoundedRepair
/-! C203: the mechanization computed with rounding follows the true flight. -/
namespace Verif.Props
open Verif Verif.Spec Verif.Convert Matrix
open scoped Quaternion

variable {B : Limits} {K ρ e dt t T : ℝ} {lat lon h : ℝ → ℝ} {v : ℝ → V3 ℝ} {C : ℝ → M3 ℝ} {w θ f α : ℝ → V3 ℝ}

theorem rounded_flight {m : ℝ} (c : Clear B m ρ) (k : Kit B K ρ) (b : ℝ) (hb : 0 ≤ b) : ∃ c0 c1 r : ℝ, b ≤ c0 ∧ 0 ≤ c1 ∧ 0 < r ∧
    ∀ (T : ℝ) (lat lon h : ℝ → ℝ) (v : ℝ → V3 ℝ) (C : ℝ → M3 ℝ) (w θ f α : ℝ → V3 ℝ), TrueFlight B T lat lon h v C w θ f α →
    ∀ (R : Rounding) (u : ℝ), AccurateLib R u → ∀ (A dt η δ : ℝ), A = 50 * K ^ 3 → 0 < dt → A * dt ≤ 1 → dt ≤ η → A * dt * η = A * dt * dt + c1 * u → u ≤ r → c1 * u ≤ dt →
    ∀ (N : NavEpoch ℝ), (∀ j, |N.gb j| ≤ b ∧ |N.ab j| ≤ b ∧ |N.gs j| ≤ b ∧ |N.as j| ≤ b) → ∀ (ms : List (Imu (RR R))), (∀ m ∈ ms, ∀ j, |(m.gyro j).v| ≤ b ∧ |(m.acce j).v| ≤ b) →
    ∀ (G : RR R) (S : Ins ℝ) (s : Ins (RR R)) (t e : ℝ), S.nav.gb = N.gb → S.nav.ab = N.ab → S.nav.gs = N.gs → S.nav.as = N.as → Near K e dt t S lat lon h v C → Within (c0 * u) S s →
    0 ≤ e → δ ≤ e → 0 ≤ t → t + ms.length * dt ≤ T → 10 * K ^ 2 * ((e + η) * (1 + A * dt) ^ ms.length) ≤ ρ → NearImu δ N dt θ α t (ms.map valsImu) →
    ∃ S' : Ins ℝ, Near K ((e + η) * (1 + A * dt) ^ ms.length - η) dt (t + ms.length * dt) S' lat lon h v C ∧ Within (c0 * u) S' (run G s ms).2 := by
  obtain ⟨c0, c1, r, h0, h1, h2, H⟩ := rounded_near c k b hb
  refine ⟨c0, c1, r, h0, h1, h2, ?_⟩
  intro T lat lon h v C w θ f α F R u acc A dt η δ hA hd hstep hη hη2 hu hcu N hN ms
  have hK := k.bounds.one
  have hA0 : 0 ≤ A := by rw [hA]; positivity
  have hg1 : 1 ≤ 1 + A * dt := by have := mul_nonneg hA0 hd.le; linarith
  have u0 := acc.pos
  induction ms with
  | nil =>
    intro _ G S s t e _ _ _ _ n wi _ _ _ _ _ _
    refine ⟨S, ?_, wi⟩
    simpa using n
  | cons mm ms ih =>
    intro hbm G S s t e g1 g2 g3 g4 n wi he hδ ht hT hρ hp
    obtain ⟨⟨i1, i2⟩, hp'⟩ := hp
    have hed : 0 ≤ e + η := by linarith
    have hpow : 1 ≤ (1 + A * dt) ^ (mm :: ms).length := one_le_pow₀ hg1
    have sm : Small K ρ e dt := ⟨he, hd, by
      refine le_trans ?_ hρ
      refine mul_le_mul_of_nonneg_left ?_ (by positivity)
      have := mul_le_mul_of_nonneg_left hpow hed
      linarith, by rw [← hA]; exact hstep⟩
    have hlen : t + dt + ms.length * dt ≤ T := by
      rw [List.length_cons] at hT; push_cast at hT; linarith
    have hms : 0 ≤ (ms.length : ℝ) * dt := mul_nonneg (Nat.cast_nonneg _) hd.le
    have e1 : increment N dt (valsImu mm).gyro = increment S.nav S.dt (valsImu mm).gyro := by rw [n.dt_eq]; unfold increment; rw [g1, g3]
    have e2 : forceIncrement N dt (valsImu mm).acce = forceIncrement S.nav S.dt (valsImu mm).acce := by rw [n.dt_eq]; unfold forceIncrement; rw [g2, g4]
    rw [e1] at i1
    rw [e2] at i2
    have hδ' : δ * dt ≤ dt * e := by rw [mul_comm]; exact mul_le_mul_of_nonneg_left hδ hd.le
    obtain ⟨S1, n1, w1, k1, k2, k3, k4⟩ := H T lat lon h v C w θ f α F R u acc G S s mm e dt t n wi (fun j => by rw [g1, g2, g3, g4]; exact hN j) (hbm mm (by simp)) sm ht (by linarith)
      (i1.trans hδ') (i2.trans hδ') hu hcu
    rw [← hA] at n1
    have ee : e + A * dt * (e + dt) + c1 * u + η = (e + η) * (1 + A * dt) := by
      have : A * dt * (e + dt) = A * dt * e + A * dt * dt := by ring
      rw [this]
      have : (e + η) * (1 + A * dt) = e + η + A * dt * e + A * dt * η := by ring
      rw [this, hη2]; ring
    have hx : 0 ≤ A * dt * (e + dt) + c1 * u := add_nonneg (mul_nonneg (mul_nonneg hA0 hd.le) (by linarith)) (mul_nonneg h1 u0)
    obtain ⟨S2, n2, w2⟩ := ih (fun m hm => hbm m (by simp [hm])) (s.forwardImu G mm).1 S1 (s.forwardImu G mm).2 (t + dt) (e + A * dt * (e + dt) + c1 * u) (k1.trans g1) (k2.trans g2) (k3.trans g3) (k4.trans g4) n1 w1
      (by linarith) (by linarith) (by linarith) hlen (by rw [ee, mul_assoc (e + η), ← pow_succ']; exact hρ) hp'
    rw [ee, mul_assoc (e + η), ← pow_succ'] at n2
    have tt : t + dt + (ms.length : ℝ) * dt = t + ((mm :: ms).length : ℝ) * dt := by rw [List.length_cons]; push_cast; ring
    rw [tt] at n2
    exact ⟨S2, n2, w2⟩

/-- A start as specified is near the truth. -/
theorem start_near (hK : 1 ≤ K) (hs : B.Sane) (F : TrueFlight B T lat lon h v C w θ f α) (hT0 : 0 ≤ T) {s : Ins ℝ} {δ : ℝ} (st : StartsNear e s lat lon h v C) (hd0 : 0 < s.dt) (hδ0 : 0 ≤ δ)
    (r3 : e ≤ (Real.pi / 2 - B.lat) / 2) (r4 : e ≤ (Real.pi - B.lon) / 2) : Near K (e + δ) s.dt 0 s lat lon h v C := by
  have a1 := abs_le.1 (F.lat_le 0 (le_refl 0) hT0)
  have a2 := abs_le.1 (F.lon_le 0 (le_refl 0) hT0)
  have a3 := abs_le.1 st.latitude
  have a4 := abs_le.1 st.longitude
  have rt := C41_lat_lon_round_trip ⟨s.nav.pos 0, s.nav.pos 1⟩
    (by have := hs.lat; exact ⟨by dsimp only; linarith [a1.1, a1.2, a3.1, a3.2], by dsimp only; linarith [a1.1, a1.2, a3.1, a3.2]⟩)
    (by have := hs.lon; exact ⟨by dsimp only; linarith [a2.1, a2.2, a4.1, a4.2], by dsimp only; linarith [a2.1, a2.2, a4.1, a4.2]⟩)
  obtain ⟨z1, z2, z3⟩ := st.fresh
  have hK0 : 0 ≤ K * s.dt := mul_nonneg (by linarith) hd0.le
  refine ⟨st.unit, st.dcm, by rw [st.place]; exact (C41_position_quaternion _).1, by rw [st.place, rt], by rw [st.place, rt], rfl,
    by rw [z1, len_zero']; linarith, by rw [z2, len_zero']; exact hK0, by rw [z3, len_zero']; exact hK0, ?_, ?_, ?_, ?_⟩
  · rw [st.place]; exact (lla_lip _ _ _ _ e st.latitude st.longitude).trans (by linarith)
  · linarith [st.vel]
  · linarith [st.height]
  · intro x; exact (st.att x).trans (mul_le_mul_of_nonneg_right (by linarith) (len_nonneg x))

/-- C203: on every flight within given limits away from the poles and the 180 degree meridian, over any time `T`, in every arithmetic whose operations and library functions are
accurate to a unit `u`: position, velocity and attitude as computed, rounding included, follow the truth up to a constant times the sum of the error at the start, the error of the
sensors, the sampling interval and the unit divided by the sampling interval, when that sum is small enough. The constant and what is small enough depend on the limits,
`T` and the range `b` of readings, biases and scale factors only. -/
theorem C203_rounded_flight_follows (B : Limits) (hs : B.Sane) (T b : ℝ) : ∃ K r : ℝ, 0 < r ∧
    ∀ (lat lon h : ℝ → ℝ) (v : ℝ → V3 ℝ) (C : ℝ → M3 ℝ) (w θ f α : ℝ → V3 ℝ), TrueFlight B T lat lon h v C w θ f α →
    ∀ (R : Rounding) (u : ℝ), AccurateLib R u →
    ∀ (g : RR R) (S : Ins ℝ) (s : Ins (RR R)) (e δ : ℝ), StartsRounded e b u S s lat lon h v C → 0 < S.dt → 0 ≤ δ → e + δ + S.dt + u / S.dt ≤ r →
    ∀ ms : List (Imu (RR R)), ms.length * S.dt ≤ T → NearImu δ S.nav S.dt θ α 0 (ms.map valsImu) → (∀ m ∈ ms, ∀ j, |(m.gyro j).v| ≤ b ∧ |(m.acce j).v| ≤ b) →
    ∀ (n : NavEpoch (RR R)) (t x : ℝ), n = (run g s ms).2.nav → t = ms.length * S.dt → x = e + δ + S.dt + u / S.dt →
      |(n.pos 0).v - lat t| ≤ K * x ∧ |(n.pos 1).v - lon t| ≤ K * x ∧ |(n.pos 2).v - h t| ≤ K * x ∧ len (fun j => (n.vn j).v - v t j) ≤ K * x ∧
      ∀ y, len ((fun i j => (n.Cbn i j).v : M3 ℝ) *ᵥ y - C t *ᵥ y) ≤ K * x * len y := by
  by_cases hV : 0 ≤ B.speed ∧ 0 ≤ B.lat
  swap
  · refine ⟨0, 1, one_pos, ?_⟩
    intro lat lon h v C w θ f α F R u acc g S s e δ st hd0 _ hd ms hT
    have := mul_nonneg (Nat.cast_nonneg ms.length : (0 : ℝ) ≤ ms.length) hd0.le
    exact absurd ⟨(limits_pos F 0 (le_refl 0) (by linarith)).2.2.2.1, (abs_nonneg _).trans (F.lat_le 0 (le_refl 0) (by linarith))⟩ hV
  obtain ⟨hV, hL⟩ := hV
  obtain ⟨K, ρ1, k1⟩ := kit_exists B hs hV
  obtain ⟨m, ρ2, hρ2, c2⟩ := clear_exists hs hL
  obtain ⟨ρ, hρ⟩ : ∃ ρ, ρ = min ρ1 ρ2 := ⟨_, rfl⟩
  have k : Kit B K ρ := k1.mono ρ (by rw [hρ]; exact lt_min k1.pos hρ2) (by rw [hρ]; exact min_le_left _ _)
  have c : Clear B m ρ := c2.mono ρ (by rw [hρ]; exact min_le_right _ _)
  clear hρ k1 c2
  obtain ⟨c0, c1, r, hc0, hc1, hr, H⟩ := rounded_flight c k |b| (abs_nonneg b)
  have hK := k.bounds.one
  have hc00 : 0 ≤ c0 := (abs_nonneg b).trans hc0
  obtain ⟨A, hA⟩ : ∃ A, A = 50 * K ^ 3 := ⟨_, rfl⟩
  have hA0 : 0 < A := by rw [hA]; positivity
  obtain ⟨D, hD⟩ : ∃ D, D = 1 + c1 / A := ⟨_, rfl⟩
  have hD1 : 1 ≤ D := by rw [hD]; have := div_nonneg hc1 hA0.le; linarith
  obtain ⟨G, hG⟩ : ∃ G, G = Real.exp (A * T) := ⟨_, rfl⟩
  have hG0 : 0 < G := by rw [hG]; exact Real.exp_pos _
  have g1 : 0 < (Real.pi / 2 - B.lat) / 2 := by have := hs.lat; linarith
  have g2 : 0 < (Real.pi - B.lon) / 2 := by have := hs.lon; linarith
  refine ⟨K * D * G + 6 * c0, min (min (min (1 / A) 1) (ρ / (10 * K ^ 2 * D * G))) (min (min ((Real.pi / 2 - B.lat) / 2) ((Real.pi - B.lon) / 2)) (min r (1 / (c1 + 1)))),
    lt_min (lt_min (lt_min (by positivity) one_pos) (div_pos k.pos (by positivity))) (lt_min (lt_min g1 g2) (lt_min hr (by positivity))), ?_⟩
  intro lat lon h v C w θ f α F R u acc g S s e δ st hd0 hδ0 hrr ms hT hp hbm n t x hn ht hx
  rw [← hx] at hrr
  have he0 : 0 ≤ e := (abs_nonneg _).trans st.near.latitude
  have u0 := acc.pos
  have hud : 0 ≤ u / S.dt := div_nonneg u0 hd0.le
  have r1 := hrr.trans ((min_le_left _ _).trans ((min_le_left _ _).trans (min_le_left _ _)))
  have r2 := hrr.trans ((min_le_left _ _).trans ((min_le_left _ _).trans (min_le_right _ _)))
  have r3 := hrr.trans ((min_le_left _ _).trans (min_le_right _ _))
  have r4 := hrr.trans ((min_le_right _ _).trans ((min_le_left _ _).trans (min_le_left _ _)))
  have r5 := hrr.trans ((min_le_right _ _).trans ((min_le_left _ _).trans (min_le_right _ _)))
  have r6 := hrr.trans ((min_le_right _ _).trans ((min_le_right _ _).trans (min_le_left _ _)))
  have r7 := hrr.trans ((min_le_right _ _).trans ((min_le_right _ _).trans (min_le_right _ _)))
  clear hrr
  have hms : 0 ≤ (ms.length : ℝ) * S.dt := mul_nonneg (Nat.cast_nonneg _) hd0.le
  have hT0 : (0 : ℝ) ≤ T := by linarith
  have hAd : A * S.dt ≤ 1 := by
    have : S.dt ≤ 1 / A := by linarith
    rw [le_div_iff₀ hA0] at this; linarith
  have uu : u / S.dt * S.dt = u := div_mul_cancel₀ u hd0.ne'
  have hu1 : u ≤ u / S.dt := by
    have := mul_le_mul_of_nonneg_left (by linarith : S.dt ≤ 1) hud
    linarith
  have hcu : c1 * u ≤ S.dt := by
    have h1 : u / S.dt ≤ 1 / (c1 + 1) := by linarith
    rw [le_div_iff₀ (by linarith)] at h1
    have h2 : c1 * (u / S.dt) ≤ 1 := by have : u / S.dt * (c1 + 1) = c1 * (u / S.dt) + u / S.dt := by ring
                                        linarith
    have h3 := mul_le_mul_of_nonneg_right h2 hd0.le
    rw [mul_assoc, uu] at h3
    linarith
  obtain ⟨η, hη⟩ : ∃ η, η = S.dt + c1 / A * (u / S.dt) := ⟨_, rfl⟩
  have hcA : 0 ≤ c1 / A := div_nonneg hc1 hA0.le
  have hη1 : S.dt ≤ η := by rw [hη]; have := mul_nonneg hcA hud; linarith
  have hη2 : A * S.dt * η = A * S.dt * S.dt + c1 * u := by
    have e1 : A * (c1 / A) = c1 := mul_div_cancel₀ c1 hA0.ne'
    have e2 : A * S.dt * η = A * S.dt * S.dt + A * (c1 / A) * (u / S.dt * S.dt) := by rw [hη]; ring
    rw [e2, e1, uu]
  have hx0 : 0 ≤ x := by rw [hx]; linarith
  have hsum : e + δ + η ≤ D * x := by
    have e1 : D * x = x + c1 / A * x := by rw [hD]; ring
    rw [e1, hη]
    have := mul_le_mul_of_nonneg_left (by rw [hx]; linarith : u / S.dt ≤ x) hcA
    linarith
  have hη0 : 0 ≤ e + δ + η := by linarith
  have hpow : (1 + A * S.dt) ^ ms.length ≤ G := by
    have h1 : 1 + A * S.dt ≤ Real.exp (A * S.dt) := by have := Real.add_one_le_exp (A * S.dt); linarith
    have h2 := pow_le_pow_left₀ (by have := mul_pos hA0 hd0; linarith) h1 ms.length
    rw [← Real.exp_nat_mul] at h2
    refine h2.trans ?_
    rw [hG]
    refine Real.exp_le_exp.2 ?_
    have := mul_le_mul_of_nonneg_left hT hA0.le
    linarith
  have hprod : (e + δ + η) * (1 + A * S.dt) ^ ms.length ≤ D * x * G :=
    mul_le_mul hsum hpow (pow_nonneg (by have := mul_pos hA0 hd0; linarith) _) (by positivity)
  have hρx : 10 * K ^ 2 * (D * x * G) ≤ ρ := by
    rw [le_div_iff₀ (by positivity)] at r3
    linarith
  have start := start_near hK hs F hT0 st.near hd0 hδ0 (by linarith) (by linarith)
  have le_b := le_abs_self b
  obtain ⟨S', N, W⟩ := H T lat lon h v C w θ f α F R u acc A S.dt η δ hA hd0 hAd hη1 hη2 (by linarith) hcu S.nav
    (fun j => by have := st.biases j; exact ⟨this.1.trans le_b, this.2.1.trans le_b, this.2.2.1.trans le_b, this.2.2.2.trans le_b⟩) ms
    (fun m hm j => by have := hbm m hm j; exact ⟨this.1.trans le_b, this.2.trans le_b⟩) g S s 0 (e + δ) rfl rfl rfl rfl start
    (fun a => (st.written a).trans (mul_le_mul_of_nonneg_right (le_b.trans hc0) u0)) (by linarith) (by linarith) (le_refl 0) (by rw [zero_add]; exact hT)
    ((mul_le_mul_of_nonneg_left hprod (by positivity)).trans hρx) hp
  rw [zero_add, ← ht] at N
  have hE : (e + δ + η) * (1 + A * S.dt) ^ ms.length - η ≤ D * x * G := by linarith
  have hEK : D * x * G ≤ K * D * G * x := by
    have := mul_le_mul_of_nonneg_right hK (by positivity : 0 ≤ D * x * G)
    linarith
  have hDx : 0 ≤ D * x * G := by positivity
  have hEρ : D * x * G ≤ ρ := by
    have h1 : 1 ≤ 10 * K ^ 2 := by nlinarith
    have := mul_le_mul_of_nonneg_right h1 hDx
    linarith
  have hW : c0 * u ≤ c0 * x := mul_le_mul_of_nonneg_left (by rw [hx]; linarith) hc00
  have hc0x : 0 ≤ c0 * x := mul_nonneg hc00 hx0
  have W' : ∀ a : Slot, |(a.of (run g s ms).2).v - a.of S'| ≤ c0 * x := fun a => (W a).trans hW
  have ht0 : 0 ≤ t := by rw [ht]; exact hms
  have htT : t ≤ T := by rw [ht]; exact hT
  have ll := k.lla (lat t) (lon t) S'.nav.Qne (F.lat_le t ht0 htT) (F.lon_le t ht0 htT) (N.place.trans (hE.trans hEρ))
  have hq : ‖toH S'.nav.Qne - toH (llaToQne ⟨lat t, lon t⟩)‖ ≤ D * x * G := N.place.trans hE
  have hKq := mul_le_mul_of_nonneg_left hq (by linarith : 0 ≤ K)
  rw [← N.pos0, ← N.pos1] at ll
  have fin : (K * D * G + 6 * c0) * x = K * (D * x * G) + 6 * (c0 * x) := by ring
  have hKD : K * D * G * x = K * (D * x * G) := by ring
  rw [hKD] at hEK
  rw [hn, fin]
  have Nh := N.height; have Nv := N.vel
  refine ⟨?_, ?_, ?_, ?_, ?_⟩
  · have := abs_sub_le ((run g s ms).2.nav.pos 0).v (S'.nav.pos 0) (lat t)
    have : |((run g s ms).2.nav.pos 0).v - S'.nav.pos 0| ≤ c0 * x := W' (.pos 0)
    linarith [ll.1]
  · have := abs_sub_le ((run g s ms).2.nav.pos 1).v (S'.nav.pos 1) (lon t)
    have : |((run g s ms).2.nav.pos 1).v - S'.nav.pos 1| ≤ c0 * x := W' (.pos 1)
    linarith [ll.2]
  · have := abs_sub_le ((run g s ms).2.nav.pos 2).v (S'.nav.pos 2) (h t)
    have : |((run g s ms).2.nav.pos 2).v - S'.nav.pos 2| ≤ c0 * x := W' (.pos 2)
    linarith
  · have e1 : (fun j => ((run g s ms).2.nav.vn j).v - v t j) = (S'.nav.vn - v t) + fun j => ((run g s ms).2.nav.vn j).v - S'.nav.vn j := by
      funext j; simp only [Pi.add_apply, Pi.sub_apply]; ring
    rw [e1]
    have := len_add_le (S'.nav.vn - v t) (fun j => ((run g s ms).2.nav.vn j).v - S'.nav.vn j)
    have := len_small (fun j => ((run g s ms).2.nav.vn j).v - S'.nav.vn j) (c0 * x) hc0x (fun j => W' (.vn j))
    linarith
  · intro y
    have ly := len_nonneg y
    obtain ⟨Cv, hCv⟩ : ∃ Cv : M3 ℝ, Cv = fun i j => ((run g s ms).2.nav.Cbn i j).v := ⟨_, rfl⟩
    rw [← hCv]
    have e1 : Cv *ᵥ y - C t *ᵥ y = (S'.nav.Cbn *ᵥ y - C t *ᵥ y) + (Cv - S'.nav.Cbn) *ᵥ y := by
      rw [sub_mulVec]; abel
    rw [e1]
    have q1 := len_add_le (S'.nav.Cbn *ᵥ y - C t *ᵥ y) ((Cv - S'.nav.Cbn) *ᵥ y)
    have q2 := mat_small (Cv - S'.nav.Cbn) (c0 * x) hc0x (fun i j => by rw [hCv]; exact W' (.cbn i j)) y
    have q3 := N.att y
    have q4 : ((e + δ + η) * (1 + A * S.dt) ^ ms.length - η) * len y ≤ K * (D * x * G) * len y := mul_le_mul_of_nonneg_right (by linarith) ly
    have q5 : (K * (D * x * G) + 6 * (c0 * x)) * len y = K * (D * x * G) * len y + 6 * (c0 * x) * len y := by ring
    rw [q5]
    linarith

/-- The hypotheses are met, by arithmetic that rounds down to multiples of `u`. -/
theorem grid_lib (u : ℝ) (h0 : 0 < u) (h1 : u ≤ 1 / 1000000) : AccurateLib (grid u) u := by
  refine ⟨grid_accurate u h0 h1, fun x => ?_, fun x => ?_, fun y x _ => ?_, fun x y _ => ?_⟩
  · show |Real.tan x - Real.tan x| ≤ _
    rw [sub_self, abs_zero]; positivity
  · show |Real.arctan x - Real.arctan x| ≤ _
    rw [sub_self, abs_zero]; positivity
  · show |Complex.arg ⟨x, y⟩ - Complex.arg ⟨x, y⟩| ≤ _
    rw [sub_self, abs_zero]; positivity
  · show |x ^ y - x ^ y| ≤ _
    rw [sub_self, abs_zero]; positivity
theorem grid_rnd (u : ℝ) (h0 : 0 < u) (x : ℝ) : |(grid u).rnd x - x| ≤ u := by
  have a := Int.floor_le (x / u)
  have b := Int.lt_floor_add_one (x / u)
  rw [le_div_iff₀ h0] at a
  rw [div_lt_iff₀ h0] at b
  show |⌊x / u⌋ * u - x| ≤ u
  rw [abs_le]
  constructor <;> nlinarith

/-- A vector, a quaternion and a whole state written down with rounding. -/
noncomputable def gridV (u : ℝ) (x : V3 ℝ) : V3 (RR (grid u)) := fun j => ⟨(grid u).rnd (x j)⟩
noncomputable def gridQ (u : ℝ) (q : Quat ℝ) : Quat (RR (grid u)) := ⟨⟨(grid u).rnd q.w⟩, ⟨(grid u).rnd q.x⟩, ⟨(grid u).rnd q.y⟩, ⟨(grid u).rnd q.z⟩⟩
noncomputable def gridIns (u : ℝ) (S : Ins ℝ) : Ins (RR (grid u)) :=
  { nav := { gpst := 0, pos := gridV u S.nav.pos, vn := gridV u S.nav.vn, atti := gridV u S.nav.atti, dvn := gridV u S.nav.dvn, vfKb := gridV u S.nav.vfKb,
             Cbn := fun i j => ⟨(grid u).rnd (S.nav.Cbn i j)⟩, Cne := fun i j => ⟨(grid u).rnd (S.nav.Cne i j)⟩, Qbn := gridQ u S.nav.Qbn, Qne := gridQ u S.nav.Qne,
             gb := gridV u S.nav.gb, ab := gridV u S.nav.ab, gs := gridV u S.nav.gs, as := gridV u S.nav.as, posStd := fun _ => 0, velStd := fun _ => 0,
             attStd := fun _ => 0, kd := 1, info := S.nav.info, week := S.nav.week }
    dt := ⟨(grid u).rnd S.dt⟩, accePre := gridV u S.accePre, gyroPre := gridV u S.gyroPre, omegaEnN := fun _ => 0, omegaIeN := fun _ => 0, vnMid := fun _ => 0,
    posMid := fun _ => 0 }
theorem grid_within (u : ℝ) (h0 : 0 < u) (S : Ins ℝ) : Within (1 * u) S (gridIns u S) := by
  rw [one_mul]
  intro a
  cases a with
  | qbn j => fin_cases j <;> exact grid_rnd u h0 _
  | qne j => fin_cases j <;> exact grid_rnd u h0 _
  | _ => exact grid_rnd u h0 _

/-- The climbing lift of C201, started at the truth as written down with rounding. -/
example (u dt : ℝ) (h0 : 0 < u) : StartsRounded 0 1 u (liftIns dt) (gridIns u (liftIns dt)) (fun _ => 1 / 2) (fun _ => 1) (fun t => 100 + 3 * t) (fun _ => ![0, 0, -3])
    (fun _ => 1) := by
  refine ⟨⟨by simp [liftIns], by simp [liftIns], by simp [liftIns], rfl, ?_, by simp [liftIns, qsq], rfl, ?_, rfl, rfl, rfl⟩, grid_within u h0 _, fun j => by simp [liftIns]⟩
  · show len (![0, 0, -3] - ![0, 0, -3]) ≤ 0
    rw [sub_self, len_zero']
  · intro x
    have : quatToDcm ⟨1, 0, 0, 0⟩ = (1 : M3 ℝ) := by ext i j; fin_cases i <;> fin_cases j <;> simp [quatToDcm, Quat.toRot]
    show len (quatToDcm ⟨1, 0, 0, 0⟩ *ᵥ x - (1 : M3 ℝ) *ᵥ x) ≤ 0 * len x
    rw [this, sub_self, len_zero', zero_mul]

/-- The readings of its sensors, each rounded: errors of a few units per sample. -/
example : ∃ b : ℝ, ∀ (u dt : ℝ), 0 < u → u ≤ 1 / 1000000 → 0 < dt → ∀ (k : ℕ) (t : ℝ), 0 ≤ t → t + k * dt ≤ 60 → ∃ ms : List (Imu (RR (grid u))), ms.length = k ∧
    NearImu (6 * u / dt) (liftIns dt).nav dt (fun t => t • earthRate (1 / 2)) liftImpulse t (ms.map valsImu) ∧ ∀ m ∈ ms, ∀ j, |(m.gyro j).v| ≤ b ∧ |(m.acce j).v| ≤ b := by
  have hc : Continuous (fun t => len (liftImpulse t)) := by
    have hi : ∀ i, Continuous (fun t => liftImpulse t i) := fun i => continuous_iff_continuousAt.2 fun t => (lift_deriv t i).continuousAt
    unfold len
    have := hi 0; have := hi 1; have := hi 2
    fun_prop
  obtain ⟨F, hF⟩ := (isCompact_Icc (a := (0 : ℝ)) (b := 60)).exists_bound_of_continuousOn (f := fun t => len (liftImpulse t)) hc.continuousOn
  refine ⟨2 * |F| + 60 * len (earthRate (1 / 2)) + 1, fun u dt h0 h1 hd k => ?_⟩
  induction k with
  | zero => intro t _ _; exact ⟨[], rfl, trivial, by simp⟩
  | succ k ih =>
    intro t ht hT
    push_cast at hT
    have hk : 0 ≤ (k : ℝ) * dt := by positivity
    obtain ⟨ms, g1, g2, g3⟩ := ih (t + dt) (by linarith) (by linarith)
    have r : ∀ x : V3 ℝ, len ((fun i => (gridV u x i).v) - x) ≤ 6 * u / dt * dt := by
      intro x
      rw [div_mul_cancel₀ _ hd.ne']
      exact (len_small _ u h0.le fun j => grid_rnd u h0 (x j)).trans (by linarith)
    refine ⟨⟨0, gridV u ((t + dt) • earthRate (1 / 2) - t • earthRate (1 / 2)), gridV u (liftImpulse (t + dt) - liftImpulse t)⟩ :: ms, by simp [g1], ⟨⟨?_, ?_⟩, g2⟩, ?_⟩
    · refine le_of_eq_of_le ?_ (r ((t + dt) • earthRate (1 / 2) - t • earthRate (1 / 2)))
      congr 1; ext i; simp [increment, liftIns, valsImu]
    · refine le_of_eq_of_le ?_ (r (liftImpulse (t + dt) - liftImpulse t))
      congr 1; ext i; simp [forceIncrement, liftIns, valsImu]
    · intro m hm
      rcases List.mem_cons.1 hm with rfl | hm
      swap
      · exact g3 m hm
      intro j
      have lF := abs_nonneg F
      have a1 := hF t ⟨ht, by linarith⟩
      have a2 := hF (t + dt) ⟨by linarith, by linarith⟩
      rw [Real.norm_eq_abs] at a1 a2
      have b1 := (comp_le_len (liftImpulse t) j).trans ((le_abs_self _).trans (a1.trans (le_abs_self F)))
      have b2 := (comp_le_len (liftImpulse (t + dt)) j).trans ((le_abs_self _).trans (a2.trans (le_abs_self F)))
      have b3 := comp_le_len (earthRate (1 / 2)) j
      have b4 : dt * |earthRate (1 / 2) j| ≤ 60 * len (earthRate (1 / 2)) := mul_le_mul (by linarith) b3 (abs_nonneg _) (by norm_num)
      have e1 : |((t + dt) • earthRate (1 / 2) - t • earthRate (1 / 2)) j| = dt * |earthRate (1 / 2) j| := by
        rw [← abs_of_pos hd, ← abs_mul, abs_of_pos hd]; congr 1; simp only [Pi.sub_apply, Pi.smul_apply, smul_eq_mul]; ring
      have e2 : |(liftImpulse (t + dt) - liftImpulse t) j| ≤ 2 * |F| := by
        rw [Pi.sub_apply]; have := abs_sub (liftImpulse (t + dt) j) (liftImpulse t j); linarith
      have c1 := grid_rnd u h0 (((t + dt) • earthRate (1 / 2) - t • earthRate (1 / 2)) j)
      have c2 := grid_rnd u h0 ((liftImpulse (t + dt) - liftImpulse t) j)
      have l0 := len_nonneg (earthRate (1 / 2))
      constructor
      · show |(grid u).rnd _| ≤ _
        have := abs_sub_abs_le_abs_sub ((grid u).rnd (((t + dt) • earthRate (1 / 2) - t • earthRate (1 / 2)) j)) (((t + dt) • earthRate (1 / 2) - t • earthRate (1 / 2)) j)
        linarith
      · show |(grid u).rnd _| ≤ _
        have := abs_sub_abs_le_abs_sub ((grid u).rnd ((liftImpulse (t + dt) - liftImpulse t) j)) ((liftImpulse (t + dt) - liftImpulse t) j)
        linarith
end Verif.Props
