import Verif.Props.GainBound
import Verif.Props.GnssGap
import Verif.Spec.FilterFlight
/-! One correction and one fix of the filter along a true flight, in exact arithmetic. -/
namespace Verif.Props
open Verif Verif.Spec Verif.Convert Matrix
open scoped Quaternion
variable {B : Limits} {K ρ e dt t T : ℝ} {lat lon h : ℝ → ℝ} {v : ℝ → V3 ℝ} {C : ℝ → M3 ℝ} {w θ f α : ℝ → V3 ℝ}

/-- The turn of the place that a displacement means is at most proportional to it. -/
theorem shift_le (b : Bounds B K) (l z : ℝ) (hl : |l| ≤ (B.lat + Real.pi / 2) / 2) (hz : |z| ≤ B.height + 1) (x : V3 ℝ) (hx : len x ≤ B.speed + 1) (hV : 0 ≤ B.speed + 1) :
    len (transportRate x l z) ≤ K * len x := by
  have z0 : len (0 : V3 ℝ) = 0 := by simp [len]
  have := b.lip.frame_lip l l x 0 z z hl hl hx (by rw [z0]; exact hV) hz hz
  have e : frameRate l x z - frameRate l 0 z = transportRate x l z := by
    unfold frameRate transportRate
    ext i; fin_cases i <;> simp
  rw [e, sub_self, abs_zero, sub_self, abs_zero, sub_zero] at this
  linarith

theorem turned_act (p : V3 ℝ) (q : Quat ℝ) (hq : qsq q = 1) (hp : len p ≤ 1) (x : V3 ℝ) :
    len (quatToDcm ((rvToQuat p).mul q).normalized *ᵥ x - quatToDcm q *ᵥ x) ≤ 4 * len p * len x := by
  have hpos : 0 < qsq q := by rw [hq]; norm_num
  have hu : qsq ((rvToQuat p).mul q).normalized = 1 := qsq_normalized _ (by rw [qsq_mul]; exact mul_pos (rv_pos p) hpos)
  have e1 : ∀ r : Quat ℝ, qsq r = 1 → (quatToDcm r : M3 ℝ) = rotH r := fun r hr => toRot_eq r hr
  rw [e1 _ hu, e1 _ hq]
  have a := act_near (toH ((rvToQuat p).mul q).normalized) (toH q) (pureH x) (toH_norm _ hu) (toH_norm _ hq) 1 (.inl rfl)
  rw [← pureH_act, ← pureH_act, ← pureH_sub', pureH_norm, pureH_norm, one_smul, normalized_mul _ _ (rv_pos p) hpos, normalized_unit _ hq] at a
  have e2 : toH (rvToQuat p).normalized * toH q - toH q = (toH (rvToQuat p).normalized - 1) * toH q := by rw [sub_mul, one_mul]
  rw [e2, norm_mul, toH_norm _ hq, mul_one] at a
  have o := turn_one p hp
  refine a.trans (mul_le_mul_of_nonneg_right (by linarith) (len_nonneg x))

/-- One share of a correction. -/
theorem feed_near (k : Kit B K ρ) (F : TrueFlight B T lat lon h v C w θ f α) (φ : Fusion ℝ) (n : Near K e dt t φ.ins lat lon h v C) (sm : Small K ρ e dt) (ht : 0 ≤ t) (hT : t ≤ T)
    (x : Fin 15 → ℝ) (η : ℝ) (hx : ∀ i, |x i| ≤ η) (hη : 10 * K * η ≤ 1) :
    Near K (e + 20 * K ^ 2 * η) dt t (φ.feedBack x).ins lat lon h v C ∧
    len ((φ.feedBack x).ins.nav.gb - φ.ins.nav.gb) ≤ 3 * η ∧ len ((φ.feedBack x).ins.nav.ab - φ.ins.nav.ab) ≤ 3 * η ∧
    (φ.feedBack x).ins.nav.gs = φ.ins.nav.gs ∧ (φ.feedBack x).ins.nav.as = φ.ins.nav.as := by
  have hK := k.bounds.one
  have hη0 : 0 ≤ η := (abs_nonneg _).trans (hx 0)
  have hKη : η ≤ K * η := by nlinarith
  have hKη2 : K * η ≤ K ^ 2 * η := by nlinarith
  obtain ⟨bl, bv, bh, -⟩ := near_box k F n sm ht hT
  have hV : 0 ≤ B.speed := (limits_pos F t ht hT).2.2.2.1
  have three : ∀ a b c : Fin 15, len (v3 (x a) (x b) (x c) : V3 ℝ) ≤ 3 * η := by
    intro a b c
    refine (len_le_sum _).trans ?_
    have := hx a; have := hx b; have := hx c
    show |x a| + |x b| + |x c| ≤ _
    linarith
  obtain ⟨d, hd⟩ : ∃ d : V3 ℝ, d = v3 (x 1 / (Earth.RN (φ.ins.nav.pos 0) + φ.ins.nav.pos 2)) (-(x 0) / (Earth.RM (φ.ins.nav.pos 0) + φ.ins.nav.pos 2))
      (-(x 1) * Fl.tan (φ.ins.nav.pos 0) / (Earth.RN (φ.ins.nav.pos 0) + φ.ins.nav.pos 2)) := ⟨_, rfl⟩
  have hd1 : d = transportRate (v3 (x 0) (x 1) 0) (φ.ins.nav.pos 0) (φ.ins.nav.pos 2) := by
    rw [hd, rN_eq, rM_eq]
    ext i; fin_cases i <;> rfl
  have l2 : len (v3 (x 0) (x 1) 0 : V3 ℝ) ≤ 2 * η := by
    refine (len_le_sum _).trans ?_
    have := hx 0; have := hx 1
    show |x 0| + |x 1| + |(0 : ℝ)| ≤ _
    rw [abs_zero]; linarith
  have ld : len d ≤ 2 * (K * η) := by
    rw [hd1]
    have := shift_le k.bounds _ _ bl bh (v3 (x 0) (x 1) 0) (by linarith) (by linarith)
    have := mul_le_mul_of_nonneg_left l2 (show 0 ≤ K by linarith)
    linarith
  have lnd : len (-d) = len d := by simp [len]
  obtain ⟨p, hp⟩ : ∃ p : V3 ℝ, p = v3 (x 6) (x 7) (x 8) + d := ⟨_, rfl⟩
  have lp : len p ≤ 5 * (K * η) := by
    rw [hp]
    have := len_add_le (v3 (x 6) (x 7) (x 8)) d
    have := three 6 7 8
    linarith
  have hpq : 0 < qsq φ.ins.nav.Qne := by rw [n.unitP]; norm_num
  have hbq : 0 < qsq φ.ins.nav.Qbn := by rw [n.unit]; norm_num
  have uP : qsq (φ.ins.nav.Qne.mul (rvToQuat (-d))).normalized = 1 := qsq_normalized _ (by rw [qsq_mul]; exact mul_pos hpq (rv_pos _))
  have uB : qsq ((rvToQuat p).mul φ.ins.nav.Qbn).normalized = 1 := qsq_normalized _ (by rw [qsq_mul]; exact mul_pos (rv_pos _) hbq)
  have fe : (φ.feedBack x).ins = { φ.ins with nav := { φ.ins.nav with
      Qne := (φ.ins.nav.Qne.mul (rvToQuat (-d))).normalized
      pos := v3 (qneToLla (φ.ins.nav.Qne.mul (rvToQuat (-d))).normalized).lat (qneToLla (φ.ins.nav.Qne.mul (rvToQuat (-d))).normalized).lon (φ.ins.nav.pos 2 + x 2)
      vn := mvec (eyeM 3 + skew d) (φ.ins.nav.vn - v3 (x 3) (x 4) (x 5))
      Qbn := ((rvToQuat p).mul φ.ins.nav.Qbn).normalized
      Cbn := quatToDcm ((rvToQuat p).mul φ.ins.nav.Qbn).normalized
      atti := dcmToEuler (quatToDcm ((rvToQuat p).mul φ.ins.nav.Qbn).normalized)
      gb := φ.ins.nav.gb + v3 (x 9) (x 10) (x 11), ab := φ.ins.nav.ab + v3 (x 12) (x 13) (x 14) } } := by
    rw [hp, hd]; rfl
  have hrest : 0 ≤ K ^ 2 * η := by positivity
  rw [fe]
  refine ⟨⟨uB, rfl, uP, rfl, rfl, n.dt_eq, n.dvn, n.gyro, n.acce, ?_, ?_, ?_, ?_⟩, ?_, ?_, rfl, rfl⟩
  · show ‖toH (φ.ins.nav.Qne.mul (rvToQuat (-d))).normalized - placeH lat lon t‖ ≤ _
    rw [normalized_mul _ _ hpq (rv_pos _), normalized_unit _ n.unitP]
    have e1 : toH φ.ins.nav.Qne * toH (rvToQuat (-d)).normalized - placeH lat lon t =
        toH φ.ins.nav.Qne * (toH (rvToQuat (-d)).normalized - 1) + (toH φ.ins.nav.Qne - placeH lat lon t) := by
      rw [mul_sub, mul_one]; abel
    rw [e1]
    refine (norm_add_le _ _).trans ?_
    rw [norm_mul, toH_norm _ n.unitP, one_mul]
    have := turn_one (-d) (by rw [lnd]; linarith)
    rw [lnd] at this
    have := n.place
    linarith
  · show len (mvec (eyeM 3 + skew d) (φ.ins.nav.vn - v3 (x 3) (x 4) (x 5)) - v t) ≤ _
    have e1 : mvec (eyeM 3 + skew d) (φ.ins.nav.vn - v3 (x 3) (x 4) (x 5)) - v t =
        (φ.ins.nav.vn - v t) + (xp d (φ.ins.nav.vn - v3 (x 3) (x 4) (x 5)) - v3 (x 3) (x 4) (x 5)) := by
      rw [mvec_real, add_mulVec, eyeM_real, one_mulVec]
      have : skew d *ᵥ (φ.ins.nav.vn - v3 (x 3) (x 4) (x 5)) = xp d (φ.ins.nav.vn - v3 (x 3) (x 4) (x 5)) := by
        ext i; fin_cases i <;> simp [skew, xp, mulVec, dotProduct, Fin.sum_univ_three] <;> ring
      rw [this]; abel
    rw [e1]
    refine (len_add_le _ _).trans ?_
    have a1 := len_sub_le (xp d (φ.ins.nav.vn - v3 (x 3) (x 4) (x 5))) (v3 (x 3) (x 4) (x 5))
    have a2 := len_xp_le d (φ.ins.nav.vn - v3 (x 3) (x 4) (x 5))
    have a3 := len_sub_le φ.ins.nav.vn (v3 (x 3) (x 4) (x 5))
    have a4 := three 3 4 5
    have a5 := k.bounds.speed
    have a6 : len (φ.ins.nav.vn - v3 (x 3) (x 4) (x 5)) ≤ 2 * K := by linarith
    have a7 := mul_le_mul ld a6 (len_nonneg _) (by positivity)
    have a8 := n.vel
    have e2 : 2 * (K * η) * (2 * K) = 4 * (K ^ 2 * η) := by ring
    linarith
  · show |φ.ins.nav.pos 2 + x 2 - h t| ≤ _
    have e1 : φ.ins.nav.pos 2 + x 2 - h t = (φ.ins.nav.pos 2 - h t) + x 2 := by ring
    rw [e1]
    refine (abs_add_le _ _).trans ?_
    have := n.height; have := hx 2
    linarith
  · intro y
    show len (quatToDcm ((rvToQuat p).mul φ.ins.nav.Qbn).normalized *ᵥ y - C t *ᵥ y) ≤ _
    have e1 : quatToDcm ((rvToQuat p).mul φ.ins.nav.Qbn).normalized *ᵥ y - C t *ᵥ y =
        (quatToDcm ((rvToQuat p).mul φ.ins.nav.Qbn).normalized *ᵥ y - quatToDcm φ.ins.nav.Qbn *ᵥ y) + (φ.ins.nav.Cbn *ᵥ y - C t *ᵥ y) := by
      rw [n.dcm]; abel
    rw [e1]
    refine (len_add_le _ _).trans ?_
    have a1 := turned_act p φ.ins.nav.Qbn n.unit (by linarith) y
    have a2 := n.att y
    have a3 := len_nonneg y
    have a4 : 4 * len p * len y ≤ 20 * K ^ 2 * η * len y := mul_le_mul_of_nonneg_right (by linarith) a3
    linarith
  · show len (φ.ins.nav.gb + v3 (x 9) (x 10) (x 11) - φ.ins.nav.gb) ≤ _
    rw [add_sub_cancel_left]; exact three 9 10 11
  · show len (φ.ins.nav.ab + v3 (x 12) (x 13) (x 14) - φ.ins.nav.ab) ≤ _
    rw [add_sub_cancel_left]; exact three 12 13 14

theorem ecef_eq (p : V3 ℝ) : llaToXyz p = ecef (p 0) (p 1) (p 2) := by
  unfold llaToXyz ecef
  rw [rN_eq]
  have : (Earth.e2 : ℝ) = 0.00669437999013 := by unfold Earth.e2; rw [lit_real]; norm_num
  rw [this]
  ext i; fin_cases i <;> rfl

theorem ned_eq (l o : ℝ) : llaToCne (⟨l, o⟩ : LatLon ℝ) = nedAxes l o := by
  ext i j; fin_cases i <;> fin_cases j <;> rfl

/-- The earth-centred coordinates depend smoothly on the place. -/
theorem ecef_lip (Λ H : ℝ) : ∃ L, 0 ≤ L ∧ ∀ l l' o o' z z', |l| ≤ Λ → |l'| ≤ Λ → |z| ≤ H → |z'| ≤ H →
    len (ecef l o z - ecef l' o' z') ≤ L * (|l - l'| + |o - o'| + |z - z'|) := by
  obtain ⟨K1, h1, B1⟩ := box_lip Λ H (fun p => (rN p.1 + p.2) * Real.cos p.1) fun p _ _ =>
    (((rN_smooth p.1).comp p contDiffAt_fst).add contDiffAt_snd).mul (Real.contDiff_cos.contDiffAt.comp p contDiffAt_fst)
  obtain ⟨K2, h2, B2⟩ := box_lip Λ H (fun p => (rN p.1 * (1 - 0.00669437999013) + p.2) * Real.sin p.1) fun p _ _ =>
    ((((rN_smooth p.1).comp p contDiffAt_fst).mul contDiffAt_const).add contDiffAt_snd).mul (Real.contDiff_sin.contDiffAt.comp p contDiffAt_fst)
  refine ⟨2 * K1 + K2, by linarith, ?_⟩
  intro l l' o o' z z' a1 a2 a3 a4
  have p1 := B1.lip l l' z z' a1 a2 a3 a4
  have p2 := B2.lip l l' z z' a1 a2 a3 a4
  have p3 := B1.le l' z' a2 a4
  dsimp only at p1 p2 p3
  refine (len_le_sum _).trans ?_
  have c0 : (ecef l o z - ecef l' o' z') 0 = (rN l + z) * Real.cos l * Real.cos o - (rN l' + z') * Real.cos l' * Real.cos o' := rfl
  have c1 : (ecef l o z - ecef l' o' z') 1 = (rN l + z) * Real.cos l * Real.sin o - (rN l' + z') * Real.cos l' * Real.sin o' := rfl
  have c2 : (ecef l o z - ecef l' o' z') 2 = (rN l * (1 - 0.00669437999013) + z) * Real.sin l - (rN l' * (1 - 0.00669437999013) + z') * Real.sin l' := rfl
  rw [c0, c1, c2]
  have q : ∀ a a' c c' : ℝ, |c| ≤ 1 → |c - c'| ≤ |o - o'| → |a'| ≤ K1 → |a - a'| ≤ K1 * (|l - l'| + |z - z'|) →
      |a * c - a' * c'| ≤ K1 * (|l - l'| + |o - o'| + |z - z'|) := by
    intro a a' c c' g1 g2 g3 g4
    have e : a * c - a' * c' = (a - a') * c + a' * (c - c') := by ring
    rw [e]
    refine (abs_add_le _ _).trans ?_
    rw [abs_mul, abs_mul]
    have := mul_le_mul g4 g1 (abs_nonneg _) (by positivity)
    have := mul_le_mul g3 g2 (abs_nonneg _) h1
    linarith
  have d0 := q _ _ (Real.cos o) (Real.cos o') (Real.abs_cos_le_one o) (by have := Real.abs_cos_sub_cos_le o o'; linarith) p3 p1
  have d1 := q _ _ (Real.sin o) (Real.sin o') (Real.abs_sin_le_one o) (by have := Real.abs_sin_sub_sin_le o o'; linarith) p3 p1
  have d2 : K2 * (|l - l'| + |z - z'|) ≤ K2 * (|l - l'| + |o - o'| + |z - z'|) := mul_le_mul_of_nonneg_left (by have := abs_nonneg (o - o'); linarith) h2
  linarith

theorem entries_len (A : M3 ℝ) (a : ℝ) (h : ∀ i j, |A i j| ≤ a) (y : V3 ℝ) : len (A *ᵥ y) ≤ 9 * a * len y := by
  have ha : 0 ≤ a := (abs_nonneg _).trans (h 0 0)
  have hy := len_nonneg y
  have row : ∀ i, |(A *ᵥ y) i| ≤ 3 * a * len y := by
    intro i
    have e : (A *ᵥ y) i = A i 0 * y 0 + A i 1 * y 1 + A i 2 * y 2 := by simp [mulVec, dotProduct, Fin.sum_univ_three]
    rw [e]
    have t : ∀ j, |A i j * y j| ≤ a * len y := fun j => by
      rw [abs_mul]; exact mul_le_mul (h i j) (comp_le_len y j) (abs_nonneg _) ha
    have := abs_add_le (A i 0 * y 0 + A i 1 * y 1) (A i 2 * y 2)
    have := abs_add_le (A i 0 * y 0) (A i 1 * y 1)
    have := t 0; have := t 1; have := t 2
    linarith
  refine (len_le_sum _).trans ?_
  have := row 0; have := row 1; have := row 2
  linarith

theorem ned_lip (l l' o o' : ℝ) (y : V3 ℝ) : len (nedAxes l o *ᵥ y - nedAxes l' o' *ᵥ y) ≤ 9 * (|l - l'| + |o - o'|) * len y := by
  rw [← sub_mulVec]
  refine entries_len _ _ ?_ y
  have n1 := abs_nonneg (l - l')
  have n2 := abs_nonneg (o - o')
  have s1 : |Real.sin l - Real.sin l'| ≤ |l - l'| := by have := Real.abs_sin_sub_sin_le l l'; linarith
  have s2 : |Real.sin o - Real.sin o'| ≤ |o - o'| := by have := Real.abs_sin_sub_sin_le o o'; linarith
  have s3 : |Real.cos l - Real.cos l'| ≤ |l - l'| := by have := Real.abs_cos_sub_cos_le l l'; linarith
  have s4 : |Real.cos o - Real.cos o'| ≤ |o - o'| := by have := Real.abs_cos_sub_cos_le o o'; linarith
  have q : ∀ a a' c c' : ℝ, |a'| ≤ 1 → |c| ≤ 1 → |a - a'| ≤ |l - l'| → |c - c'| ≤ |o - o'| → |-a * c - -a' * c'| ≤ |l - l'| + |o - o'| := by
    intro a a' c c' g1 g2 g3 g4
    have e : -a * c - -a' * c' = -((a - a') * c + a' * (c - c')) := by ring
    rw [e, abs_neg]
    refine (abs_add_le _ _).trans ?_
    rw [abs_mul, abs_mul]
    have := mul_le_mul g3 g2 (abs_nonneg _) n1
    have := mul_le_mul g1 g4 (abs_nonneg _) zero_le_one
    linarith
  intro i j
  rw [Matrix.sub_apply]
  fin_cases i <;> fin_cases j
  · exact q _ _ _ _ (Real.abs_sin_le_one _) (Real.abs_cos_le_one _) s1 s4
  · show |-Real.sin o - -Real.sin o'| ≤ _
    rw [neg_sub_neg, abs_sub_comm]; linarith
  · exact q _ _ _ _ (Real.abs_cos_le_one _) (Real.abs_cos_le_one _) s3 s4
  · exact q _ _ _ _ (Real.abs_sin_le_one _) (Real.abs_sin_le_one _) s1 s2
  · show |Real.cos o - Real.cos o'| ≤ _
    linarith
  · exact q _ _ _ _ (Real.abs_cos_le_one _) (Real.abs_sin_le_one _) s3 s2
  · show |Real.cos l - Real.cos l'| ≤ _
    linarith
  · show |(0 : ℝ) - 0| ≤ _
    rw [sub_zero, abs_zero]; linarith
  · show |-Real.sin l - -Real.sin l'| ≤ _
    rw [neg_sub_neg, abs_sub_comm]; linarith

theorem fixPlace_eq (m : Gnss ℝ) : fixXyz m = fixPlace m := by
  unfold fixXyz fixPlace
  rw [ecef_eq]; rfl

/-- The antenna of a solution near the truth is near the true antenna. -/
theorem antenna_near (k : Kit B K ρ) (hs : B.Sane) (l : ℝ) : ∃ L, 0 ≤ L ∧ ∀ (e dt t T : ℝ) (lat lon h : ℝ → ℝ) (v : ℝ → V3 ℝ) (C : ℝ → M3 ℝ) (w θ f α : ℝ → V3 ℝ)
    (φ : Fusion ℝ), TrueFlight B T lat lon h v C w θ f α → Near K e dt t φ.ins lat lon h v C → Small K ρ e dt → 0 ≤ t → t ≤ T →
    φ.ins.nav.Cne = llaToCne ⟨φ.ins.nav.pos 0, φ.ins.nav.pos 1⟩ → len φ.lbGnss ≤ l →
    len (antenna φ - antennaAt (lat t) (lon t) (h t) (C t) φ.lbGnss) ≤ L * e := by
  obtain ⟨L, hL, H⟩ := ecef_lip ((B.lat + Real.pi / 2) / 2) (B.height + 1)
  have hK := k.bounds.one
  have hl : 0 ≤ |l| := abs_nonneg l
  refine ⟨3 * K * L + 18 * K * |l| + |l|, by positivity, ?_⟩
  intro e dt t T lat lon h v C w θ f α φ F n sm ht hT hC hlb
  have he := sm.e0
  obtain ⟨bl, bv, bh, b4⟩ := near_box k F n sm ht hT
  obtain ⟨tl, -, th⟩ := true_box F hs t ht hT
  have hle : e ≤ ρ := by have := sm.near; have := sm.e0; have := sm.dt0; have : 1 ≤ K ^ 2 := by nlinarith
                         nlinarith
  have l2 := (k.lla (lat t) (lon t) φ.ins.nav.Qne (F.lat_le t ht hT) (F.lon_le t ht hT) (n.place.trans hle)).2
  have b5 : |φ.ins.nav.pos 1 - lon t| ≤ K * e := by rw [n.pos1]; exact l2.trans (mul_le_mul_of_nonneg_left n.place (by linarith))
  have b6 := n.height
  have eK : e ≤ K * e := by nlinarith
  have a1 := H _ _ (φ.ins.nav.pos 1) (lon t) _ _ bl tl bh th
  have a2 : L * (|φ.ins.nav.pos 0 - lat t| + |φ.ins.nav.pos 1 - lon t| + |φ.ins.nav.pos 2 - h t|) ≤ L * (3 * (K * e)) := mul_le_mul_of_nonneg_left (by linarith) hL
  have e1 : antenna φ - antennaAt (lat t) (lon t) (h t) (C t) φ.lbGnss =
      (ecef (φ.ins.nav.pos 0) (φ.ins.nav.pos 1) (φ.ins.nav.pos 2) - ecef (lat t) (lon t) (h t)) +
      ((nedAxes (φ.ins.nav.pos 0) (φ.ins.nav.pos 1) *ᵥ (φ.ins.nav.Cbn *ᵥ φ.lbGnss) - nedAxes (lat t) (lon t) *ᵥ (φ.ins.nav.Cbn *ᵥ φ.lbGnss)) +
       nedAxes (lat t) (lon t) *ᵥ (φ.ins.nav.Cbn *ᵥ φ.lbGnss - C t *ᵥ φ.lbGnss)) := by
    unfold antenna antennaAt
    rw [ecef_eq, hC, ned_eq, mulVec_sub]
    abel
  rw [e1]
  refine (len_add_le _ _).trans ?_
  have a3 := len_add_le (nedAxes (φ.ins.nav.pos 0) (φ.ins.nav.pos 1) *ᵥ (φ.ins.nav.Cbn *ᵥ φ.lbGnss) - nedAxes (lat t) (lon t) *ᵥ (φ.ins.nav.Cbn *ᵥ φ.lbGnss))
    (nedAxes (lat t) (lon t) *ᵥ (φ.ins.nav.Cbn *ᵥ φ.lbGnss - C t *ᵥ φ.lbGnss))
  have a4 := ned_lip (φ.ins.nav.pos 0) (lat t) (φ.ins.nav.pos 1) (lon t) (φ.ins.nav.Cbn *ᵥ φ.lbGnss)
  rw [near_rot n] at a4
  have hlb' : len φ.lbGnss ≤ |l| := hlb.trans (le_abs_self l)
  have a5 : 9 * (|φ.ins.nav.pos 0 - lat t| + |φ.ins.nav.pos 1 - lon t|) * len φ.lbGnss ≤ 18 * (K * e) * |l| :=
    mul_le_mul (by linarith) hlb' (len_nonneg _) (by positivity)
  have a6 : len (nedAxes (lat t) (lon t) *ᵥ (φ.ins.nav.Cbn *ᵥ φ.lbGnss - C t *ᵥ φ.lbGnss)) ≤ e * |l| := by
    rw [← ned_eq, len_isRot _ (C41_position_quaternion _).2.2]
    exact (n.att _).trans (mul_le_mul_of_nonneg_left hlb' he)
  linarith
end Verif.Props
