import Verif.Props.FilterFollow
import Verif.Props.GnssGap
import Verif.Props.ZuptBound
/-! C210: the complete filter, fixes and corrections included, follows the true flight. -/
namespace Verif.Props
open Verif Verif.Spec Verif.Convert Matrix

section
variable {α : Type}
theorem imus_cat (a b : List (Call α)) : imusOf (a ++ b) = imusOf a ++ imusOf b := by
  induction a with
  | nil => rfl
  | cons c cs ih =>
    rcases c with ⟨o, n, j⟩ | (_ | m) | (_ | m) | _ | _ | _ | _ | p | _
    case time.some => exact congrArg (m :: ·) ih
    all_goals exact ih

theorem fixes_cat (a b : List (Call α)) : fixesOf (a ++ b) = fixesOf a ++ fixesOf b := by
  induction a with
  | nil => rfl
  | cons c cs ih =>
    rcases c with ⟨o, n, j⟩ | (_ | m) | (_ | m) | _ | _ | _ | _ | p | _
    case gnss.some => exact congrArg (m :: ·) ih
    all_goals exact ih

theorem first_none (a b : List (Call α)) (h : imusOf a = []) : fromFirstSample (a ++ b) = fromFirstSample b := by
  induction a with
  | nil => rfl
  | cons c cs ih =>
    rcases c with ⟨o, n, j⟩ | (_ | m) | (_ | m) | _ | _ | _ | _ | p | _
    case time.some => exact absurd h (by simp [imusOf])
    all_goals exact ih h

theorem first_some (a b : List (Call α)) (h : imusOf a ≠ []) : fromFirstSample (a ++ b) = fromFirstSample a ++ b := by
  induction a with
  | nil => exact absurd rfl h
  | cons c cs ih =>
    rcases c with ⟨o, n, j⟩ | (_ | m) | (_ | m) | _ | _ | _ | _ | p | _
    case time.some => rfl
    all_goals exact ih h
end

/-- The filter after a list of calls, from an initial filter. -/
noncomputable def filterAfter (s0 : ℝ × Fusion ℝ) (a : List (Call ℝ)) : ℝ × Fusion ℝ := frun (filterCalls (fromFirstSample a)) s0

theorem after_none (s0 : ℝ × Fusion ℝ) (a : List (Call ℝ)) (h : imusOf a = []) : filterAfter s0 a = s0 := by
  have := first_none a [] h
  rw [List.append_nil] at this
  unfold filterAfter
  rw [this]; rfl

theorem after_time (s0 : ℝ × Fusion ℝ) (a : List (Call ℝ)) (m : Imu ℝ) :
    filterAfter s0 (a ++ [.time (some m)]) = (filterAfter s0 a).2.timeUpdate (filterAfter s0 a).1 m := by
  by_cases h : imusOf a = []
  · rw [after_none s0 a h]
    unfold filterAfter
    rw [first_none a _ h]; rfl
  · unfold filterAfter
    rw [first_some a _ h, filterCalls_append, frun_append]; rfl

theorem after_gnss (s0 : ℝ × Fusion ℝ) (a : List (Call ℝ)) (m : Gnss ℝ) (h : imusOf a ≠ []) :
    filterAfter s0 (a ++ [.gnss (some m)]) = ((filterAfter s0 a).1, (filterAfter s0 a).2.measureGnss m) := by
  unfold filterAfter
  rw [first_some a _ h, filterCalls_append, frun_append]; rfl

theorem after_other (s0 : ℝ × Fusion ℝ) (a : List (Call ℝ)) (c : Call ℝ) (h : filterCalls [c] = []) : filterAfter s0 (a ++ [c]) = filterAfter s0 a := by
  by_cases hi : imusOf a = []
  · rw [after_none s0 a hi]
    unfold filterAfter
    rw [first_none a _ hi]
    rcases c with ⟨o, n, j⟩ | (_ | m) | (_ | m) | _ | _ | _ | _ | p | _
    case time.some => exact absurd h (by simp [filterCalls])
    all_goals rfl
  · unfold filterAfter
    rw [first_some a _ hi, filterCalls_append, frun_append, h]; rfl

theorem reads_append (δ : ℝ) (p : ImuPara ℝ) (dt : ℝ) (θ α : ℝ → V3 ℝ) (ms ms' : List (Imu ℝ)) : ∀ t, ReadsNear δ p dt θ α t (ms ++ ms') →
    ReadsNear δ p dt θ α (t + ms.length * dt) ms' := by
  induction ms with
  | nil => intro t h; simpa using h
  | cons m ms ih =>
    intro t h
    have := ih (t + dt) h.2
    have e : t + ((m :: ms).length : ℝ) * dt = t + dt + (ms.length : ℝ) * dt := by simp; ring
    rw [e]; exact this

theorem usable_append (a b : List (Call ℝ)) : usableCount (a ++ b) = usableCount a + usableCount b := by
  unfold usableCount
  rw [fixes_cat, List.filter_append, List.length_append]

theorem usable_one (m : Gnss ℝ) (hu : usable m.mode) : usableCount [.gnss (some m)] = 1 := by
  simp [usableCount, fixesOf, hu]

variable {B : Limits} {K ρ e β δ ε σ p L dt T A M y0 : ℝ} {N : NavEpoch ℝ} {o : Opt ℝ} {lat lon h : ℝ → ℝ} {v : ℝ → V3 ℝ} {C : ℝ → M3 ℝ} {w θ f α : ℝ → V3 ℝ}

/-- The numbers after a fix. -/
theorem fix_growth {Y : ℝ} (hK : 1 ≤ K) (he : 0 ≤ e) (hβ : 0 ≤ β) (hd : 0 < dt) (hε : 0 ≤ ε) (hp : 0 ≤ p) (hσ : 0 < σ) (hL : 0 ≤ L) (hM : M = 1 + 20 * K ^ 2 * (p / σ) * (L + 1))
    (hY : e + 20 * K ^ 2 * β + dt + ε ≤ Y) : e + 20 * K ^ 2 * (p / σ * (L * e + ε)) + dt + ε ≤ Y * M := by
  have hq : 0 ≤ 20 * K ^ 2 * (p / σ) := by have := div_nonneg hp hσ.le; positivity
  have h1 : e + dt + ε ≤ Y := by have : 0 ≤ 20 * K ^ 2 * β := by positivity
                                 linarith
  have h2 : e + ε ≤ Y := by linarith
  have h3 : L * e + ε ≤ (L + 1) * (e + ε) := by nlinarith [mul_nonneg hL hε]
  have h4 : (L + 1) * (e + ε) ≤ (L + 1) * Y := mul_le_mul_of_nonneg_left h2 (by linarith)
  have h5 := mul_le_mul_of_nonneg_left (h3.trans h4) hq
  rw [hM]
  have e1 : 20 * K ^ 2 * (p / σ * (L * e + ε)) = 20 * K ^ 2 * (p / σ) * (L * e + ε) := by ring
  have e2 : Y * (1 + 20 * K ^ 2 * (p / σ) * (L + 1)) = Y + 20 * K ^ 2 * (p / σ) * ((L + 1) * Y) := by ring
  rw [e1, e2]
  linarith

/-- A run of calls. -/
theorem held_run (k : Kit B K ρ) (F : TrueFlight B T lat lon h v C w θ f α) (ha : noAids o) (hd : 0 < dt) (hA : A = 50 * K ^ 3) (hst : A * dt ≤ 1)
    (hgs : ∀ i, |N.gs i| ≤ 1) (has : ∀ i, |N.as i| ≤ 1) (hσ : 0 < σ) (hp : 0 ≤ p) (hL : 0 ≤ L) (hε : 0 ≤ ε) (hM : M = 1 + 20 * K ^ 2 * (p / σ) * (L + 1)) (hy : 0 ≤ y0)
    (hant : ∀ (e t : ℝ) (φ : Fusion ℝ), Near K e dt t φ.ins lat lon h v C → Small K ρ e dt → 0 ≤ t → t ≤ T →
      φ.ins.nav.Cne = llaToCne ⟨φ.ins.nav.pos 0, φ.ins.nav.pos 1⟩ → φ.lbGnss = o.lbGnss → len (antenna φ - antennaAt (lat t) (lon t) (h t) (C t) o.lbGnss) ≤ L * e)
    (s0 : ℝ × Fusion ℝ) (e0 : ℝ) (he0 : 0 ≤ e0) (h0 : e0 + dt + ε ≤ y0) (H0 : Held K dt δ N o lat lon h v C 0 e0 0 s0.2) (cs : List (Call ℝ)) (hT : (imusOf cs).length * dt ≤ T)
    (hρ : 10 * K ^ 2 * (y0 * (1 + A * dt) ^ (imusOf cs).length * M ^ usableCount cs) ≤ ρ)
    (hr : ∀ a m b, cs = a ++ .time (some m) :: b → len (increment N dt m.gyro - (θ ((imusOf a).length * dt + dt) - θ ((imusOf a).length * dt))) ≤ δ * dt ∧
      len (forceIncrement N dt m.acce - (α ((imusOf a).length * dt + dt) - α ((imusOf a).length * dt))) ≤ δ * dt)
    (hx : ∀ a m b, cs = a ++ .gnss (some m) :: b → usable m.mode → imusOf a ≠ [] → ∀ t, t = (imusOf a).length * dt →
      FixGood σ ε p o.gnssStdScale (filterAfter s0 a).2.kf.P m (antennaAt (lat t) (lon t) (h t) (C t) o.lbGnss)) (a : List (Call ℝ)) :
    ∀ b, cs = a ++ b → ∃ e β, 0 ≤ e ∧ e + 20 * K ^ 2 * β + dt + ε ≤ y0 * (1 + A * dt) ^ (imusOf a).length * M ^ usableCount a ∧
      Held K dt δ N o lat lon h v C ((imusOf a).length * dt) e β (filterAfter s0 a).2 ∧
      (imusOf a ≠ [] → (filterAfter s0 a).2.ins.nav.Cne = llaToCne ⟨(filterAfter s0 a).2.ins.nav.pos 0, (filterAfter s0 a).2.ins.nav.pos 1⟩ ∧ attitudeOk (filterAfter s0 a).2.ins.nav) := by
  have hK := k.bounds.one
  have hA0 : 0 ≤ A := by rw [hA]; positivity
  have hg1 : 1 ≤ 1 + A * dt := by have := mul_nonneg hA0 hd.le; linarith
  have hM1 : 1 ≤ M := by
    rw [hM]; have := div_nonneg hp hσ.le
    have : 0 ≤ 20 * K ^ 2 * (p / σ) * (L + 1) := by positivity
    linarith
  have small : ∀ a b, cs = a ++ b → 10 * K ^ 2 * (y0 * (1 + A * dt) ^ (imusOf a).length * M ^ usableCount a) ≤ ρ := by
    intro a b hab
    refine le_trans ?_ hρ
    refine mul_le_mul_of_nonneg_left ?_ (by positivity)
    rw [hab, imus_cat, usable_append, List.length_append]
    refine mul_le_mul ?_ (pow_le_pow_right₀ hM1 (Nat.le_add_right _ _)) (by positivity) (by positivity)
    exact mul_le_mul_of_nonneg_left (pow_le_pow_right₀ hg1 (Nat.le_add_right _ _)) hy
  have count : ∀ a b, cs = a ++ b → ((imusOf a).length : ℝ) * dt + (imusOf b).length * dt ≤ T := by
    intro a b hab
    rw [hab, imus_cat, List.length_append] at hT
    push_cast at hT
    linarith
  induction a using List.reverseRecOn with
  | nil =>
    intro b _
    refine ⟨e0, 0, he0, ?_, ?_, fun hh => absurd rfl hh⟩
    · simpa [imusOf, usableCount, fixesOf] using h0
    · simpa [imusOf, filterAfter, fromFirstSample, filterCalls, frun] using H0
  | append_singleton a c ih =>
    intro b hab
    have hab' : cs = a ++ c :: b := by rw [hab]; simp
    obtain ⟨e, β, he, hle, H, hC⟩ := ih (c :: b) hab'
    have hsm := small a _ hab'
    have hcount := count (a ++ [c]) b hab
    have ht0 : 0 ≤ ((imusOf a).length : ℝ) * dt := by positivity
    have hb0 : 0 ≤ ((imusOf b).length : ℝ) * dt := by positivity
    have hβ := H.pos
    have hE : 10 * K ^ 2 * (e + 20 * K ^ 2 * β + dt) ≤ ρ := by
      refine le_trans (mul_le_mul_of_nonneg_left ?_ (by positivity)) hsm
      linarith
    have hst' : 50 * K ^ 3 * dt ≤ 1 := by rw [← hA]; exact hst
    have other : filterCalls [c] = [] → imusOf (a ++ [c]) = imusOf a → usableCount (a ++ [c]) = usableCount a → ∃ e β, 0 ≤ e ∧
        e + 20 * K ^ 2 * β + dt + ε ≤ y0 * (1 + A * dt) ^ (imusOf (a ++ [c])).length * M ^ usableCount (a ++ [c]) ∧
        Held K dt δ N o lat lon h v C ((imusOf (a ++ [c])).length * dt) e β (filterAfter s0 (a ++ [c])).2 ∧
        (imusOf (a ++ [c]) ≠ [] → (filterAfter s0 (a ++ [c])).2.ins.nav.Cne = llaToCne ⟨(filterAfter s0 (a ++ [c])).2.ins.nav.pos 0, (filterAfter s0 (a ++ [c])).2.ins.nav.pos 1⟩ ∧ attitudeOk (filterAfter s0 (a ++ [c])).2.ins.nav) := by
      intro q1 q2 q3
      rw [q2, q3, after_other s0 a c q1]
      exact ⟨e, β, he, hle, H, hC⟩
    have q2 : imusOf [c] = [] → imusOf (a ++ [c]) = imusOf a := by intro q; rw [imus_cat, q, List.append_nil]
    have q3 : usableCount [c] = 0 → usableCount (a ++ [c]) = usableCount a := by intro q; rw [usable_append, q, Nat.add_zero]
    rcases c with ⟨o, n, j⟩ | (_ | m) | (_ | m) | _ | _ | _ | _ | p' | _
    case time.some =>
      have l1 : (imusOf (a ++ [.time (some m)])).length = (imusOf a).length + 1 := by rw [imus_cat, List.length_append]; rfl
      rw [l1] at hcount
      push_cast at hcount
      obtain ⟨r1, r2⟩ := hr a m b hab'
      obtain ⟨e', β', he', hle', H', hC'⟩ := held_time k F ha H ht0 (by linarith) he hd hE hst' hgs has (filterAfter s0 a).1 m r1 r2
      rw [after_time, l1, usable_append]
      refine ⟨e', β', he', ?_, ?_, fun _ => hC'⟩
      · have e1 : usableCount [.time (some m)] = 0 := by simp [usableCount, fixesOf]
        rw [e1]
        rw [← hA] at hle'
        have g0 : 0 ≤ 1 + A * dt := by linarith
        have g2 := mul_le_mul_of_nonneg_right hle g0
        have g3 : ε ≤ ε * (1 + A * dt) := by nlinarith
        have g4 : (e + 20 * K ^ 2 * β + dt + ε) * (1 + A * dt) = (e + 20 * K ^ 2 * β + dt) * (1 + A * dt) + ε * (1 + A * dt) := by ring
        have g5 : e' + 20 * K ^ 2 * β' + dt + ε ≤ y0 * (1 + A * dt) ^ (imusOf a).length * M ^ usableCount a * (1 + A * dt) := by linarith
        exact g5.trans (le_of_eq (by ring))
      · have e1 : (((imusOf a).length + 1 : ℕ) : ℝ) * dt = (imusOf a).length * dt + dt := by push_cast; ring
        rw [e1]; exact H'
    case gnss.some =>
      have l1 := q2 rfl
      rw [l1] at hcount ⊢
      by_cases hi : imusOf a = []
      · have e1 : filterAfter s0 (a ++ [.gnss (some m)]) = filterAfter s0 a := by
          rw [after_none s0 a hi, after_none s0 _ (by rw [l1]; exact hi)]
        rw [e1]
        refine ⟨e, β, he, hle.trans ?_, H, hC⟩
        rw [usable_append, pow_add, ← mul_assoc]
        exact le_mul_of_one_le_right (by positivity) (one_le_pow₀ hM1)
      rw [after_gnss s0 a m hi]
      by_cases hu : usable m.mode
      · have hcne := (hC hi).1
        have rot : isRot (filterAfter s0 a).2.ins.nav.Cne := by rw [hcne]; exact (C41_position_quaternion _).2.2
        have sm : Small K ρ e dt := by
          refine ⟨he, hd, ?_, hst'⟩
          refine le_trans (mul_le_mul_of_nonneg_left ?_ (by positivity)) hE
          have : 0 ≤ 20 * K ^ 2 * β := by positivity
          linarith
        have hA1 := hant e _ _ H.near sm ht0 (by linarith) hcne H.arm
        have H' := held_fix m hu H he hσ hp hL rot hA1 (hx a m b hab' hu hi _ rfl)
        refine ⟨e, _, he, ?_, H', fun _ => ?_⟩
        · rw [usable_append, usable_one m hu, pow_succ M]
          exact (fix_growth hK he hβ hd hε hp hσ hL hM hle).trans (le_of_eq (by ring))
        · obtain ⟨-, -, ⟨j, hj⟩, -⟩ := gnss_rest (filterAfter s0 a).2 m hu
          dsimp only
          rw [hj]; exact hC hi
      · rw [q3 (by simp [usableCount, fixesOf, hu])]
        refine ⟨e, β, he, hle, held_unused m hu H, fun hh => ?_⟩
        obtain ⟨j, hj⟩ := gnss_unused (filterAfter s0 a).2 m hu
        dsimp only
        rw [hj]; exact hC hh
    all_goals exact other rfl (q2 rfl) (q3 (by simp [usableCount, fixesOf]))

theorem reads_at (junk : Ins ℝ) (n : NavOutput ℝ) (cs : List (Call ℝ)) (hp : ReadsNear δ o.imuPara dt θ α 0 (imusOf cs)) (a : List (Call ℝ)) (m : Imu ℝ) (b : List (Call ℝ))
    (hab : cs = a ++ .time (some m) :: b) :
    len (increment (coastStart junk n o).nav dt m.gyro - (θ ((imusOf a).length * dt + dt) - θ ((imusOf a).length * dt))) ≤ δ * dt ∧
    len (forceIncrement (coastStart junk n o).nav dt m.acce - (α ((imusOf a).length * dt + dt) - α ((imusOf a).length * dt))) ≤ δ * dt := by
  rw [hab, imus_cat] at hp
  have q := reads_append δ o.imuPara dt θ α (imusOf a) _ 0 hp
  rw [zero_add] at q
  exact q.1

/-- The initial filter. -/
theorem held_start (hB : B.Sane) (hK : 1 ≤ K) (F : TrueFlight B T lat lon h v C w θ f α) (hT : 0 ≤ T) (hd : 0 < dt) (hδ : 0 ≤ δ) (g : ℝ) (junk : Fusion ℝ) (n : NavOutput ℝ) (hdt : dt = 1 / o.dRate)
    (hn : ResultNear e n (lat 0) (lon 0) (h 0) (v 0) (C 0)) (h1 : e ≤ (Real.pi / 2 - B.lat) / 2) (h2 : e ≤ (Real.pi - B.lon) / 2) :
    Held K dt δ (coastStart junk.ins n o).nav o lat lon h v C 0 (e + δ) 0 (fstart g junk (makeNavEpoch n o) o).2 := by
  have st := given_near junk.ins n o e lat lon h v C hn
  have he0 : 0 ≤ e := (abs_nonneg _).trans hn.height
  obtain ⟨s, hs⟩ : ∃ s, s = coastStart junk.ins n o := ⟨_, rfl⟩
  have hsdt : s.dt = dt := by rw [hs, hdt]; show 1 / ofI o.dRate = _; simp [ofI]
  have hf : (fstart g junk (makeNavEpoch n o) o).2.ins = reInfo s n.info := by rw [hs]; rfl
  rw [← hs] at st ⊢
  have a1 := abs_le.1 (F.lat_le 0 (le_refl 0) hT)
  have a2 := abs_le.1 (F.lon_le 0 (le_refl 0) hT)
  have a3 := abs_le.1 st.latitude
  have a4 := abs_le.1 st.longitude
  have rt := C41_lat_lon_round_trip ⟨s.nav.pos 0, s.nav.pos 1⟩
    (by have := hB.lat; exact ⟨by dsimp only; linarith [a1.1, a1.2, a3.1, a3.2], by dsimp only; linarith [a1.1, a1.2, a3.1, a3.2]⟩)
    (by have := hB.lon; exact ⟨by dsimp only; linarith [a2.1, a2.2, a4.1, a4.2], by dsimp only; linarith [a2.1, a2.2, a4.1, a4.2]⟩)
  obtain ⟨z1, z2, z3⟩ := st.fresh
  have hK0 : 0 ≤ K * dt := mul_nonneg (by linarith) hd.le
  have start : Near K (e + δ) dt 0 s lat lon h v C := by
    refine ⟨st.unit, st.dcm, by rw [st.place]; exact (C41_position_quaternion _).1, by rw [st.place, rt], by rw [st.place, rt], hsdt,
      by rw [z1, len_zero']; linarith, by rw [z2, len_zero']; exact hK0, by rw [z3, len_zero']; exact hK0, ?_, ?_, ?_, ?_⟩
    · rw [st.place]; exact (lla_lip _ _ _ _ e st.latitude st.longitude).trans (by linarith)
    · linarith [st.vel]
    · linarith [st.height]
    · intro x; exact (st.att x).trans (mul_le_mul_of_nonneg_right (by linarith) (len_nonneg x))
  have f0 : (fstart g junk (makeNavEpoch n o) o).2.updateFlag = 0 := rfl
  have i0 : (fstart g junk (makeNavEpoch n o) o).2.updateIter = 0 := rfl
  refine ⟨rfl, rfl, ?_, ?_, ?_, ?_, ?_, le_refl 0, fun _ hh => ?_, fun hh => absurd f0 hh⟩
  · rw [hf]; rfl
  · rw [hf]; rfl
  · rw [hf]
    exact ⟨start.unit, start.dcm, start.unitP, start.pos0, start.pos1, start.dt_eq, start.dvn, start.gyro, start.acce, start.place, start.vel, start.height, start.att⟩
  · rw [hf]
    show 2 * len (s.nav.gb - s.nav.gb) + δ ≤ _
    rw [sub_self, len_zero']; linarith
  · rw [hf]
    show 2 * len (s.nav.ab - s.nav.ab) + δ ≤ _
    rw [sub_self, len_zero']; linarith
  · rw [i0] at hh; exact absurd hh (lt_irrefl _)

/-- C210: for every set of flight limits, duration, number of fixes, lever arm length, bound `p` on the filter's standard deviations and bound `σ` on those of the fixes there are a constant and
a threshold such that an instance of the C interface started from values within `e` of the truth, fed with samples within `δ` of the true rates and with usable fixes within `ε` of the true
antenna, met with a valid covariance, reports place, velocity and attitude within a constant times the start error plus the sensor error plus the fix error plus the sampling interval of
the truth at the time of the last sample, whatever the order of the calls. -/
theorem C210_filter_follows_the_flight_partial (B : Limits) (hB : B.Sane) (T l p σ : ℝ) (hp : 0 ≤ p) (hσ : 0 < σ) (N : ℕ) : ∃ K r : ℝ, 0 < r ∧
    ∀ (lat lon h : ℝ → ℝ) (v : ℝ → V3 ℝ) (C : ℝ → M3 ℝ) (w θ f α : ℝ → V3 ℝ), TrueFlight B T lat lon h v C w θ f α →
    ∀ (junk : Junk ℝ) (d0 d : Dev ℝ) (o : Opt ℝ) (n : NavOutput ℝ), o.alignMode = 2 → noAids o → o.outputProjectEnable = 0 → 0 < o.dRate → len o.lbGnss ≤ l →
    (∀ i, |o.imuPara.gsIni i| ≤ 1) → (∀ i, |o.imuPara.asIni i| ≤ 1) → rgioeInit junk d0 (some o) (some n) = some (0, d) →
    ∀ (e δ ε dt x : ℝ), dt = 1 / o.dRate → x = e + δ + ε + dt → x ≤ r → 0 ≤ δ → 0 ≤ ε → ResultNear e n (lat 0) (lon 0) (h 0) (v 0) (C 0) →
    ∀ (cs : List (Call ℝ)) (g : ℝ), (∀ c ∈ cs, c.isInit = false) → imusOf cs ≠ [] → usableCount cs ≤ N → ReadsNear δ o.imuPara dt θ α 0 (imusOf cs) →
    (∀ a m b, cs = a ++ .gnss (some m) :: b → usable m.mode → imusOf a ≠ [] → ∀ t, t = (imusOf a).length * dt →
      FixGood σ ε p o.gnssStdScale (runCalls a (g, d)).2.df.kf.P m (antennaAt (lat t) (lon t) (h t) (C t) o.lbGnss)) →
    ∀ t : ℝ, t = (imusOf cs).length * dt → t ≤ T → ∀ pva : NavOutput ℝ, ∃ q : NavOutput ℝ, rgioeGetResult (runCalls cs (g, d)).2 pva = (0, q) ∧
      |inRad q.lat - lat t| ≤ K * x ∧ |inRad q.lon - lon t| ≤ K * x ∧ |q.height - h t| ≤ K * x ∧ len (q.vn - v t) ≤ K * x ∧
      (|C t 2 0| ≤ 99 / 100 → ResultNear (K * x) q (lat t) (lon t) (h t) (v t) (C t)) := by
  by_cases hV : 0 ≤ B.speed
  swap
  · refine ⟨0, 1, one_pos, ?_⟩
    intro lat lon h v C w θ f α F junk d0 d o n _ _ _ hdr _ _ _ _ e δ ε dt x hdt _ _ _ _ _ cs g _ _ _ _ _ t ht hT
    have hdt0 : 0 < dt := by rw [hdt]; exact one_div_pos.2 (by exact_mod_cast hdr)
    have : 0 ≤ t := by rw [ht]; positivity
    exact absurd (limits_pos F 0 (le_refl 0) (by linarith)).2.2.2.1 hV
  obtain ⟨K, ρ, k⟩ := kit_exists B hB hV
  have hK := k.bounds.one
  obtain ⟨L, hL, hant⟩ := antenna_near k hB l
  obtain ⟨A, hA⟩ : ∃ A, A = 50 * K ^ 3 := ⟨_, rfl⟩
  have hA0 : 0 < A := by rw [hA]; positivity
  obtain ⟨M, hM⟩ : ∃ M, M = 1 + 20 * K ^ 2 * (p / σ) * (L + 1) := ⟨_, rfl⟩
  have hM1 : 1 ≤ M := by
    rw [hM]; have := div_nonneg hp hσ.le
    have : 0 ≤ 20 * K ^ 2 * (p / σ) * (L + 1) := by positivity
    linarith
  obtain ⟨G, hG⟩ : ∃ G, G = Real.exp (A * T) * M ^ N := ⟨_, rfl⟩
  have hG0 : 0 < G := by rw [hG]; have := Real.exp_pos (A * T); positivity
  have g1 : 0 < (Real.pi / 2 - B.lat) / 2 := by have := hB.lat; linarith
  have g2 : 0 < (Real.pi - B.lon) / 2 := by have := hB.lon; linarith
  refine ⟨K * G, min (min (min (1 / A) (ρ / (10 * K ^ 2 * G))) (min ((Real.pi / 2 - B.lat) / 2) ((Real.pi - B.lon) / 2))) (9 / (1000 * (K * G + 1))),
    lt_min (lt_min (lt_min (by positivity) (div_pos k.pos (by positivity))) (lt_min g1 g2)) (by positivity), ?_⟩
  intro lat lon h v C w θ f α F junk d0 d o n hm ha ho hdr hl hgs has hi e δ ε dt x hdt hx hxr hδ hε hn cs g hc hs hN hr hfix t ht hT pva
  have r1 := ((hxr.trans (min_le_left _ _)).trans (min_le_left _ _)).trans (min_le_left _ _)
  have r2 := ((hxr.trans (min_le_left _ _)).trans (min_le_left _ _)).trans (min_le_right _ _)
  have r3 := ((hxr.trans (min_le_left _ _)).trans (min_le_right _ _)).trans (min_le_left _ _)
  have r4 := ((hxr.trans (min_le_left _ _)).trans (min_le_right _ _)).trans (min_le_right _ _)
  have r5 := hxr.trans (min_le_right _ _)
  clear hxr
  have hd : 0 < dt := by rw [hdt]; exact one_div_pos.2 (by exact_mod_cast hdr)
  have he0 : 0 ≤ e := (abs_nonneg _).trans hn.height
  have ht0 : 0 ≤ t := by rw [ht]; positivity
  have hx0 : 0 < x := by rw [hx]; linarith
  have hAd : A * dt ≤ 1 := by
    have : dt ≤ 1 / A := by linarith
    rw [le_div_iff₀ hA0] at this; linarith
  have hpow : (1 + A * dt) ^ (imusOf cs).length ≤ Real.exp (A * T) := by
    have h1 : 1 + A * dt ≤ Real.exp (A * dt) := by have := Real.add_one_le_exp (A * dt); linarith
    have h2 := pow_le_pow_left₀ (by have := mul_pos hA0 hd; linarith) h1 (imusOf cs).length
    rw [← Real.exp_nat_mul] at h2
    refine h2.trans (Real.exp_le_exp.2 ?_)
    rw [ht] at hT
    have := mul_le_mul_of_nonneg_left hT hA0.le
    linarith
  have hpw : x * (1 + A * dt) ^ (imusOf cs).length * M ^ usableCount cs ≤ x * G := by
    rw [hG, mul_assoc]
    refine mul_le_mul_of_nonneg_left ?_ hx0.le
    exact mul_le_mul hpow (pow_le_pow_right₀ hM1 hN) (by positivity) (Real.exp_pos _).le
  have hρ : 10 * K ^ 2 * (x * G) ≤ ρ := by
    rw [le_div_iff₀ (by positivity)] at r2; linarith
  obtain ⟨s0, hs0⟩ : ∃ s0, s0 = fstart g junk.df (makeNavEpoch n o) o := ⟨_, rfl⟩
  have H0 := held_start (o := o) (e := e) (δ := δ) hB hK F (ht0.trans hT) hd hδ g junk.df n hdt hn (by linarith) (by linarith)
  rw [← hs0] at H0
  have run : ∀ a b, cs = a ++ b → imusOf a ≠ [] → (runCalls a (g, d)).2.df = (filterAfter s0 a).2 := by
    intro a b hab hia
    have := (C126_given_start junk d0 d o n hm hi a (fun c hh => hc c (by rw [hab]; exact List.mem_append_left _ hh)) hia g _ rfl).1
    rw [← hs0] at this
    exact congrArg Prod.snd this
  obtain ⟨E, β, hE0, hE, H, hC⟩ := held_run k F ha hd hA hAd (N := (coastStart junk.df.ins n o).nav) (δ := δ) (o := o) hgs has hσ hp hL hε hM hx0.le
    (fun e t φ n1 n2 n3 n4 n5 n6 => by have := hant e dt t T lat lon h v C w θ f α φ F n1 n2 n3 n4 n5 (by rw [n6]; exact hl); rw [n6] at this; exact this)
    s0 (e + δ) (by linarith) (by linarith) H0 cs (by rw [← ht]; exact hT) (le_trans (mul_le_mul_of_nonneg_left hpw (by positivity)) hρ)
    (reads_at junk.df.ins n cs hr) (fun a m b hab hu hia t ht => by rw [← run a _ hab hia]; exact hfix a m b hab hu hia t ht) cs [] (by simp)
  obtain ⟨-, rep⟩ := C126_given_start junk d0 d o n hm hi cs hc hs g _ rfl
  rw [← hs0] at rep
  change Reports _ (filterAfter s0 cs).2 at rep
  rw [← ht] at H
  have hatt := (hC hs).2
  clear hC
  generalize (filterAfter s0 cs).2 = φ at rep H hatt
  have hEx : E ≤ x * G := by
    have : 0 ≤ 20 * K ^ 2 * β := by have := H.pos; positivity
    linarith
  have hxG : 0 ≤ x * G := by positivity
  have hKx : x * G ≤ K * G * x := by have := mul_le_mul_of_nonneg_right hK hxG; linarith
  have hEρ : E ≤ ρ := by
    have h1 : 1 ≤ 10 * K ^ 2 := by nlinarith
    have := mul_le_mul_of_nonneg_right h1 hxG
    linarith
  have nr := H.near
  have ll := k.lla (lat t) (lon t) φ.ins.nav.Qne (F.lat_le t ht0 hT) (F.lon_le t ht0 hT) (nr.place.trans hEρ)
  rw [← nr.pos0, ← nr.pos1] at ll
  have hKq : K * ‖toH φ.ins.nav.Qne - toH (llaToQne ⟨lat t, lon t⟩)‖ ≤ K * G * x := by
    have := mul_le_mul_of_nonneg_left (nr.place.trans hEx) (by linarith : 0 ≤ K)
    refine le_trans this (le_of_eq ?_); ring
  refine ⟨φ.output, rep.result pva, ?_⟩
  have hpr : ¬ φ.opt.outputProjectEnable ≠ 0 := by rw [H.opt, ho]; simp
  obtain ⟨o1, o2, o3, o4, o5⟩ : φ.output.lat = φ.ins.nav.pos 0 / deg ∧ φ.output.lon = φ.ins.nav.pos 1 / deg ∧ φ.output.height = φ.ins.nav.pos 2 ∧ φ.output.vn = φ.ins.nav.vn ∧
      φ.output.atti = vd φ.ins.nav.atti deg := by
    unfold Fusion.output
    dsimp only
    rw [if_neg hpr, if_neg hpr]
    exact ⟨rfl, rfl, rfl, rfl, rfl⟩
  generalize φ.output = q at o1 o2 o3 o4 o5
  have b1 : |inRad q.lat - lat t| ≤ K * G * x := by rw [o1, rad_deg]; exact ll.1.trans hKq
  have b2 : |inRad q.lon - lon t| ≤ K * G * x := by rw [o2, rad_deg]; exact ll.2.trans hKq
  have b3 : |q.height - h t| ≤ K * G * x := by rw [o3]; exact nr.height.trans (hEx.trans hKx)
  have b4 : len (q.vn - v t) ≤ K * G * x := by rw [o4]; exact nr.vel.trans (hEx.trans hKx)
  refine ⟨b1, b2, b3, b4, fun hlk => ⟨b1, b2, b3, b4, ?_⟩⟩
  have k5 : ∀ y, len (φ.ins.nav.Cbn *ᵥ y - C t *ᵥ y) ≤ K * G * x * len y := fun y => (nr.att y).trans (mul_le_mul_of_nonneg_right (hEx.trans hKx) (len_nonneg y))
  have hlock : |φ.ins.nav.Cbn 2 0| < 999 / 1000 := by
    have c1 := entry_le _ _ _ k5
    have c2 : K * G * x < 9 / 1000 := by
      rw [le_div_iff₀ (by positivity)] at r5
      linarith
    have c6 := abs_sub_abs_le_abs_sub (φ.ins.nav.Cbn 2 0) (C t 2 0)
    linarith
  intro y
  rw [o5, rotOf_deg, hatt.2.2.2, C40_matrix_round_trip _ hatt.2.2.1 hlock]
  exact k5 y

/-! The hypotheses of C210 are met. -/

theorem init_valid (nav : NavEpoch ℝ) (o : Opt ℝ) (g : ℝ) (junk : Fusion ℝ) : validCov (fstart g junk nav o).2.kf.P := by
  have e : (fstart g junk nav o).2.kf.P = Fusion.initStd nav o * Fusion.initStd nav o := mmul_real _ _
  have hs : (Fusion.initStd nav o)ᵀ = Fusion.initStd nav o := by
    ext i j
    simp only [Matrix.transpose_apply]
    fin_cases i <;> fin_cases j <;> simp [Fusion.initStd, setBlock, diagM]
  have := congr_valid (Fusion.initStd nav o) (P := 1) ((validCov_iff _).2 Matrix.PosSemidef.one)
  rw [Matrix.mul_one, hs] at this
  rw [e]; exact this

/-- Without process noise the covariance stays valid, whatever is called. -/
theorem quiet_after (o : Opt ℝ) (ha : noAids o) (hq : Fusion.initQ0 o = 0) (hsc : 0 ≤ o.gnssStdScale) (s0 : ℝ × Fusion ℝ) (hf : Fixed o s0.2) (hv : validCov s0.2.kf.P) (a : List (Call ℝ)) :
    Fixed o (filterAfter s0 a).2 ∧ validCov (filterAfter s0 a).2.kf.P ∧ (s0.2.kf.P = 0 → (filterAfter s0 a).2.kf.P = 0) := by
  induction a using List.reverseRecOn with
  | nil => exact ⟨hf, hv, fun h => h⟩
  | append_singleton a c ih =>
    obtain ⟨i1, i2, i3⟩ := ih
    rcases c with ⟨o', n, j⟩ | (_ | m) | (_ | m) | _ | _ | _ | _ | p' | _
    case time.some =>
      rw [after_time]
      generalize filterAfter s0 a = s at i1 i2 i3
      obtain ⟨f1, g, fp⟩ := fixed_prop s m i1
      have f2 := fixed_exec (.time m) s i1
      have e := timeUpdate_stages s m
      dsimp only at e
      have eP : (s.2.timeUpdate s.1 m).2.kf.P = (propagated s m).kf.P := by
        rw [e, coastq_stages (propagated s m) (by rw [f1.opt]; exact ha)]; rfl
      have z : (propagated s m).stepQ ((propagated s m).transferMatrix g) = 0 := by
        unfold Fusion.stepQ
        rw [f1.q, hq]
        ext i j
        simp [ms, sm, mmul_real]
      rw [z, add_zero] at fp
      refine ⟨f2, ?_, fun h => ?_⟩
      · rw [eP, fp]; exact congr_valid _ i2
      · rw [eP, fp, i3 h, Matrix.mul_zero, Matrix.zero_mul]
    case gnss.some =>
      by_cases hi : imusOf a = []
      · have e1 : filterAfter s0 (a ++ [.gnss (some m)]) = filterAfter s0 a := by
          rw [after_none s0 a hi, after_none s0 _ (by rw [imus_cat, hi]; rfl)]
        rw [e1]; exact ⟨i1, i2, i3⟩
      rw [after_gnss s0 a m hi]
      generalize filterAfter s0 a = s at i1 i2 i3
      refine ⟨fixed_exec (.gnss m) s i1, ?_⟩
      dsimp only
      by_cases hu : usable m.mode
      · rw [(gnss_kf s.2 m hu).1]
        have hR : validCov (diagM fun i => m.posStd i * m.posStd i * s.2.opt.gnssStdScale : M3 ℝ) := by
          rw [validCov_iff, diagM_real]
          refine Matrix.PosSemidef.diagonal fun i => ?_
          show 0 ≤ m.posStd i * m.posStd i * s.2.opt.gnssStdScale
          rw [i1.opt]; exact mul_nonneg (mul_self_nonneg _) hsc
        refine ⟨(C24_update_valid s.2.kf _ _ _ i2 hR).1, fun h => ?_⟩
        rw [(update_P s.2.kf _ _ _).1, i3 h]
        simp
      · obtain ⟨j, hj⟩ := gnss_unused s.2 m hu
        rw [hj]; exact ⟨i2, i3⟩
    all_goals
      rw [after_other s0 a _ rfl]
      exact ⟨i1, i2, i3⟩

/-- In the lift of C201 the antenna is 2 m above the device; a fix at its true place. -/
noncomputable def liftFix (t : ℝ) : Gnss ℝ := { (Ex.fix 4 : Gnss ℝ) with lat := 1 / 2 / deg, lon := 1 / deg, height := 102 + 3 * t }

/-- `k` perfect samples, a true fix after each. -/
noncomputable def liftCalls (dt : ℝ) : ℕ → ℝ → List (Call ℝ)
  | 0, _ => []
  | k + 1, t => .time (some ⟨0, (t + dt) • earthRate (1 / 2) - t • earthRate (1 / 2), liftImpulse (t + dt) - liftImpulse t⟩) :: .gnss (some (liftFix (t + dt))) :: liftCalls dt k (t + dt)

theorem lift_calls (dt : ℝ) (k : ℕ) : ∀ t, (∀ c ∈ liftCalls dt k t, c.isInit = false) ∧ (imusOf (liftCalls dt k t)).length = k ∧ usableCount (liftCalls dt k t) = k ∧
    ReadsNear 0 (Ex.opt 2 : Opt ℝ).imuPara dt (fun t => t • earthRate (1 / 2)) liftImpulse t (imusOf (liftCalls dt k t)) ∧
    ∀ a m b, liftCalls dt k t = a ++ .gnss (some m) :: b → m = liftFix (t + (imusOf a).length * dt) := by
  induction k with
  | zero =>
    intro t
    refine ⟨by simp [liftCalls], rfl, by simp [liftCalls, usableCount, fixesOf], trivial, ?_⟩
    intro a m b hh
    rcases a with _ | ⟨c, a⟩ <;> exact absurd hh (by simp [liftCalls])
  | succ k ih =>
    intro t
    obtain ⟨h1, h2, h3, h4, h5⟩ := ih (t + dt)
    refine ⟨?_, by simp [liftCalls, imusOf, h2], ?_, ⟨⟨?_, ?_⟩, h4⟩, ?_⟩
    · intro c hc
      simp only [liftCalls, List.mem_cons] at hc
      rcases hc with rfl | rfl | hc
      · rfl
      · rfl
      · exact h1 c hc
    · have e : liftCalls dt (k + 1) t = [.time (some ⟨0, (t + dt) • earthRate (1 / 2) - t • earthRate (1 / 2), liftImpulse (t + dt) - liftImpulse t⟩)] ++
          ([.gnss (some (liftFix (t + dt)))] ++ liftCalls dt k (t + dt)) := rfl
      rw [e, usable_append, usable_append, usable_one _ (Or.inr (Or.inr (Or.inl rfl))), h3]
      have : usableCount [.time (some (⟨0, (t + dt) • earthRate (1 / 2) - t • earthRate (1 / 2), liftImpulse (t + dt) - liftImpulse t⟩ : Imu ℝ))] = 0 := by simp [usableCount, fixesOf]
      rw [this]; ring
    · rw [show (_ - _ : V3 ℝ) = 0 by ext i; fin_cases i <;> simp [Ex.opt, Fusion.zeroOpt, zero3, v3]]
      rw [len_zero', zero_mul]
    · rw [show (_ - _ : V3 ℝ) = 0 by ext i; fin_cases i <;> simp [Ex.opt, Fusion.zeroOpt, zero3, v3]]
      rw [len_zero', zero_mul]
    · intro a m b hh
      rcases a with _ | ⟨c, _ | ⟨c', a⟩⟩
      · exact absurd hh (by simp [liftCalls])
      · simp only [liftCalls, List.cons_append, List.nil_append, List.cons.injEq, Call.gnss.injEq, Option.some.injEq] at hh
        rw [← hh.2.1, ← hh.1]; simp [imusOf]
      · simp only [liftCalls, List.cons_append, List.cons.injEq] at hh
        rw [h5 a m b hh.2.2, ← hh.1, ← hh.2.1]
        simp only [imusOf, List.length_cons]
        congr 1; push_cast; ring

theorem lift_antenna (t : ℝ) : antennaAt (1 / 2) 1 (100 + 3 * t) (1 : M3 ℝ) ![0, 0, -2] = fixPlace (liftFix t) := by
  unfold antennaAt fixPlace liftFix
  dsimp only
  rw [rad_deg, rad_deg, Matrix.one_mulVec]
  ext i
  fin_cases i <;> simp [ecef, nedAxes, Matrix.mulVec, dotProduct, Fin.sum_univ_three] <;> ring

/-- The hypotheses of C210 are met on the flight of the lift beside C201, at any sampling rate and for any number of fixes: exact start values with any start uncertainty `s`, perfect samples, and a
true fix after every sample; with `s = 0` one bound `p` serves all rates. -/
example (rate : Int) (dt : ℝ) (hdt : dt = 1 / rate) (s : V3 ℝ) (k : ℕ) : ∃ o : Opt ℝ, o.dRate = rate ∧ o.alignMode = 2 ∧ noAids o ∧ o.outputProjectEnable = 0 ∧ len o.lbGnss = 2 ∧ o.posStd = s ∧
    (∀ i, |o.imuPara.gsIni i| ≤ 1) ∧ (∀ i, |o.imuPara.asIni i| ≤ 1) ∧ ResultNear 0 liftGiven (1 / 2) 1 100 ![0, 0, -3] 1 ∧
    ∃ d, rgioeInit Ex.zJunk Ex.zDev (some o) (some liftGiven) = some (0, d) ∧
    ∃ cs : List (Call ℝ), (∀ c ∈ cs, c.isInit = false) ∧ (imusOf cs).length = k ∧ usableCount cs = k ∧
      ReadsNear 0 o.imuPara dt (fun t => t • earthRate (1 / 2)) liftImpulse 0 (imusOf cs) ∧
      ∀ g, ∃ p, 0 ≤ p ∧ (s = 0 → p = 0) ∧ ∀ a m b, cs = a ++ .gnss (some m) :: b → usable m.mode → imusOf a ≠ [] → ∀ t, t = (imusOf a).length * dt →
        FixGood 1 0 p o.gnssStdScale (runCalls a (g, d)).2.df.kf.P m (antennaAt (1 / 2) 1 (100 + 3 * t) 1 o.lbGnss) := by
  obtain ⟨o, ho⟩ : ∃ o : Opt ℝ, o = { (Ex.opt 2 : Opt ℝ) with dRate := rate, gnssStdScale := 1, lbGnss := ![0, 0, -2], posStd := s } := ⟨_, rfl⟩
  have ha : noAids o := by rw [ho]; exact ⟨rfl, Or.inl rfl⟩
  have hq : Fusion.initQ0 o = 0 := by
    rw [ho]
    ext i j
    simp only [Fusion.initQ0, diagM, Ex.opt, Fusion.zeroOpt, Matrix.zero_apply]
    split_ifs <;> simp [zero3, v3]
  have hsc : o.gnssStdScale = 1 := by rw [ho]
  have harm : o.lbGnss = ![0, 0, -2] := by rw [ho]
  have hst : o.posStd = s := by rw [ho]
  have h1 : o.dRate = rate := by rw [ho]
  have h2 : o.alignMode = 2 := by rw [ho]; rfl
  have h3 : o.outputProjectEnable = 0 := by rw [ho]; rfl
  have h4 : o.imuPara = (Ex.opt 2 : Opt ℝ).imuPara := by rw [ho]
  have h5 : o.velStd = 0 ∧ o.attiStd = 0 := by
    rw [ho]; constructor <;> (ext i; fin_cases i <;> rfl)
  obtain ⟨d, hd⟩ : ∃ d, rgioeInit Ex.zJunk Ex.zDev (some o) (some liftGiven) = some (0, d) := by rw [ho]; exact ⟨_, rfl⟩
  clear ho
  refine ⟨o, h1, h2, ha, h3, ?_, hst, ?_, ?_, ?_, ?_⟩
  · rw [harm]
    have q : len (![0, 0, -2] : V3 ℝ) ^ 2 = 4 := by rw [len_sq]; simp; norm_num
    have q0 := len_nonneg (![0, 0, -2] : V3 ℝ)
    nlinarith
  · intro i; rw [h4]; fin_cases i <;> simp [Ex.opt, Fusion.zeroOpt, zero3, v3]
  · intro i; rw [h4]; fin_cases i <;> simp [Ex.opt, Fusion.zeroOpt, zero3, v3]
  · have e : rotOf (zeroPva : NavOutput ℝ).atti = 1 := by
      ext i j
      fin_cases i <;> fin_cases j <;> simp [rotOf, inRad, zeroPva, Rx, Ry, Rz, Matrix.mul_apply, Fin.sum_univ_three, zero3, v3]
    refine ⟨?_, ?_, ?_, ?_, ?_⟩
    · simp only [liftGiven]; rw [rad_deg, sub_self, abs_zero]
    · simp only [liftGiven]; rw [rad_deg, sub_self, abs_zero]
    · simp [liftGiven]
    · simp only [liftGiven]; rw [sub_self, len_zero']
    · intro x
      show len (rotOf (zeroPva : NavOutput ℝ).atti *ᵥ x - (1 : M3 ℝ) *ᵥ x) ≤ 0 * len x
      rw [e, sub_self, len_zero', zero_mul]
  obtain ⟨c1, c2, c3, c4, c5⟩ := lift_calls dt k 0
  refine ⟨d, hd, liftCalls dt k 0, c1, c2, c3, by rw [h4]; exact c4, ?_⟩
  intro g
  obtain ⟨s0, hs0⟩ : ∃ s0, s0 = fstart g (Ex.zJunk : Junk ℝ).df (makeNavEpoch liftGiven o) o := ⟨_, rfl⟩
  have key := quiet_after o ha hq (by rw [hsc]; norm_num) s0 (by rw [hs0]; exact ⟨rfl, rfl, rfl⟩) (by rw [hs0]; exact init_valid _ _ _ _)
  have zero : s = 0 → s0.2.kf.P = 0 := by
    intro hz
    have e : s0.2.kf.P = Fusion.initStd (makeNavEpoch liftGiven o) o * Fusion.initStd (makeNavEpoch liftGiven o) o := by rw [hs0]; exact mmul_real _ _
    have z : Fusion.initStd (makeNavEpoch liftGiven o) o = 0 := by
      ext i j
      fin_cases i <;> fin_cases j <;> simp [Fusion.initStd, setBlock, diagM, makeNavEpoch, hst, hz, h5, h4, Ex.opt, Fusion.zeroOpt, zero3, v3]
    rw [e, z, Matrix.mul_zero]
  obtain ⟨p, hp0, hpz, hp⟩ : ∃ p, 0 ≤ p ∧ (s = 0 → p = 0) ∧ ∀ a b, liftCalls dt k 0 = a ++ b → ∀ i, (filterAfter s0 a).2.kf.P i i ≤ p ^ 2 := by
    by_cases hz : s = 0
    · refine ⟨0, le_refl 0, fun _ => rfl, fun a b _ i => ?_⟩
      rw [(key a).2.2 (zero hz)]; simp
    · obtain ⟨S, hS⟩ : ∃ S, S = ∑ j ∈ Finset.range ((liftCalls dt k 0).length + 1), ∑ i, |(filterAfter s0 ((liftCalls dt k 0).take j)).2.kf.P i i| := ⟨_, rfl⟩
      have hS0 : 0 ≤ S := by rw [hS]; exact Finset.sum_nonneg fun j _ => Finset.sum_nonneg fun i _ => abs_nonneg _
      refine ⟨1 + S, by linarith, fun hh => absurd hh hz, fun a b hab i => ?_⟩
      have t1 : (liftCalls dt k 0).take a.length = a := by rw [hab]; simp
      have t2 : |(filterAfter s0 a).2.kf.P i i| ≤ S := by
        have q1 : ∑ i, |(filterAfter s0 ((liftCalls dt k 0).take a.length)).2.kf.P i i| ≤ S := by
          rw [hS]
          refine Finset.single_le_sum (f := fun j => ∑ i, |(filterAfter s0 ((liftCalls dt k 0).take j)).2.kf.P i i|) (fun j _ => Finset.sum_nonneg fun i _ => abs_nonneg _) ?_
          rw [Finset.mem_range, hab, List.length_append]; omega
        rw [t1] at q1
        exact (Finset.single_le_sum (f := fun i => |(filterAfter s0 a).2.kf.P i i|) (fun i _ => abs_nonneg _) (Finset.mem_univ i)).trans q1
      have := le_abs_self ((filterAfter s0 a).2.kf.P i i)
      nlinarith
  refine ⟨p, hp0, hpz, ?_⟩
  intro a m b hab hu hia t ht
  have er := (C126_given_start Ex.zJunk Ex.zDev d o liftGiven h2 hd a (fun c hh => c1 c (by rw [hab]; exact List.mem_append_left _ hh)) hia g _ rfl).1
  rw [← hs0] at er
  have er2 : (runCalls a (g, d)).2.df = (filterAfter s0 a).2 := congrArg Prod.snd er
  rw [er2, harm, hsc]
  have hm := c5 a m b hab
  rw [zero_add, ← ht] at hm
  refine ⟨?_, ?_, (key a).2.1, hp a _ hab⟩
  · rw [lift_antenna, hm, sub_self, len_zero']
  · intro i; rw [hm]; simp [liftFix, Ex.fix]
end Verif.Props
