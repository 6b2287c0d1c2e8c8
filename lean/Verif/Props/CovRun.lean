import Verif.Props.CovFlight
/-! C212: the complete filter follows the true flight, with nothing assumed about its covariance. -/
namespace Verif.Props
open Verif Verif.Spec Verif.Convert Matrix

theorem cov_grow_lower {c dt D x Λ η : ℝ} {n k : ℕ} (hD : D = 45 * c) (hcd : 0 ≤ c * dt) (hD1 : 15 * (c * dt) ≤ 1) (hx : 0 ≤ x) (gD : 1 ≤ 1 + D * dt) (hΛ : 1 ≤ Λ)
    (hη : η = n * x * (1 + D * dt) ^ n * Λ ^ k) : (1 + 15 * (c * dt)) ^ 2 * η + x ≤ ((n + 1 : ℕ) : ℝ) * x * (1 + D * dt) ^ (n + 1) * Λ ^ k := by
  have g : (1 + 15 * (c * dt)) ^ 2 ≤ 1 + D * dt := by
    rw [hD]; nlinarith
  have g0 : 0 ≤ 1 + D * dt := by linarith
  have Λ0 : 0 ≤ Λ := by linarith
  have η0 : 0 ≤ η := by rw [hη]; positivity
  have h1 := mul_le_mul_of_nonneg_right g η0
  have h2 : x ≤ x * ((1 + D * dt) ^ (n + 1) * Λ ^ k) := by
    refine le_mul_of_one_le_right hx ?_
    have q1 : 1 ≤ (1 + D * dt) ^ (n + 1) := one_le_pow₀ gD
    have q2 : 1 ≤ Λ ^ k := one_le_pow₀ hΛ
    nlinarith
  have e : ((n + 1 : ℕ) : ℝ) * x * (1 + D * dt) ^ (n + 1) * Λ ^ k = (1 + D * dt) * η + x * ((1 + D * dt) ^ (n + 1) * Λ ^ k) := by
    rw [hη]; push_cast; ring
  rw [e]; linarith

theorem cov_grow_upper {c dt D Q s : ℝ} {n : ℕ} (hD : D = 45 * c) (hcd : 0 ≤ c * dt) (hD1 : 15 * (c * dt) ≤ 1) (hd : 0 ≤ dt) (hQ : 0 ≤ Q) (gD : 1 ≤ 1 + D * dt) (hs : 0 ≤ s ^ 2) :
    (1 + 15 * (c * dt)) ^ 2 * ((s ^ 2 + n * (3 * Q * dt)) * (1 + D * dt) ^ n) + dt / 2 * (Q * (1 + (1 + 15 * (c * dt)) ^ 2)) ≤
      (s ^ 2 + ((n + 1 : ℕ) : ℝ) * (3 * Q * dt)) * (1 + D * dt) ^ (n + 1) := by
  have g : (1 + 15 * (c * dt)) ^ 2 ≤ 1 + D * dt := by
    rw [hD]; nlinarith
  have g4 : (1 + 15 * (c * dt)) ^ 2 ≤ 4 := by nlinarith
  have g0 : 0 ≤ 1 + D * dt := by linarith
  have o0 : 0 ≤ (s ^ 2 + n * (3 * Q * dt)) * (1 + D * dt) ^ n := by positivity
  have h1 := mul_le_mul_of_nonneg_right g o0
  have q0 : 0 ≤ Q * dt := mul_nonneg hQ hd
  have h2 : dt / 2 * (Q * (1 + (1 + 15 * (c * dt)) ^ 2)) ≤ 3 * (Q * dt) := by nlinarith
  have h3 : 3 * (Q * dt) ≤ 3 * (Q * dt) * (1 + D * dt) ^ (n + 1) := le_mul_of_one_le_right (by linarith) (one_le_pow₀ gD)
  have e : (s ^ 2 + ((n + 1 : ℕ) : ℝ) * (3 * Q * dt)) * (1 + D * dt) ^ (n + 1) = (1 + D * dt) * ((s ^ 2 + n * (3 * Q * dt)) * (1 + D * dt) ^ n) + 3 * (Q * dt) * (1 + D * dt) ^ (n + 1) := by
    push_cast; ring
  rw [e]; linarith

theorem fixed_time {o : Opt ℝ} {φ : Fusion ℝ} (g : ℝ) (m : Imu ℝ) (X : Fixed o φ) : Fixed o (φ.timeUpdate g m).2 := fixed_exec (.time m) (g, φ) X

theorem fixed_gnss {o : Opt ℝ} {φ : Fusion ℝ} (m : Gnss ℝ) (X : Fixed o φ) : Fixed o (φ.measureGnss m) := fixed_exec (.gnss m) (0, φ) X

variable {B : Limits} {K ρ e β δ ε σ L dt T A M y0 : ℝ} {N : NavEpoch ℝ} {o : Opt ℝ} {lat lon h : ℝ → ℝ} {v : ℝ → V3 ℝ} {C : ℝ → M3 ℝ} {w θ f α : ℝ → V3 ℝ}

set_option maxHeartbeats 1600000 in
/-- A run of calls, with nothing assumed about the covariance. -/
theorem cov_run {c Q s l r W D Λ γ x : ℝ} (k : Kit B K ρ) (hV : 0 ≤ B.speed) (F : TrueFlight B T lat lon h v C w θ f α) (ha : noAids o) (hd : 0 < dt) (hA : A = 50 * K ^ 3) (hst : A * dt ≤ 1)
    (hgs : ∀ i, |N.gs i| ≤ 1) (has : ∀ i, |N.as i| ≤ 1) (hσ : 0 < σ) (hL : 0 ≤ L) (hε : 0 ≤ ε) (hM : M = 1 + 20 * K ^ 2 * (γ / 1) * (L + 1))
    (hl : len o.lbGnss ≤ l) (hr2 : r = σ ^ 2 / 2) (hγ : γ = W * (7 * (1 + l)) / r) (hΛ : Λ = (1 + (7 * (1 + l)) ^ 2 * W / r) ^ 2) (hD : D = 45 * c) (hD1 : 15 * (c * dt) ≤ 1)
    (hc : 5 * K ≤ c) (h9 : 1 / |o.imuPara.gtCorr| ≤ c) (h10 : 1 / |o.imuPara.atCorr| ≤ c) (hQ0 : 0 ≤ Q) (hx' : x = dt / 2 * (Q * (15 * (c * dt)) ^ 2)) (hQ : Form (Fusion.initQ0 o) 0 Q) (hy : 0 ≤ y0)
    (hant : ∀ (e t : ℝ) (φ : Fusion ℝ), Near K e dt t φ.ins lat lon h v C → Small K ρ e dt → 0 ≤ t → t ≤ T →
      φ.ins.nav.Cne = llaToCne ⟨φ.ins.nav.pos 0, φ.ins.nav.pos 1⟩ → φ.lbGnss = o.lbGnss → len (antenna φ - antennaAt (lat t) (lon t) (h t) (C t) o.lbGnss) ≤ L * e)
    (s0 : ℝ × Fusion ℝ) (e0 : ℝ) (he0 : 0 ≤ e0) (h0 : e0 + dt + ε ≤ y0) (H0 : Held K dt δ N o lat lon h v C 0 e0 0 s0.2) (X0 : Fixed o s0.2) (P0 : Form s0.2.kf.P 0 (s ^ 2)) (cs : List (Call ℝ)) (hT : (imusOf cs).length * dt ≤ T)
    (hρ : 10 * K ^ 2 * (y0 * (1 + A * dt) ^ (imusOf cs).length * M ^ usableCount cs) ≤ ρ)
    (hW : (s ^ 2 + (imusOf cs).length * (3 * Q * dt)) * (1 + D * dt) ^ (imusOf cs).length + 2 * ((imusOf cs).length * x * (1 + D * dt) ^ (imusOf cs).length * Λ ^ usableCount cs) ≤ W)
    (hb : (7 * (1 + l)) ^ 2 * ((imusOf cs).length * x * (1 + D * dt) ^ (imusOf cs).length * Λ ^ usableCount cs) ≤ r)
    (hr : ∀ a m b, cs = a ++ .time (some m) :: b → len (increment N dt m.gyro - (θ ((imusOf a).length * dt + dt) - θ ((imusOf a).length * dt))) ≤ δ * dt ∧
      len (forceIncrement N dt m.acce - (α ((imusOf a).length * dt + dt) - α ((imusOf a).length * dt))) ≤ δ * dt)
    (hx : ∀ a m b, cs = a ++ .gnss (some m) :: b → usable m.mode → imusOf a ≠ [] → ∀ t, t = (imusOf a).length * dt →
      FixWithin σ ε o.gnssStdScale m (antennaAt (lat t) (lon t) (h t) (C t) o.lbGnss)) (a : List (Call ℝ)) :
    ∀ b, cs = a ++ b → ∃ e β, 0 ≤ e ∧ e + 20 * K ^ 2 * β + dt + ε ≤ y0 * (1 + A * dt) ^ (imusOf a).length * M ^ usableCount a ∧
      Held K dt δ N o lat lon h v C ((imusOf a).length * dt) e β (filterAfter s0 a).2 ∧
      (imusOf a ≠ [] → (filterAfter s0 a).2.ins.nav.Cne = llaToCne ⟨(filterAfter s0 a).2.ins.nav.pos 0, (filterAfter s0 a).2.ins.nav.pos 1⟩ ∧ attitudeOk (filterAfter s0 a).2.ins.nav) ∧
      (Fixed o (filterAfter s0 a).2 ∧ Form (filterAfter s0 a).2.kf.P ((imusOf a).length * x * (1 + D * dt) ^ (imusOf a).length * Λ ^ usableCount a)
        ((s ^ 2 + (imusOf a).length * (3 * Q * dt)) * (1 + D * dt) ^ (imusOf a).length)) := by
  have hK := k.bounds.one
  have hA0 : 0 ≤ A := by rw [hA]; positivity
  have hg1 : 1 ≤ 1 + A * dt := by have := mul_nonneg hA0 hd.le; linarith
  have l0 : 0 ≤ l := (len_nonneg _).trans hl
  have hr0 : 0 < r := by rw [hr2]; positivity
  have c0 : 0 ≤ c := by linarith
  have D0 : 0 ≤ D := by rw [hD]; linarith
  have Dd : 0 ≤ D * dt := mul_nonneg D0 hd.le
  have gD : 1 ≤ 1 + D * dt := by linarith
  have hcd : 0 ≤ c * dt := mul_nonneg c0 hd.le
  have x0 : 0 ≤ x := by rw [hx']; positivity
  have x1 : 0 ≤ 3 * Q * dt := by positivity
  have Λ0 : 0 ≤ Λ := by rw [hΛ]; positivity
  have hW0 : 0 ≤ W := by
    refine le_trans ?_ hW
    positivity
  have Λ1 : 1 ≤ Λ := by
    rw [hΛ]
    have : 0 ≤ (7 * (1 + l)) ^ 2 * W / r := by positivity
    exact one_le_pow₀ (by linarith)
  have γ0 : 0 ≤ γ := by rw [hγ]; positivity
  have prefE : ∀ a b, cs = a ++ b → (imusOf a).length * x * (1 + D * dt) ^ (imusOf a).length * Λ ^ usableCount a ≤ (imusOf cs).length * x * (1 + D * dt) ^ (imusOf cs).length * Λ ^ usableCount cs := by
    intro a b hab
    have l1 : (imusOf a).length ≤ (imusOf cs).length := by rw [hab, imus_cat, List.length_append]; omega
    have l2 : usableCount a ≤ usableCount cs := by rw [hab, usable_append]; omega
    have l3 : ((imusOf a).length : ℝ) ≤ (imusOf cs).length := by exact_mod_cast l1
    have p1 := pow_le_pow_right₀ gD l1
    have p2 := pow_le_pow_right₀ Λ1 l2
    have p3 := mul_le_mul_of_nonneg_right l3 x0
    exact mul_le_mul (mul_le_mul p3 p1 (by positivity) (by positivity)) p2 (by positivity) (by positivity)
  have prefO : ∀ a b, cs = a ++ b → (s ^ 2 + (imusOf a).length * (3 * Q * dt)) * (1 + D * dt) ^ (imusOf a).length ≤ (s ^ 2 + (imusOf cs).length * (3 * Q * dt)) * (1 + D * dt) ^ (imusOf cs).length := by
    intro a b hab
    have l1 : (imusOf a).length ≤ (imusOf cs).length := by rw [hab, imus_cat, List.length_append]; omega
    have l3 : ((imusOf a).length : ℝ) ≤ (imusOf cs).length := by exact_mod_cast l1
    have p1 := pow_le_pow_right₀ gD l1
    have p3 := mul_le_mul_of_nonneg_right l3 x1
    exact mul_le_mul (by linarith) p1 (by positivity) (by positivity)
  have hM1 : 1 ≤ M := by
    rw [hM]
    have : 0 ≤ 20 * K ^ 2 * (γ / 1) * (L + 1) := by positivity
    linarith
  have small : ∀ a b, cs = a ++ b → 10 * K ^ 2 * (y0 * (1 + A * dt) ^ (imusOf a).length * M ^ usableCount a) ≤ ρ := by
    intro a b hab
    refine le_trans ?_ hρ
    refine mul_le_mul_of_nonneg_left ?_ (by positivity)
    rw [hab, imus_cat, usable_append, List.length_append]
    refine mul_le_mul ?_ (pow_le_pow_right₀ hM1 (Nat.le_add_right _ _)) (by positivity) (by positivity)
    exact mul_le_mul_of_nonneg_left (pow_le_pow_right₀ hg1 (Nat.le_add_right _ _)) hy
  have count : ∀ a b, cs = a ++ b → ((imusOf a).length : ℝ) * dt + (imusOf b).length * dt ≤ T := by
    intro a b hab
    rw [hab, imus_cat, List.length_append] at hT
    push_cast at hT
    linarith
  induction a using List.reverseRecOn with
  | nil =>
    intro b _
    refine ⟨e0, 0, he0, ?_, ?_, fun hh => absurd rfl hh, ?_, ?_⟩
    · simpa [imusOf, usableCount, fixesOf] using h0
    · simpa [imusOf, filterAfter, fromFirstSample, filterCalls, frun] using H0
    · simpa [filterAfter, fromFirstSample, filterCalls, frun] using X0
    · simpa [imusOf, usableCount, fixesOf, filterAfter, fromFirstSample, filterCalls, frun] using P0
  | append_singleton a c' ih =>
    intro b hab
    have hab' : cs = a ++ c' :: b := by rw [hab]; simp
    obtain ⟨e, β, he, hle, H, hC, X, P⟩ := ih (c' :: b) hab'
    have hsm := small a _ hab'
    have hcount := count (a ++ [c']) b hab
    have ht0 : 0 ≤ ((imusOf a).length : ℝ) * dt := by positivity
    have hb0 : 0 ≤ ((imusOf b).length : ℝ) * dt := by positivity
    have hβ := H.pos
    have hE : 10 * K ^ 2 * (e + 20 * K ^ 2 * β + dt) ≤ ρ := by
      refine le_trans (mul_le_mul_of_nonneg_left ?_ (by positivity)) hsm
      linarith
    have hst' : 50 * K ^ 3 * dt ≤ 1 := by rw [← hA]; exact hst
    have other : filterCalls [c'] = [] → imusOf (a ++ [c']) = imusOf a → usableCount (a ++ [c']) = usableCount a → ∃ e β, 0 ≤ e ∧
        e + 20 * K ^ 2 * β + dt + ε ≤ y0 * (1 + A * dt) ^ (imusOf (a ++ [c'])).length * M ^ usableCount (a ++ [c']) ∧
        Held K dt δ N o lat lon h v C ((imusOf (a ++ [c'])).length * dt) e β (filterAfter s0 (a ++ [c'])).2 ∧
        (imusOf (a ++ [c']) ≠ [] → (filterAfter s0 (a ++ [c'])).2.ins.nav.Cne = llaToCne ⟨(filterAfter s0 (a ++ [c'])).2.ins.nav.pos 0, (filterAfter s0 (a ++ [c'])).2.ins.nav.pos 1⟩ ∧ attitudeOk (filterAfter s0 (a ++ [c'])).2.ins.nav) ∧
        (Fixed o (filterAfter s0 (a ++ [c'])).2 ∧ Form (filterAfter s0 (a ++ [c'])).2.kf.P ((imusOf (a ++ [c'])).length * x * (1 + D * dt) ^ (imusOf (a ++ [c'])).length * Λ ^ usableCount (a ++ [c']))
          ((s ^ 2 + (imusOf (a ++ [c'])).length * (3 * Q * dt)) * (1 + D * dt) ^ (imusOf (a ++ [c'])).length)) := by
      intro q1 q2 q3
      rw [q2, q3, after_other s0 a c' q1]
      exact ⟨e, β, he, hle, H, hC, X, P⟩
    have q2 : imusOf [c'] = [] → imusOf (a ++ [c']) = imusOf a := by intro q; rw [imus_cat, q, List.append_nil]
    have q3 : usableCount [c'] = 0 → usableCount (a ++ [c']) = usableCount a := by intro q; rw [usable_append, q, Nat.add_zero]
    rcases c' with ⟨o, n, j⟩ | (_ | m) | (_ | m) | _ | _ | _ | _ | p' | _
    case time.some =>
      have l1 : (imusOf (a ++ [.time (some m)])).length = (imusOf a).length + 1 := by rw [imus_cat, List.length_append]; rfl
      rw [l1] at hcount
      push_cast at hcount
      obtain ⟨r1, r2⟩ := hr a m b hab'
      have Y := cov_time k hV F ha H ht0 (by linarith) he hd hE hst' hgs has (filterAfter s0 a).1 m r1 r2 X hc h9 h10 (by positivity) (by positivity) hQ0 hQ P
      have X' : Fixed o ((filterAfter s0 a).2.timeUpdate (filterAfter s0 a).1 m).2 := fixed_time _ m X
      obtain ⟨e', β', he', hle', H', hC'⟩ := held_time k F ha H ht0 (by linarith) he hd hE hst' hgs has (filterAfter s0 a).1 m r1 r2
      rw [after_time, l1, usable_append]
      refine ⟨e', β', he', ?_, ?_, fun _ => hC', X', ?_⟩
      · have e1 : usableCount [.time (some m)] = 0 := by simp [usableCount, fixesOf]
        rw [e1]
        rw [← hA] at hle'
        have g0 : 0 ≤ 1 + A * dt := by linarith
        have g2 := mul_le_mul_of_nonneg_right hle g0
        have g3 : ε ≤ ε * (1 + A * dt) := le_mul_of_one_le_right hε hg1
        have g4 : (e + 20 * K ^ 2 * β + dt + ε) * (1 + A * dt) = (e + 20 * K ^ 2 * β + dt) * (1 + A * dt) + ε * (1 + A * dt) := by ring
        have g5 : e' + 20 * K ^ 2 * β' + dt + ε ≤ y0 * (1 + A * dt) ^ (imusOf a).length * M ^ usableCount a * (1 + A * dt) := by linarith
        exact g5.trans (le_of_eq (by ring))
      · have e1 : (((imusOf a).length + 1 : ℕ) : ℝ) * dt = (imusOf a).length * dt + dt := by push_cast; ring
        rw [e1]; exact H'
      · have e1 : usableCount [.time (some m)] = 0 := by simp [usableCount, fixesOf]
        rw [e1, Nat.add_zero]
        rw [← hx'] at Y
        refine Y.mono ?_ ?_
        · refine cov_grow_lower hD hcd hD1 x0 gD Λ1 ?_
          rfl
        · exact cov_grow_upper hD hcd hD1 hd.le hQ0 gD (sq_nonneg s)
    case gnss.some =>
      have l1 := q2 rfl
      rw [l1] at hcount ⊢
      by_cases hi : imusOf a = []
      · have e1 : filterAfter s0 (a ++ [.gnss (some m)]) = filterAfter s0 a := by
          rw [after_none s0 a hi, after_none s0 _ (by rw [l1]; exact hi)]
        rw [e1]
        refine ⟨e, β, he, hle.trans ?_, H, hC, X, P.mono ?_ (le_refl _)⟩
        swap
        · rw [usable_append, pow_add, ← mul_assoc]
          exact le_mul_of_one_le_right (by positivity) (one_le_pow₀ Λ1)
        rw [usable_append, pow_add, ← mul_assoc]
        exact le_mul_of_one_le_right (by positivity) (one_le_pow₀ hM1)
      rw [after_gnss s0 a m hi]
      by_cases hu : usable m.mode
      · have hcne := (hC hi).1
        have rot : isRot (filterAfter s0 a).2.ins.nav.Cne := by rw [hcne]; exact (C41_position_quaternion _).2.2
        have sm : Small K ρ e dt := by
          refine ⟨he, hd, ?_, hst'⟩
          refine le_trans (mul_le_mul_of_nonneg_left ?_ (by positivity)) hE
          have : 0 ≤ 20 * K ^ 2 * β := by positivity
          linarith
        have hA1 := hant e _ _ H.near sm ht0 (by linarith) hcne H.arm
        have bnd1 := prefE a _ hab'
        have bnd2 := prefO a _ hab'
        have b0 : 0 ≤ (7 * (1 + l)) ^ 2 := sq_nonneg _
        have hWa := le_trans (add_le_add bnd2 (mul_le_mul_of_nonneg_left bnd1 (by norm_num : (0:ℝ) ≤ 2))) hW
        obtain ⟨H', P'⟩ := cov_fix m hu H he hσ hL hl rot hA1 (hx a m b hab' hu hi _ rfl) P (by positivity) (by positivity) hr2 (le_trans (mul_le_mul_of_nonneg_left bnd1 b0) hb) hWa
        rw [← hγ] at H'
        rw [← hΛ] at P'
        refine ⟨e, _, he, ?_, H', fun _ => ?_, fixed_gnss m X, ?_⟩
        · rw [usable_append, usable_one m hu, pow_succ M]
          exact (fix_growth hK he hβ hd hε γ0 one_pos hL hM hle).trans (le_of_eq (by ring))
        · obtain ⟨-, -, ⟨j, hj⟩, -⟩ := gnss_rest (filterAfter s0 a).2 m hu
          dsimp only
          rw [hj]; exact hC hi
        · rw [usable_append, usable_one m hu]
          refine P'.mono (le_of_eq ?_) (le_refl _)
          rw [pow_succ Λ]; ring
      · rw [q3 (by simp [usableCount, fixesOf, hu])]
        refine ⟨e, β, he, hle, held_unused m hu H, fun hh => ?_, fixed_gnss m X, ?_⟩
        swap
        · obtain ⟨j, hj⟩ := gnss_unused (filterAfter s0 a).2 m hu
          dsimp only
          rw [hj]; exact P
        obtain ⟨j, hj⟩ := gnss_unused (filterAfter s0 a).2 m hu
        dsimp only
        rw [hj]; exact hC hh
    all_goals exact other rfl (q2 rfl) (q3 (by simp [usableCount, fixesOf]))

end Verif.Props
