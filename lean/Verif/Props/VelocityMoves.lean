import Verif.Props.TrueForce
import Verif.Props.Rigid
import Verif.Spec.VelocityMoves
/-! C200: between corrections the velocity moves by what is measured, gravity and Coriolis only. -/
namespace Verif.Props
open Verif Verif.Spec Verif.Convert Matrix

theorem impulse_le (gp ap w a : V3 ℝ) : len (impulse gp ap w a) ≤ len a * (1 + len w / 2 + len gp / 12) + len ap * len w / 12 := by
  unfold impulse
  have h1 := len_add_le (a + (1 / 2 : ℝ) • xp w a) ((1 / 12 : ℝ) • (xp gp a + xp ap w))
  have h2 := len_add_le a ((1 / 2 : ℝ) • xp w a)
  have h3 := len_add_le (xp gp a) (xp ap w)
  rw [len_smul, abs_of_pos (by norm_num : (0 : ℝ) < 1 / 12)] at h1
  rw [len_smul, abs_of_pos (by norm_num : (0 : ℝ) < 1 / 2)] at h2
  have h4 := len_xp_le w a
  have h5 := len_xp_le gp a
  have h6 := len_xp_le ap w
  nlinarith

theorem next_rotation (g : ℝ) (s : Ins ℝ) (m : Imu ℝ) (hq : qsq s.nav.Qbn = 1) :
    qsq (s.forwardImu g m).2.nav.Qbn = 1 ∧ (s.forwardImu g m).2.nav.Cbn = quatToDcm (s.forwardImu g m).2.nav.Qbn := by
  refine ⟨?_, rfl⟩
  exact (flight_near [m] g s hq (Quaternion.coe 1) (by simp) 1 (.inl rfl)).1

/-- C200: over any run without a correction, the velocity changes by what gravity and the Coriolis acceleration add at the places passed, and by no
more than the accelerometer increments (times one plus small turns) besides. -/
theorem C200_velocity_moves (ms : List (Imu ℝ)) : ∀ (g : ℝ) (s : Ins ℝ), qsq s.nav.Qbn = 1 → s.nav.Cbn = quatToDcm s.nav.Qbn →
    len ((flight g s ms).2.nav.vn - s.nav.vn - fallen g s ms) ≤ pushed g s ms := by
  induction ms with
  | nil => intro g s _ _; simp [flight, fallen, pushed, len]
  | cons m ms ih =>
    intro g s hq hC
    obtain ⟨hq', hC'⟩ := next_rotation g s m hq
    have h := ih (s.forwardImu g m).1 (s.forwardImu g m).2 hq' hC'
    have hfl : flight g s (m :: ms) = flight (s.forwardImu g m).1 (s.forwardImu g m).2 ms := rfl
    rw [hfl, fallen, pushed]
    have hv := velocity_after g s m
    have hi := impulse_le s.gyroPre s.accePre (increment s.nav s.dt m.gyro) (forceIncrement s.nav s.dt m.acce)
    have hR : ∀ x, len (s.nav.Cbn *ᵥ x) = len x := by
      intro x; rw [hC]; show len ((s.nav.Qbn.toRot : M3 ℝ) *ᵥ x) = _; rw [toRot_eq _ hq]; exact len_rot _ hq x
    generalize impulse s.gyroPre s.accePre (increment s.nav s.dt m.gyro) (forceIncrement s.nav s.dt m.acce) = I at *
    generalize (flight (s.forwardImu g m).1 (s.forwardImu g m).2 ms).2.nav.vn = vN at *
    generalize fallen (s.forwardImu g m).1 (s.forwardImu g m).2 ms = fN at *
    generalize pushed (s.forwardImu g m).1 (s.forwardImu g m).2 ms = pN at *
    generalize (s.forwardImu g m).2.nav.vn = v1 at *
    generalize len (forceIncrement s.nav s.dt m.acce) * (1 + len (increment s.nav s.dt m.gyro) / 2 + len s.gyroPre / 12) +
      len s.accePre * len (increment s.nav s.dt m.gyro) / 12 = B at *
    have e : vN - s.nav.vn - (fallAhead s + fN) = (vN - v1 - fN) + (s.nav.Cbn *ᵥ I - (1 / 2 : ℝ) • xp (frameAhead s) (s.nav.Cbn *ᵥ I)) := by
      rw [hv]; abel
    rw [e]
    refine (len_add_le _ _).trans ?_
    have h2 := len_sub_le (s.nav.Cbn *ᵥ I) ((1 / 2 : ℝ) • xp (frameAhead s) (s.nav.Cbn *ᵥ I))
    rw [len_smul, abs_of_pos (by norm_num : (0 : ℝ) < 1 / 2)] at h2
    have h3 := len_xp_le (frameAhead s) (s.nav.Cbn *ᵥ I)
    rw [hR] at h2 h3
    have hz := len_nonneg (frameAhead s)
    have h4 := mul_le_mul_of_nonneg_left hi (by positivity : 0 ≤ 1 + len (frameAhead s) / 2)
    nlinarith

/-- C200: accelerometers that read nothing (after their corrections) leave the velocity to gravity and the Coriolis acceleration exactly. -/
theorem C200_free_fall (ms : List (Imu ℝ)) : ∀ (g : ℝ) (s : Ins ℝ), s.accePre = 0 →
    (∀ m ∈ ms, forceIncrement s.nav s.dt m.acce = 0) → (flight g s ms).2.nav.vn = s.nav.vn + fallen g s ms := by
  induction ms with
  | nil => intro g s _ _; simp [flight, fallen]
  | cons m ms ih =>
    intro g s hp ha
    have h0 := ha m (by simp)
    have hv := velocity_after g s m
    have hpre : (s.forwardImu g m).2.accePre = 0 := by
      show Ins.compensate s.dt m.acce s.nav.ab s.nav.as = 0
      rw [force_compensated, h0]
    have hfl : flight g s (m :: ms) = flight (s.forwardImu g m).1 (s.forwardImu g m).2 ms := rfl
    have h := ih (s.forwardImu g m).1 (s.forwardImu g m).2 hpre (fun m' hm' => ha m' (by simp [hm']))
    rw [hfl, h, fallen, hv, h0, hp]
    have hI : impulse s.gyroPre 0 (increment s.nav s.dt m.gyro) 0 = 0 := by
      unfold impulse
      have : ∀ x : V3 ℝ, xp x 0 = 0 := by intro x; ext i; fin_cases i <;> simp [xp]
      rw [this, this, xp_zero]; simp
    have : ∀ x : V3 ℝ, xp x 0 = 0 := by intro x; ext i; fin_cases i <;> simp [xp]
    rw [hI, mulVec_zero, this]
    simp [add_assoc]

/-- What gravity and Coriolis add is not nothing: in one sample of a device at rest on the earth it is the interval times gravity. -/
example (g : ℝ) (s : Ins ℝ) (m : Imu ℝ) (h : Parked s.nav) :
    (qsq s.nav.Qbn = 1 ∧ s.nav.Cbn = quatToDcm s.nav.Qbn) ∧ fallen g s [m] = s.dt • ![0, 0, Earth.gravity (s.nav.pos 0) (s.nav.pos 2)] := by
  refine ⟨⟨h.con.unit, h.con.dcm⟩, ?_⟩
  obtain ⟨-, e2, -⟩ := extrapolate_rest s h
  have hv : ∀ x : V3 ℝ, xp x s.nav.vn = 0 := by intro x; rw [h.vn]; ext i; fin_cases i <;> simp [xp]
  rw [fallen, fallen, add_zero, fallAhead, hv, e2, sub_zero]
end Verif.Props
