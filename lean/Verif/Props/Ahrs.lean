import Verif.Props.Rigid
/-! The attitude reference filter `AttiAhrs`, in exact arithmetic. -/
namespace Verif.Props
open Verif Verif.Spec Verif.Convert Matrix

/-- The public calls of `AttiAhrs` (AttiAhrs.h:22-40) that change it. -/
inductive ACall
  | imu (m : Imu ℝ)
  | mag (gyro acc mag : V3 ℝ)
  | setEuler (e : V3 ℝ)
  | setQuat (q : Quat ℝ)

/-- Their effects. -/
noncomputable def ACall.exec (c : ACall) (a : Ahrs ℝ) : Ahrs ℝ :=
  match c with
  | .imu m => a.updateImu m
  | .mag w f b => a.updateMag w f b
  | .setEuler e => a.setAttiEuler e
  | .setQuat q => a.setAttiQuat q

/-- A history. -/
noncomputable def arun (cs : List ACall) (a : Ahrs ℝ) : Ahrs ℝ := cs.foldl (fun a c => c.exec a) a

/-- Every quaternion set explicitly is non-zero. -/
def quatsOk (cs : List ACall) : Prop := ∀ q, ACall.setQuat q ∈ cs → 0 < qsq q

theorem arun_inv (cs : List ACall) (hc : quatsOk cs) (a : Ahrs ℝ) (h : 0 < qsq a.qnb)
    (hm : a.ebMax = fun _ => Real.pi / 180) :
    0 < qsq (arun cs a).qnb ∧ (arun cs a).ebMax = fun _ => Real.pi / 180 := by
  induction cs generalizing a with
  | nil => exact ⟨h, hm⟩
  | cons c cs ih =>
    have hc' : quatsOk cs := fun q hq => hc q (List.mem_cons_of_mem _ hq)
    refine ih hc' (c.exec a) ?_ ?_
    · cases c with
      | imu m =>
        have : qsq (a.updateImu m).qnb = 1 := prod2_unit _ _ h (rv_pos _)
        show 0 < qsq (a.updateImu m).qnb
        rw [this]; norm_num
      | mag w f b =>
        show 0 < qsq (a.qnb.mul _)
        rw [qsq_mul]; exact mul_pos h (rv_pos _)
      | setEuler e =>
        show 0 < qsq (eulerToQuat e)
        rw [qsq_euler]; norm_num
      | setQuat q => exact hc q (by simp)
    · cases c <;> exact hm

theorem clamp_le (x : ℝ) : |Ahrs.clamp x (Real.pi / 180)| ≤ Real.pi / 180 := by
  have hp := Real.pi_pos
  unfold Ahrs.clamp
  simp only [lt_real]
  split_ifs with h1 h2
  · rw [abs_of_pos (by positivity)]
  · rw [abs_neg, abs_of_pos (by positivity)]
  · rw [abs_le]; constructor <;> linarith

/-- C47: after any history that ends with an IMU sample the quaternion has unit length, the matrix is its rotation
matrix, and every component of the integrated error is at most one degree. -/
theorem C47_ahrs_invariant (dt : ℝ) (cs : List ACall) (hc : quatsOk cs) (m : Imu ℝ) :
    let a := arun (cs ++ [.imu m]) (Ahrs.new dt)
    qsq a.getQnb = 1 ∧ a.Cnb = quatToDcm a.getQnb ∧ isRot a.Cnb ∧ a.getAtti = dcmToEuler (quatToDcm a.getQnb) ∧
    ∀ i, |a.exyzInt i| ≤ Real.pi / 180 := by
  have h0 : 0 < qsq (Ahrs.new dt).qnb := by
    show 0 < qsq (eulerToQuat _); rw [qsq_euler]; norm_num
  have hm0 : (Ahrs.new dt : Ahrs ℝ).ebMax = fun _ => Real.pi / 180 := by
    show vs (v3 1 1 1) (deg : ℝ) = _
    ext i; fin_cases i <;> simp [vs, v3, deg]
  obtain ⟨h, hm⟩ := arun_inv cs hc _ h0 hm0
  intro a
  have ea : a = (arun cs (Ahrs.new dt)).updateImu m := by simp [a, arun, ACall.exec]
  rw [ea]
  generalize arun cs (Ahrs.new dt) = b at h hm
  have h1 : qsq (b.updateImu m).qnb = 1 := prod2_unit _ _ h (rv_pos _)
  refine ⟨h1, rfl, toRot_isRot _ h1, rfl, fun i => ?_⟩
  show |Ahrs.clamp _ (b.ebMax i)| ≤ _
  rw [hm]
  exact clamp_le _

/-- The hypothesis of C47 is met by a history with an explicit non-trivial quaternion. -/
example : quatsOk [.setQuat ⟨0, 1, 0, 0⟩, .imu Smooth.zeroImu] := by
  intro q hq
  simp at hq
  subst hq
  simp [qsq]

/-- C48, the part that holds: angles set are read back (away from gimbal lock), at once. -/
theorem C48_set_angles (a : Ahrs ℝ) (e : V3 ℝ) (hroll : e 0 ∈ Set.Ioc (-Real.pi) Real.pi)
    (hyaw : e 2 ∈ Set.Ioc (-Real.pi) Real.pi) (hpitch : e 1 ∈ Set.Ioo (-(Real.pi / 2)) (Real.pi / 2))
    (hlock : |Real.sin (e 1)| < 999 / 1000) :
    (a.setAttiEuler e).getAtti = e ∧ (a.setAttiEuler e).getQnb = eulerToQuat e := by
  refine ⟨?_, rfl⟩
  show dcmToEuler (quatToDcm (eulerToQuat e)) = e
  rw [(C39_euler_quaternion_agrees e).2, C40_euler_round_trip e hroll hyaw hpitch hlock]

/-- C48, the violation: setting a quaternion does not change the angles read back, whatever the arithmetic. -/
theorem C48_set_quaternion_invisible {α : Type} [Add α] [Sub α] [Mul α] [Neg α] [Div α] [Zero α] [One α] [Fl α]
    (a : Ahrs α) (q : Quat α) : (a.setAttiQuat q).getAtti = a.getAtti ∧ (a.setAttiQuat q).getQnb = q := ⟨rfl, rfl⟩

/-- C48, the violation on a concrete instance: a quarter turn set as quaternion, heading zero read back. -/
theorem C48_quaternion_violation :
    ((Ahrs.new 1).setAttiQuat (eulerToQuat (v3 0 0 (Real.pi / 2)))).getAtti = v3 0 0 0 ∧
    dcmToEuler (quatToDcm (eulerToQuat (v3 0 0 (Real.pi / 2)))) = v3 0 0 (Real.pi / 2) ∧
    (v3 0 0 (Real.pi / 2) : V3 ℝ) ≠ v3 0 0 0 := by
  have hp := Real.pi_pos
  refine ⟨?_, ?_, ?_⟩
  · show dcmToEuler (quatToDcm (eulerToQuat zero3)) = _
    rw [(C39_euler_quaternion_agrees _).2]
    refine C40_euler_round_trip _ ?_ ?_ ?_ ?_ <;> simp [zero3, v3] <;> first | constructor <;> linarith | linarith | norm_num
  · rw [(C39_euler_quaternion_agrees _).2]
    refine C40_euler_round_trip _ ?_ ?_ ?_ ?_ <;> simp [v3] <;> first | constructor <;> linarith | linarith | norm_num
  · intro h
    have := congrFun h 2
    simp [v3] at this
end Verif.Props
