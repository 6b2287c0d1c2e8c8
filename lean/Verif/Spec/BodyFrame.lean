import Verif.Spec.Rotation
import Verif.Model.Api
/-! The same vehicle with its IMU mounted differently. `R` turns coordinates in the old IMU axes into coordinates in
the new ones. -/
namespace Verif.Spec
open Verif Matrix

/-- The attitude matrix of three angles: roll about the first axis, then pitch about the second, then heading about
the third. -/
noncomputable def attMatrix (e : V3 ℝ) : M3 ℝ := Rz (e 2) * Ry (e 1) * Rx (e 0)

/-- The options of the same vehicle for the IMU mounted differently: everything given in IMU axes (initial biases, both
lever arms, the offset of the projected result) is turned, and the two stated mounting angles (of the IMU in the
vehicle, and of the projected result) are any angles whose matrices are the turned ones. -/
structure Remounted (R : M3 ℝ) (o o' : Opt ℝ) : Prop where
  rest : o' = { o with
    imuPara := { o.imuPara with gbIni := R *ᵥ o.imuPara.gbIni, abIni := R *ᵥ o.imuPara.abIni }
    lbGnss := R *ᵥ o.lbGnss
    lbWheel := R *ᵥ o.lbWheel
    posProject := R *ᵥ o.posProject
    angleBv := o'.angleBv
    attiProject := o'.attiProject }
  vehicle : attMatrix o'.angleBv = attMatrix o.angleBv * Rᵀ
  output : attMatrix o'.attiProject = R * attMatrix o.attiProject

/-- The stated sensor properties are the same for the three axes, and the zero angular rate update, which treats the
third axis differently, is off. -/
structure AxesAlike (o : Opt ℝ) : Prop where
  gbStd : ∀ i, o.imuPara.gbStd i = o.imuPara.gbStd 0
  abStd : ∀ i, o.imuPara.abStd i = o.imuPara.abStd 0
  gs : ∀ i, o.imuPara.gsIni i = o.imuPara.gsIni 0
  as : ∀ i, o.imuPara.asIni i = o.imuPara.asIni 0
  zupta : o.zuptaEnable = 0

/-- The given state for the IMU mounted differently: only the attitude angles (in degrees) change, to any angles whose
matrix is the turned one. -/
def sameState (R : M3 ℝ) (n n' : NavOutput ℝ) : Prop :=
  n' = { n with atti := n'.atti } ∧
  attMatrix (fun i => n'.atti i * (Real.pi / 180)) = attMatrix (fun i => n.atti i * (Real.pi / 180)) * Rᵀ

/-- The sample the IMU mounted differently delivers. -/
def turnImu (R : M3 ℝ) (m : Imu ℝ) : Imu ℝ := { m with acce := R *ᵥ m.acce, gyro := R *ᵥ m.gyro }

/-- Corresponding calls of the two runs. -/
inductive RemountCall (R : M3 ℝ) : Call ℝ → Call ℝ → Prop
  | init (o o' : Opt ℝ) (n n' : NavOutput ℝ) (j : Junk ℝ) (given : o.alignMode = ALIGN_USE_GIVEN) (alike : AxesAlike o)
      (opt : Remounted R o o') (nav : sameState R n n') : RemountCall R (.init o (some n) j) (.init o' (some n') j)
  | time (m : Imu ℝ) : RemountCall R (.time (some m)) (.time (some (turnImu R m)))
  | time0 : RemountCall R (.time none) (.time none)
  | gnss (m : Option (Gnss ℝ)) : RemountCall R (.gnss m) (.gnss m)
  | query (c : Call ℝ) (h : c.isQuery = true) : RemountCall R c c
  | deinit : RemountCall R .deinit .deinit
end Verif.Spec
