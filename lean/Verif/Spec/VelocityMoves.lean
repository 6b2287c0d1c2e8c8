import Verif.Spec.TrueForce
/-! How far the velocity may move between corrections. -/
namespace Verif.Spec
open Verif Matrix

/-- Over a run: what gravity and the Coriolis acceleration add to the velocity. -/
noncomputable def fallen : ℝ → Ins ℝ → List (Imu ℝ) → V3 ℝ
  | _, _, [] => 0
  | g, s, m :: ms => fallAhead s + fallen (s.forwardImu g m).1 (s.forwardImu g m).2 ms

/-- Over a run: at most what the accelerometers can add, from their increments and those of the gyroscopes, this sample's and the last one's. -/
noncomputable def pushed : ℝ → Ins ℝ → List (Imu ℝ) → ℝ
  | _, _, [] => 0
  | g, s, m :: ms =>
    let w := increment s.nav s.dt m.gyro
    let a := forceIncrement s.nav s.dt m.acce
    (1 + len (frameAhead s) / 2) * (len a * (1 + len w / 2 + len s.gyroPre / 12) + len s.accePre * len w / 12) +
      pushed (s.forwardImu g m).1 (s.forwardImu g m).2 ms
end Verif.Spec
