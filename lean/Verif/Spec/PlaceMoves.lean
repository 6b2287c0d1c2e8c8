import Verif.Spec.EarthAttitude
/-! How far the position kept may move between corrections. -/
namespace Verif.Spec
open Verif Matrix

/-- The rotation of the earth, seen in the axes of the navigation frame a position quaternion stands for. -/
noncomputable def earthSeen (q : Quat ℝ) : V3 ℝ := fun i => earthW * q.toRot 2 i

/-- The mean velocity over one sample. -/
noncomputable def meanVelocity (s : Ins ℝ) (m : Imu ℝ) (g : ℝ) : V3 ℝ := fun j => (s.nav.vn j + (s.forwardImu g m).2.nav.vn j) / 2

/-- For each sample: the angle the navigation frame may move over the earth. It is the interval times the transport rate of the mean velocity
and the error of the earth rate used, and twice the truncation error of the two turns. -/
noncomputable def frameMoves : ℝ → Ins ℝ → List (Imu ℝ) → List ℝ
  | _, _, [] => []
  | g, s, m :: ms =>
    let place := s.extrapolate.2.posMid
    (s.dt * (len (transportRate (meanVelocity s m g) (place 0) (place 2)) + len (fun i => earthRate (place 0) i - earthSeen s.nav.Qne i)) +
      2 * (seriesError (earthAxisTurn s.dt) + seriesError (placeTurn s (s.forwardImu g m).2.nav))) ::
      frameMoves (s.forwardImu g m).1 (s.forwardImu g m).2 ms

/-- A run at horizontal speeds of at most `V`, above the ellipsoid, with `k ≤ cos lat`, and the earth rate used right up to `μ`. -/
def Calm (V k μ : ℝ) : ℝ → Ins ℝ → List (Imu ℝ) → Prop
  | _, _, [] => True
  | g, s, m :: ms =>
    (meanVelocity s m g 0 ^ 2 + meanVelocity s m g 1 ^ 2 ≤ V ^ 2 ∧ k ≤ Real.cos (s.extrapolate.2.posMid 0) ∧ 0 ≤ s.extrapolate.2.posMid 2 ∧
      len (fun i => earthRate (s.extrapolate.2.posMid 0) i - earthSeen s.nav.Qne i) ≤ μ) ∧
      Calm V k μ (s.forwardImu g m).1 (s.forwardImu g m).2 ms
end Verif.Spec
