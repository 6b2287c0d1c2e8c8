import Verif.Spec.Turning
import Verif.Spec.Rounding
/-! The run of the mechanization in rounded arithmetic, and the turns it computes. -/
namespace Verif.Spec
open Verif
variable {R : Rounding}

/-- A computed vector, read as exact numbers. -/
def rvec (v : V3 (RR R)) : V3 ℝ := fun i => (v i).v

/-- The state after a list of samples, every operation rounded; the first number is the gravity kept by the program. -/
noncomputable def rflight (g : RR R) (s : Ins (RR R)) (ms : List (Imu (RR R))) : RR R × Ins (RR R) := ms.foldl (fun p m => p.2.forwardImu p.1 m) (g, s)

/-- The turns of the run, one per sample, as the program computed them: that of the navigation frame from the rates and the interval kept in
the state, that of the body from the corrected increments of this and the previous sample. -/
noncomputable def computedTurns : RR R → Ins (RR R) → List (Imu (RR R)) → List Turn
  | _, _, [] => []
  | g, s, m :: ms =>
    let next := s.forwardImu g m
    ⟨rvec (vs (next.2.omegaIeN + next.2.omegaEnN) next.2.dt), rvec (Convert.gyroToRv next.2.gyroPre s.gyroPre)⟩ :: computedTurns next.1 next.2 ms
end Verif.Spec
