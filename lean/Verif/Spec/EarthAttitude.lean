import Verif.Spec.Turning
/-! The attitude of the device relative to the earth. -/
namespace Verif.Spec
open Verif Matrix

/-- The turns of the body, from its gyroscope readings alone: bias and scale factor of the epoch `n`, the interval and the increment before
the first reading are given. -/
noncomputable def bodyTurns (n : NavEpoch ℝ) (dt : ℝ) : V3 ℝ → List (V3 ℝ) → List (V3 ℝ)
  | _, [] => []
  | prev, w :: ws => bodyTurn prev (increment n dt w) :: bodyTurns n dt (increment n dt w) ws

/-- The earth turns about its own axis. -/
noncomputable def earthAxisTurn (dt : ℝ) : V3 ℝ := ![0, 0, earthW * dt]

/-- The attitude relative to the earth (body to earth-fixed axes): what the gyroscopes say, and the earth turning away below. -/
noncomputable def overEarth (dt : ℝ) (bs : List (V3 ℝ)) (C : M3 ℝ) : M3 ℝ := bs.foldl (fun C b => (turnM (earthAxisTurn dt))ᵀ * C * turnM b) C

/-- The turn of the navigation frame used to move the position: at the mean velocity, and at the latitude and height the program extrapolated
for the middle of the interval. -/
noncomputable def placeTurn (s : Ins ℝ) (next : NavEpoch ℝ) : V3 ℝ :=
  let place := s.extrapolate.2.posMid
  fun i => (earthRate (place 0) i + transportRate (fun j => (s.nav.vn j + next.vn j) / 2) (place 0) (place 2) i) * s.dt

/-- For each sample: the difference between the turn that moved the position and the one taken out of the attitude. -/
noncomputable def frameMismatch : ℝ → Ins ℝ → List (Imu ℝ) → List ℝ
  | _, _, [] => []
  | g, s, m :: ms =>
    let next := s.forwardImu g m
    len (fun i => placeTurn s next.2.nav i - navFrameTurn s.dt s.nav next.2.nav i) :: frameMismatch next.1 next.2 ms

/-- For each sample: the truncation errors of the four turns computed. -/
noncomputable def fourSeries : ℝ → Ins ℝ → V3 ℝ → List (Imu ℝ) → List ℝ
  | _, _, _, [] => []
  | g, s, prev, m :: ms =>
    let next := s.forwardImu g m
    let cur := increment s.nav s.dt m.gyro
    (seriesError (earthAxisTurn s.dt) + seriesError (placeTurn s next.2.nav) + seriesError (navFrameTurn s.dt s.nav next.2.nav) +
      seriesError (bodyTurn prev cur)) :: fourSeries next.1 next.2 cur ms
end Verif.Spec
