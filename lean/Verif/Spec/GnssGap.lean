import Verif.Spec.Coasting
import Verif.Spec.Api
/-! Vocabulary for a gap in the GNSS reception of a navigating instance. -/
namespace Verif.Spec
open Verif Matrix
variable {α : Type}

/-- A history that ends with two usable fixes at most 1000 samples apart. -/
def endsWithCloseFixes (cs : List (Call α)) : Prop := ∃ (before between : List (Call α)) (m1 m2 : Gnss α),
  cs = before ++ .gnss (some m1) :: (between ++ [.gnss (some m2)]) ∧ usable m1.mode ∧ usable m2.mode ∧ (imusOf between).length ≤ 1000

/-- After the history, a stretch of calls has had enough samples for the last correction to be used up: 1000, or one if the last two
usable fixes were at most 1000 samples apart. -/
def correctionDone (history stretch : List (Call α)) : Prop :=
  1000 ≤ (imusOf stretch).length ∨ (1 ≤ (imusOf stretch).length ∧ endsWithCloseFixes history)

/-- A result reports the navigation state: place and attitude in degrees, velocity, time, and the sensor errors in degrees per hour, mGal and parts
per million. -/
structure ReportOf [Mul α] [Div α] [Fl α] (r : NavOutput α) (e : NavEpoch α) : Prop where
  lat : r.lat = e.pos 0 / deg
  lon : r.lon = e.pos 1 / deg
  height : r.height = e.pos 2
  vel : r.vn = e.vn
  atti : r.atti = vd e.atti deg
  time : r.gpst = e.gpst ∧ r.week = e.week
  gb : r.gb = vs (vd e.gb deg) hour
  ab : r.ab = vd e.ab mGal
  gs : r.gs = vd e.gs ppm
  as : r.as = vd e.as ppm

/-- The sensor errors a result reports (degrees per hour, mGal, parts per million), in SI units. -/
noncomputable def reportedErrors (p : ImuPara ℝ) (q : NavOutput ℝ) : ImuPara ℝ :=
  { p with gbIni := fun i => q.gb i * (Real.pi / 180) / 3600, abIni := fun i => q.ab i / 100000, gsIni := fun i => q.gs i / 1000000, asIni := fun i => q.as i / 1000000 }

/-- The distance of two quaternions. -/
noncomputable def quatDist (a b : Quat ℝ) : ℝ := Real.sqrt ((a.w - b.w) ^ 2 + (a.x - b.x) ^ 2 + (a.y - b.y) ^ 2 + (a.z - b.z) ^ 2)

/-- The navigation state an instance holds is within `e` of the truth at time 0: the unit quaternion of the place (`Qne`, from which latitude and longitude are
read, C29), height, velocity, attitude matrix; and what the last sample left in it, velocity increment and readings, is at most `b` times the sampling interval. -/
structure HeldNear (b e : ℝ) (s : Ins ℝ) (lat lon h : ℝ → ℝ) (v : ℝ → V3 ℝ) (C : ℝ → M3 ℝ) : Prop where
  place : quatDist s.nav.Qne (Convert.llaToQne ⟨lat 0, lon 0⟩) ≤ e
  height : |s.nav.pos 2 - h 0| ≤ e
  vel : len (s.nav.vn - v 0) ≤ e
  att : ∀ x, len (s.nav.Cbn *ᵥ x - C 0 *ᵥ x) ≤ e * len x
  dvn : len s.nav.dvn ≤ b * s.dt
  gyro : len s.gyroPre ≤ b * s.dt
  acce : len s.accePre ≤ b * s.dt
end Verif.Spec
