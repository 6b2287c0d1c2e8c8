import Verif.Spec.TrueForce
import Verif.Props.Gravity
/-! A true flight over the earth, by the navigation equations, and perfect sensors on it. -/
namespace Verif.Spec
open Verif Matrix Verif.Props

/-- Limits of a flight: latitude, longitude, height, speed, angular rate, specific force. -/
structure Limits where
  lat : ℝ
  lon : ℝ
  height : ℝ
  speed : ℝ
  rate : ℝ
  force : ℝ

/-- Away from the poles and from the meridian of 180 degrees. -/
structure Limits.Sane (B : Limits) : Prop where
  lat : B.lat < Real.pi / 2
  lon : B.lon < Real.pi
  height : B.height ≤ 1000000

/-- A flight from time 0 to `T`: latitude, longitude, height, velocity and attitude obey the navigation equations (as in C81) for the angular rate
`w` and the specific force `f`, with the running integrals `θ` and `α`, and stay within the limits. -/
structure TrueFlight (B : Limits) (T : ℝ) (lat lon h : ℝ → ℝ) (v : ℝ → V3 ℝ) (C : ℝ → M3 ℝ) (w θ f α : ℝ → V3 ℝ) : Prop where
  lat_eq : ∀ t, 0 ≤ t → t ≤ T → HasDerivAt lat (posRate (v t) (lat t) (h t) 0) t
  lon_eq : ∀ t, 0 ≤ t → t ≤ T → HasDerivAt lon (posRate (v t) (lat t) (h t) 1) t
  height_eq : ∀ t, 0 ≤ t → t ≤ T → HasDerivAt h (posRate (v t) (lat t) (h t) 2) t
  vel_eq : ∀ t, 0 ≤ t → t ≤ T → ∀ i, HasDerivAt (fun u => v u i) (velRate (C t) (f t) (v t) (lat t) (h t) (normalGravity (lat t) (h t)) i) t
  att_eq : ∀ t, 0 ≤ t → t ≤ T → ∀ i j, HasDerivAt (fun u => C u i j) (attRate (C t) (w t) (v t) (lat t) (h t) i j) t
  angle : ∀ t, 0 ≤ t → t ≤ T → ∀ i, HasDerivAt (fun u => θ u i) (w t i) t
  impulse : ∀ t, 0 ≤ t → t ≤ T → ∀ i, HasDerivAt (fun u => α u i) (f t i) t
  rot : ∀ t, 0 ≤ t → t ≤ T → isRot (C t)
  lat_le : ∀ t, 0 ≤ t → t ≤ T → |lat t| ≤ B.lat
  lon_le : ∀ t, 0 ≤ t → t ≤ T → |lon t| ≤ B.lon
  height_le : ∀ t, 0 ≤ t → t ≤ T → |h t| ≤ B.height
  speed_le : ∀ t, 0 ≤ t → t ≤ T → len (v t) ≤ B.speed
  rate_le : ∀ t, 0 ≤ t → t ≤ T → len (w t) ≤ B.rate
  force_le : ∀ t, 0 ≤ t → t ≤ T → len (f t) ≤ B.force

/-- From time `t` on the readings, without bias and scale factor, are the integrals of angular rate and specific force over their intervals. -/
def PerfectImu (n : NavEpoch ℝ) (dt : ℝ) (θ α : ℝ → V3 ℝ) : ℝ → List (Imu ℝ) → Prop
  | _, [] => True
  | t, m :: ms => (increment n dt m.gyro = θ (t + dt) - θ t ∧ forceIncrement n dt m.acce = α (t + dt) - α t) ∧ PerfectImu n dt θ α (t + dt) ms

/-- The same with errors: of the mean angular rate and of the mean specific force over every interval by at most `δ`. -/
def NearImu (δ : ℝ) (n : NavEpoch ℝ) (dt : ℝ) (θ α : ℝ → V3 ℝ) : ℝ → List (Imu ℝ) → Prop
  | _, [] => True
  | t, m :: ms => (len (increment n dt m.gyro - (θ (t + dt) - θ t)) ≤ δ * dt ∧ len (forceIncrement n dt m.acce - (α (t + dt) - α t)) ≤ δ * dt) ∧
      NearImu δ n dt θ α (t + dt) ms

/-- The device starts with errors of at most `e` in every quantity, freshly initialised. -/
structure StartsNear (e : ℝ) (s : Ins ℝ) (lat lon h : ℝ → ℝ) (v : ℝ → V3 ℝ) (C : ℝ → M3 ℝ) : Prop where
  latitude : |s.nav.pos 0 - lat 0| ≤ e
  longitude : |s.nav.pos 1 - lon 0| ≤ e
  height : |s.nav.pos 2 - h 0| ≤ e
  place : s.nav.Qne = Convert.llaToQne ⟨s.nav.pos 0, s.nav.pos 1⟩
  vel : len (s.nav.vn - v 0) ≤ e
  unit : qsq s.nav.Qbn = 1
  dcm : s.nav.Cbn = Convert.quatToDcm s.nav.Qbn
  att : ∀ x, len (s.nav.Cbn *ᵥ x - C 0 *ᵥ x) ≤ e * len x
  fresh : s.nav.dvn = 0 ∧ s.gyroPre = 0 ∧ s.accePre = 0

/-- The device starts from the truth at time 0, freshly initialised. -/
structure StartsAt (s : Ins ℝ) (lat lon h : ℝ → ℝ) (v : ℝ → V3 ℝ) (C : ℝ → M3 ℝ) : Prop where
  pos : s.nav.pos = ![lat 0, lon 0, h 0]
  place : s.nav.Qne = Convert.llaToQne ⟨lat 0, lon 0⟩
  vel : s.nav.vn = v 0
  unit : qsq s.nav.Qbn = 1
  dcm : s.nav.Cbn = Convert.quatToDcm s.nav.Qbn
  att : s.nav.Cbn = C 0
  fresh : s.nav.dvn = 0 ∧ s.gyroPre = 0 ∧ s.accePre = 0
end Verif.Spec
