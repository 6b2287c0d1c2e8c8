import Verif.Model.Ins
/-! Model of the parts of class `Ins` (`/repo/Src/InsCore.cpp`) that are used when the mechanization is run on its own, without
the filter (Test/test_ins.cpp): the second form of `InitializePva` and `Output`. -/
namespace Verif
variable {α : Type} [Add α] [Sub α] [Mul α] [Neg α] [Div α] [Zero α] [One α] [Fl α]

namespace Ins
/-- `InitializePva(nav, imu)`, InsCore.cpp:171-178; returns the new gravity as well. The interval is 5 ms whatever the rate of the data is, and
the sample is kept as it was measured. -/
def initializePvaSample (s : Ins α) (nav : NavEpoch α) (imu : Imu α) : α × Ins α :=
  (Earth.gravity (nav.pos 0) (nav.pos 2),
   { s with dt := Fl.lit (5 / 1000), nav := nav, accePre := imu.acce, gyroPre := imu.gyro })

/-- `Ins::Output`, InsCore.cpp:202-218. The members of the static result that are not assigned are zero; all that are assigned are
assigned at every call, so nothing of an earlier call is left. -/
def output (s : Ins α) : NavOutput α :=
  { week := s.nav.week, gpst := s.nav.gpst, lat := s.nav.pos 0 / deg, lon := s.nav.pos 1 / deg, height := Fl.f32 (s.nav.pos 2)
    posStd := zero3, vn := fun i => Fl.f32 (s.nav.vn i), vnStd := zero3, atti := fun i => Fl.f32 (s.nav.atti i / deg), attiStd := zero3
    info := s.nav.info, gb := fun i => Fl.f32 (s.nav.gb i / deg * hour), ab := fun i => Fl.f32 (s.nav.ab i / mGal)
    gs := zero3, as := zero3, kd := 0 }

/-- One `ForwardMechanization(imu)` (InsCore.cpp:120-131) after the other, as in the loop of Test/test_ins.cpp:39-44. -/
def run : List (Imu α) → α × Ins α → α × Ins α
  | [], s => s
  | m :: ms, s => run ms (s.2.forwardImu s.1 m)
end Ins
end Verif
