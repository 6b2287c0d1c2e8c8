import Verif.Model.FileIO
import Verif.Model.Earth
import Verif.Model.Config
/-! Model of two outputs of `/repo/App/AppCommon/FileIO.cpp`: the rows of doubles of the writer thread
(`ConvertNavToDouble`, 152-172) and the report of the IMU parameters (`operator<<(ostream, ImuPara)`, 71-101). -/
namespace Verif
variable {α : Type} [Add α] [Sub α] [Mul α] [Neg α] [Div α] [Zero α] [One α] [Fl α]

/-- `NavDoubleList`, FileIO.h:51-60. -/
structure NavRow (α : Type) where
  gpst : α
  pos : V3 α
  horiz : Fin 2 → α
  vn : V3 α
  atti : V3 α
  posStd : V3 α
  vnStd : V3 α
  attiStd : V3 α

/-- `ConvertNavToDouble`, FileIO.cpp:152-172. `base_position` is a static array of zeros that nothing changes. The
deviations, velocities and angles are `float` in `NavOutput` and are widened, which keeps their values. -/
def navToDouble (nav : NavOutput α) : NavRow α :=
  let base : V3 α := zero3
  let delta := Earth.distance4 (nav.lat * deg) (nav.lon * deg) (base 0 * deg) (base 1 * deg)
  { gpst := nav.gpst
    pos := v3 nav.lat nav.lon nav.height
    horiz := fun i => if i.val = 0 then delta 1 else delta 0
    vn := nav.vn, atti := nav.atti, posStd := nav.posStd, vnStd := nav.vnStd, attiStd := nav.attiStd }

/-- The members in the order they lie in memory, FileIO.h:51-60. All are doubles: there is no padding. -/
def NavRow.values (r : NavRow α) : List α :=
  [r.gpst, r.pos 0, r.pos 1, r.pos 2, r.horiz 0, r.horiz 1, r.vn 0, r.vn 1, r.vn 2, r.atti 0, r.atti 1, r.atti 2,
   r.posStd 0, r.posStd 1, r.posStd 2, r.vnStd 0, r.vnStd 1, r.vnStd 2, r.attiStd 0, r.attiStd 1, r.attiStd 2]

/-- `f_nav.write((char *) &ndl, sizeof(NavDoubleList))`, FileIO.cpp:189; `enc` gives the bytes of a double. -/
def NavRow.bytes (enc : α → List (BitVec 8)) (r : NavRow α) : List (BitVec 8) := r.values.flatMap enc

/-- What the thread writes for the results taken from the queue in matrix format, FileIO.cpp:180-193. -/
def matrixFile (enc : α → List (BitVec 8)) (rs : List (NavOutput α)) : List (BitVec 8) :=
  rs.flatMap fun r => (navToDouble r).bytes enc

/-- The numbers printed by `operator<<(ostream, ImuPara)`, FileIO.cpp:71-101, in order. -/
def paraReport (p : ImuPara α) : List α :=
  [p.arw / deg * Fl.lit 60, p.vrw * Fl.lit 60,
   p.gbStd 0 / deg * hour, p.gbStd 1 / deg * hour, p.gbStd 2 / deg * hour,
   p.abStd 0 / mGal, p.abStd 1 / mGal, p.abStd 2 / mGal,
   p.gsStd 0 / ppm, p.gsStd 1 / ppm, p.gsStd 2 / ppm,
   p.asStd 0 / ppm, p.asStd 1 / ppm, p.asStd 2 / ppm,
   p.gbIni 0 / deg * hour, p.gbIni 1 / deg * hour, p.gbIni 2 / deg * hour,
   p.abIni 0 / mGal, p.abIni 1 / mGal, p.abIni 2 / mGal,
   p.atCorr / hour, p.gtCorr / hour]
end Verif
