import Verif.Types
/-! Model of `/repo/Src/Earth.cpp`, `/repo/Src/Earth.h`. The singleton's only mutable member used,
the gravity `g`, is threaded explicitly by the callers. -/
namespace Verif.Earth
variable {α : Type} [Add α] [Sub α] [Mul α] [Neg α] [Div α] [Zero α] [One α] [Fl α]

/-- `omega_e`, Earth.h:38. -/
def omegaE : α := Fl.lit (72921151467 / 1000000000000000)
/-- `e2`, Earth.h:39. -/
def e2 : α := Fl.lit (669437999013 / 100000000000000)
/-- `g0`, Earth.h:40; also the initial `g`, Earth.h:45. -/
def g0 : α := Fl.lit (97803267715 / 10000000000)
/-- `a`, Earth.h:44. -/
def a : α := Fl.lit 6378137
/-- `omega_ie_e`, Earth.h:46. -/
def omegaIeE : V3 α := v3 0 0 omegaE

/-- `Earth::RM`, Earth.cpp:22-25. -/
def RM (lat : α) : α :=
  let s := Fl.sin lat
  a * (1 - e2) / Fl.pow (1 - e2 * s * s) (Fl.lit (3 / 2))
/-- `Earth::RN`, Earth.cpp:27-30. -/
def RN (lat : α) : α :=
  let s := Fl.sin lat
  a / Fl.sqrt (1 - e2 * s * s)
/-- `Earth::omega_en_n`, Earth.cpp:10-16. -/
def omegaEnN (vn pos : V3 α) : V3 α :=
  let h := pos 2
  let lat := pos 0
  let rm := RM lat
  let rn := RN lat
  v3 (vn 1 / (rn + h)) (-(vn 0) / (rm + h)) (-(vn 1) * Fl.tan lat / (rn + h))
/-- `Earth::omega_ie_n`, Earth.cpp:18-20. -/
def omegaIeN (lat : α) : V3 α := v3 (omegaE * Fl.cos lat) 0 (-omegaE * Fl.sin lat)
/-- `Earth::dN(lat1,lat2,h)`, Earth.cpp:32-34. -/
def dN3 (lat1 lat2 h : α) : α := (lat1 - lat2) * (RM lat1 + h)
/-- `Earth::dN(lat1,lat2)`, Earth.cpp:36-38. -/
def dN2 (lat1 lat2 : α) : α := (lat1 - lat2) * RM lat1
/-- `Earth::dE(lon1,lon2,lat,h)`, Earth.cpp:40-42. -/
def dE4 (lon1 lon2 lat h : α) : α := (RN lat + h) * Fl.cos lat * (lon1 - lon2)
/-- `Earth::dE(lon1,lon2,lat)`, Earth.cpp:44-46. -/
def dE3 (lon1 lon2 lat : α) : α := RN lat * Fl.cos lat * (lon1 - lon2)
/-- `Earth::distance` without heights, Earth.cpp:48-52 (the arguments of `dE` as the code passes them). -/
def distance4 (lat1 lon1 lat2 lon2 : α) : V3 α := v3 (dN2 lat1 lat2) (dE3 lat1 lon1 lon2) 0
/-- `Earth::distance` with heights, Earth.cpp:54-59. -/
def distance6 (lat1 lon1 lat2 lon2 h1 h2 : α) : V3 α :=
  let two : α := Fl.lit 2
  v3 (dN3 lat1 lat2 (h1 / two + h2 / two)) (dE4 lon1 lon2 (lat1 / two + lat2 / two) (h1 / two + h2 / two)) (h1 - h2)
/-- `Earth::Update`, Earth.cpp:65-71: the new value of `g`. -/
def gravity (lat h : α) : α :=
  let s := Fl.sin lat
  let s2 := s * s
  g0 * (1 + Fl.lit (52790414 / 10000000000) * s2 + Fl.lit (232718 / 10000000000) * s2 * s2)
    + h * (Fl.lit (43977311 / 10000000000000000) * s2 - Fl.lit (30876910891 / 10000000000000000))
    + Fl.lit (7211 / 10000000000000000) * h * h

end Verif.Earth
