import Verif.Model.RtSim
/-! What a player of raw files should publish. -/
namespace Verif.Spec
open Verif Verif.RtSim
variable {α : Type} [Add α] [Sub α] [Mul α] [Neg α] [Div α] [Zero α] [One α] [Fl α]

/-- A result in a raw file: time, position, attitude. -/
structure RstRec (α : Type) where
  gpst : α
  lat : α
  lon : α
  height : α
  atti : V3 α

/-- The results among records, in order. -/
def rstRecs (rs : List (Raw α)) : List (RstRec α) :=
  rs.filterMap fun r => match r.body with
    | .rst lat lon h atti => some ⟨r.gpst, lat, lon, h, atti⟩
    | _ => none

/-- The pose of a result seen from the first result: metres east, north and up, and the attitude. -/
def shownPose (first y : RstRec α) : Pose α :=
  let d := Earth.distance6 (y.lat * deg) (y.lon * deg) (first.lat * deg) (first.lon * deg) y.height first.height
  ⟨v3 (d 1) (d 0) (-(d 2)), Convert.eulerToQuat (v3 (y.atti 0 * deg) (y.atti 1 * deg) (y.atti 2 * deg))⟩

/-- The path shown after some records: a pose per result at a whole second, seen from the first result; with every
10001st pose the path starts anew. -/
def shownPath (isInt : α → Bool) (rs : List (Raw α)) : List (Pose α) :=
  match rstRecs rs with
  | [] => []
  | x :: xs =>
    let l := ((x :: xs).filter fun y => isInt y.gpst).map (shownPose x)
    l.drop (l.length / 10001 * 10001)

/-- The messages of one record, given the records up to and including it. -/
def messages (c : PCfg α) (upTo : List (Raw α)) (r : Raw α) : List (Msg α) :=
  match r.body with
  | .gnss lat lon h sd mode => [.gnss r.gpst lat lon h sd mode]
  | .imu g a =>
    let m : Meas α := convertRaw2D c.kg c.ka g a
    [.imu r.gpst ⟨v3 (m.gyro 1) (m.gyro 0) (-(m.gyro 2)), v3 (m.acce 1) (m.acce 0) (-(m.acce 2))⟩]
  | .vel vh vl ah al => [.vel r.gpst (convertVel vh vl ah al : α × α).1 (convertVel vh vl ah al : α × α).2]
  | .rst _ _ _ _ => [.path (shownPath c.isInt upTo)]
  | .bmp => []
  | .other _ => []

/-- The messages of a sequence of records that follow the records `pre`. -/
def publication (c : PCfg α) : List (Raw α) → List (Raw α) → List (Msg α)
  | _, [] => []
  | pre, r :: rs => messages c (pre ++ [r]) r ++ publication c (pre ++ [r]) rs

/-- Timer events at the given times. -/
def ticks (c : PCfg α) (times : List α) (p : Player α) : Player α := times.foldl (fun p t => p.tick c t) p
end Verif.Spec
