import Verif.Model.DataManager
/-! Model of `ReaderBase::ReadUntil`, `/repo/App/AppCommon/FileIO.cpp:419-430`, for a reader of IMU samples. What the
successive calls of `ReadNext` would return before a null pointer is a list. -/
namespace Verif
variable {α : Type} [Fl α]

/-- A reader: the records still to come and `ok_` (FileIO.h:175-191). -/
structure Upcoming (α : Type) where
  recs : List (ImuRec α)
  ok : Bool

/-- `*pdata = *data`, FileIO.cpp:428, where both are of type `BaseData_t` (FileIO.h:130-136): only the members of the base
class, here the time, are copied; the measurements of the caller's object stay. -/
def assignBase (dst src : ImuRec α) : ImuRec α := { dst with time := src.time }

/-- The loop, FileIO.cpp:421-429: result, the caller's object, records left. -/
def readUntilLoop (t : α) (out : Option (ImuRec α)) : List (ImuRec α) → Bool × Option (ImuRec α) × List (ImuRec α)
  | [] => (false, out, [])
  | x :: xs =>
    if Fl.lt x.time t then readUntilLoop t out xs
    else (true, out.map (fun d => assignBase d x), xs)

/-- `ReadUntil`, FileIO.cpp:419-430. `out` is the caller's object, `none` for a null pointer. -/
def Upcoming.readUntil (r : Upcoming α) (t : α) (out : Option (ImuRec α)) : Bool × Option (ImuRec α) × Upcoming α :=
  if !r.ok then (false, out, r)
  else
    let x := readUntilLoop t out r.recs
    (x.1, x.2.1, { r with recs := x.2.2 })
end Verif
