import Verif.Types
/-! Model of `/repo/App/PostDataFusion/DataManager.cpp` and the record classes of `FileIO.h:130-169`.
`position[i]` is an `int` compared with a `size_t`; sizes are assumed to fit an `int`. The statistics
object `checker` (DataManager.cpp:109-133) has no effect on what is delivered; it is modelled in
`Verif.Model.SeqCheck`. -/
namespace Verif
variable {α : Type} [Add α] [Sub α] [Mul α] [Neg α] [Div α] [Zero α] [One α] [Fl α]

/-- `ImuData_t`, FileIO.h:138-148. -/
structure ImuRec (α : Type) where
  time : α
  acce : V3 α
  gyro : V3 α

/-- `GnssData_t`, FileIO.h:151-169 (`ns`, `week`, `gpst`, `pitch`, `yaw` are never used by the filter
and left out). `mode` is a `uint32_t`. -/
structure GnssRec (α : Type) where
  time : α
  lat : α
  lon : α
  height : α
  posStd : V3 α
  mode : BitVec 32

/-- `BaseData_t` and its two subclasses, FileIO.h:130-169. -/
inductive Rec (α : Type)
  | imu (r : ImuRec α)
  | gnss (r : GnssRec α)

/-- `data->time`, FileIO.h:134. -/
def Rec.time : Rec α → α
  | .imu r => r.time
  | .gnss r => r.time

/-- `ImuData_t::toRgioeData`, DataManager.cpp:101-103. -/
def ImuRec.toRgioe (r : ImuRec α) : Imu α := ⟨r.time, r.gyro, r.acce⟩

/-- `GnssData_t::toRgioeData`, DataManager.cpp:86-95: the mode is the constant `SPP`. -/
def GnssRec.toRgioe (r : GnssRec α) : Gnss α := ⟨r.lat, r.lon, r.height, r.posStd, r.time, MODE_SPP⟩

/-- `argmin`, DataManager.h:35-46: minimum so far, index of it, index of the next element. -/
def argminGo : List α → α → Nat → Nat → Nat
  | [], _, arg, _ => arg
  | x :: xs, m, arg, i => if Fl.lt x m then argminGo xs x i (i + 1) else argminGo xs m arg (i + 1)

/-- `argmin`, DataManager.h:35-46; the minimum starts at `INT_MAX`. -/
def argmin (xs : List α) : Nat := argminGo xs (Fl.lit 2147483647) 0 0

/-- `class DataManager`, DataManager.h:74-100. `que i` for `i ≥ 2` is never filled. -/
structure DM (α : Type) where
  que : Nat → List (Rec α)
  position : Nat → Nat
  queNum : Nat

namespace DM
/-- `imu_que_id`, DataManager.h:92. -/
def imuId : Nat := 0
/-- `gnss_que_id`, DataManager.h:93. -/
def gnssId : Nat := 1

/-- The constructor, DataManager.cpp:56-63. -/
def new : DM α := ⟨fun _ => [], fun _ => 0, 0⟩

/-- `AddFile(GnssConfig)`, DataManager.cpp:29-41, given the records the reader delivers. -/
def addGnss (d : DM α) (enable : Bool) (rs : List (GnssRec α)) : DM α :=
  if !enable then d
  else { d with que := fun i => if i = gnssId then d.que i ++ rs.map .gnss else d.que i, queNum := d.queNum + 1 }

/-- `AddFile(IMUConfig)`, DataManager.cpp:43-54, given the records the reader delivers. -/
def addImu (d : DM α) (rs : List (ImuRec α)) : DM α :=
  { d with que := fun i => if i = imuId then d.que i ++ rs.map .imu else d.que i, queNum := d.queNum + 1 }

/-- What a call of `GetNextData` can do: read an element of an empty vector, return null, or return a
record and move on. DataManager.cpp:14-27. -/
inductive Next (α : Type)
  | outOfBounds
  | null
  | data (r : Rec α) (d : DM α)

/-- The times at the heads of the first `queNum` sources, or nothing if one is exhausted,
DataManager.cpp:15-22. -/
def heads (d : DM α) : Option (List α) :=
  (List.range d.queNum).mapM fun i => ((d.que i)[d.position i]?).map Rec.time

/-- `GetNextData`, DataManager.cpp:14-27. -/
def next (d : DM α) : Next α :=
  match d.heads with
  | none => .null
  | some ts =>
    let sel := argmin ts
    match (d.que sel)[d.position sel]? with
    | none => .outOfBounds
    | some r => .data r { d with position := fun i => if i = sel then d.position i + 1 else d.position i }

/-- `MoveToTime`, DataManager.cpp:67-73. The fuel bounds the number of calls of `GetNextData`; each of
them consumes a record, and `moveTo` provides more fuel than there are records. -/
def moveGo (target : α) : Nat → DM α → DM α
  | 0, d => d
  | fuel + 1, d => match d.next with
    | .data r d' => if Fl.lt r.time target then moveGo target fuel d' else d'
    | _ => d

/-- The number of records not yet delivered: the measure of the loops over DataManager.cpp:14-27. -/
def remaining (d : DM α) : Nat := (d.que 0).length - d.position 0 + ((d.que 1).length - d.position 1)

/-- `MoveToTime`, DataManager.cpp:67-73. -/
def moveTo (d : DM α) (target : α) : DM α := moveGo target (d.remaining + 1) d

/-- `Reset`, DataManager.cpp:75-79. -/
def reset (d : DM α) : DM α := { d with position := fun _ => 0 }

/-- `GetProgress`, DataManager.cpp:81-83 (`100LU * …` is a 64-bit product; sizes are assumed small
enough). `none` is the integer division by zero when the IMU source is empty. -/
def progress (d : DM α) : Option Nat :=
  if (d.que imuId).length = 0 then none else some (100 * d.position imuId / (d.que imuId).length)

/-- What `k` successive calls of `GetNextData` return (until the first null), and the manager then.
DataManager.cpp:14-27 iterated. -/
def calls : Nat → DM α → List (Rec α) × DM α
  | 0, d => ([], d)
  | k + 1, d => match d.next with
    | .data r d' => let c := calls k d'; (r :: c.1, c.2)
    | _ => ([], d)
end DM
end Verif
