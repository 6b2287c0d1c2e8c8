import Verif.Model.Api
import Verif.Model.Recorder
/-! Model of what the recording build (`ENABLE_FUSION_RECORDER = 1`) writes to the recorder: the blocks under
`#if ENABLE_FUSION_RECORDER` in `/repo/Src/DataFusion.cpp`, `AttiAhrs.cpp`, `Alignment.cpp` and `rgioe.cpp`.
Apart from these blocks the build computes the same; each function below gives the records one function of the
library writes, next to the state functions of `Model/Api`. -/
namespace Verif.Logging
open Verif.Crc Verif.Recorder
variable {α : Type} [Add α] [Sub α] [Mul α] [Neg α] [Div α] [Zero α] [One α] [Fl α]

/-- A member of a record: a number stored as `float`, or an integer of 8, 16 or 32 bits.
RecorderType.h:23-103. -/
inductive Cell (α : Type)
  | f (x : α)
  | u8 (v : BitVec 8)
  | u16 (v : BitVec 16)
  | u32 (v : BitVec 32)

/-- A record handed to `Recorder::Record`, before it is turned into bytes. Recorder.h:136-141. -/
structure Ev (α : Type) where
  id : U32
  time : α
  cells : List (Cell α)

/-- A member in memory; `enc32` is the conversion to the bits of a `float`.
RecorderType.h:23-103. -/
def Cell.val (enc32 : α → U32) : Cell α → Val
  | .f x => .f32 (enc32 x)
  | .u8 v => .u8 v
  | .u16 v => .u16 v
  | .u32 v => .u32 v

/-- The message in memory; `enc64` gives the bits of a `double` (the time stamp).
Recorder.h:56-68. -/
def Ev.msg (enc64 : α → U64) (enc32 : α → U32) (e : Ev α) : Msg :=
  ⟨e.id, enc64 e.time, e.cells.map (Cell.val enc32)⟩

/-- Ids of the datasets, RecorderType.h:23-103. -/
def imuId : U32 := msgId 0x17 0x21
@[inherit_doc imuId] def gnssId : U32 := msgId 0x17 0x22
@[inherit_doc imuId] def kalmanId : U32 := msgId 0x16 0x23
@[inherit_doc imuId] def measPosId : U32 := msgId 0x16 0x24
@[inherit_doc imuId] def resultId : U32 := msgId 0x16 0x25
@[inherit_doc imuId] def ahrsId : U32 := msgId 0x16 0x27
@[inherit_doc imuId] def alignId : U32 := msgId 0x16 0x28

/-- `RECORDER_V3_2_XYZ`, Recorder.h:29-32. -/
def xyz (v : V3 α) : List (Cell α) := [.f (v 0), .f (v 1), .f (v 2)]

/-- The `kalman` record at the end of `TimeUpdate`, DataFusion.cpp:173-182; `f` is the state there. -/
def kalmanEv (f : Fusion α) : Ev α :=
  ⟨kalmanId, f.ins.nav.gpst,
    xyz (vd f.ins.nav.ab mGal) ++ xyz (vs (vd f.ins.nav.gb deg) hour)⟩

/-- The `imu` record at the end of `TimeUpdate`, DataFusion.cpp:184-192. -/
def imuEv (f : Fusion α) (imu : Imu α) : Ev α := ⟨imuId, f.ins.nav.gpst, xyz imu.acce ++ xyz imu.gyro⟩

/-- The records of `TimeUpdate`, DataFusion.cpp:172-193; `f` is the state at its end (the monitor update that
follows changes none of the recorded values). -/
def timeUpdateLog (f : Fusion α) (imu : Imu α) : List (Ev α) := [kalmanEv f, imuEv f imu]

/-- The `meas_pos` record, DataFusion.cpp:205-220; `f` is the state on entry (the filter update does not change
the time nor `z`). -/
def measPosEv (f : Fusion α) (pos : V3 α) (Rk : M3 α) : Ev α :=
  ⟨measPosId, f.ins.nav.gpst, xyz (f.posZ pos) ++ [.f (Rk 0 0), .f (Rk 1 1), .f (Rk 2 2)]⟩

/-- The `gnss` record, DataFusion.cpp:252-263; `first` is the position of `first_epoch`. `hdop`, `pdop` and `ns`
are written as zero, `gnss_cnt` keeps the zero of the initialiser (Recorder.h:86-93). -/
def gnssEv (f : Fusion α) (first : V3 α) (m : Gnss α) : Ev α :=
  ⟨gnssId, f.ins.nav.gpst,
    xyz (Earth.distance6 (m.lat * deg) (m.lon * deg) (first 0) (first 1) m.height (first 2)) ++
      [.f 0, .f 0, .u16 0, .u8 (BitVec.ofInt 8 m.mode), .u32 0]⟩

/-- The records of `MeasureUpdatePos(gnss)`, DataFusion.cpp:236-265; `f` is the state on entry. -/
def measureGnssLog (f : Fusion α) (first : V3 α) (m : Gnss α) : List (Ev α) :=
  (if Fusion.gnssCheck m then
    [measPosEv ((f.setSensor SENSOR_GNSS).setGnssMode m.mode) (v3 (m.lat * deg) (m.lon * deg) m.height)
      (diagM fun i => m.posStd i * m.posStd i * f.opt.gnssStdScale)]
   else []) ++ [gnssEv f first m]

/-- The `ahrs` record of `AttiAhrs::Update(imu)`, AttiAhrs.cpp:92-100; `a` is the state at its end. -/
def ahrsEv (a : Ahrs α) (imu : Imu α) : Ev α :=
  ⟨ahrsId, imu.gpst, xyz (vd (Convert.dcmToEuler a.Cnb) deg)⟩

/-- The records of `AlignMoving::Update(imu)`, Alignment.cpp:18-61: the AHRS runs once levelling is done. -/
def alignImuLog (a : Align α) (imu : Imu α) : List (Ev α) :=
  if a.level then [ahrsEv (a.updateImu imu).ahrs imu] else []

/-- A `bool` stored in a `uint8_t`, Alignment.cpp:147-161. -/
def flag (b : Bool) : Cell α := .u8 (if b then 1 else 0)

/-- The `align` record, Alignment.cpp:147-161; `a` is the state before the fix, `a'` at the end of the function. -/
def alignEv (a a' : Align α) (m : Gnss α) : Ev α :=
  ⟨alignId, a'.nav.gpst,
    xyz a'.nav.atti ++ xyz a'.nav.vn ++ xyz a'.nav.pos ++
      [.f (Fl.f32 (vnorm (Earth.distance6 (m.lat * deg) (m.lon * deg) (a.gnssPre.lat * deg) (a.gnssPre.lon * deg)
        m.height a.gnssPre.height))), .f a'.smooth.getStd, flag a'.smooth.isStatic, flag a'.yaw, flag a'.level]⟩

/-- The records of `AlignMoving::Update(gnss)`, Alignment.cpp:63-163: nothing for the fix that is only kept. -/
def alignGnssLog (g : α) (a : Align α) (m : Gnss α) : List (Ev α) :=
  if Fl.eq (a.gnssPre.posStd 0) 0 then [] else [alignEv a (a.updateGnss g m).2 m]

/-- The records of `rgioe_timeupdate`, rgioe.cpp:131-175, by the state before the call. -/
def timeLog (g : α) (d : Dev α) : Option (Imu α) → List (Ev α)
  | none => []
  | some m =>
    if d.status = ST_INIT then
      if d.opt.alignMode = ALIGN_USE_GIVEN then timeUpdateLog (rgioeTimeupdate g d (some m)).2.2.df m
      else alignImuLog d.am m
    else if d.status = ST_ALIGN then alignImuLog d.am m
    else if d.status = ST_ATTITUDE then alignImuLog d.am m
    else if d.status = ST_NAVIGATION then timeUpdateLog (rgioeTimeupdate g d (some m)).2.2.df m
    else []

/-- The position of `first_epoch` after `rgioe_timeupdate`: `Initialize` stores the state it was given
(DataFusion.cpp:34), called at rgioe.cpp:141-144 and :157-160. -/
def timeFirst (d : Dev α) (first : V3 α) : Option (Imu α) → V3 α
  | none => first
  | some m =>
    if d.status = ST_INIT then
      if d.opt.alignMode = ALIGN_USE_GIVEN then (makeNavEpoch d.curPva d.opt).pos else first
    else if d.status = ST_ATTITUDE then
      if (d.am.updateImu m).alignFinished then (d.am.updateImu m).nav.pos else first
    else first

/-- The records of `rgioe_gnssupdate`, rgioe.cpp:185-210. -/
def gnssLog (g : α) (d : Dev α) (first : V3 α) : Option (Gnss α) → List (Ev α)
  | none => []
  | some m =>
    if d.status = ST_INIT then []
    else if d.status = ST_ALIGN ∨ d.status = ST_ATTITUDE then alignGnssLog g d.am m
    else if d.status = ST_NAVIGATION then measureGnssLog d.df first m
    else []

/-- `static Vec3Hp first_pos`, rgioe.cpp:306: one variable for the process, initialised when the line is first
reached. -/
def originAfter (d : Dev α) (pva : NavOutput α) (org : Option (V3 α)) : Option (V3 α) :=
  if d.status = ST_NAVIGATION then
    match org with
    | some o => some o
    | none => let p := (rgioeGetResult d pva).2; some (v3 p.lat p.lon p.height)
  else org

/-- The `result` record of `rgioe_get_result`, rgioe.cpp:297-317. The position is computed from degrees, as the
code passes them. Members not assigned are zero (Recorder.h:86-93). -/
def resultEv (d : Dev α) (pva : NavOutput α) (org : Option (V3 α)) : Ev α :=
  let p := (rgioeGetResult d pva).2
  let st : Cell α := .u8 (BitVec.ofInt 8 d.status)
  if d.status = ST_ATTITUDE then ⟨resultId, p.gpst, st :: (xyz zero3 ++ xyz zero3 ++ xyz p.atti)⟩
  else if d.status = ST_NAVIGATION then
    let o := (originAfter d pva org).getD zero3
    ⟨resultId, p.gpst, st :: (xyz (Earth.distance6 p.lat p.lon (o 0) (o 1) p.height (o 2)) ++ xyz p.vn ++ xyz p.atti)⟩
  else ⟨resultId, p.gpst, st :: (xyz zero3 ++ xyz zero3 ++ xyz zero3)⟩

/-- The process of the recording build: the devices, `first_epoch` of each, the static of `rgioe_get_result`, and
everything recorded so far. rgioe.cpp:80-86, 306, DataFusion.h:163-194. -/
structure LWorld (α : Type) where
  world : World α
  first : Nat → V3 α
  origin : Option (V3 α)
  log : List (Ev α)

/-- The records of one call on device `h` (the queries of one quantity, `rgioe_init` and `rgioe_deinit` have no
recording block: rgioe.cpp:95-122, 221-280, 322-326). -/
def LWorld.records (w : LWorld α) (h : Nat) : Call α → List (Ev α)
  | .time m => timeLog w.world.g (w.world.dev h) m
  | .gnss m => gnssLog w.world.g (w.world.dev h) (w.first h) m
  | .getResult p => [resultEv (w.world.dev h) p w.origin]
  | _ => []

/-- One call on device `h` in the recording build. `rgioe_init` constructs a new `DataFusion`, whose constructor
clears `first_epoch` (DataFusion.cpp:21), leaving its Eigen members indeterminate; zeros stand for them (they can be read
before `Initialize` only when a navigating device is re-initialised and the call is refused). -/
def LWorld.exec (w : LWorld α) (h : Nat) (c : Call α) : LWorld α :=
  { world := (w.world.exec h c).1
    first := fun k => if k = h then
        match c with
        | .time m => timeFirst (w.world.dev h) (w.first h) m
        | .init _ _ _ => zero3
        | _ => w.first h
      else w.first k
    origin := match c with
      | .getResult p => originAfter (w.world.dev h) p w.origin
      | _ => w.origin
    log := w.log ++ w.records h c }

/-- An interleaved history in the recording build. No counterpart in the code: the callers of rgioe.cpp:95-326. -/
def LWorld.run : List (Nat × Call α) → LWorld α → LWorld α
  | [], w => w
  | hc :: cs, w => LWorld.run cs (w.exec hc.1 hc.2)
end Verif.Logging
