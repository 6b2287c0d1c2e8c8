import Verif.Model.Config
import Verif.Model.Outage
import Verif.Model.PostOld
/-! Model of `DataFusionThread::run`, `/repo/App/UiDataFusion/DataFusionThread.cpp` (16-140), the processing thread of the
window program, as the source describes it. The file uses the older reader interface of which a copy is kept in
`App/RtSimulation/src/navplay/include/navplay/ReaderBase.h`. Modelled: which records are read and handed to the
alignment and to the filter, in which order, and what is sent to the window. The alignment is a parameter; the filter
is represented by the calls made to it. Not modelled: what is only written to the glog file, the timer, `smooth` (its
answer is used only by an empty branch, lines 117-120), the result writer beyond one line per sample, the construction
of the `Outage` object (line 23, `Model/Outage`; it is an argument here). -/
namespace Verif.UiThread
open Verif
variable {α : Type} [Add α] [Sub α] [Mul α] [Neg α] [Div α] [Zero α] [One α] [Fl α]

/-- A reader, ReaderBase.h:14-38: what is left in the file and `ok_`. A file that could not be opened has `ok_` false and
nothing in it. -/
structure Rd (β : Type) where
  recs : List β
  ok : Bool

namespace Rd
/-- The constructor with a path, as used at DataFusionThread.cpp:26,40,51; `none`: no such file. -/
def new {β : Type} : Option (List β) → Rd β
  | none => ⟨[], false⟩
  | some l => ⟨l, true⟩

/-- `ReadNext`, ReaderBase.h:40-43 and its overrides: a failing read clears `ok_` and leaves the argument. -/
def readNext {β : Type} (r : Rd β) : Option β × Rd β :=
  match r.recs with
  | [] => (none, ⟨[], false⟩)
  | x :: l => (some x, ⟨l, r.ok⟩)

/-- The loop of `ReadUntil`, ReaderBase.h:51-56. -/
def seek {β : Type} (time : β → α) (t : α) (ok : Bool) : List β → Option β × Rd β
  | [] => (none, ⟨[], false⟩)
  | x :: l => if Fl.lt (time x) t then seek time t ok l else (some x, ⟨l, ok⟩)

/-- `ReadUntil`, ReaderBase.h:48-59; the first component is `none` when it returns false (the argument is then left). -/
def readUntil {β : Type} (time : β → α) (t : α) (r : Rd β) : Option β × Rd β :=
  if !r.ok then (none, r) else seek time t r.ok r.recs
end Rd

/-- `Velocity` of the older interface, as used at DataFusionThread.cpp:22,112-113. -/
structure Odo (α : Type) where
  gpst : α
  forward : α

/-- The texts sent to the window, DataFusionThread.cpp:36,46,69,76,87,138. -/
inductive Text
  | imuTooShort
  | gnssTooShort
  | alignFailed
  | alignDone
  | finished
  deriving DecidableEq

/-- What the thread does that can be seen from outside: calls of the filter (DataFusionThread.cpp:102,107,113), one line of
the result file (122), signals to the window. `status x y` is `SendStatus((int)(x / y))`, line 125; `done` is `SendStatus(100)`,
line 139. `undef` ends the program's defined behaviour: an uninitialised member is read or a null pointer is followed. -/
inductive Ev (α : Type)
  | time (i : Imu α)
  | fix (g : Gnss α)
  | odo (v : α)
  | line
  | status (x y : α)
  | log (t : Text)
  | done
  | undef

/-- The alignment object, DataFusionThread.cpp:61-79, as far as the thread uses it. -/
structure AlignObj (α σ : Type) where
  init : σ
  imu : σ → Imu α → σ
  fix : σ → Gnss α → σ
  done : σ → Bool

/-- The three input files, DataFusionThread.cpp:26,40,51, `none` when there is no such file. -/
structure Files (α : Type) where
  imu : Option (List (Imu α))
  gnss : Option (List (Gnss α))
  odo : Option (List (Odo α))

/-- `fabs(a - b) < 1. / opt.d_rate`, DataFusionThread.cpp:65,105,112. -/
def near (rate : Int) (a b : α) : Bool := Fl.lt (OldSt.fabs (a - b)) (1 / ofI rate)

/-- The variables of the loop apart from the sample: the GNSS reader and `gnss` (`none`: not initialised), the odometer
reader (`none`: null pointer) and `vel`, DataFusionThread.cpp:19-22,40,48. -/
structure St (α : Type) where
  gr : Rd (Gnss α)
  gnss : Option (Gnss α)
  od : Option (Rd (Odo α))
  vel : Option (Odo α)

/-- The GNSS part of a turn, DataFusionThread.cpp:105-110. `none`: undefined behaviour. -/
def gnssPart (c : Config α) (o : Outage α) (t : α) (s : St α) : Option (List (Ev α) × St α) :=
  if s.gr.ok then
    match s.gnss with
    | none => none
    | some g =>
      if near c.imu.dRate g.gpst t then
        let r := s.gr.readUntil Gnss.gpst t
        some (if c.outage.enable && o.isOutage g.gpst then [] else [.fix g], { s with gr := r.2, gnss := r.1.or s.gnss })
      else some ([], s)
  else some ([], s)

/-- The odometer part of a turn, DataFusionThread.cpp:112-116; `opt.odo_enable` is `odometer_config.enable`
(Config.cpp:265). `none`: undefined behaviour. -/
def odoPart (c : Config α) (t : α) (s : St α) : Option (List (Ev α) × St α) :=
  if c.odo.enable then
    match s.od with
    | none => none
    | some r =>
      if r.ok then
        match s.vel with
        | none => none
        | some v =>
          if near c.imu.dRate v.gpst t then
            let q := r.readUntil Odo.gpst t
            some ([.odo v.forward], { s with od := some q.2, vel := q.1.or s.vel })
          else some ([], s)
      else some ([], s)
  else some ([], s)

/-- The condition of the loop without `imu_reader.IsOk()`, DataFusionThread.cpp:99. -/
def goOn (c : Config α) (t : α) : Bool :=
  Fl.le c.stopTime 0 || (Fl.lt 0 c.startTime && Fl.lt t c.stopTime)

/-- What is sent after the loop, DataFusionThread.cpp:127-139. -/
def finish : List (Ev α) := [.log .finished, .done]

/-- The loop, DataFusionThread.cpp:99-126; `t` is `imu.gpst`, the list is what is left in the IMU file. A reader without
records ends the loop whether or not `ok_` has been cleared already (line 99 or 100). -/
def loop (c : Config α) (o : Outage α) : List (Imu α) → α → St α → List (Ev α)
  | [], _, _ => finish
  | i :: l, t, s =>
    if goOn c t then
      .time i ::
        match gnssPart c o i.gpst s with
        | none => [.undef]
        | some (e1, s1) => match odoPart c i.gpst s1 with
          | none => e1 ++ [.undef]
          | some (e2, s2) => e1 ++ e2 ++ .line ::
            .status (ofI 100 * (i.gpst - c.startTime)) (c.stopTime - c.startTime) :: loop c o l i.gpst s2
    else finish

/-- The end of the do-while loop, DataFusionThread.cpp:73-79. -/
inductive Aligned (α : Type)
  /-- uninitialised `gnss` read -/
  | undef
  /-- no more fixes, or no more samples: the run ends -/
  | failed
  /-- finished: rest of the IMU file, `imu.gpst`, and the GNSS reader and record -/
  | ok (l : List (Imu α)) (t : α) (gr : Rd (Gnss α)) (g : Gnss α)

/-- The do-while loop of the moving alignment, DataFusionThread.cpp:62-78; `i` is `imu`. The result of `ReadNext(imu)` is
not looked at: after the last sample the alignment gets that sample once more, and the loop ends. -/
def alignLoop {σ : Type} (c : Config α) (a : AlignObj α σ) : List (Imu α) → Imu α → Rd (Gnss α) → Option (Gnss α) → σ → Aligned α
  | [], i, gr, g, s =>
    match g with
    | none => .undef
    | some g =>
      if near c.imu.dRate g.gpst i.gpst then
        match gr.readNext with
        | (none, _) => .failed
        | (some g', gr') => if a.done (a.fix (a.imu s i) g) then .ok [] i.gpst gr' g' else .failed
      else if a.done (a.imu s i) then .ok [] i.gpst gr g else .failed
  | i :: l, _, gr, g, s =>
    match g with
    | none => .undef
    | some g =>
      if near c.imu.dRate g.gpst i.gpst then
        match gr.readNext with
        | (none, _) => .failed
        | (some g', gr') =>
          if a.done (a.fix (a.imu s i) g) then .ok l i.gpst gr' g' else alignLoop c a l i gr' (some g') (a.fix (a.imu s i) g)
      else if a.done (a.imu s i) then .ok l i.gpst gr g else alignLoop c a l i gr (some g) (a.imu s i)

/-- From `SendLog("Align finished")` to the end, DataFusionThread.cpp:87-140: the odometer reader goes to the sample, then the
loop runs. -/
def process (c : Config α) (o : Outage α) (l : List (Imu α)) (t : α) (s : St α) : List (Ev α) :=
  .log .alignDone ::
    if c.odo.enable then
      match s.od with
      | none => [.undef]
      | some r => let q := r.readUntil Odo.gpst t; loop c o l t { s with od := some q.2, vel := q.1.or s.vel }
    else loop c o l t s

/-- The start of the odometer reader, DataFusionThread.cpp:48-56; `none`: the thread ends. -/
def openOdo (c : Config α) (f : Files α) (t : α) : Option (Option (Rd (Odo α)) × Option (Odo α)) :=
  if c.odo.enable then
    match (Rd.new f.odo).readUntil Odo.gpst t with
    | (none, _) => none
    | (some v, r) => some (some r, some v)
  else some (none, none)

/-- The three ways to start, DataFusionThread.cpp:59-86 (alignment modes: RgioeDataType.h `RgioeAlignMode`). -/
def startAt {σ : Type} (c : Config α) (o : Outage α) (a : AlignObj α σ) (i : Imu α) (l : List (Imu α)) (s : St α) : List (Ev α) :=
  if c.align.mode = ALIGN_MOVING then
    match alignLoop c a l i s.gr s.gnss a.init with
    | .undef => [.undef]
    | .failed => [.log .alignFailed]
    | .ok l' t gr g => process c o l' t { s with gr := gr, gnss := some g }
  else if c.align.mode = ALIGN_USE_GIVEN then process c o l i.gpst s
  else []

/-- `DataFusionThread::run`, DataFusionThread.cpp:16-140. -/
def run {σ : Type} (c : Config α) (o : Outage α) (a : AlignObj α σ) (f : Files α) : List (Ev α) :=
  let ir := Rd.new f.imu
  if !ir.ok then [] else
    match ir.readUntil Imu.gpst c.startTime with
    | (none, _) => [.log .imuTooShort]
    | (some i, ir') =>
      let q := (Rd.new f.gnss).readUntil Gnss.gpst i.gpst
      (if q.1.isSome then [] else [.log .gnssTooShort]) ++
        match openOdo c f i.gpst with
        | none => []
        | some (r, v) => startAt c o a i ir'.recs ⟨q.2, q.1, r, v⟩
end Verif.UiThread
