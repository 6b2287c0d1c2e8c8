import Verif.Model.Adi
import Verif.Model.Earth
import Verif.Model.Convert
/-! Model of the replay player `App/RtSimulation/src/navplay/src/navplay_node.cpp`, its reader `NavRawReader.cpp`, and
the real-time simulation node `rtsim_fusion_node.cpp`, as the source describes them (ROS delivers every message that is
published; a handle that is stopped fires no more timer events). Both files use interfaces of an older `Src`. -/
namespace Verif.RtSim
open Verif
variable {α : Type} [Add α] [Sub α] [Mul α] [Neg α] [Div α] [Zero α] [One α] [Fl α]

/-- The member of the union in `RawDataDef` selected by `type_`, RawStruct.h:88-111. -/
inductive Payload (α : Type)
  | imu (gyro acce : Fin 3 → BitVec 16)
  | gnss (lat lon height : α) (posStd : V3 α) (mode : Int)
  | vel (vh vl ah al : Byte)
  | bmp
  | rst (lat lon height : α) (atti : V3 α)
  | other (type : Int)

/-- One record of a raw file, RawStruct.h:97-111. -/
structure Raw (α : Type) where
  gpst : α
  body : Payload α

/-- One pose, navplay_node.cpp:128-139 and rtsim_fusion_node.cpp:125-134 (time stamp and frame left out). -/
structure Pose (α : Type) where
  pos : V3 α
  quat : Quat α

/-- What navplay_node.cpp publishes (see `publish` below for the lines). `path` holds all poses at that moment. -/
inductive Msg (α : Type)
  | gnss (gpst lat lon h : α) (posStd : V3 α) (mode : Int)
  | imu (gpst : α) (m : Meas α)
  | vel (gpst fwd ang : α)
  | path (poses : List (Pose α))

/-- Settings and things outside the program: parameters `real_time`, `speed_up` (navplay_node.cpp:53-54), the sensitivities of the
IMU (AdiHandle), and `is_int` (line 117), whose conversion to `int` is left open. -/
structure PCfg (α : Type) where
  realTime : Bool
  speedUp : Int
  kg : α
  ka : α
  isInt : α → Bool

/-- The player: remaining records of the file, the members of `Beats` (navplay_node.cpp:39-51) and the messages so far.
`running` is false once the timer is stopped. -/
structure Player (α : Type) where
  file : List (Raw α)
  raw : Raw α
  gpstStart : α
  elapse : α
  start : α
  base : V3 α
  baseSet : Bool
  poses : List (Pose α)
  running : Bool
  out : List (Msg α)

/-- Start of the program with an open file, navplay_node.cpp:52-66,190-215; `raw{}` is all zero, `base_lla` the parameters. -/
def Player.new (file : List (Raw α)) (base : V3 α) (now : α) : Player α :=
  { file := file, raw := ⟨0, .imu (fun _ => 0) (fun _ => 0)⟩, gpstStart := 0, elapse := 0, start := now, base := base
    baseSet := false, poses := [], running := true, out := [] }

/-- `close`, navplay_node.cpp:68-74. -/
def Player.close (p : Player α) : Player α :=
  { p with running := false, out := p.out ++ [.imu (-1) ⟨zero3, zero3⟩] }

/-- The pose of a result relative to a base, navplay_node.cpp:121-135. -/
def poseOf (base : V3 α) (lat lon height : α) (atti : V3 α) : Pose α :=
  let d := Earth.distance6 (lat * deg) (lon * deg) (base 0 * deg) (base 1 * deg) height (base 2)
  ⟨v3 (d 1) (d 0) (-(d 2)), Convert.eulerToQuat (v3 (atti 0 * deg) (atti 1 * deg) (atti 2 * deg))⟩

/-- `push_back`, then `clear` above ten thousand, navplay_node.cpp:138-139, rtsim_fusion_node.cpp:135-136. -/
def pushPose (ps : List (Pose α)) (x : Pose α) : List (Pose α) :=
  if 10000 < (ps ++ [x]).length then [] else ps ++ [x]

/-- `toPoseMsg`, navplay_node.cpp:109-141. -/
def Player.toPose (c : PCfg α) (p : Player α) (lat lon height : α) (atti : V3 α) : Player α :=
  let p1 := if p.baseSet then p else { p with base := v3 lat lon height, baseSet := true }
  if c.isInt p.raw.gpst then { p1 with poses := pushPose p1.poses (poseOf p1.base lat lon height atti) } else p1

/-- The `switch` of `operator()`, navplay_node.cpp:166-179. -/
def Player.publish (c : PCfg α) (p : Player α) : Player α :=
  match p.raw.body with
  | .gnss lat lon h sd mode => { p with out := p.out ++ [.gnss p.raw.gpst lat lon h sd mode] }
  | .imu g a => { p with out := p.out ++ [.imu p.raw.gpst (toImuMsg (convertRaw2D c.kg c.ka g a))] }
  | .vel vh vl ah al =>
    let v : α × α := convertVel vh vl ah al
    { p with out := p.out ++ [.vel p.raw.gpst v.1 v.2] }
  | .rst lat lon h atti =>
    let q := p.toPose c lat lon h atti
    { q with out := q.out ++ [.path q.poses] }
  | .bmp => p
  | .other _ => p

/-- `ReadNext` into `raw`, NavRawReader.cpp:13-19: an incomplete record fails (what it leaves in `raw` is never used: the timer
is stopped). -/
def Player.read (p : Player α) : Bool × Player α :=
  match p.file with
  | [] => (false, p)
  | r :: rs => (true, { p with file := rs, raw := r })

/-- One timer event, navplay_node.cpp:146-184; `now` is the time of the event. -/
def Player.tick (c : PCfg α) (now : α) (p : Player α) : Player α :=
  if !p.running then p
  else if Fl.le p.gpstStart 0 then
    let r := p.read
    let q := if r.1 then r.2 else r.2.close
    { q with gpstStart := q.raw.gpst, start := now }
  else
    let p1 := { p with elapse := if c.realTime then now - p.start else p.elapse + Fl.lit (1 / 1000) * ofI c.speedUp }
    let p2 := p1.publish c
    let r := p2.read
    if r.1 then r.2 else r.2.close

/-! The simulation node. -/

/-- What is handed to the navigation engine, rtsim_fusion_node.cpp:199-255. -/
inductive Use (α : Type)
  | alignLevel (m : Imu α)
  | alignGnss (m : Gnss α)
  | setPos (m : Gnss α)
  | setVel (fwd ang : α)
  | time (m : Imu α)

/-- Where the main thread of rtsim_fusion_node.cpp is: the two tests of the alignment loop (rtsim_fusion_node.cpp:210-223), the three of the main loop (lines 234-250). -/
inductive Pc | alignImu | alignGnss | navGnss | navVel | navImu | ended
deriving DecidableEq

/-- The node: the three queues of rtsim_fusion_node.cpp:28-30 and what was handed to the engine. `Use`s are newest last. -/
structure Node (α : Type) where
  imuQ : List (Imu α)
  gnssQ : List (Gnss α)
  velQ : List (α × α)
  pc : Pc
  used : List (Use α)

/-- The engine used at rtsim_fusion_node.cpp:210-250, from outside: does the alignment end with this use, is the latitude not a number after it. -/
structure Engine (α : Type) where
  aligned : List (Use α) → Bool
  diverged : List (Use α) → Bool

/-- `boost::circular_buffer::push_back` at capacity `n` (rtsim_fusion_node.cpp:28-30,164-166): the oldest element gives way. -/
def pushCap {β : Type} (n : Nat) (q : List β) (x : β) : List β := if q.length < n then q ++ [x] else q.tail ++ [x]

/-- The callbacks, rtsim_fusion_node.cpp:78-113, with the capacities of lines 158-160. A sample is dated one second back. -/
inductive Ev (α : Type)
  | imu (gpst : α) (m : Meas α)
  | gnss (m : Gnss α)
  | vel (fwd ang : α)
  | main

/-- The sample built from a message, rtsim_fusion_node.cpp:81-86. -/
def sampleOf (gpst : α) (m : Meas α) : Imu α := { gpst := gpst - 1, gyro := m.gyro, acce := m.acce }

/-- `GnssCheck`, rtsim_fusion_node.cpp:41-56. -/
def gnssCheck (m : Gnss α) : Bool := if Fl.le m.gpst 0 then false else m.mode == 1 || m.mode == 2 || m.mode == 5 || m.mode == 4

/-- One step of the main thread, rtsim_fusion_node.cpp:210-250; `none` is undefined behaviour (`front` of an empty buffer). -/
def Node.main (e : Engine α) (n : Node α) : Option (Node α) :=
  match n.pc with
  | .alignImu =>
    match n.imuQ with
    | [] => some { n with pc := .alignGnss }
    | m :: q =>
      let u := n.used ++ [.alignLevel m]
      some { n with imuQ := q, used := u, pc := if e.aligned u then .navGnss else .alignGnss }
  | .alignGnss =>
    match n.gnssQ with
    | [] => some { n with pc := .alignImu }
    | m :: q => some { n with gnssQ := q, used := n.used ++ [.alignGnss m], pc := .alignImu }
  | .navGnss =>
    match n.gnssQ with
    | [] => none
    | _ :: _ => some { n with pc := .navVel }
  | .navVel =>
    match n.velQ with
    | [] => some { n with pc := .navImu }
    | v :: q => some { n with velQ := q, used := n.used ++ [.setVel v.1 v.2], pc := .navImu }
  | .navImu =>
    match n.imuQ with
    | [] => some { n with pc := .navGnss }
    | m :: q =>
      let u := n.used ++ [.time m]
      some { n with imuQ := q, used := u, pc := if e.diverged u then .ended else .navGnss }
  | .ended => some n

/-- One event: a message arrives (callbacks of rtsim_fusion_node.cpp) or the main thread (:210-250) runs. -/
def Node.step (e : Engine α) (n : Node α) : Ev α → Option (Node α)
  | .imu t m => some { n with imuQ := pushCap 10 n.imuQ (sampleOf t m) }
  | .gnss m => some { n with gnssQ := pushCap 1 n.gnssQ m }
  | .vel f a => some { n with velQ := pushCap 10 n.velQ (f, a) }
  | .main => n.main e

/-- A schedule of rtsim_fusion_node.cpp's callbacks and main thread; `none` once undefined behaviour has occurred. -/
def Node.run (e : Engine α) : List (Ev α) → Node α → Option (Node α)
  | [], n => some n
  | ev :: evs, n => (n.step e ev).bind (Node.run e evs)

/-- The node when its loops begin, rtsim_fusion_node.cpp:164-209: empty queues. -/
def Node.new : Node α := { imuQ := [], gnssQ := [], velQ := [], pc := .alignImu, used := [] }

/-- `publishDebugInfo`, rtsim_fusion_node.cpp:141-152: the deviations in the message. -/
structure DebugMsg (α : Type) where
  posStd : V3 α
  attiStd : V3 α
  velStd : V3 α
  gb : V3 α
  ab : V3 α
/-- `publishDebugInfo`, rtsim_fusion_node.cpp:141-152. -/
def debugOf (nav : NavOutput α) : DebugMsg α :=
  { posStd := nav.posStd, attiStd := nav.attiStd, velStd := nav.attiStd, gb := nav.gb, ab := nav.ab }
end Verif.RtSim
