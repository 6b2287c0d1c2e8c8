import Verif.Model.Api
import Verif.Model.Outage
import Verif.Model.DataManager
import Verif.Model.Config
/-! Model of the main loop of `/repo/App/PostDataFusion/PostDataFusion.cpp` (31-105). Not modelled: log
output, the timer, command line handling, text formatting of a result line (a line is the structure
written). -/
namespace Verif
variable {α : Type} [Add α] [Sub α] [Mul α] [Neg α] [Div α] [Zero α] [One α] [Fl α]

/-- The state of the loop: gravity (process wide), the device, the local variable `result`.
PostDataFusion.cpp:42-64. -/
structure PostSt (α : Type) where
  g : α
  dev : Dev α
  result : NavOutput α

namespace PostSt
/-- `case DATA_TYPE_IMU`, PostDataFusion.cpp:72-77. -/
def imu (s : PostSt α) (r : ImuRec α) : PostSt α :=
  let t := rgioeTimeupdate s.g s.dev (some r.toRgioe)
  { s with g := t.2.1, dev := t.2.2 }

/-- `case DATA_TYPE_GNSS`, PostDataFusion.cpp:78-85. -/
def gnss (enable : Bool) (o : Outage α) (s : PostSt α) (r : GnssRec α) : PostSt α :=
  if enable && o.isOutage r.time then s
  else
    let t := rgioeGnssupdate s.g s.dev (some r.toRgioe)
    { s with g := t.2.1, dev := t.2.2 }

/-- One turn of the loop for a record, PostDataFusion.cpp:71-95: the new state; its `result` is the line
written (the condition at line 91 is always true). -/
def step (enable : Bool) (o : Outage α) (s : PostSt α) (r : Rec α) : PostSt α :=
  let s1 := match r with
    | .imu i => s.imu i
    | .gnss g => s.gnss enable o g
  { s1 with result := (rgioeGetResult s1.dev s1.result).2 }

/-- The loop, PostDataFusion.cpp:65-96: the lines written. The fuel bounds the number of turns; each
consumes a record. -/
def loop (enable : Bool) (o : Outage α) : Nat → DM α → PostSt α → List (NavOutput α)
  | 0, _, _ => []
  | fuel + 1, d, s => match d.next with
    | .data r d' => let s' := s.step enable o r; s'.result :: loop enable o fuel d' s'
    | _ => []
end PostSt

/-- `main`, PostDataFusion.cpp:42-104, given the records the readers deliver, the constructed outage
object and the contents of uninitialised memory (`dev0`, `junk`, `res0`): the lines written. -/
def postMain (g0 : α) (dev0 : Dev α) (junk : Junk α) (res0 : NavOutput α) (o : Outage α) (cfg : Config α)
    (gs : List (GnssRec α)) (is : List (ImuRec α)) : List (NavOutput α) :=
  let d := ((DM.new.addGnss cfg.gnss.enable gs).addImu is).moveTo cfg.startTime
  match rgioeInit junk dev0 (some cfg.getOption) (some cfg.align.initPva) with
  | none => []
  | some (_, dev) => PostSt.loop cfg.outage.enable o (d.remaining + 1) d ⟨g0, dev, res0⟩
end Verif
