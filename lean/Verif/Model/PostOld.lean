import Verif.Model.Post
/-! Model of the main loop of `/repo/App/PostDataFusion/PostDataFusion_old.cpp` (32-115), a second program of the
build (`App/PostDataFusion/CMakeLists.txt`, target `PostDataFusion_old`). Not modelled: as in `Model/Post`. -/
namespace Verif
variable {α : Type} [Add α] [Sub α] [Mul α] [Neg α] [Div α] [Zero α] [One α] [Fl α]

/-- The variables of the loop: gravity (process wide), the device, `result`, and the pointers `imu` and `gnss`
(PostDataFusion_old.cpp:66-67). -/
structure OldSt (α : Type) where
  g : α
  dev : Dev α
  result : NavOutput α
  imu : Option (ImuRec α)
  gnss : Option (GnssRec α)

namespace OldSt
/-- `fabs`, PostDataFusion_old.cpp:92. -/
def fabs (x : α) : α := if Fl.lt x 0 then -x else x

/-- The test at PostDataFusion_old.cpp:92 once both pointers are set. -/
def near (rate : Int) (g : GnssRec α) (i : ImuRec α) : Bool :=
  Fl.lt (fabs (g.time - i.time)) (Fl.lit (6 / 10) / ofI rate)

/-- The switch, PostDataFusion_old.cpp:74-91: both branches of the outage test leave the switch. -/
def take (enable : Bool) (o : Outage α) (s : OldSt α) : Rec α → OldSt α
  | .imu r =>
    let t := rgioeTimeupdate s.g s.dev (some r.toRgioe)
    { s with g := t.2.1, dev := t.2.2, imu := some r }
  | .gnss r =>
    let s1 := { s with gnss := some r }
    if enable && o.isOutage r.time then s1 else s1

/-- The GNSS update, PostDataFusion_old.cpp:92-95; `none` is the null pointer `imu` being dereferenced. -/
def fuse (rate : Int) (s : OldSt α) : Option (OldSt α) :=
  match s.gnss with
  | none => some s
  | some g => match s.imu with
    | none => none
    | some i =>
      if near rate g i then
        let t := rgioeGnssupdate s.g s.dev (some g.toRgioe)
        some { s with g := t.2.1, dev := t.2.2 }
      else some s

/-- One turn of the loop, PostDataFusion_old.cpp:74-101: the new state and the line written, if any. -/
def step (rate : Int) (enable : Bool) (o : Outage α) (s : OldSt α) (r : Rec α) :
    Option (OldSt α × Option (NavOutput α)) :=
  match fuse rate (take enable o s r) with
  | none => none
  | some s1 =>
    if rgioeGetStatus s1.dev = ST_NAVIGATION then
      let p := (rgioeGetResult s1.dev s1.result).2
      some ({ s1 with result := p }, some p)
    else some (s1, none)

/-- The loop, PostDataFusion_old.cpp:68-102: the lines written, and whether it ended by dereferencing a null
pointer. The fuel bounds the number of turns; each consumes a record. -/
def loop (rate : Int) (enable : Bool) (o : Outage α) : Nat → DM α → OldSt α → List (NavOutput α) × Bool
  | 0, _, _ => ([], false)
  | fuel + 1, d, s => match d.next with
    | .data r d' => match step rate enable o s r with
      | none => ([], true)
      | some (s', line) => let c := loop rate enable o fuel d' s'; (line.toList ++ c.1, c.2)
    | _ => ([], false)
end OldSt

/-- `main`, PostDataFusion_old.cpp:43-112, as `postMain`. -/
def postOldMain (g0 : α) (dev0 : Dev α) (junk : Junk α) (res0 : NavOutput α) (o : Outage α) (cfg : Config α)
    (gs : List (GnssRec α)) (is : List (ImuRec α)) : List (NavOutput α) × Bool :=
  let d := ((DM.new.addGnss cfg.gnss.enable gs).addImu is).moveTo cfg.startTime
  match rgioeInit junk dev0 (some cfg.getOption) (some cfg.align.initPva) with
  | none => ([], true)
  | some (_, dev) =>
    OldSt.loop cfg.getOption.dRate cfg.outage.enable o (d.remaining + 1) d ⟨g0, dev, res0, none, none⟩
end Verif
