import Verif.Model.Fusion
import Verif.Model.Align
/-! Model of `/repo/Src/rgioe.cpp`, the public C API. A device is the buffer the caller owns
(`RgioeData_t`); the process owns one gravity value (`Earth` singleton). -/
namespace Verif
variable {α : Type} [Add α] [Sub α] [Mul α] [Neg α] [Div α] [Zero α] [One α] [Fl α]

/-- `rgioe_status_t`, Inc/rgioe.h:38-44. -/
def ST_INIT : Int := 0
@[inherit_doc ST_INIT] def ST_ALIGN : Int := 1
@[inherit_doc ST_INIT] def ST_ATTITUDE : Int := 2
@[inherit_doc ST_INIT] def ST_NAVIGATION : Int := 3
/-- `rgioe_error_t`, Inc/rgioe.h:30-36. -/
def E_OK : Int := 0
@[inherit_doc E_OK] def E_NULL_INPUT : Int := 1
@[inherit_doc E_OK] def E_FAULT_CONFIG : Int := 2

/-- `RgioeData_t`, rgioe.cpp:80-86. -/
structure Dev (α : Type) where
  df : Fusion α
  am : Align α
  status : Int
  opt : Opt α
  curPva : NavOutput α

/-- `memset(&cur_pva, 0, …)`, rgioe.cpp:109. -/
def zeroPva : NavOutput α :=
  { week := 0, gpst := 0, lat := 0, lon := 0, height := 0, posStd := zero3, vn := zero3, vnStd := zero3
    atti := zero3, attiStd := zero3, info := ⟨0, 0⟩, gb := zero3, ab := zero3, gs := zero3, as := zero3, kd := 0 }

/-- What uninitialised members of a fresh `DataFusion` / `AlignMoving` (placed by `rgioe_init`, rgioe.cpp:95-122)
happen to hold. -/
structure Junk (α : Type) where
  df : Fusion α
  am : Align α

/-- `rgioe_init`, rgioe.cpp:95-122. `none` is undefined behaviour: a null `opt` is dereferenced at
line 98 before the test at line 99. The result is the error code and the new buffer. -/
def rgioeInit (junk : Junk α) (d : Dev α) (opt : Option (Opt α)) (nav : Option (NavOutput α)) :
    Option (Int × Dev α) :=
  match opt with
  | none => none
  | some o =>
    let d1 := { d with df := Fusion.new junk.df, am := Align.new junk.am o, opt := o }
    if o.alignMode = ALIGN_USE_GIVEN ∧ nav.isNone then
      some (E_FAULT_CONFIG, { d1 with curPva := zeroPva })
    else
      let d2 := match nav with
        | some n => { d1 with curPva := n }
        | none => d1
      some (E_OK, { d2 with am := d2.am.setOption o, status := ST_INIT })

/-- `rgioe_timeupdate`, rgioe.cpp:131-175 (the timestamp argument is unused). -/
def rgioeTimeupdate (g : α) (d : Dev α) (imu : Option (Imu α)) : Int × α × Dev α :=
  match imu with
  | none => (E_NULL_INPUT, g, d)
  | some m =>
    if d.status = ST_INIT then
      if d.opt.alignMode = ALIGN_USE_GIVEN then
        let (g1, df1) := d.df.initFusion g (makeNavEpoch d.curPva d.opt) d.opt
        let (g2, df2) := df1.timeUpdate g1 m
        (E_OK, g2, { d with df := df2, status := ST_NAVIGATION })
      else (E_OK, g, { d with am := d.am.updateImu m, status := ST_ALIGN })
    else if d.status = ST_ALIGN then
      let am := d.am.updateImu m
      (E_OK, g, { d with am := am, status := if am.levelFinished then ST_ATTITUDE else d.status })
    else if d.status = ST_ATTITUDE then
      let am := d.am.updateImu m
      if am.alignFinished then
        let (g1, df) := d.df.initFusion g am.nav d.opt
        (E_OK, g1, { d with am := am, df := df, status := ST_NAVIGATION })
      else (E_OK, g, { d with am := am })
    else if d.status = ST_NAVIGATION then
      let (g1, df) := d.df.timeUpdate g m
      (E_OK, g1, { d with df := df })
    else (E_OK, g, d)

/-- `rgioe_gnssupdate`, rgioe.cpp:185-210 (the timestamp argument is unused). -/
def rgioeGnssupdate (g : α) (d : Dev α) (gnss : Option (Gnss α)) : Int × α × Dev α :=
  match gnss with
  | none => (E_NULL_INPUT, g, d)
  | some m =>
    if d.status = ST_INIT then (E_OK, g, d)
    else if d.status = ST_ALIGN ∨ d.status = ST_ATTITUDE then
      let (g1, am) := d.am.updateGnss g m
      (E_OK, g1, { d with am := am })
    else if d.status = ST_NAVIGATION then (E_OK, g, { d with df := d.df.measureGnss m })
    else (E_OK, g, d)

/-- `rgioe_get_atti`, rgioe.cpp:221-233: the three angles and the three values written to `std`. -/
def rgioeGetAtti (d : Dev α) : V3 α × V3 α :=
  let r := d.df.output
  (fun i => Fl.f32 (r.atti i), fun i => Fl.f32 (r.attiStd i))
/-- `rgioe_get_pos`, rgioe.cpp:242-254. -/
def rgioeGetPos (d : Dev α) : V3 α × V3 α :=
  let r := d.df.output
  (v3 r.lat r.lon r.height, fun i => Fl.f32 (r.attiStd i))
/-- `rgioe_get_vel`, rgioe.cpp:263-275. -/
def rgioeGetVel (d : Dev α) : V3 α × V3 α :=
  let r := d.df.output
  (fun i => Fl.f32 (r.vn i), fun i => Fl.f32 (r.vnStd i))
/-- `rgioe_get_status`, rgioe.cpp:277-280. -/
def rgioeGetStatus (d : Dev α) : Int := d.status
/-- `rgioe_get_result`, rgioe.cpp:282-319: error code and the caller's structure afterwards. -/
def rgioeGetResult (d : Dev α) (pva : NavOutput α) : Int × NavOutput α :=
  let p1 := if d.status = ST_ALIGN then { pva with gpst := d.am.nav.gpst } else pva
  let p2 := if d.status = ST_ATTITUDE then
      { p1 with gpst := d.am.nav.gpst, atti := vd d.am.nav.atti deg, attiStd := d.am.nav.attStd }
    else p1
  let p3 := if d.status = ST_NAVIGATION then d.df.output else p2
  (E_OK, p3)

/-- One call of the API on one of many devices. The query calls return values; they are listed so that
a history can contain them. The functions of rgioe.cpp:95-326. -/
inductive Call (α : Type)
  | init (opt : Opt α) (nav : Option (NavOutput α)) (junk : Junk α)
  | time (imu : Option (Imu α))
  | gnss (gnss : Option (Gnss α))
  | getAtti
  | getPos
  | getVel
  | getStatus
  | getResult (pva : NavOutput α)
  | deinit

/-- What a call hands back to the caller: return codes and out-parameters of rgioe.cpp:95-326. -/
inductive Answer (α : Type)
  | code (e : Int)
  | status (s : Int)
  | vec (v std : V3 α)
  | pva (e : Int) (p : NavOutput α)

/-- Whether a call is a query (rgioe.cpp:221-319). -/
def Call.isQuery : Call α → Bool
  | .getAtti | .getPos | .getVel | .getStatus | .getResult _ => true
  | _ => false

/-- Whether a call is `rgioe_init`, rgioe.cpp:95. -/
def Call.isInit : Call α → Bool
  | .init .. => true
  | _ => false

/-- One call executed on (gravity, device): new state and answer. `rgioe_deinit`: rgioe.cpp:322-326. -/
def Call.exec (c : Call α) (s : α × Dev α) : (α × Dev α) × Answer α :=
  match c with
  | .init o n j => match rgioeInit j s.2 (some o) n with
    | some (e, d) => ((s.1, d), .code e)
    | none => (s, .code E_OK)
  | .time i => let r := rgioeTimeupdate s.1 s.2 i; (r.2, .code r.1)
  | .gnss m => let r := rgioeGnssupdate s.1 s.2 m; (r.2, .code r.1)
  | .getAtti => (s, .vec (rgioeGetAtti s.2).1 (rgioeGetAtti s.2).2)
  | .getPos => (s, .vec (rgioeGetPos s.2).1 (rgioeGetPos s.2).2)
  | .getVel => (s, .vec (rgioeGetVel s.2).1 (rgioeGetVel s.2).2)
  | .getStatus => (s, .status (rgioeGetStatus s.2))
  | .getResult p => (s, .pva (rgioeGetResult s.2 p).1 (rgioeGetResult s.2 p).2)
  | .deinit => (s, .code E_OK)

/-- A whole history on one device: final state. No counterpart in the code: the caller of rgioe.cpp:95-326. -/
def runCalls : List (Call α) → α × Dev α → α × Dev α
  | [], s => s
  | c :: cs, s => runCalls cs (c.exec s).1

/-- A whole history on one device: all answers. No counterpart in the code: the caller of rgioe.cpp:95-326. -/
def traceCalls : List (Call α) → α × Dev α → List (Answer α)
  | [], _ => []
  | c :: cs, s => (c.exec s).2 :: traceCalls cs (c.exec s).1

/-- The process: one gravity value (`Earth::Instance().g`) and any number of devices,
Earth.h:45 and rgioe.cpp:80-86. -/
structure World (α : Type) where
  g : α
  dev : Nat → Dev α

/-- One call on device `h`, one of rgioe.cpp:95-326. -/
def World.exec (w : World α) (h : Nat) (c : Call α) : World α × Answer α :=
  let r := c.exec (w.g, w.dev h)
  ({ g := r.1.1, dev := fun k => if k = h then r.1.2 else w.dev k }, r.2)

/-- An interleaved history: final state. No counterpart in the code: the callers of rgioe.cpp:95-326. -/
def World.run : List (Nat × Call α) → World α → World α
  | [], w => w
  | hc :: cs, w => World.run cs (w.exec hc.1 hc.2).1

/-- An interleaved history: the answers, each with the handle it was given to. No counterpart in the code:
the callers of rgioe.cpp:95-326. -/
def World.trace : List (Nat × Call α) → World α → List (Nat × Answer α)
  | [], _ => []
  | hc :: cs, w => (hc.1, (w.exec hc.1 hc.2).2) :: World.trace cs (w.exec hc.1 hc.2).1
end Verif
