import Verif.Spec.Fusion
/-! Model of several threads, each using its own fusion object (its own handle of the C interface), over the memory
that all objects of the process share: the gravity of the `Earth` singleton (Earth.h:32-47), the static matrix inside
`TransferMatrix` (DataFusion.cpp:303) and the static result inside `Output` (DataFusion.cpp:552).

One step of the system is one stretch of one thread's code that touches shared memory once. Each such access is taken to be indivisible and
the memory sequentially consistent; C++ gives no such guarantee (these are data races), so every behaviour shown here is
possible and real ones can be worse. Calls in other states than NAVIGATION are not included. -/
namespace Verif
open Verif.Spec
variable {α : Type} [Add α] [Sub α] [Mul α] [Neg α] [Div α] [Zero α] [One α] [Fl α]

/-- What a thread asks of its own object: an update (DataFusion.h:91-126), or a result (rgioe.cpp:294-296). -/
inductive TCall (α : Type)
  | call (c : FCall α)
  | result

/-- Where a thread is within a call of rgioe.cpp (the lines are given per constructor). -/
inductive Phase (α : Type)
  /-- between two calls -/
  | idle
  /-- in `TimeUpdate`: gravity is set (InsCore.cpp:196), the velocity update (InsCore.cpp:62) comes next -/
  | wrote (m : Imu α) (acce gyro : V3 α)
  /-- in `TimeUpdate`: the mechanization is done, `TransferMatrix` (DataFusion.cpp:302-342) comes next -/
  | moved
  /-- in `TimeUpdate`: the static matrix is filled, its copy (DataFusion.cpp:342, 146) comes next -/
  | filled
  /-- in `rgioe_get_result`: the static result is filled (DataFusion.cpp:552-573), its copy (574, rgioe.cpp:295) comes next -/
  | asked

/-- A thread that calls rgioe.h on its own handle: its object, the calls it will make, its position, the results it was given. -/
structure Thread (α : Type) where
  f : Fusion α
  todo : List (TCall α)
  phase : Phase α
  got : List (NavOutput α)

/-- The process: shared memory (Earth.h:47, DataFusion.cpp:303, 552) and threads. -/
structure Process (ι α : Type) where
  g : α
  phi : Matrix (Fin 15) (Fin 15) α
  out : NavOutput α
  thr : ι → Thread α

namespace Process
variable {ι : Type} [DecidableEq ι]

/-- Up to and including `Earth::Update` in `_extrapolate`: DataFusion.cpp:134-145, InsCore.cpp:121-126, 180-198. -/
def begin' (f : Fusion α) (m : Imu α) : α × Fusion α × V3 α × V3 α :=
  let f1 := f.takeCorrection.applyCorrection
  let acce := Ins.compensate f1.ins.dt m.acce f1.ins.nav.ab f1.ins.nav.as
  let gyro := Ins.compensate f1.ins.dt m.gyro f1.ins.nav.gb f1.ins.nav.gs
  let r := f1.ins.extrapolate
  (r.1, { f1 with smooth := f1.smooth.update m, ins := r.2 }, acce, gyro)

/-- The rest of the mechanization, which reads gravity: InsCore.cpp:61-113, 126-129. -/
def move (g : α) (f : Fusion α) (m : Imu α) (acce gyro : V3 α) : Fusion α :=
  let s1 := ((f.ins.velocityUpdate g acce gyro).positionUpdate).attiUpdate gyro
  { f with ins := { s1 with nav := { s1.nav with gpst := m.gpst }, accePre := acce, gyroPre := gyro } }

/-- The rest of `TimeUpdate` with the transition matrix that was copied: DataFusion.cpp:146-196. -/
def finish (phi : Matrix (Fin 15) (Fin 15) α) (f : Fusion α) : Fusion α :=
  let f1 := { f with kf := f.kf.predict phi (f.stepQ phi), timeUpdateIdx := f.timeUpdateIdx + 1 }
  let f2 := f1.zuptStage.nhcStage
  { f2 with monitor := f2.monitor.onTimeUpdate }

/-- One step of thread `i` within rgioe.cpp (see `Phase` for the lines). -/
def step (p : Process ι α) (i : ι) : Process ι α :=
  let t := p.thr i
  let set (t : Thread α) : ι → Thread α := fun j => if j = i then t else p.thr j
  match t.phase with
  | .idle =>
    match t.todo with
    | [] => p
    | .call (.time m) :: rest =>
      let r := begin' t.f m
      { p with g := r.1, thr := set { t with f := r.2.1, todo := rest, phase := .wrote m r.2.2.1 r.2.2.2 } }
    | .call c :: rest => { p with thr := set { t with f := (c.exec (p.g, t.f)).2, todo := rest } }
    | .result :: rest => { p with out := t.f.output, thr := set { t with todo := rest, phase := .asked } }
  | .wrote m acce gyro => { p with thr := set { t with f := move p.g t.f m acce gyro, phase := .moved } }
  | .moved => { p with phi := t.f.transferMatrix p.g, thr := set { t with phase := .filled } }
  | .filled => { p with thr := set { t with f := finish p.phi t.f, phase := .idle } }
  | .asked => { p with thr := set { t with phase := .idle, got := t.got ++ [p.out] } }

/-- A whole schedule of the threads that call rgioe.h: which thread runs next. -/
def run (sched : List ι) (p : Process ι α) : Process ι α := sched.foldl step p
end Process
end Verif
