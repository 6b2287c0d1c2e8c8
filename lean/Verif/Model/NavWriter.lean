import Mathlib.Data.List.Basic
/-! Model of the result writer thread (`NavWriter`, `/repo/App/AppCommon/FileIO.h:95-122`,
`FileIO.cpp:123-150,171-197`) as a transition system.

A step of the system is one of: a call of `update` (its critical section, under `mtx_nav`), the clearing of the
flag by `stop` or the destructor, or one atomic step of the writer thread. `stop` returns when the thread has
ended (`join`). The file and its format are abstracted to the list of messages written to it. The call
`nav_msgs.empty()` at line 180 is not under the mutex: that is a data race in the C++ code; here it is taken
to read the current state of the queue. -/
namespace Verif
variable {β : Type}

/-- Where the writer thread is, FileIO.cpp:179-196. -/
inductive WriterPc (β : Type)
  /-- before `flag_running.test_and_set()`, line 179 -/
  | test
  /-- before `nav_msgs.empty()`, line 180 -/
  | inner
  /-- before taking the lock, line 181 -/
  | pop
  /-- after `pop`, before writing the message in hand, lines 185-192 -/
  | write (x : β)
  /-- after the loop, line 195 -/
  | done
  /-- `front()` of an empty queue was called: undefined behaviour -/
  | ub

/-- The shared state, FileIO.h:98,117, the position of the thread, the file, and (not in the program) the list
of all messages ever submitted. -/
structure NW (β : Type) where
  flag : Bool
  queue : List β
  pc : WriterPc β
  file : List β
  submitted : List β

/-- One atomic step of somebody: the caller (FileIO.cpp:128-129, 140-144) or the thread (179-196). -/
inductive NWAct (β : Type)
  /-- `update`, FileIO.cpp:140-144 -/
  | update (x : β)
  /-- `flag_running.clear()` in `stop` or the destructor, FileIO.cpp:128-129,146-147 -/
  | clear
  /-- one step of the writer thread -/
  | writer

namespace NW
/-- After the constructor, FileIO.cpp:123-126: flag set, thread started. -/
def init : NW β := ⟨true, [], .test, [], []⟩

/-- One step of `th_write_nav`, FileIO.cpp:179-196. `test_and_set` leaves the flag set whatever it was. -/
def writer (s : NW β) : NW β :=
  match s.pc with
  | .test => if s.flag then { s with pc := .inner } else { s with pc := .done, flag := true }
  | .inner => if s.queue.isEmpty then { s with pc := .test } else { s with pc := .pop }
  | .pop => match s.queue with
    | [] => { s with pc := .ub }
    | x :: q => { s with pc := .write x, queue := q }
  | .write x => { s with pc := .inner, file := s.file ++ [x] }
  | .done => s
  | .ub => s

/-- One step, see `NWAct`; FileIO.cpp:123-196. -/
def act (s : NW β) : NWAct β → NW β
  | .update x => { s with queue := s.queue ++ [x], submitted := s.submitted ++ [x] }
  | .clear => { s with flag := false }
  | .writer => s.writer

/-- The state after a schedule of FileIO.cpp:123-196. -/
def run (s : NW β) (as : List (NWAct β)) : NW β := as.foldl act s
end NW
end Verif
