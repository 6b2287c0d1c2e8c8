import Verif.Model.UiThread
import Verif.Model.StaticDetect
import Verif.Model.Reports
import Verif.Model.Convert
/-! Model of `/repo/Tools/ImuFix.cpp`, `ZeroDetector.cpp` and `SaveNavToBin.cpp` as their text describes them. They use the older
reader interface (`ReaderBase.h`, see `Model/UiThread`) and names of types that no longer exist, so they do not compile; paths
fixed in the source and printing to the screen are not modelled. -/
namespace Verif.OldTools
open Verif Verif.UiThread
variable {α : Type} [Add α] [Sub α] [Mul α] [Neg α] [Div α] [Zero α] [One α] [Fl α]

/-- `while (reader.IsOk()) { reader.ReadNext(x); … }`, ImuFix.cpp:23-27,41-54,66-70, ZeroDetector.cpp:29-33,
SaveNavToBin.cpp:36-41. `body` is the rest of the block: the variables it keeps, the record variable as it leaves it, what it
writes. The result of `ReadNext` is not looked at: a failing read leaves `x` and is noticed at the next test only. -/
def whileOk {σ β γ : Type} (body : σ → β → σ × β × γ) : List β → σ → β → List γ
  | [], s, x => [(body s x).2.2]
  | y :: l, s, _ => (body s y).2.2 :: whileOk body l (body s y).1 (body s y).2.1

/-- The same from the state of a reader. -/
def readerLoop {σ β γ : Type} (body : σ → β → σ × β × γ) (r : Rd β) (s : σ) (x : β) : List γ :=
  if r.ok then whileOk body r.recs s x else []

/-- `imu.gpst -= 1.0`, ImuFix.cpp:25,43. -/
def shiftImu (i : Imu α) : Imu α := { i with gpst := i.gpst - 1 }

/-- `IMUFix`, ImuFix.cpp:14-28: the records written, for the file `f` (`none`: it is not there). `x` is the uninitialised `imu`. -/
def imuFix (x : Imu α) (f : Option (List (Imu α))) : List (Imu α) :=
  let r := (Rd.new f).readNext
  readerLoop (fun _ i => ((), shiftImu i, shiftImu i)) r.2 () (r.1.getD x)

/-- The block of `IMURotate`, ImuFix.cpp:42-53; `Cbc` is made of 75 degrees about the first axis, 31,37. -/
def rotateImu (i : Imu α) : Imu α :=
  let c := Convert.eulerToDcm (v3 (Fl.lit 75 * deg) (0 * deg) (0 * deg))
  { gpst := i.gpst - 1, gyro := mvec c i.gyro, acce := mvec c i.acce }

/-- `IMURotate`, ImuFix.cpp:30-57 (not called). -/
def imuRotate (x : Imu α) (f : Option (List (Imu α))) : List (Imu α) :=
  let r := (Rd.new f).readNext
  readerLoop (fun _ i => ((), rotateImu i, rotateImu i)) r.2 () (r.1.getD x)

/-- `OdoFix`, ImuFix.cpp:59-71 (not called): the values of each line. -/
def odoFix (x : Odo α) (f : Option (List (Odo α))) : List (Odo α) :=
  let r := (Rd.new f).readNext
  readerLoop (fun _ v => ((), { v with gpst := v.gpst - 1 }, { v with gpst := v.gpst - 1 })) r.2 () (r.1.getD x)

/-- A line of `ZeroDetector`, ZeroDetector.cpp:32: time, deviation, mark. -/
structure ZeroLine (α : Type) where
  time : α
  std : α
  static : Bool

/-- `ZeroDetector`, ZeroDetector.cpp:17-35. The records are those the reader delivers (turned to front-right-down). -/
def zeroDetector (x : Imu α) (f : Option (List (Imu α))) : List (ZeroLine α) :=
  readerLoop (fun (s : Smooth α) i => (s.update i, i, ⟨i.gpst, (s.update i).getStd, (s.update i).isStatic⟩)) (Rd.new f)
    (Smooth.new (Fl.lit (5 / 1000000000)) 2 10) x

/-- `SaveNavToBin`, SaveNavToBin.cpp:29-42; `ConvertNavToBin`, 44-62, is the text of `ConvertNavToDouble` and `NavBin`, 13-22, that of
`NavDoubleList`. -/
def saveNavToBin (enc : α → List (BitVec 8)) (x : NavOutput α) (f : Option (List (NavOutput α))) : List (BitVec 8) :=
  (readerLoop (fun _ n => ((), n, (navToDouble n).bytes enc)) (Rd.new f) () x).flatten
end Verif.OldTools
