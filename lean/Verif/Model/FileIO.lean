import Verif.Model.DataManager
/-! Model of the file readers and result writers of `/repo/App/AppCommon/FileIO.cpp`.

Modelled: the end-of-file and failure flags of the streams, what `ReadNext` returns, the loops of
`DataManager::AddFile`, the frame conversion, the quality mapping. Not modelled: the text of numbers (a text
file is a list of tokens that are numbers or not numbers; a GNSS line is a line with all its fields or one
from which nothing can be extracted) and the bytes of a floating-point number (`dec`). -/
namespace Verif
variable {α : Type} [Add α] [Sub α] [Mul α] [Neg α] [Div α] [Zero α] [One α] [Fl α]

/-- One byte (`char` of FileIO.cpp:231-232). -/
abbrev Byte := BitVec 8

/-- The conversion right-front-up to front-right-down, FileIO.cpp:245-248: swap the first two components,
multiply the third by -1. -/
def rfuToFrd (v : V3 α) : V3 α := v3 (v 1) (v 0) (v 2 * Fl.lit (-1))

/-- FileIO.cpp:243-249; `rfu` is `frame_ == IMU_FRAME_RFU`. -/
def ImuRec.toFrame (rfu : Bool) (r : ImuRec α) : ImuRec α :=
  if rfu then { r with acce := rfuToFrd r.acce, gyro := rfuToFrd r.gyro } else r

/-- `IMUReader` on a `WHU_BIN` file: the bytes not yet read, and `ok_`; FileIO.h:193-221. -/
structure BinReader where
  rest : List Byte
  ok : Bool

/-- The 8 bytes of `data[k]`, FileIO.cpp:231-232. -/
def word (data : List Byte) (k : Nat) : List Byte := (data.drop (8 * k)).take 8

/-- Assigning a record from the array, FileIO.cpp:233-237. -/
def recOf (dec : List Byte → α) (data : List Byte) : ImuRec α :=
  { time := dec (word data 0)
    acce := fun i => dec (word data (4 + i.val))
    gyro := fun i => dec (word data (1 + i.val)) }

/-- `IMUReader::ReadNext`, case `IMU_FILE_WHU_BIN`, FileIO.cpp:214-252. `junk` is what the local array `data`
holds before the read. -/
def BinReader.readNext (dec : List Byte → α) (rfu : Bool) (junk : List Byte) (r : BinReader) :
    Option (ImuRec α) × BinReader :=
  if !r.ok then (none, r)
  else
    let got := r.rest.take 56
    let data := got ++ junk.drop got.length
    let eof := decide (r.rest.length < 56)
    (some ((recOf dec data).toFrame rfu), { rest := r.rest.drop 56, ok := !eof })

/-- The loop of `AddFile(IMUConfig)`, DataManager.cpp:46-50; `junk k` is the content of the array before the
`k`-th read. `none`: still running when the fuel is used up. -/
def BinReader.readAll (dec : List Byte → α) (rfu : Bool) (junk : Nat → List Byte) :
    Nat → Nat → BinReader → Option (List (ImuRec α))
  | 0, _, _ => none
  | fuel + 1, k, r =>
    if !r.ok then some []
    else match r.readNext dec rfu (junk k) with
      | (none, _) => some []
      | (some x, r') => (BinReader.readAll dec rfu junk fuel (k + 1) r').map (x :: ·)

/-- A token of a text file (as `operator>>` of FileIO.cpp:226-229 splits it): a number or something else. -/
inductive Tok (α : Type)
  | num (x : α)
  | bad

/-- A text stream: the tokens left, whether white space follows the last one, and the flags.
The `ifstream` of FileIO.cpp:214-252. -/
structure TextIn (α : Type) where
  toks : List (Tok α)
  wsEnd : Bool
  eof : Bool
  fail : Bool

/-- `ifs >> x` (FileIO.cpp:226-229) for a floating-point `x` holding `old` (libstdc++, C++11): a stream that is not good stays as
it is and fails; at the end nothing is stored; something that is not a number stores 0. -/
def TextIn.num (s : TextIn α) (old : α) : α × TextIn α :=
  if s.eof || s.fail then (old, { s with fail := true })
  else match s.toks with
    | [] => (old, { s with eof := true, fail := true })
    | .bad :: _ => (0, { s with fail := true })
    | .num x :: ts => (x, { s with toks := ts, eof := ts.isEmpty && !s.wsEnd })

/-- `IMUReader::ReadNext`, case `IMU_FILE_IMUTXT`, FileIO.cpp:226-229 and 243-251. `acce` and `gyro` start at
zero (FileIO.h:144-145), `time` is uninitialised (`t0`). -/
def TextIn.imu (rfu : Bool) (t0 : α) (s : TextIn α) : ImuRec α × TextIn α :=
  let (t, s) := s.num t0
  let (g0, s) := s.num 0
  let (g1, s) := s.num 0
  let (g2, s) := s.num 0
  let (a0, s) := s.num 0
  let (a1, s) := s.num 0
  let (a2, s) := s.num 0
  (({ time := t, gyro := v3 g0 g1 g2, acce := v3 a0 a1 a2 } : ImuRec α).toFrame rfu, s)

/-- The loop of `AddFile(IMUConfig)` on a text file, DataManager.cpp:46-50: `ok_` is `!ifs.eof()` after each
read (FileIO.cpp:250). `none`: still running when the fuel is used up. -/
def TextIn.readAll (rfu : Bool) (t0 : Nat → α) : Nat → Nat → TextIn α → Option (List (ImuRec α))
  | 0, _, _ => none
  | fuel + 1, k, s =>
    let (x, s') := s.imu rfu (t0 k)
    if s'.eof then some [x] else (TextIn.readAll rfu t0 fuel (k + 1) s').map (x :: ·)

/-- The fields of a line of a GNSS file as far as the format has them; the formats read them in the order of
FileIO.cpp:274-275,283-286,294-295,302-303. -/
structure GnssFields (α : Type) where
  time : α
  lat : α
  lon : α
  height : α
  std : V3 α
  mode : BitVec 32

/-- A line: well formed, or such that not even its first field can be extracted (blank, a header).
FileIO.cpp:274-275. -/
inductive GnssLine (α : Type)
  | fields (f : GnssFields α)
  | blank

/-- `GnssFileFormat`, FileIO.h:31-40 (the values `ReadNext` distinguishes). -/
inductive GnssFmt
  | pos7
  | rtklib
  | lines10
  | gga
  | other

/-- The quality mapping of the GGA format, FileIO.cpp:304-325. -/
def ggaMap (mode : BitVec 32) (std : V3 α) : BitVec 32 × V3 α :=
  if mode = 4#32 then (4#32, fun _ => Fl.f32 (Fl.lit (1 / 1000)))
  else if mode = 5#32 then (5#32, fun _ => Fl.f32 (Fl.lit (5 / 1000)))
  else if mode = 2#32 then (6#32, fun _ => 1)
  else if mode = 1#32 then (1#32, fun _ => 1)
  else (6#32, std)

/-- What one call of `GnssReader::ReadNext` does with its line: dereference a null pointer (`gnss = {0}`,
FileIO.cpp:293), or return a record or null. -/
inductive GnssRead (α : Type)
  | ub
  | ret (r : Option (GnssRec α))

/-- The record before anything is extracted, FileIO.h:134,157-166: `time` is uninitialised, the rest zero. -/
def GnssRec.fresh (t0 : α) : GnssRec α := ⟨t0, 0, 0, 0, fun _ => 0, 0#32⟩

/-- The switch of `GnssReader::ReadNext`, FileIO.cpp:272-332 and its end, 334-335. `t0` and `q0` are the
uninitialised `time` and `q`. In the GGA format only the first two deviations are in the file. -/
def gnssLine (fmt : GnssFmt) (t0 : α) (q0 : BitVec 32) (l : GnssLine α) : GnssRead α :=
  let fin := fun (r : GnssRec α) => GnssRead.ret (if Fl.lt 0 r.time && decide (0 < r.mode.toNat) then some r else none)
  match fmt with
  | .pos7 => match l with
    | .fields f => fin ⟨f.time, f.lat, f.lon, f.height, f.std, 1#32⟩
    | .blank => fin { GnssRec.fresh t0 with mode := 1#32 }
  | .rtklib => match l with
    | .fields f => fin ⟨f.time, f.lat, f.lon, f.height, f.std, f.mode⟩
    | .blank => fin { GnssRec.fresh t0 with mode := q0 }
  | .lines10 => .ub
  | .gga =>
    let r := match l with
      | .fields f => (⟨f.time, f.lat, f.lon, f.height, v3 (f.std 0) (f.std 1) 0, f.mode⟩ : GnssRec α)
      | .blank => GnssRec.fresh t0
    let m := ggaMap r.mode r.posStd
    fin { r with mode := m.1, posStd := m.2 }
  | .other => fin (GnssRec.fresh t0)

/-- A GNSS file being read: the lines left, whether the file ends with a newline, and `ifs.good()`, which
after the first call is also `ok_` (FileIO.cpp:333). -/
structure LineIn (α : Type) where
  lines : List (GnssLine α)
  nlEnd : Bool
  good : Bool

/-- `GnssReader::ReadNext`, FileIO.cpp:261-336: `getline` at the end gives an empty line and sets the flags; a
last line without newline sets the end-of-file flag. -/
def LineIn.readNext (fmt : GnssFmt) (t0 : α) (q0 : BitVec 32) (s : LineIn α) : GnssRead α × LineIn α :=
  if !s.good then (.ret none, s)
  else match s.lines with
    | [] => (gnssLine fmt t0 q0 .blank, { s with good := false })
    | l :: ls => (gnssLine fmt t0 q0 l, { s with lines := ls, good := !(ls.isEmpty && !s.nlEnd) })

/-- The outcome of reading a file, DataManager.cpp:29-41. -/
inductive GnssFile (α : Type)
  | ub
  | recs (rs : List (GnssRec α))

/-- The loop of `AddFile(GnssConfig)`, DataManager.cpp:33-37: it stops at the first null. `t0 k`, `q0 k` are
the uninitialised values met by the `k`-th call. -/
def LineIn.readAll (fmt : GnssFmt) (t0 : Nat → α) (q0 : Nat → BitVec 32) : Nat → Nat → LineIn α → GnssFile α
  | 0, _, _ => .recs []
  | fuel + 1, k, s =>
    if !s.good then .recs []
    else match s.readNext fmt (t0 k) (q0 k) with
      | (.ub, _) => .ub
      | (.ret none, _) => .recs []
      | (.ret (some r), s') => match LineIn.readAll fmt t0 q0 fuel (k + 1) s' with
        | .ub => .ub
        | .recs rs => .recs (r :: rs)

/-- `AddFile(GnssConfig)`, DataManager.cpp:29-41, on a file that could be opened: each turn of the loop
consumes a line, the last one the end of the file, so the fuel never runs out. -/
def readGnssFile (fmt : GnssFmt) (t0 : Nat → α) (q0 : Nat → BitVec 32) (lines : List (GnssLine α)) (nlEnd : Bool) :
    GnssFile α :=
  LineIn.readAll fmt t0 q0 (lines.length + 2) 0 ⟨lines, nlEnd, true⟩

/-- What a result is written as, FileIO.cpp:185-192 and 450-461. -/
inductive OutKind
  /-- the bytes of `NavOutput` -/
  | raw
  /-- the bytes of `NavDoubleList` -/
  | doubles
  /-- a line of text -/
  | text
  /-- nothing -/
  | nothing

/-- `NavFileFormat`, FileIO.h:46-50: note that two enumerators have the value 1. -/
def NavBinary : Int := 0
@[inherit_doc NavBinary] def NavAscii : Int := 1
@[inherit_doc NavBinary] def NavDoubleMatrix : Int := 1

/-- The choice in `NavWriter::th_write_nav`, FileIO.cpp:185-192. -/
def navWriterKind (fmt : Int) : OutKind :=
  if fmt = NavBinary then .raw else if fmt = NavDoubleMatrix then .doubles else .text

/-- The choice in `PvaWriter::Write`, FileIO.cpp:450-461. -/
def pvaWriterKind (fmt : Int) : OutKind :=
  if fmt = NavAscii then .text else if fmt = NavBinary then .raw else .nothing
end Verif
