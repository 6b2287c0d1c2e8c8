import Verif.Model.Recorder
/-!
Model of `/repo/Src/Recorder/DataLoader.cpp` (CSV text, Mat export, progress and summary are in `Model/Export`).
A pointer into the file buffer is the suffix of the buffer it points to; a read that needs more bytes
than the suffix has is an out-of-bounds read and yields `none`.
Offsets are natural numbers (`uint64_t` in the code; files are shorter than 2^64).
-/
namespace Verif.Loader
open Verif.Crc Verif.Recorder

/-- `DataLoaderErrorCode`, DataLoader.h:41-47. -/
inductive Code where
  | ok | noHeader | headerCheckFailed | endMarkNotFound | dataNotMatch
  deriving DecidableEq, Repr

/-- The messages pushed to `error_strings` (text abstracted; see `Model/Export` for the text),
DataLoader.cpp:22, 50, 64, 162, 192. -/
inductive Err where
  | crc | unknownId (id : U32) | headerDamaged | endMark | noFile
  deriving DecidableEq, Repr

/-- How the machine converts member values to `float` (the casts in `structMember2Float`,
DataLoader.cpp:93-146). `F` and the conversions are arbitrary. -/
structure FloatOps (F : Type) where
  zero : F
  ofInt : Int → F
  ofSingle : U32 → F
  ofDouble : U64 → F

/-- `DataSet`, DataLoader.h:31-39; `time` holds the raw bits of the doubles. -/
structure DataSet (F : Type) where
  id : U32
  subCnt : U32
  name : List Byte
  names : List (List Byte)
  data : List (List F)
  time : List U64

/-- The members of `DataLoader`, DataLoader.h:64-73. -/
structure State (F : Type) where
  data : UMap (DataSet F)
  cfgs : UMap SetCfg
  code : Code
  codes : UMap Code
  errs : List Err
  version : U32

/-- A new loader, DataLoader.cpp:10-15 (`errorCode` is left uninitialised there and set by `LoadFile`). -/
def fresh {F : Type} : State F := ⟨[], [], .ok, [], [], 0⟩

/-- `*(uint32_t *) p`, DataLoader.cpp:152-212. -/
def rd32 : List Byte → Option U32
  | a :: b :: c :: d :: _ => some (d ++ c ++ b ++ a)
  | _ => none

/-- `*(uint64_t *) p` / the bits of `*(double *) p`, DataLoader.cpp:93-146. -/
def rd64 : List Byte → Option U64
  | a :: b :: c :: d :: e :: f :: g :: h :: _ => some (h ++ g ++ f ++ e ++ d ++ c ++ b ++ a)
  | _ => none

/-- `*(uint16_t *) p`, DataLoader.cpp:93-146. -/
def rd16 : List Byte → Option (BitVec 16)
  | a :: b :: _ => some (b ++ a)
  | _ => none

/-- `*(uint8_t *) p`, DataLoader.cpp:93-146. -/
def rd8 : List Byte → Option (BitVec 8)
  | a :: _ => some a
  | _ => none

/-- reading `n` bytes starting at `p` (`memcpy` of DataLoader.cpp:172-186, the CRC loop
called from DataLoader.cpp:46). -/
def rdN (n : Nat) (p : List Byte) : Option (List Byte) :=
  if n ≤ p.length then some (p.take n) else none

/-- The inner `for j` loop of `_loadHeader`, DataLoader.cpp:181-188: items left, pointer. -/
def loadItems : Nat → List Byte → Option (List ItemCfg × List Byte)
  | 0, p => some ([], p)
  | n + 1, p => do
    let t ← rd32 p
    let nm ← rdN nameSize (p.drop 4)
    let (rest, q) ← loadItems n ((p.drop 4).drop nameSize)
    some (⟨t, nm⟩ :: rest, q)

/-- The outer `for i` loop of `_loadHeader`, DataLoader.cpp:172-191. -/
def loadSets {F : Type} : Nat → List Byte → State F → Option (State F × List Byte)
  | 0, p, s => some (s, p)
  | n + 1, p, s => do
    let id ← rd32 p
    let cnt ← rd32 (p.drop 4)
    let nm ← rdN nameSize (p.drop 8)
    let (items, q) ← loadItems cnt.toNat ((p.drop 8).drop nameSize)
    loadSets n q { s with
      cfgs := minsert id ⟨nm, cnt, items⟩ s.cfgs
      codes := minsert id .ok s.codes }

/-- `DataLoader::_loadHeader`, DataLoader.cpp:152-212: new state and returned offset. -/
def loadHeader {F : Type} (file : List Byte) (s : State F) : Option (State F × Nat) := do
  let m ← rd32 file
  if m ≠ hdrStart then some (s, 0) else
  let len ← rd32 (file.drop 4)
  let blk ← rdN (len - 4).toNat file
  if checksum blk ≠ 0 then some ({ s with errs := s.errs ++ [.headerDamaged], code := .headerCheckFailed }, 0)
  else
  let ver ← rd32 (file.drop 8)
  let cnt ← rd32 (file.drop 12)
  let (s1, p) ← loadSets cnt.toNat (file.drop 16) { s with version := ver }
  let e ← rd32 (p.drop 4)
  if e ≠ hdrEnd then
    some ({ s1 with errs := s1.errs ++ [.endMark], code := .endMarkNotFound, cfgs := [] }, 0)
  else some (s1, file.length - (p.drop 4).length)

/-- One `case` of the switch in `structMember2Float`, DataLoader.cpp:101-141: value and size.
An unknown type leaves `res` and `offset` as they were. -/
def member {F : Type} (ops : FloatOps F) (t : U32) (p : List Byte) (res : F) (off : Nat) :
    Option (F × Nat) :=
  if t = 0 then (rd8 p).map fun v => (ops.ofInt v.toNat, 1)
  else if t = 1 then (rd8 p).map fun v => (ops.ofInt v.toInt, 1)
  else if t = 3 then (rd16 p).map fun v => (ops.ofInt v.toInt, 2)
  else if t = 2 then (rd16 p).map fun v => (ops.ofInt v.toNat, 2)
  else if t = 5 then (rd32 p).map fun v => (ops.ofInt v.toInt, 4)
  else if t = 4 then (rd32 p).map fun v => (ops.ofInt v.toNat, 4)
  else if t = 7 then (rd64 p).map fun v => (ops.ofInt v.toInt, 8)
  else if t = 6 then (rd64 p).map fun v => (ops.ofInt v.toNat, 8)
  else if t = 8 then (rd32 p).map fun v => (ops.ofSingle v, 4)
  else if t = 9 then (rd64 p).map fun v => (ops.ofDouble v, 8)
  else some (res, off)

/-- The loop of `structMember2Float`, DataLoader.cpp:93-146: values pushed and bytes consumed. -/
def members {F : Type} (ops : FloatOps F) : List ItemCfg → List Byte → F → Nat → Option (List F × Nat)
  | [], _, _, _ => some ([], 0)
  | it :: l, p, res, off => do
    let (r, o) ← member ops it.type p res off
    let (rs, n) ← members ops l (p.drop o) r o
    some (r :: rs, o + n)

/-- `data[i].push_back(result[i])` for every configured item, DataLoader.cpp:86-88.
More configured items than columns is an out-of-bounds access. -/
def pushRow {F : Type} : List (List F) → List F → Option (List (List F))
  | cols, [] => some cols
  | [], _ :: _ => none
  | c :: cols, v :: vs => do
    let r ← pushRow cols vs
    some ((c ++ [v]) :: r)

/-- The dataset created on the first record of an id, DataLoader.cpp:67-79. -/
def newSet {F : Type} (id : U32) (cfg : SetCfg) : DataSet F where
  id := id
  subCnt := cfg.itemCnt
  name := cfg.name
  names := cfg.items.map ItemCfg.name
  data := cfg.items.map fun _ => []
  time := []

/-- `sizeof(recorder_elements_header)`: the struct (Recorder.h:94-102) is not packed, 32 bytes. -/
def elemHeaderSize : Nat := 32

/-- `DataLoader::AddData`, DataLoader.cpp:61-90; `p` is the record. -/
def addData {F : Type} (ops : FloatOps F) (id : U32) (p : List Byte) (s : State F) : Option (State F) :=
  match mfind id s.cfgs with
  | none => some { s with errs := s.errs ++ [.unknownId id] }
  | some cfg => do
    let ds := (mfind id s.data).getD (newSet id cfg)
    let t ← rd64 (p.drop 8)
    let (vals, n) ← members ops cfg.items (p.drop 20) ops.zero 0
    let len ← rd32 (p.drop 16)
    let cols ← pushRow ds.data vals
    let s1 := { s with data := mset id { ds with time := ds.time ++ [t], data := cols } s.data }
    if len.toNat ≠ elemHeaderSize + n - 4 then
      some { s1 with code := .dataNotMatch, codes := mset id .dataNotMatch s.codes }
    else some s1

/-- Result of one pass through the body of the scan loop, DataLoader.cpp:38-57. -/
inductive Step (F : Type) where
  | done (s : State F)
  | next (off : Nat) (s : State F)
  | oob

/-- One iteration of the scan loop of `LoadFile`, DataLoader.cpp:38-57. -/
def step {F : Type} (ops : FloatOps F) (file : List Byte) (off : Nat) (s : State F) : Step F :=
  if off < file.length then
    let p := file.drop off
    match rd32 p with
    | none => .oob
    | some m =>
      if m ≠ recMagic then .next (off + 1) s
      else
        match rd32 (p.drop 16) with
        | none => .oob
        | some len =>
          match rdN (len - 4).toNat p with
          | none => .oob
          | some blk =>
            if checksum blk ≠ 0 then .next off { s with errs := s.errs ++ [.crc] }
            else
              match rd32 (p.drop 4) with
              | none => .oob
              | some id =>
                match addData ops id p s with
                | none => .oob
                | some s1 => .next (off + len.toNat) s1
  else .done s

/-- What is observable of a load after at most `fuel` iterations of the scan loop,
DataLoader.cpp:38-57. -/
inductive Outcome (F : Type) where
  | finished (s : State F)
  | oob
  | running (off : Nat) (s : State F)

/-- The `while` loop run for at most `fuel` iterations, DataLoader.cpp:38-57. -/
def scan {F : Type} (ops : FloatOps F) (file : List Byte) : Nat → Nat → State F → Outcome F
  | 0, off, s => .running off s
  | fuel + 1, off, s =>
    match step ops file off s with
    | .done s1 => .finished s1
    | .next off1 s1 => scan ops file fuel off1 s1
    | .oob => .oob

/-- `DataLoader::LoadFile` on an existing file with the given content, DataLoader.cpp:17-58. -/
def loadFile {F : Type} (ops : FloatOps F) (file : List Byte) (fuel : Nat) (s0 : State F) : Outcome F :=
  match loadHeader file { s0 with errs := [], code := .ok } with
  | none => .oob
  | some (s, off) => if off = 0 then .finished { s with code := .noHeader } else scan ops file fuel off s

/-- `DataLoader::LoadFile` on a file that cannot be opened, DataLoader.cpp:18-24. -/
def loadMissing {F : Type} (s0 : State F) : State F := { s0 with errs := [.noFile], code := .ok }

/-- Cells written by `DataLoaderCsvWriter::Save2Csv` below the heading, DataLoader.cpp:268-274:
row `i`, column `j` reads `data[j][i]`; `none` is an out-of-bounds read. -/
def csvRows {F : Type} (d : DataSet F) : Option (List (List F)) :=
  (List.range d.time.length).mapM fun i => d.data.mapM fun col => col[i]?

end Verif.Loader
