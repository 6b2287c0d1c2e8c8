import Verif.Model.Loader
/-!
Model of what a user can take out of a `DataLoader`: the CSV file, the Mat matrices, the progress figure and
the summary text (`/repo/Src/Recorder/DataLoader.cpp`). Text is a list of bytes.
-/
namespace Verif.Export
open Verif.Crc Verif.Recorder Verif.Loader

/-- Text in a stream or a `char` array, DataLoader.cpp:214-277. -/
abbrev Text := List Byte

/-- The bytes of an ASCII literal, such as those of DataLoader.cpp:224-236. -/
def text (s : String) : Text := s.toList.map fun c => BitVec.ofNat 8 c.toNat

/-- `std::string(char *)` of a 16 byte name field (DataLoader.cpp:70, 77): up to the terminating zero. A field
without a zero is read past its end by the code; the model stops at the 16th byte. -/
def cstr (b : List Byte) : Text := b.takeWhile fun x => x ≠ 0

/-- `","`, DataLoader.cpp:263. -/
def comma : Byte := 0x2C
/-- `"\n"`, DataLoader.cpp:267. -/
def newline : Byte := 0x0A

/-- How the stream prints a `double` and a `float` (`operator<<`, DataLoader.cpp:269-272); arbitrary here. -/
structure Print (F : Type) where
  time : U64 → Text
  value : F → Text

/-- One cell: the text and a comma (every cell is followed by one), DataLoader.cpp:263-265, 269-271. -/
def cell (t : Text) : Text := t ++ [comma]

/-- The heading line, DataLoader.cpp:263-267. -/
def csvHead {F : Type} (d : DataSet F) : Text :=
  cell (text "time") ++ d.names.flatMap (fun n => cell (cstr n)) ++ [newline]

/-- One data line, DataLoader.cpp:269-273. -/
def csvLine {F : Type} (pr : Print F) (t : U64) (row : List F) : Text :=
  cell (pr.time t) ++ row.flatMap (fun v => cell (pr.value v)) ++ [newline]

/-- `DataLoaderCsvWriter::Save2Csv`, DataLoader.cpp:259-277: the bytes of the file; `none` is an out-of-bounds
read of a column. The loop counter is 32 bits in the code; fewer than 2^32 samples assumed. -/
def csvFile {F : Type} (pr : Print F) (d : DataSet F) : Option Text := do
  let rows ← csvRows d
  some (csvHead d ++ (d.time.zip rows).flatMap fun r => csvLine pr r.1 r.2)

/-! ### Mat export (build option `RECORDER_ENABLE_EXPORT_MATLAB`) -/

/-- The two variables `Save2Mat` puts for one dataset: the names (rows of a character matrix) and a matrix as
its dimensions and its column-major memory. DataLoader.cpp:290-334. -/
structure MatVar (D : Type) where
  names : List Text
  rows : Nat
  cols : Nat
  mem : List D
  deriving DecidableEq

/-- `DataLoaderMatWriter::Save2Mat` for one dataset, DataLoader.cpp:290-334; `dbl`/`ofF` convert the time bits
and the stored floats to the matrix's doubles. `none`: the dataset is refused (lines 292-295, `refused`) or a
column is read outside. Line 307: the character matrix is made of the first `sub_data_cnt` of the
`sub_data_cnt + 1` strings. Not modelled: the fixed buffers the names are copied to (25 and 32 bytes; names
read from a 16 byte field fit both), allocation failures. -/
def matVar {F D : Type} (dbl : U64 → D) (ofF : F → D) (d : DataSet F) : Option (MatVar D) :=
  if d.subCnt.toNat ≠ d.names.length then none
  else do
    let fieldNames := text "time" :: d.names.map cstr
    let cols ← (List.range d.subCnt.toNat).mapM fun j => do
      let col ← d.data[j]?
      (List.range d.time.length).mapM fun i => col[i]?
    some ⟨fieldNames.take d.subCnt.toNat, d.time.length, d.subCnt.toNat + 1,
      d.time.map dbl ++ cols.flatMap fun c => c.map ofF⟩

/-! ### Progress and summary -/

/-- `DataLoader::GetProgress`, DataLoader.cpp:148-150: `int(100 * (file_offset + 1) / file_length)` in 64 bit
arithmetic (no overflow for real files); `none` is the division by zero of an empty or not yet loaded file. -/
def progress (offset length : Nat) : Option Nat :=
  if length = 0 then none else some (100 * (offset + 1) / length)

/-- `%16s`, `%10x`, `%8d`…: padded on the left to the width, never cut (the formats of
DataLoader.cpp:224-236). -/
def padded (w : Nat) (t : Text) : Text := List.replicate (w - t.length) 0x20 ++ t

/-- The text of an error message, DataLoader.cpp:22, 49, 65, 163, 196. `dec` prints a 32 bit number in decimal,
`file` is the name given to `LoadFile`. -/
def errText (dec : U32 → Text) (file : Text) : Err → Text
  | .crc => text "CRC check failed"
  | .unknownId id => text "current id is not configured:" ++ dec id
  | .headerDamaged => text "file header was damaged"
  | .endMark => text "Header endmark not found"
  | .noFile => text "No such file " ++ file

/-- The pieces `GetSummaryString` prints, in order (DataLoader.cpp:224-236). `head` is the text of the version
line, `num` and `hex` print numbers. -/
def summaryText {F : Type} (head : Text) (num : Nat → Text) (hex dec : U32 → Text) (file : Text)
    (s : State F) : Text :=
  head ++ (text "Valid dataset(" ++ num s.data.length ++ text ") incuding:\n")
  ++ (text "\t" ++ padded 16 (text "dataset") ++ text " " ++ padded 10 (text "ID") ++ text " "
      ++ padded 8 (text "size") ++ text " " ++ padded 8 (text "subsets") ++ text "\n")
  ++ s.data.flatMap (fun e => text "\t" ++ padded 16 (cstr e.2.name) ++ text " " ++ padded 10 (hex e.1) ++ text " "
      ++ padded 8 (num e.2.time.length) ++ text " " ++ padded 8 (num e.2.subCnt.toNat) ++ text "\n")
  ++ (if s.errs.isEmpty then [] else
      text "Errors:\n" ++ s.errs.flatMap fun x => errText dec file x ++ text "\n")

/-- `DataLoader::GetSummaryString`, DataLoader.cpp:214-238: printed with `sprintf` into a 4096 byte buffer on the
stack; `none` when the text and its terminating zero do not fit (a write past the buffer). -/
def summary {F : Type} (head : Text) (num : Nat → Text) (hex dec : U32 → Text) (file : Text) (s : State F) :
    Option Text :=
  let t := summaryText head num hex dec file s
  if t.length + 1 ≤ 4096 then some t else none

end Verif.Export
