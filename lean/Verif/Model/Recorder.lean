import Verif.Model.Crc
/-!
Model of the recorder writer: `/repo/Src/Recorder/Recorder.h`, `Recorder.cpp`, and of the dataset table
`RecorderType.h`. Bytes only; the file is the list of bytes given to `ofs.write`
(stream failures are not modelled).
-/
namespace Verif.Recorder
open Verif.Crc

/-- `uint64_t`, Recorder.cpp:63-117. -/
abbrev U64 := BitVec 64

/-- `RECORDER_HEADER`, Recorder.h:14. -/
def recMagic : U32 := 0xAA55AA55
/-- `RECORDER_END_MARK`, Recorder.h:15. -/
def recEnd : U32 := 0xAA66AA66
/-- `RECORDER_MAX_ITEM_NAME_SIZE`, Recorder.h:17. -/
def nameSize : Nat := 16
/-- `RECORDER_HEADER_START_MARK`, Recorder.h:18. -/
def hdrStart : U32 := 0xBB55BB66
/-- `RECORDER_HEADER_END_MARK`, Recorder.h:19. -/
def hdrEnd : U32 := 0xBB77BB88
/-- `RECORDER_HEADER_MAX_LENGTH`, Recorder.h:20. -/
def hdrMax : Nat := 4096
/-- The float `RECORDER_MAJOR_VERSION + RECORDER_MINOR_VERSION / 100.0` = 1.02f as bits
(Recorder.h:22-23, Recorder.cpp:80). -/
def versionBits : U32 := 0x3F828F5C

/-- `MSG_ID(set,id)`, Recorder.h:25: `(set << 16u) | (id & 0xffU)` on 32 bit integers. -/
def msgId (set id : U32) : U32 := (set <<< 16) ||| (id &&& 0xff#32)

/-- A `uint64_t`/`double` as it lies in little-endian memory (packed structs, Recorder.h:69-72). -/
def le64 (v : U64) : List Byte :=
  [v.setWidth 8, (v >>> 8).setWidth 8, (v >>> 16).setWidth 8, (v >>> 24).setWidth 8,
   (v >>> 32).setWidth 8, (v >>> 40).setWidth 8, (v >>> 48).setWidth 8, (v >>> 56).setWidth 8]

/-- A `uint16_t` in little-endian memory (packed structs, Recorder.h:69-72). -/
def le16 (v : BitVec 16) : List Byte := [v.setWidth 8, (v >>> 8).setWidth 8]

/-- `DataItemConfig`, Recorder.h:104-107. The type is the raw enum value, the name the 16 bytes. -/
structure ItemCfg where
  type : U32
  name : List Byte
  deriving DecidableEq, Repr

/-- `DataSetConfig`, Recorder.h:109-113. -/
structure SetCfg where
  name : List Byte
  itemCnt : U32
  items : List ItemCfg
  deriving DecidableEq, Repr

/-- `std::map<uint32_t, β>` as an association list kept in key order (`header_config`,
Recorder.cpp:49; `data_cfgs`, DataLoader.cpp:187). -/
abbrev UMap (β : Type) := List (U32 × β)

/-- `std::map::find`, DataLoader.cpp:63, 67. -/
def mfind {β : Type} (k : U32) : UMap β → Option β
  | [] => none
  | (k', v) :: l => if k = k' then some v else mfind k l

/-- `std::map::insert`: keeps an existing entry; Recorder.cpp:49, DataLoader.cpp:78, 187. -/
def minsert {β : Type} (k : U32) (v : β) : UMap β → UMap β
  | [] => [(k, v)]
  | (k', v') :: l =>
    if k.toNat < k'.toNat then (k, v) :: (k', v') :: l
    else if k = k' then (k', v') :: l
    else (k', v') :: minsert k v l

/-- `map[k] = v` for a key (assignment, creating the entry if absent), DataLoader.cpp:85. -/
def mset {β : Type} (k : U32) (v : β) : UMap β → UMap β
  | [] => [(k, v)]
  | (k', v') :: l =>
    if k.toNat < k'.toNat then (k, v) :: (k', v') :: l
    else if k = k' then (k, v) :: l
    else (k', v') :: mset k v l

/-- One item of a dataset in the header, Recorder.cpp:96-103. -/
def itemBytes (i : ItemCfg) : List Byte := le32 i.type ++ i.name

/-- One dataset in the header, Recorder.cpp:86-104. -/
def setBytes (e : U32 × SetCfg) : List Byte :=
  le32 e.1 ++ le32 (BitVec.ofNat 32 e.2.items.length) ++ e.2.name ++ e.2.items.flatMap itemBytes

/-- The part of the header between the length field and the checksum, Recorder.cpp:79-104. -/
def hdrBody (cfg : UMap SetCfg) : List Byte :=
  le32 versionBits ++ le32 (BitVec.ofNat 32 cfg.length) ++ cfg.flatMap setBytes

/-- Everything in front of the checksum, Recorder.cpp:70-106. The length field holds
`pheader - header_buffer + 8` (checksum and end mark included). -/
def hdrPre (cfg : UMap SetCfg) : List Byte :=
  le32 hdrStart ++ le32 (BitVec.ofNat 32 (8 + (hdrBody cfg).length + 8)) ++ hdrBody cfg

/-- `Recorder::WriteHeader`, Recorder.cpp:63-117. `none` is a write past the 4096 byte buffer
(undefined behaviour); an empty configuration writes nothing. -/
def writeHeader (cfg : UMap SetCfg) : Option (List Byte) :=
  if cfg.isEmpty then some []
  else
    let out := hdrPre cfg ++ le32 (revert (checksum (hdrPre cfg))) ++ le32 hdrEnd
    if out.length ≤ hdrMax then some out else none

/-- The values a recorded member can have, one constructor per `RecorderBaseType`,
Recorder.h:42-53; `float` and `double` by their bit patterns. -/
inductive Val where
  | u8 (v : BitVec 8) | i8 (v : BitVec 8) | u16 (v : BitVec 16) | i16 (v : BitVec 16)
  | u32 (v : U32) | i32 (v : U32) | u64 (v : U64) | i64 (v : U64) | f32 (v : U32) | f64 (v : U64)
  deriving DecidableEq

/-- `RECORDER_TYPE_<t>` of a member of C type `<t>`, Recorder.h:42-53. -/
def Val.type : Val → U32
  | .u8 _ => 0 | .i8 _ => 1 | .u16 _ => 2 | .i16 _ => 3 | .u32 _ => 4 | .i32 _ => 5
  | .u64 _ => 6 | .i64 _ => 7 | .f32 _ => 8 | .f64 _ => 9

/-- Memory image of a packed member, Recorder.h:68-72 (`#pragma pack(1)`). -/
def Val.bytes : Val → List Byte
  | .u8 v => [v] | .i8 v => [v] | .u16 v => le16 v | .i16 v => le16 v
  | .u32 v => le32 v | .i32 v => le32 v | .u64 v => le64 v | .i64 v => le64 v
  | .f32 v => le32 v | .f64 v => le64 v

/-- A message about to be recorded: id, timestamp bits, members (Recorder.h:56-68). -/
structure Msg where
  id : U32
  time : U64
  vals : List Val

/-- The packed member block of a message, Recorder.h:56-68. -/
def Msg.dataBytes (m : Msg) : List Byte := m.vals.flatMap Val.bytes

/-- `sizeof(recorder_msg_<name>_t)` packed: 4+4+8+4 + data + 4+4, Recorder.h:56-68, 91. -/
def Msg.size (m : Msg) : Nat := 20 + m.dataBytes.length + 8

/-- The message in memory up to the checksum (Recorder.h:86-93). -/
def Msg.pre (m : Msg) : List Byte :=
  le32 recMagic ++ le32 m.id ++ le64 m.time ++ le32 (BitVec.ofNat 32 m.size) ++ m.dataBytes

/-- `Recorder::Record`, Recorder.h:136-141 with `CHECKSUM_RECORDER_CRC32` (36-40):
the checksum covers `length - 8` bytes, i.e. `Msg.pre`. -/
def record (m : Msg) : List Byte :=
  m.pre ++ le32 (revert (checksum m.pre)) ++ le32 recEnd

/-- A 16 byte name field: the characters of the identifier padded with zeros
(array initialisation from a string literal, Recorder.cpp:36-47). -/
def nameField (s : String) : List Byte :=
  let cs := s.toList.map fun c => BitVec.ofNat 8 c.toNat
  (cs ++ List.replicate nameSize 0).take nameSize

/-- One dataset declaration of `RecorderType.h` as `Recorder::Recorder` turns it into a configuration,
Recorder.cpp:30-51. -/
def mkSet (name : String) (items : List (U32 × String)) : SetCfg where
  name := nameField name
  itemCnt := BitVec.ofNat 32 items.length
  items := items.map fun (t, n) => ⟨t, nameField n⟩

/-- The built-in datasets, RecorderType.h:23-103, in declaration order:
(set, id, name, members). Types: 8 = float, 0 = uint8_t, 2 = uint16_t, 4 = uint32_t. -/
def builtinDecl : List (U32 × U32 × String × List (U32 × String)) := [
  (0x17, 0x21, "imu", [(8,"acce_x"),(8,"acce_y"),(8,"acce_z"),(8,"gyro_x"),(8,"gyro_y"),(8,"gyro_z")]),
  (0x17, 0x22, "gnss", [(8,"pos_x"),(8,"pos_y"),(8,"pos_z"),(8,"hdop"),(8,"pdop"),(2,"ns"),(0,"mode"),
    (4,"gnss_cnt")]),
  (0x16, 0x23, "kalman", [(8,"acce_bias_x"),(8,"acce_bias_y"),(8,"acce_bias_z"),(8,"gyro_bias_x"),
    (8,"gyro_bias_y"),(8,"gyro_bias_z")]),
  (0x16, 0x24, "meas_pos", [(8,"z_x"),(8,"z_y"),(8,"z_z"),(8,"r_x"),(8,"r_y"),(8,"r_z")]),
  (0x16, 0x25, "result", [(0,"status"),(8,"pos_x"),(8,"pos_y"),(8,"pos_z"),(8,"vn_x"),(8,"vn_y"),
    (8,"vn_z"),(8,"atti_x"),(8,"atti_y"),(8,"atti_z")]),
  (0x16, 0x26, "time_check", [(8,"delta_time"),(8,"average_time"),(8,"max_delta_time"),
    (8,"gnss_delay_time")]),
  (0x16, 0x27, "ahrs", [(8,"roll"),(8,"pitch"),(8,"heading")]),
  (0x16, 0x28, "align", [(8,"atti_x"),(8,"atti_y"),(8,"atti_z"),(8,"vn_x"),(8,"vn_y"),(8,"vn_z"),
    (8,"pos_x"),(8,"pos_y"),(8,"pos_z"),(8,"v_norm"),(8,"a_norm"),(0,"is_static"),(0,"yaw_align"),
    (0,"level_align")])]

/-- `header_config` after the constructor, Recorder.cpp:30-51. -/
def builtin : UMap SetCfg :=
  builtinDecl.foldl (fun m (s, i, n, items) => minsert (msgId s i) (mkSet n items) m) []

end Verif.Recorder
