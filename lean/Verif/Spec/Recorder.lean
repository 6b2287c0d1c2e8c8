import Verif.Model.Recorder
import Verif.Model.Loader
/-! Specification vocabulary for the recorder file format (C04-C10). -/
namespace Verif.Spec.Rec
open Verif.Crc Verif.Recorder Verif.Loader

/-- The number a C value of each member type denotes, as the machine's `float`. -/
def value {F : Type} (ops : FloatOps F) : Val → F
  | .u8 v => ops.ofInt v.toNat
  | .i8 v => ops.ofInt v.toInt
  | .u16 v => ops.ofInt v.toNat
  | .i16 v => ops.ofInt v.toInt
  | .u32 v => ops.ofInt v.toNat
  | .i32 v => ops.ofInt v.toInt
  | .u64 v => ops.ofInt v.toNat
  | .i64 v => ops.ofInt v.toInt
  | .f32 v => ops.ofSingle v
  | .f64 v => ops.ofDouble v

/-- A dataset table a recorder can hold: at least one dataset, ids distinct (listed in increasing order,
as a `std::map` does), names in 16 byte fields, the stored item count is the number of items. -/
structure CfgOk (cfg : UMap SetCfg) : Prop where
  nonempty : cfg ≠ []
  sorted : cfg.Pairwise fun a b => a.1.toNat < b.1.toNat
  names : ∀ e ∈ cfg, e.2.name.length = 16
  counts : ∀ e ∈ cfg, e.2.itemCnt = BitVec.ofNat 32 e.2.items.length
  itemNames : ∀ e ∈ cfg, ∀ i ∈ e.2.items, i.name.length = 16

/-- The message is one of the table's: its id is configured and its members have the configured types. -/
def Fits (cfg : UMap SetCfg) (m : Msg) : Prop :=
  ∃ e ∈ cfg, e.1 = m.id ∧ m.vals.map Val.type = e.2.items.map ItemCfg.type

/-- The id of the message is not in the table. -/
def Unknown (cfg : UMap SetCfg) (m : Msg) : Prop := ∀ e ∈ cfg, e.1 ≠ m.id

/-- The file a recorder with table `cfg` leaves after recording `ms`. -/
def recording (hdr : List Byte) (ms : List Msg) : List Byte := hdr ++ ms.flatMap record

/-- The loader holds, for dataset `id`, exactly the messages `ms` (in this order). -/
def Holds {F : Type} (ops : FloatOps F) (s : State F) (id : U32) (ms : List Msg) : Prop :=
  if ms = [] then mfind id s.data = none
  else ∃ d, mfind id s.data = some d ∧ d.time = ms.map Msg.time ∧
    csvRows d = some (ms.map fun m => m.vals.map (value ops))

end Verif.Spec.Rec
