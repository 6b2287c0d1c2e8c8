import Verif.Model.DataManager
/-! Model of `DataSeqCheck` (`/repo/App/PostDataFusion/DataManager.h:58-71`, `DataManager.cpp:109-133`): the
running statistics of the gaps between delivered records. The gap of a GNSS record between its time of
arrival and its own time tag (`gnss_delay_time`) is not modelled: no reader fills `gpst`. -/
namespace Verif
variable {α : Type} [Add α] [Sub α] [Mul α] [Neg α] [Div α] [Zero α] [One α] [Fl α]

/-- The members of `DataSeqCheck`, DataManager.h:65-70; `data_cnt` is a `uint32_t`. -/
structure SeqCheck (α : Type) where
  cnt : BitVec 32
  last : α
  delta : α
  average : α
  max : α

namespace SeqCheck
/-- The default member initialisers, DataManager.h:65-70. -/
def new : SeqCheck α := ⟨0, 0, 0, 0, 0⟩

/-- `Update`, DataManager.cpp:109-124 (the recorder message is built from these members). -/
def update (s : SeqCheck α) (time : α) : SeqCheck α :=
  let delta := if Fl.lt 0 s.last then time - s.last else 0
  let cnt := s.cnt + 1
  let average := (s.average * Fl.lit ((cnt - 1).toNat : ℚ) + delta) / Fl.lit (cnt.toNat : ℚ)
  let mx := if Fl.lt s.max delta then delta else s.max
  { cnt := cnt, last := time, delta := delta, average := average, max := mx }

/-- `Update` for each delivered record in turn (called by `GetNextData`, DataManager.cpp:24). -/
def run (s : SeqCheck α) (ts : List α) : SeqCheck α := ts.foldl update s
end SeqCheck
end Verif
