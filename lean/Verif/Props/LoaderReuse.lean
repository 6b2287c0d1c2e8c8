import Verif.Props.Recorder
import Mathlib.Data.List.Induction
/-! C204: one loader used for several files. -/
namespace Verif.Props
open Verif.Crc Verif.Recorder Verif.Loader Verif.Spec.Rec

theorem minsert_present {β : Type} (k : U32) (v : β) (l : UMap β) (hs : l.Pairwise fun a b => a.1.toNat < b.1.toNat)
    (h : ∃ e ∈ l, e.1 = k) : minsert k v l = l := by
  induction l with
  | nil => obtain ⟨e, he, _⟩ := h; simp at he
  | cons x l ih =>
    obtain ⟨k', v'⟩ := x
    rw [List.pairwise_cons] at hs
    obtain ⟨e, he, rfl⟩ := h
    rcases List.mem_cons.1 he with rfl | he
    · simp [minsert]
    · have h1 := hs.1 e he
      simp only at h1
      have h2 : e.1 ≠ k' := by intro q; rw [q] at h1; omega
      simp only [minsert, show ¬ e.1.toNat < k'.toNat by omega, h2, if_false]
      rw [ih hs.2 ⟨e, he, rfl⟩]

/-- A header read again changes no table. -/
theorem loadSets_again {F : Type} (all : UMap SetCfg) (hs : all.Pairwise fun a b => a.1.toNat < b.1.toNat) (cfg : UMap SetCfg) (r : List Byte)
    (hsub : ∀ e ∈ cfg, e ∈ all)
    (hn : ∀ e ∈ cfg, e.2.name.length = 16) (hc : ∀ e ∈ cfg, e.2.itemCnt = BitVec.ofNat 32 e.2.items.length)
    (hl : ∀ e ∈ cfg, e.2.items.length < 2 ^ 32) (hin : ∀ e ∈ cfg, ∀ i ∈ e.2.items, i.name.length = 16) (s : State F) (h : s.cfgs = all) :
    ∃ c, loadSets cfg.length (cfg.flatMap setBytes ++ r) s = some ({ s with codes := c }, r) := by
  induction cfg generalizing s with
  | nil => exact ⟨s.codes, by simp [loadSets]⟩
  | cons e cfg ih =>
    obtain ⟨id, c⟩ := e
    have h16 : c.name.length = nameSize := hn (id, c) (by simp)
    have hcnt := hc (id, c) (by simp)
    have hlt := hl (id, c) (by simp)
    simp only at hcnt hlt
    simp only [List.length_cons, List.flatMap_cons, setBytes, List.append_assoc, loadSets]
    rw [rd32_le32, drop_left (le32_length _), rd32_le32]
    simp only [Option.bind_eq_bind, Option.bind_some]
    have d8 : ∀ x : List Byte, (le32 id ++ (le32 (BitVec.ofNat 32 c.items.length) ++ x)).drop 8 = x := by
      intro x; rw [show 8 = 4 + 4 by rfl, drop_le32, drop_left (le32_length _)]
    rw [d8, rdN_append h16]
    simp only [Option.bind_some]
    rw [drop_left h16]
    have hnat : (BitVec.ofNat 32 c.items.length).toNat = c.items.length := by
      simp [BitVec.toNat_ofNat, Nat.mod_eq_of_lt hlt]
    rw [hnat, loadItems_ok _ (hin (id, c) (by simp))]
    simp only [Option.bind_some]
    rw [minsert_present _ _ _ (by rw [h]; exact hs) ⟨(id, c), by rw [h]; exact hsub _ (by simp), rfl⟩]
    obtain ⟨c', hc'⟩ := ih (fun e he => hsub e (by simp [he])) (fun e he => hn e (by simp [he])) (fun e he => hc e (by simp [he]))
      (fun e he => hl e (by simp [he])) (fun e he => hin e (by simp [he])) { s with codes := minsert id Code.ok s.codes } h
    exact ⟨c', hc'⟩

theorem loadHeader_again {F : Type} (cfg : UMap SetCfg) (h : CfgOk cfg) (hdr r : List Byte)
    (hw : writeHeader cfg = some hdr) (s : State F) (hs : s.cfgs = cfg) :
    ∃ c, loadHeader (hdr ++ r) s = some ({ s with codes := c, version := versionBits }, hdr.length - 4) := by
  have hne : cfg.isEmpty = false := by
    cases cfg with
    | nil => exact absurd rfl h.nonempty
    | cons _ _ => rfl
  unfold writeHeader at hw
  simp only [hne, Bool.false_eq_true, if_false] at hw
  split at hw
  case isFalse => simp at hw
  rename_i hlen
  simp only [Option.some.injEq] at hw
  subst hw
  have hL : (hdrPre cfg).length = 8 + (hdrBody cfg).length := by
    simp [hdrPre]; omega
  have hlen' : 8 + (hdrBody cfg).length + 8 ≤ 4096 := by
    simp only [List.length_append, le32_length, hL, hdrMax] at hlen; omega
  set crc := le32 (revert (checksum (hdrPre cfg))) with hcrc
  have crcL : crc.length = 4 := rfl
  set n := 8 + (hdrBody cfg).length + 8 with hn
  have e1 : hdrPre cfg ++ crc ++ le32 hdrEnd ++ r =
      le32 hdrStart ++ (le32 (BitVec.ofNat 32 n) ++ (hdrBody cfg ++ (crc ++ (le32 hdrEnd ++ r)))) := by
    simp [hdrPre, hn]
  unfold loadHeader
  rw [e1, rd32_le32, drop_left (le32_length _), rd32_le32]
  have hn4 : (BitVec.ofNat 32 n - 4).toNat = n - 4 := by
    rw [BitVec.toNat_sub, show BitVec.toNat (4 : BitVec 32) = 4 from rfl]
    simp only [BitVec.toNat_ofNat]
    rw [Nat.mod_eq_of_lt (by omega : n < 2^32)]
    omega
  have e2 : le32 hdrStart ++ (le32 (BitVec.ofNat 32 n) ++ (hdrBody cfg ++ (crc ++ (le32 hdrEnd ++ r)))) =
      (hdrPre cfg ++ crc) ++ (le32 hdrEnd ++ r) := by simp [hdrPre, hn]
  have hblk : (hdrPre cfg ++ crc).length = n - 4 := by
    simp only [List.length_append, hL, crcL]; omega
  have hrd : rdN (n - 4) (le32 hdrStart ++ (le32 (BitVec.ofNat 32 n) ++
      (hdrBody cfg ++ (crc ++ (le32 hdrEnd ++ r))))) = some (hdrPre cfg ++ crc) := by
    rw [e2]; exact rdN_append hblk
  have hck : checksum (hdrPre cfg ++ crc) = 0 := Props.C02_written_checksum_verifies _
  simp only [Option.bind_eq_bind, Option.bind_some, ne_eq, not_true_eq_false, if_false, hn4, hrd, hck]
  have d8 : ∀ k, (le32 hdrStart ++ (le32 (BitVec.ofNat 32 n) ++
      (hdrBody cfg ++ (crc ++ (le32 hdrEnd ++ r))))).drop (8 + k) =
      (hdrBody cfg ++ (crc ++ (le32 hdrEnd ++ r))).drop k := by
    intro k
    rw [show 8 + k = 4 + (4 + k) by omega, drop_le32, drop_le32]
  have b8 := d8 0
  have b12 := d8 4
  have b16 := d8 8
  simp only [Nat.add_zero, Nat.reduceAdd, List.drop_zero] at b8 b12 b16
  rw [b8, b12, b16]
  simp only [hdrBody, List.append_assoc]
  rw [rd32_le32, drop_left (le32_length _), rd32_le32]
  simp only [Option.bind_some]
  rw [show (8:Nat) = 4 + 4 by rfl, drop_le32, drop_left (le32_length _)]
  have hcl := cfg_le_body cfg
  have hnat : (BitVec.ofNat 32 cfg.length).toNat = cfg.length := by
    rw [BitVec.toNat_ofNat, Nat.mod_eq_of_lt (by omega)]
  obtain ⟨c, hc⟩ := loadSets_again cfg h.sorted cfg (crc ++ (le32 hdrEnd ++ r)) (fun _ he => he) h.names h.counts
    (fun e he => by have := items_le_body cfg e he; omega) h.itemNames { s with version := versionBits } hs
  refine ⟨c, ?_⟩
  rw [hnat, hc]
  simp only [Option.bind_some]
  rw [drop_left crcL, rd32_le32]
  simp only [Option.bind_some, not_true_eq_false, if_false, Option.some.injEq, Prod.mk.injEq]
  refine ⟨trivial, ?_⟩
  simp only [List.length_append, le32_length, hL, crcL, hdrBody]
  omega

theorem scan_split {F : Type} (ops : FloatOps F) : ∀ (n k off : Nat) (x : State F) (off' : Nat) (x' : State F) (file : List Byte),
    scan ops file n off x = .running off' x' → scan ops file (n + k) off x = scan ops file k off' x' := by
  intro n
  induction n with
  | zero =>
    intro k off x off' x' file h
    simp only [scan, Outcome.running.injEq] at h
    rw [h.1, h.2, Nat.zero_add]
  | succ n ih =>
    intro k off x off' x' file h
    rw [show n + 1 + k = (n + k) + 1 by omega]
    simp only [scan] at h ⊢
    split at h
    · simp at h
    · exact ih k _ _ _ _ _ h
    · simp at h

/-- A recording loaded by a loader that already holds the messages `old`. -/
theorem load_more {F : Type} (ops : FloatOps F) (cfg : UMap SetCfg) (hok : CfgOk cfg) (hdr : List Byte)
    (hw : writeHeader cfg = some hdr) (old ms : List Msg) (hne : ms ≠ []) (s : State F) (hi : Inv ops cfg old s) (hold : ∀ m ∈ old, Fits cfg m)
    (hsz : ∀ m ∈ ms, m.size < 2 ^ 32) (hfit : ∀ m ∈ ms, Fits cfg m) :
    ∃ s', Inv ops cfg (old ++ ms) s' ∧ ∀ fuel, 5 + ms.length ≤ fuel → loadFile ops (recording hdr ms) fuel s = .finished s' := by
  obtain ⟨c, hc⟩ := loadHeader_again cfg hok hdr (ms.flatMap record) hw { s with errs := [], code := .ok } hi.cfgs
  obtain ⟨_, _, h20, h0, hh0⟩ := loadHeader_ok cfg hok hdr (ms.flatMap record) hw (fresh : State F) rfl rfl
  have none_unknown : (old.filter fun m => (mfind m.id cfg).isNone) = [] := by
    rw [List.filter_eq_nil_iff]
    intro m hm
    obtain ⟨e, he, hid, _⟩ := hold m hm
    rw [← hid, mfind_mem cfg hok.sorted e he]; simp
  have hi0 : Inv ops cfg old { s with errs := [], code := .ok, codes := c, version := versionBits } :=
    ⟨hi.cfgs, rfl, by rw [none_unknown]; rfl, hi.unk, hi.known⟩
  obtain ⟨s', hi', he'⟩ := scan_msgs ops cfg hok.sorted ms hdr [] old _ 0 hsz (fun m hm => Or.inl (hfit m hm)) hi0
  refine ⟨s', hi', fun fuel hf => ?_⟩
  obtain ⟨k, hk⟩ : ∃ k, fuel = 4 + (ms.length + (k + 1)) := ⟨fuel - (5 + ms.length), by omega⟩
  simp only [List.append_nil, Nat.add_zero] at he'
  have run : scan ops (hdr ++ ms.flatMap record) ms.length hdr.length { s with errs := [], code := .ok, codes := c, version := versionBits } =
      .running (hdr.length + (ms.flatMap record).length) s' := by simpa [scan] using he'
  unfold loadFile recording
  rw [hc]
  simp only
  rw [if_neg (by omega), hk]
  have hoff : hdr.length - 4 = h0.length := by rw [hh0]; simp
  cases ms with
  | nil => exact absurd rfl hne
  | cons m ms =>
    have hfile : hdr ++ ((m :: ms).flatMap record) = h0 ++ (le32 hdrEnd ++ (le32 recMagic ++
        (((record m).drop 4) ++ ms.flatMap record))) := by
      rw [hh0]
      simp only [List.flatMap_cons, List.append_assoc]
      rw [record_cons]
      simp only [List.append_assoc]
      rw [drop_left (le32_length _)]
      simp
    have := scan_endmark ops h0 (((record m).drop 4) ++ ms.flatMap record) ((m :: ms).length + (k + 1))
      { s with errs := [], code := .ok, codes := c, version := versionBits }
    rw [← hfile] at this
    rw [hoff, this]
    have hl2 : h0.length + 4 = hdr.length := by rw [hh0]; simp
    rw [hl2, scan_split ops _ (k + 1) _ _ _ _ _ run, ← List.length_append, scan_end]

/-- What the invariant says about the datasets seen from outside. -/
theorem inv_holds {F : Type} (ops : FloatOps F) (cfg : UMap SetCfg) (hok : CfgOk cfg) (ms : List Msg) (hfit : ∀ m ∈ ms, Fits cfg m) (s : State F)
    (hi : Inv ops cfg ms s) (e : U32 × SetCfg) (he : e ∈ cfg) : Holds ops s e.1 (ms.filter fun m => decide (m.id = e.1)) := by
  have hc := mfind_mem cfg hok.sorted e he
  have hk := hi.known e.1 e.2 hc
  unfold Holds
  split at hk
  · rename_i h; rw [if_pos h]; exact hk
  · rename_i h
    rw [if_neg h]
    obtain ⟨d, h1, h2, h3⟩ := hk
    refine ⟨d, h1, h2, csvRows_cols ops.zero e.2.items.length _ ?_ d h3 (by rw [h2]; simp)⟩
    intro r hr
    simp only [List.mem_map, List.mem_filter, decide_eq_true_eq] at hr
    obtain ⟨m, ⟨hm, hid⟩, rfl⟩ := hr
    obtain ⟨e', he', hid', hv⟩ := hfit m hm
    have := mfind_mem cfg hok.sorted e' he'
    rw [hid', hid, hc] at this
    have h2 : e.2 = e'.2 := by simpa using this
    have := congrArg List.length hv
    simp only [List.length_map] at this
    rw [List.length_map, this, h2]

/-- The states of one loader that loads these recordings one after the other. -/
inductive LoadedAll {F : Type} (ops : FloatOps F) (hdr : List Byte) : List (List Msg) → State F → Prop
  | new : LoadedAll ops hdr [] fresh
  | next (fs : List (List Msg)) (ms : List Msg) (s s' : State F) : LoadedAll ops hdr fs s →
      (∀ fuel, 5 + ms.length ≤ fuel → loadFile ops (recording hdr ms) fuel s = .finished s') → LoadedAll ops hdr (fs ++ [ms]) s'

theorem outcome_unique {F : Type} (ops : FloatOps F) (file : List Byte) (n : Nat) (s a b : State F)
    (ha : ∀ fuel, n ≤ fuel → loadFile ops file fuel s = .finished a) (hb : ∀ fuel, n ≤ fuel → loadFile ops file fuel s = .finished b) : a = b := by
  have := (ha n (Nat.le_refl n)).symm.trans (hb n (Nat.le_refl n))
  simpa using this

theorem loaded_inv {F : Type} (ops : FloatOps F) (cfg : UMap SetCfg) (hok : CfgOk cfg) (hdr : List Byte) (hw : writeHeader cfg = some hdr)
    (fs : List (List Msg)) (s : State F) (h : LoadedAll ops hdr fs s) (hne : fs ≠ [])
    (hall : ∀ ms ∈ fs, ms ≠ [] ∧ ∀ m ∈ ms, m.size < 2 ^ 32 ∧ Fits cfg m) : Inv ops cfg fs.flatten s := by
  induction h with
  | new => exact absurd rfl hne
  | next fs ms s s' hl hs ih =>
    have hm := hall ms (by simp)
    by_cases h0 : fs = []
    · subst h0
      have hfr : s = fresh := by
        generalize hx : ([] : List (List Msg)) = x at hl
        cases hl with
        | new => rfl
        | next => simp at hx
      subst hfr
      obtain ⟨s1, hi, hrun⟩ := load_msgs (F := F) ops cfg hok hdr [] hw ms hm.1 (fun m hx => (hm.2 m hx).1) (fun m hx => Or.inl (hm.2 m hx).2)
      have e : s1 = s' := by
        refine outcome_unique ops (recording hdr ms) (5 + ms.length) fresh s1 s' (fun fuel hf => ?_) hs
        obtain ⟨k, hk⟩ : ∃ k, fuel = 4 + (ms.length + (k + 1)) := ⟨fuel - (5 + ms.length), by omega⟩
        have := hrun (k + 1)
        simp only [List.append_nil] at this
        rw [hk, recording, this, ← List.length_append, scan_end]
      subst e
      simpa using hi
    · have hi := ih h0 (fun ms hx => hall ms (by simp [hx]))
      obtain ⟨s1, hi1, hrun⟩ := load_more ops cfg hok hdr hw fs.flatten ms hm.1 s hi
        (fun m hx => by
          obtain ⟨l, hl1, hl2⟩ := List.mem_flatten.1 hx
          exact ((hall l (by simp [hl1])).2 m hl2).2) (fun m hx => (hm.2 m hx).1) (fun m hx => (hm.2 m hx).2)
      have e := outcome_unique ops (recording hdr ms) (5 + ms.length) s s1 s' hrun hs
      subst e
      simpa using hi1

/-- C204, the violation in full: a loader that loads recordings of one table one after the other holds, after each of them, the records of all files so far, not those of the last one,
and says that all is well. -/
theorem C204_loads_accumulate {F : Type} (ops : FloatOps F) (cfg : UMap SetCfg) (hok : CfgOk cfg) (hdr : List Byte) (hw : writeHeader cfg = some hdr)
    (fs : List (List Msg)) (s : State F) (h : LoadedAll ops hdr fs s) (hne : fs ≠ [])
    (hall : ∀ ms ∈ fs, ms ≠ [] ∧ ∀ m ∈ ms, m.size < 2 ^ 32 ∧ Fits cfg m) :
    s.code = .ok ∧ s.errs = [] ∧ ∀ e ∈ cfg, Holds ops s e.1 (fs.flatten.filter fun m => decide (m.id = e.1)) := by
  have hi := loaded_inv ops cfg hok hdr hw fs s h hne hall
  have hfit : ∀ m ∈ fs.flatten, Fits cfg m := by
    intro m hx
    obtain ⟨l, hl1, hl2⟩ := List.mem_flatten.1 hx
    exact ((hall l hl1).2 m hl2).2
  refine ⟨hi.code, ?_, fun e he => inv_holds ops cfg hok _ hfit s hi e he⟩
  rw [hi.errs]
  have : (fs.flatten.filter fun m => (mfind m.id cfg).isNone) = [] := by
    rw [List.filter_eq_nil_iff]
    intro m hm
    obtain ⟨e, he, hid, _⟩ := hfit m hm
    rw [← hid, mfind_mem cfg hok.sorted e he]; simp
  rw [this]; rfl

/-- C204, the violation: a loader that has loaded two recordings with records of one dataset in the first does not hold that dataset as the second file has it. -/
theorem C204_not_the_last_file {F : Type} (ops : FloatOps F) (cfg : UMap SetCfg) (hok : CfgOk cfg) (hdr : List Byte) (hw : writeHeader cfg = some hdr)
    (a b : List Msg) (s : State F) (h : LoadedAll ops hdr [a, b] s) (hall : ∀ ms ∈ [a, b], ms ≠ [] ∧ ∀ m ∈ ms, m.size < 2 ^ 32 ∧ Fits cfg m)
    (e : U32 × SetCfg) (he : e ∈ cfg) (m : Msg) (hm : m ∈ a) (hid : m.id = e.1) : ¬ Holds ops s e.1 (b.filter fun m => decide (m.id = e.1)) := by
  have hh := (C204_loads_accumulate ops cfg hok hdr hw [a, b] s h (by simp) hall).2.2 e he
  have hmem : m ∈ a.filter fun m => decide (m.id = e.1) := by simp [hm, hid]
  intro hb
  unfold Holds at hh hb
  simp only [List.flatten_cons, List.flatten_nil, List.append_nil, List.filter_append] at hh
  have hne : a.filter (fun m => decide (m.id = e.1)) ≠ [] := List.ne_nil_of_mem hmem
  rw [if_neg (by simp [hne])] at hh
  obtain ⟨d, h1, h2, _⟩ := hh
  split at hb
  · rw [h1] at hb; simp at hb
  · obtain ⟨d', g1, g2, _⟩ := hb
    rw [h1, Option.some.injEq] at g1
    rw [← g1, h2] at g2
    have := congrArg List.length g2
    simp only [List.length_map, List.length_append] at this
    have := List.length_pos_of_mem hmem
    omega

/-- Every list of recordings can be loaded this way. -/
theorem loaded_exists {F : Type} (ops : FloatOps F) (cfg : UMap SetCfg) (hok : CfgOk cfg) (hdr : List Byte) (hw : writeHeader cfg = some hdr)
    (fs : List (List Msg)) (hall : ∀ ms ∈ fs, ms ≠ [] ∧ ∀ m ∈ ms, m.size < 2 ^ 32 ∧ Fits cfg m) : ∃ s : State F, LoadedAll ops hdr fs s := by
  induction fs using List.reverseRecOn with
  | nil => exact ⟨fresh, .new⟩
  | append_singleton fs ms ih =>
    obtain ⟨s, hs⟩ := ih fun x hx => hall x (by simp [hx])
    have hm := hall ms (by simp)
    by_cases h0 : fs = []
    · subst h0
      obtain ⟨s1, h1, _⟩ := C05_recording_round_trip ops cfg hok hdr hw ms hm.1 (fun m hx => (hm.2 m hx).1) (fun m hx => (hm.2 m hx).2)
      exact ⟨s1, .next [] ms fresh s1 .new h1⟩
    · have hi := loaded_inv ops cfg hok hdr hw fs s hs h0 fun x hx => hall x (by simp [hx])
      obtain ⟨s1, _, hrun⟩ := load_more ops cfg hok hdr hw fs.flatten ms hm.1 s hi
        (fun m hx => by
          obtain ⟨l, hl1, hl2⟩ := List.mem_flatten.1 hx
          exact ((hall l (by simp [hl1])).2 m hl2).2) (fun m hx => (hm.2 m hx).1) (fun m hx => (hm.2 m hx).2)
      exact ⟨s1, .next fs ms s s1 hs hrun⟩

/-- C204, the violation: a file that cannot be opened leaves the data of the file before in place and the error code says all is well; only the list of messages tells. -/
theorem C204_missing_file_keeps_data {F : Type} (s : State F) :
    (loadMissing s).data = s.data ∧ (loadMissing s).cfgs = s.cfgs ∧ (loadMissing s).code = .ok ∧ (loadMissing s).errs = [.noFile] := ⟨rfl, rfl, rfl, rfl⟩

/-- C204, the violation: so does a file that does not begin with a header; there the error code tells. -/
theorem C204_headless_file_keeps_data {F : Type} (ops : FloatOps F) (file : List Byte) (fuel : Nat) (m : U32) (hm : rd32 file = some m) (hne : m ≠ hdrStart) (s : State F) :
    ∃ s', loadFile ops file fuel s = .finished s' ∧ s'.data = s.data ∧ s'.code = .noHeader := by
  refine ⟨{ s with errs := [], code := .noHeader }, ?_, rfl, rfl⟩
  unfold loadFile loadHeader
  simp [hm, hne]

/-- The hypotheses are met: two recordings of one record of the dataset `ahrs` each, in the library's own table, loaded one after the other: the dataset then has both records. -/
example : ∃ (hdr : List Byte) (s : State Int), LoadedAll intOps hdr [[⟨0x160027, 7, List.replicate 3 (.f32 2)⟩], [⟨0x160027, 9, List.replicate 3 (.f32 5)⟩]] s ∧
    Holds intOps s 0x160027 [⟨0x160027, 7, List.replicate 3 (.f32 2)⟩, ⟨0x160027, 9, List.replicate 3 (.f32 5)⟩] := by
  have h : (writeHeader builtin).map List.length = some 1356 := by decide +kernel
  have he : ((0x160027 : U32), mkSet "ahrs" [(8,"roll"),(8,"pitch"),(8,"heading")]) ∈ builtin := by decide +kernel
  have hall : ∀ ms ∈ ([[⟨0x160027, 7, List.replicate 3 (.f32 2)⟩], [⟨0x160027, 9, List.replicate 3 (.f32 5)⟩]] : List (List Msg)),
      ms ≠ [] ∧ ∀ m ∈ ms, m.size < 2 ^ 32 ∧ Fits builtin m := by
    intro ms hm
    simp only [List.mem_cons, List.not_mem_nil, or_false] at hm
    rcases hm with rfl | rfl
    · refine ⟨by simp, fun m hm => ?_⟩
      rw [List.mem_singleton] at hm
      subst hm
      exact ⟨by decide +kernel, _, he, rfl, by decide +kernel⟩
    · refine ⟨by simp, fun m hm => ?_⟩
      rw [List.mem_singleton] at hm
      subst hm
      exact ⟨by decide +kernel, _, he, rfl, by decide +kernel⟩
  cases hw : writeHeader builtin with
  | none => simp [hw] at h
  | some hdr =>
    obtain ⟨s, hs⟩ := loaded_exists intOps builtin builtin_ok hdr hw _ hall
    exact ⟨hdr, s, hs, (C204_loads_accumulate intOps builtin builtin_ok hdr hw _ s hs (by simp) hall).2.2 _ he⟩
end Verif.Props
