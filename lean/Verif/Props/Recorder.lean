import Verif.Lemmas.Loader
import Mathlib.Tactic.Tauto
/-! # C04 - C10: the recorder file format and its loader -/
namespace Verif.Props
open Verif.Crc Verif.Recorder Verif.Loader Verif.Spec.Rec

/-- C04. For every dataset table that fits the 4096 byte header buffer, a new loader reading a file that
starts with the written header ends the header phase with exactly that table (ids, names, item types, item
names, order), no error, and positioned on the header's end mark. -/
theorem C04_header_round_trip {F : Type} (cfg : UMap SetCfg) (hok : CfgOk cfg) (hdr rest : List Byte)
    (hw : writeHeader cfg = some hdr) :
    ∃ s : State F, loadHeader (hdr ++ rest) fresh = some (s, hdr.length - 4) ∧
      s.cfgs = cfg ∧ s.errs = [] ∧ s.code = .ok ∧ s.data = [] ∧ s.version = versionBits := by
  obtain ⟨h, _⟩ := loadHeader_ok cfg hok hdr rest hw (fresh : State F) rfl rfl
  exact ⟨_, h, rfl, rfl, rfl, rfl, rfl⟩

/-- C04, damage: a header hit by a burst of at most four bytes between the length field and the end mark is
refused: the loader reports the file has no usable header and loads nothing. -/
theorem C04_damaged_header_refused {F : Type} (ops : FloatOps F) (cfg : UMap SetCfg) (hok : CfgOk cfg)
    (hdr rest pre win win' post : List Byte) (hw : writeHeader cfg = some hdr)
    (hsplit : hdr = pre ++ win ++ post) (h8 : 8 ≤ pre.length) (h4 : 4 ≤ post.length)
    (hl : win.length = win'.length) (hwin : win.length ≤ 4) (hne : win ≠ win') (fuel : Nat) :
    ∃ s, loadFile ops (pre ++ win' ++ post ++ rest) fuel fresh = .finished s ∧
      s.code = .noHeader ∧ s.errs = [.headerDamaged] ∧ s.data = [] ∧ s.cfgs = [] := by
  obtain ⟨_, hle, h20, h0, hh0⟩ := loadHeader_ok cfg hok hdr rest hw (fresh : State F) rfl rfl
  have hne' : cfg.isEmpty = false := by
    cases cfg with
    | nil => exact absurd rfl hok.nonempty
    | cons _ _ => rfl
  -- the header block covered by the checksum
  have hblk : ∃ n, n = hdr.length ∧ n ≤ 4096 ∧ 20 ≤ n ∧ checksum (hdr.take (n - 4)) = 0 ∧
      hdr.take 8 = le32 hdrStart ++ le32 (BitVec.ofNat 32 n) := by
    unfold writeHeader at hw
    simp only [hne', Bool.false_eq_true, if_false] at hw
    split at hw
    case isFalse => simp at hw
    simp only [Option.some.injEq] at hw
    refine ⟨_, rfl, hle, h20, ?_, ?_⟩
    · rw [← hw]
      have : (hdrPre cfg ++ le32 (revert (checksum (hdrPre cfg))) ++ le32 hdrEnd).take
          ((hdrPre cfg ++ le32 (revert (checksum (hdrPre cfg))) ++ le32 hdrEnd).length - 4) =
          hdrPre cfg ++ le32 (revert (checksum (hdrPre cfg))) := by
        rw [List.length_append, le32_length, Nat.add_sub_cancel, List.take_left']; rfl
      rw [this]; exact C02_written_checksum_verifies _
    · rw [← hw]
      have hL : (hdrPre cfg).length = 8 + (hdrBody cfg).length := by simp [hdrPre]; omega
      have hn : (hdrPre cfg ++ le32 (revert (checksum (hdrPre cfg))) ++ le32 hdrEnd).length =
          8 + (hdrBody cfg).length + 8 := by simp [hL]
      rw [hn]
      simp only [hdrPre, List.append_assoc]
      rw [← List.append_assoc (le32 hdrStart)]
      exact List.take_left' (by simp)
  obtain ⟨n, hn, hn1, hn2, hck, htake⟩ := hblk
  set bad := pre ++ win' ++ post with hbad
  have hbl : bad.length = n := by rw [hn, hsplit, hbad]; simp [hl]
  have hbt : bad.take 8 = hdr.take 8 := by
    rw [hbad, hsplit, List.append_assoc, List.append_assoc, List.take_append_of_le_length h8,
      List.take_append_of_le_length h8]
  have hb : ∃ t, bad = le32 hdrStart ++ (le32 (BitVec.ofNat 32 n) ++ t) := by
    refine ⟨bad.drop 8, ?_⟩
    rw [← List.append_assoc, ← htake, ← hbt, List.take_append_drop]
  have hck' : checksum (bad.take (n - 4)) ≠ 0 := by
    set post' := post.take (post.length - 4) with hp'
    have e1 : hdr.take (n - 4) = pre ++ win ++ post' := by
      rw [hsplit, List.take_append, List.take_of_length_le]
      · congr 1; rw [hp']; congr 1
        have := congrArg List.length hsplit
        simp only [List.length_append] at this ⊢; omega
      · have := congrArg List.length hsplit
        simp only [List.length_append] at this ⊢; omega
    have e2 : bad.take (n - 4) = pre ++ win' ++ post' := by
      rw [hbad, List.take_append, List.take_of_length_le]
      · congr 1; rw [hp']; congr 1
        have := congrArg List.length hsplit
        simp only [List.length_append] at this ⊢; omega
      · have := congrArg List.length hsplit
        simp only [List.length_append] at this ⊢; omega
    rw [e2]
    exact C03_burst_detected pre win win' post' hl hwin hne (by rw [← e1]; exact hck)
  have hrd : rdN (n - 4) (bad ++ rest) = some (bad.take (n - 4)) := by
    unfold rdN
    rw [if_pos (by simp; omega), List.take_append_of_le_length (by omega)]
  obtain ⟨t, ht⟩ := hb
  have f0 : rd32 (bad ++ rest) = some hdrStart := by
    rw [ht]; simp only [List.append_assoc]; exact rd32_le32 _ _
  have f4 : rd32 ((bad ++ rest).drop 4) = some (BitVec.ofNat 32 n) := by
    rw [ht]; simp only [List.append_assoc]; rw [drop_left (le32_length _)]; exact rd32_le32 _ _
  have hload : loadHeader (bad ++ rest) (fresh : State F) =
      some ({ (fresh : State F) with errs := [.headerDamaged], code := .headerCheckFailed }, 0) := by
    unfold loadHeader
    simp only [f0, f4, Option.bind_eq_bind, Option.bind_some, ne_eq, not_true_eq_false, if_false,
      sub4_toNat n (by omega) (by omega), hrd, hck', not_false_eq_true, if_true]
    simp [fresh]
  refine ⟨{ (fresh : State F) with errs := [.headerDamaged], code := .noHeader }, ?_, rfl, rfl, rfl, rfl⟩
  unfold loadFile
  rw [show ({ (fresh : State F) with errs := [], code := .ok }) = fresh from rfl, hload]
  simp

/-- The table of the library itself meets the hypotheses of C04; its header has 1356 bytes. -/
theorem builtin_ok : CfgOk builtin where
  nonempty := by decide +kernel
  sorted := by decide +kernel
  names := by decide +kernel
  counts := by decide +kernel
  itemNames := by decide +kernel

example : ∃ hdr, writeHeader builtin = some hdr ∧ hdr.length = 1356 := by
  have h : (writeHeader builtin).map List.length = some 1356 := by decide +kernel
  cases hw : writeHeader builtin with
  | none => simp [hw] at h
  | some hdr => exact ⟨hdr, rfl, by simpa [hw] using h⟩

/-- C05 and C08 together. A file with a written header followed by any non-empty sequence of recorded
messages, some of configured datasets, some with ids the header does not know, loads completely; every
dataset holds exactly its messages, in order (timestamps, and all CSV cells); the only errors are one
"not configured" message per unknown record. -/
theorem C05_C08_recording_loads {F : Type} (ops : FloatOps F) (cfg : UMap SetCfg) (hok : CfgOk cfg)
    (hdr : List Byte) (hw : writeHeader cfg = some hdr) (ms : List Msg) (hne : ms ≠ [])
    (hsz : ∀ m ∈ ms, m.size < 2 ^ 32) (hfit : ∀ m ∈ ms, Fits cfg m ∨ Unknown cfg m) :
    ∃ s, (∀ fuel, 5 + ms.length ≤ fuel → loadFile ops (recording hdr ms) fuel fresh = .finished s) ∧
      s.code = .ok ∧ s.cfgs = cfg ∧
      (∀ e ∈ cfg, Holds ops s e.1 (ms.filter fun m => decide (m.id = e.1))) ∧
      (∀ id, (∀ e ∈ cfg, e.1 ≠ id) → mfind id s.data = none) ∧
      s.errs = (ms.filter fun m => (mfind m.id cfg).isNone).map fun m => Err.unknownId m.id := by
  obtain ⟨s, hi, hrun⟩ := load_msgs ops cfg hok hdr [] hw ms hne hsz hfit
  refine ⟨s, ?_, hi.code, hi.cfgs, ?_, ?_, hi.errs⟩
  · intro fuel hf
    obtain ⟨k, hk⟩ : ∃ k, fuel = 4 + (ms.length + (k + 1)) := ⟨fuel - (5 + ms.length), by omega⟩
    have := hrun (k + 1)
    simp only [List.append_nil] at this
    rw [hk, recording, this, ← List.length_append, scan_end]
  · intro e he
    have hc := mfind_mem cfg hok.sorted e he
    have hk := hi.known e.1 e.2 hc
    unfold Holds
    split at hk
    · rename_i h; rw [if_pos h]; exact hk
    · rename_i h
      rw [if_neg h]
      obtain ⟨d, h1, h2, h3⟩ := hk
      refine ⟨d, h1, h2, csvRows_cols ops.zero e.2.items.length _ ?_ d h3 (by rw [h2]; simp)⟩
      intro r hr
      simp only [List.mem_map, List.mem_filter, decide_eq_true_eq] at hr
      obtain ⟨m, ⟨hm, hid⟩, rfl⟩ := hr
      rcases hfit m hm with ⟨e', he', hid', hv⟩ | hu
      · have := mfind_mem cfg hok.sorted e' he'
        rw [hid', hid, hc] at this
        have h2 : e.2 = e'.2 := by simpa using this
        have := congrArg List.length hv
        simp only [List.length_map] at this
        rw [List.length_map, this, h2]
      · exact absurd hid.symm (hu e he)
  · intro id h
    exact hi.unk id ((mfind_none _ _).2 h)

/-- C05. Recordings of configured datasets round-trip without error. -/
theorem C05_recording_round_trip {F : Type} (ops : FloatOps F) (cfg : UMap SetCfg) (hok : CfgOk cfg)
    (hdr : List Byte) (hw : writeHeader cfg = some hdr) (ms : List Msg) (hne : ms ≠ [])
    (hsz : ∀ m ∈ ms, m.size < 2 ^ 32) (hfit : ∀ m ∈ ms, Fits cfg m) :
    ∃ s, (∀ fuel, 5 + ms.length ≤ fuel → loadFile ops (recording hdr ms) fuel fresh = .finished s) ∧
      s.code = .ok ∧ s.errs = [] ∧
      ∀ e ∈ cfg, Holds ops s e.1 (ms.filter fun m => decide (m.id = e.1)) := by
  obtain ⟨s, h1, h2, _, h4, _, h6⟩ := C05_C08_recording_loads ops cfg hok hdr hw ms hne hsz
    (fun m hm => Or.inl (hfit m hm))
  refine ⟨s, h1, h2, ?_, h4⟩
  rw [h6]
  simp only [List.map_eq_nil_iff, List.filter_eq_nil_iff]
  intro m hm
  obtain ⟨e, he, hid, _⟩ := hfit m hm
  rw [← hid, mfind_mem cfg hok.sorted e he]; simp

/-- A recording of the built-in table: one IMU and one AHRS message meet the hypotheses of C05. -/
example : ∀ m ∈ [(⟨0x170021, 0, List.replicate 6 (.f32 1)⟩ : Msg), ⟨0x160027, 7, List.replicate 3 (.f32 2)⟩],
    Fits builtin m ∧ m.size < 2 ^ 32 := by
  intro m hm
  simp only [List.mem_cons, List.not_mem_nil, or_false] at hm
  rcases hm with rfl | rfl
  · refine ⟨⟨((0x170021 : U32), mkSet "imu" [(8,"acce_x"),(8,"acce_y"),(8,"acce_z"),(8,"gyro_x"),(8,"gyro_y"),
      (8,"gyro_z")]), by decide +kernel, rfl, by decide +kernel⟩, by decide +kernel⟩
  · refine ⟨⟨((0x160027 : U32), mkSet "ahrs" [(8,"roll"),(8,"pitch"),(8,"heading")]), by decide +kernel, rfl,
      by decide +kernel⟩, by decide +kernel⟩

/-- C08. In any loader state, a record whose id is not configured changes nothing but the error list, which
gets exactly one message. -/
theorem C08_unknown_id_ignored {F : Type} (ops : FloatOps F) (s : State F) (id : U32) (p : List Byte)
    (h : ∀ e ∈ s.cfgs, e.1 ≠ id) :
    addData ops id p s = some { s with errs := s.errs ++ [.unknownId id] } :=
  addData_unknown ops id p s ((mfind_none _ _).2 h)

/-- C08 on whole files: inserting a well-formed record of an unknown id anywhere in a recording changes no
dataset: both files load, and every dataset id finds the same rows and times. -/
theorem C08_unknown_record_transparent {F : Type} (ops : FloatOps F) (cfg : UMap SetCfg) (hok : CfgOk cfg)
    (hdr : List Byte) (hw : writeHeader cfg = some hdr) (ms1 ms2 : List Msg) (u : Msg)
    (hu : Unknown cfg u) (hus : u.size < 2 ^ 32) (hne : ms1 ++ ms2 ≠ [])
    (hsz : ∀ m ∈ ms1 ++ ms2, m.size < 2 ^ 32) (hfit : ∀ m ∈ ms1 ++ ms2, Fits cfg m) :
    ∃ s s' fuel, loadFile ops (recording hdr (ms1 ++ ms2)) fuel fresh = .finished s ∧
      loadFile ops (recording hdr (ms1 ++ [u] ++ ms2)) fuel fresh = .finished s' ∧
      s.errs = [] ∧ s'.errs = [.unknownId u.id] ∧ s'.code = .ok ∧
      ∀ e ∈ cfg, Holds ops s e.1 ((ms1 ++ ms2).filter fun m => decide (m.id = e.1)) ∧
        Holds ops s' e.1 ((ms1 ++ ms2).filter fun m => decide (m.id = e.1)) := by
  obtain ⟨s, h1, _, h3, h4⟩ := C05_recording_round_trip ops cfg hok hdr hw _ hne hsz hfit
  obtain ⟨s', g1, g2, _, g4, _, g6⟩ := C05_C08_recording_loads ops cfg hok hdr hw (ms1 ++ [u] ++ ms2)
    (by simp) (by
      intro m hm
      simp only [List.mem_append, List.mem_singleton] at hm
      rcases hm with (hm | rfl) | hm
      · exact hsz m (by simp [hm])
      · exact hus
      · exact hsz m (by simp [hm])) (by
      intro m hm
      simp only [List.mem_append, List.mem_singleton] at hm
      rcases hm with (hm | rfl) | hm
      · exact Or.inl (hfit m (by simp [hm]))
      · exact Or.inr hu
      · exact Or.inl (hfit m (by simp [hm])))
  have hkn : ∀ l : List Msg, (∀ m ∈ l, Fits cfg m) → l.filter (fun m => (mfind m.id cfg).isNone) = [] := by
    intro l hl
    rw [List.filter_eq_nil_iff]
    intro m hm
    obtain ⟨e, he, hid, _⟩ := hl m hm
    rw [← hid, mfind_mem cfg hok.sorted e he]; simp
  refine ⟨s, s', 5 + (ms1 ++ [u] ++ ms2).length, h1 _ (by simp), g1 _ (by simp), h3, ?_, g2, ?_⟩
  · rw [g6]
    simp only [List.filter_append, hkn ms1 (fun m hm => hfit m (by simp [hm])),
      hkn ms2 (fun m hm => hfit m (by simp [hm])), (mfind_none u.id cfg).2 hu, Option.isNone_none,
      List.filter_cons, if_true, List.filter_nil, List.nil_append, List.append_nil, List.map_cons, List.map_nil]
  · intro e he
    refine ⟨h4 e he, ?_⟩
    have := g4 e he
    have hne : (decide (u.id = e.1)) = false := by simpa using (hu e he).symm
    simpa [List.filter_append, List.filter_cons, hne] using this

/-! ### C06 -/

/-- Every dataset has one column per item name and one cell per timestamp in every column. -/
def Rectangular {F : Type} (s : State F) : Prop :=
  ∀ e ∈ s.data, e.2.data.length = e.2.names.length ∧ e.2.data.length = e.2.subCnt.toNat ∧
    ∀ col ∈ e.2.data, col.length = e.2.time.length

/-- The state an outcome shows, if the load did not read outside the buffer. -/
def stateOf {F : Type} : Outcome F → Option (State F)
  | .finished s => some s
  | .running _ s => some s
  | .oob => none

private structure RInv {F : Type} (s : State F) : Prop where
  ds : ∀ e ∈ s.data, ∃ c, mfind e.1 s.cfgs = some c ∧ e.2.data.length = c.items.length ∧
    (e.2.names = c.items.map ItemCfg.name ∧ e.2.name = c.name ∧ e.2.id = e.1) ∧
    e.2.subCnt = c.itemCnt ∧ ∀ col ∈ e.2.data, col.length = e.2.time.length
  cs : ∀ e ∈ s.cfgs, e.2.items.length = e.2.itemCnt.toNat

private theorem mem_mset {β : Type} (k : U32) (v : β) (l : UMap β) (e : U32 × β) (h : e ∈ mset k v l) :
    e = (k, v) ∨ e ∈ l := by
  induction l with
  | nil => simpa [mset] using h
  | cons x l ih =>
    obtain ⟨k', v'⟩ := x
    simp only [mset] at h
    split at h
    · simpa using h
    · split at h
      · simp only [List.mem_cons] at h ⊢; tauto
      · simp only [List.mem_cons] at h ⊢
        rcases h with h | h
        · tauto
        · rcases ih h with h | h <;> tauto

private theorem mem_minsert {β : Type} (k : U32) (v : β) (l : UMap β) (e : U32 × β) (h : e ∈ minsert k v l) :
    e = (k, v) ∨ e ∈ l := by
  induction l with
  | nil => simpa [minsert] using h
  | cons x l ih =>
    obtain ⟨k', v'⟩ := x
    simp only [minsert] at h
    split at h
    · simpa using h
    · split at h
      · exact Or.inr h
      · simp only [List.mem_cons] at h ⊢
        rcases h with h | h
        · tauto
        · rcases ih h with h | h <;> tauto

theorem mfind_some_mem {β : Type} (k : U32) (l : UMap β) (v : β) (h : mfind k l = some v) :
    (k, v) ∈ l := by
  induction l with
  | nil => simp [mfind] at h
  | cons x l ih =>
    obtain ⟨k', v'⟩ := x
    simp only [mfind] at h
    split at h
    · rename_i hk; cases h; subst hk; simp
    · exact List.mem_cons_of_mem _ (ih h)

private theorem members_length {F : Type} (ops : FloatOps F) (items : List ItemCfg) :
    ∀ (p : List Byte) (r : F) (o : Nat) (vs : List F) (n : Nat),
      members ops items p r o = some (vs, n) → vs.length = items.length := by
  induction items with
  | nil => intro p r o vs n h; simp [members] at h; rw [h.1]; rfl
  | cons it items ih =>
    intro p r o vs n h
    simp only [members, Option.bind_eq_bind, Option.bind_eq_some_iff, Option.some.injEq, Prod.mk.injEq] at h
    obtain ⟨⟨r1, o1⟩, _, ⟨vs', n'⟩, h2, h3, _⟩ := h
    rw [← h3, List.length_cons, ih _ _ _ _ _ h2, List.length_cons]

private theorem addData_rinv {F : Type} (ops : FloatOps F) (id : U32) (p : List Byte) (s s1 : State F)
    (h : RInv s) (ha : addData ops id p s = some s1) : RInv s1 := by
  unfold addData at ha
  split at ha
  · simp only [Option.some.injEq] at ha; subst ha; exact ⟨h.ds, h.cs⟩
  · rename_i c hc
    simp only [Option.bind_eq_bind, Option.bind_eq_some_iff] at ha
    obtain ⟨t, _, ⟨vals, n⟩, hm, len, _, cols, hp, hf⟩ := ha
    have hlen := members_length ops _ _ _ _ _ _ hm
    set ds := (mfind id s.data).getD (newSet id c) with hds
    have hd : ds.data.length = c.items.length ∧
        (ds.names = c.items.map ItemCfg.name ∧ ds.name = c.name ∧ ds.id = id) ∧ ds.subCnt = c.itemCnt ∧
        ∀ col ∈ ds.data, col.length = ds.time.length := by
      cases hf' : mfind id s.data with
      | none => rw [hds, hf']; simp [newSet]
      | some d =>
        rw [hds, hf']
        obtain ⟨c', h1, h2, h3, h4, h5⟩ := h.ds (id, d) (mfind_some_mem _ _ _ hf')
        simp only at h1
        rw [hc] at h1
        have : c = c' := by simpa using h1
        subst this
        exact ⟨h2, h3, h4, h5⟩
    rw [pushRow_length _ _ (by rw [hd.1, hlen])] at hp
    simp only [Option.some.injEq] at hp
    have hnew : ∃ c', mfind id s.cfgs = some c' ∧ cols.length = c'.items.length ∧
        (ds.names = c'.items.map ItemCfg.name ∧ ds.name = c'.name ∧ ds.id = id) ∧ ds.subCnt = c'.itemCnt ∧
        ∀ col ∈ cols, col.length = (ds.time ++ [t]).length := by
      refine ⟨c, hc, ?_, hd.2.1, hd.2.2.1, ?_⟩
      · rw [← hp]; simp [hd.1, hlen]
      · intro col hcol
        rw [← hp] at hcol
        obtain ⟨i, hi, rfl⟩ := List.getElem_of_mem hcol
        simp only [List.getElem_zipWith, List.length_append, List.length_cons, List.length_nil]
        rw [hd.2.2.2 _ (List.getElem_mem _)]
    split at hf <;> simp only [Option.some.injEq] at hf <;> subst hf <;> refine ⟨?_, h.cs⟩
    all_goals
      intro e he
      rcases mem_mset _ _ _ _ he with rfl | he
      · exact hnew
      · exact h.ds e he

private theorem scan_rinv {F : Type} (ops : FloatOps F) (file : List Byte) (fuel : Nat) :
    ∀ (off : Nat) (s s' : State F), RInv s → stateOf (scan ops file fuel off s) = some s' → RInv s' := by
  induction fuel with
  | zero => intro off s s' h h2; simp only [scan, stateOf, Option.some.injEq] at h2; rw [← h2]; exact h
  | succ n ih =>
    intro off s s' h h2
    simp only [scan] at h2
    split at h2
    · rename_i s1 hst
      simp only [stateOf, Option.some.injEq] at h2
      unfold step at hst
      split at hst
      · simp only at hst
        repeat' split at hst
        all_goals simp at hst
      · simp only [Step.done.injEq] at hst; rw [← h2, ← hst]; exact h
    · rename_i off1 s1 hst
      refine ih off1 s1 s' ?_ h2
      unfold step at hst
      split at hst
      · simp only at hst
        repeat' split at hst
        all_goals simp only [Step.next.injEq, reduceCtorEq] at hst
        · rw [← hst.2]; exact h
        · rw [← hst.2]; exact ⟨h.ds, h.cs⟩
        · rename_i hadd
          rw [← hst.2]; exact addData_rinv ops _ _ _ _ h hadd
      · simp at hst
    · simp [stateOf] at h2

private theorem loadItems_length : ∀ (n : Nat) (p q : List Byte) (l : List ItemCfg),
    loadItems n p = some (l, q) → l.length = n := by
  intro n
  induction n with
  | zero => intro p q l h; simp [loadItems] at h; rw [h.1]; rfl
  | succ n ih =>
    intro p q l h
    simp only [loadItems, Option.bind_eq_bind, Option.bind_eq_some_iff, Option.some.injEq, Prod.mk.injEq] at h
    obtain ⟨t, _, nm, _, ⟨l', q'⟩, h1, h2, _⟩ := h
    rw [← h2, List.length_cons, ih _ _ _ h1]

private theorem loadSets_rinv {F : Type} : ∀ (n : Nat) (p q : List Byte) (s s' : State F),
    (s.data = [] ∧ ∀ e ∈ s.cfgs, e.2.items.length = e.2.itemCnt.toNat) →
    loadSets n p s = some (s', q) → s'.data = [] ∧ ∀ e ∈ s'.cfgs, e.2.items.length = e.2.itemCnt.toNat := by
  intro n
  induction n with
  | zero => intro p q s s' h h2; simp [loadSets] at h2; rw [← h2.1]; exact h
  | succ n ih =>
    intro p q s s' h h2
    simp only [loadSets, Option.bind_eq_bind, Option.bind_eq_some_iff] at h2
    obtain ⟨id, _, cnt, _, nm, _, ⟨items, q'⟩, h3, h4⟩ := h2
    refine ih _ _ _ _ (And.intro (by exact h.1) ?_) h4
    intro e he
    rcases mem_minsert _ _ _ _ he with rfl | he
    · exact loadItems_length _ _ _ _ h3
    · exact h.2 e he

private theorem load_rinv {F : Type} (ops : FloatOps F) (file : List Byte) (fuel : Nat) (s : State F)
    (h : stateOf (loadFile ops file fuel fresh) = some s) : RInv s := by
  unfold loadFile at h
  split at h
  · simp [stateOf] at h
  · rename_i s1 off hl
    have h1 : RInv s1 := by
      unfold loadHeader at hl
      simp only [Option.bind_eq_bind, Option.bind_eq_some_iff] at hl
      obtain ⟨m, _, hl⟩ := hl
      split at hl
      · simp only [Option.some.injEq, Prod.mk.injEq] at hl
        rw [← hl.1]; exact ⟨by simp [fresh], by simp [fresh]⟩
      simp only [Option.bind_eq_some_iff] at hl
      obtain ⟨len, _, blk, _, hl⟩ := hl
      split at hl
      · simp only [Option.some.injEq, Prod.mk.injEq] at hl
        rw [← hl.1]; exact ⟨by simp [fresh], by simp [fresh]⟩
      simp only [Option.bind_eq_some_iff] at hl
      obtain ⟨ver, _, cnt, _, ⟨s2, p2⟩, hs, e, _, hl⟩ := hl
      have := loadSets_rinv _ _ _ _ _ ⟨rfl, by simp [fresh]⟩ hs
      split at hl
      · simp only [Option.some.injEq, Prod.mk.injEq] at hl
        rw [← hl.1]; exact ⟨by simp [this.1], by simp⟩
      · simp only [Option.some.injEq, Prod.mk.injEq] at hl
        rw [← hl.1]; exact ⟨by simp [this.1], this.2⟩
    split at h
    · simp only [stateOf, Option.some.injEq] at h
      rw [← h]; exact ⟨h1.ds, h1.cs⟩
    · exact scan_rinv ops file fuel off s1 s h1 h

/-- C06. Whatever bytes the file holds, and at every moment of the load, all datasets of a new loader are
rectangular. -/
theorem C06_rectangular {F : Type} (ops : FloatOps F) (file : List Byte) (fuel : Nat) (s : State F)
    (h : stateOf (loadFile ops file fuel fresh) = some s) : Rectangular s := by
  have key := load_rinv ops file fuel s h
  intro e he
  obtain ⟨c, h1, h2, h3, h4, h5⟩ := key.ds e he
  exact ⟨by rw [h2, h3.1, List.length_map], by rw [h2, h4]; exact key.cs _ (mfind_some_mem _ _ _ h1), h5⟩

/-- C06. Whatever bytes the file holds, and at every moment of the load, every dataset of a new loader carries the
name and the column names its header entry gives to that id. -/
theorem C06_labelled {F : Type} (ops : FloatOps F) (file : List Byte) (fuel : Nat) (s : State F)
    (h : stateOf (loadFile ops file fuel fresh) = some s) :
    ∀ e ∈ s.data, ∃ c, mfind e.1 s.cfgs = some c ∧ e.2.id = e.1 ∧ e.2.name = c.name ∧
      e.2.names = c.items.map ItemCfg.name := by
  intro e he
  obtain ⟨c, h1, _, h3, _⟩ := (load_rinv ops file fuel s h).ds e he
  exact ⟨c, h1, h3.2.2, h3.2.1, h3.1⟩

/-- C06, consequence: the CSV export of a rectangular dataset never indexes outside a column and writes one
row per timestamp. -/
theorem C06_csv_total {F : Type} (s : State F) (h : Rectangular s) (e : U32 × DataSet F) (he : e ∈ s.data) :
    ∃ rows, csvRows e.2 = some rows ∧ rows.length = e.2.time.length ∧
      ∀ r ∈ rows, r.length = e.2.subCnt.toNat := by
  obtain ⟨_, h2, h3⟩ := h e he
  have inner : ∀ i, i < e.2.time.length → ∀ l : List (List F), (∀ col ∈ l, col.length = e.2.time.length) →
      ∃ r, l.mapM (fun col => col[i]?) = some r ∧ r.length = l.length := by
    intro i hi l hl
    induction l with
    | nil => exact ⟨[], rfl, rfl⟩
    | cons a l ih =>
      obtain ⟨r, hr, hrl⟩ := ih (fun col hc => hl col (by simp [hc]))
      have ha : i < a.length := by rw [hl a (by simp)]; exact hi
      refine ⟨a[i] :: r, ?_, by simp [hrl]⟩
      rw [List.mapM_cons, hr]; simp [List.getElem?_eq_getElem ha]
  have outer : ∀ l : List Nat, (∀ i ∈ l, i < e.2.time.length) →
      ∃ rows, l.mapM (fun i => e.2.data.mapM fun col => col[i]?) = some rows ∧ rows.length = l.length ∧
        ∀ r ∈ rows, r.length = e.2.subCnt.toNat := by
    intro l hl
    induction l with
    | nil => exact ⟨[], rfl, rfl, by simp⟩
    | cons a l ih =>
      obtain ⟨rows, hr, hrl, hrr⟩ := ih (fun i hi => hl i (by simp [hi]))
      obtain ⟨r, h4, h5⟩ := inner a (hl a (by simp)) e.2.data h3
      refine ⟨r :: rows, ?_, by simp [hrl], ?_⟩
      · rw [List.mapM_cons, h4, hr]; rfl
      · intro x hx
        simp only [List.mem_cons] at hx
        rcases hx with rfl | hx
        · rw [h5, h2]
        · exact hrr x hx
  obtain ⟨rows, h4, h5, h6⟩ := outer (List.range e.2.time.length) (by simp)
  exact ⟨rows, h4, by simpa using h5, h6⟩

/-- Integer valued conversions, for concrete runs. -/
def intOps : FloatOps Int := ⟨0, id, fun v => v.toNat, fun v => v.toNat⟩

private def tiny (n : Nat) : UMap SetCfg :=
  [(7, ⟨List.replicate 16 0, BitVec.ofNat 32 n, List.replicate n ⟨0, List.replicate 16 0⟩⟩)]

private def tinyFile (n : Nat) : List Byte :=
  recording ((writeHeader (tiny n)).getD []) [⟨7, 1, List.replicate n (.u8 5)⟩]

/-- The same file with its header's end mark damaged. -/
private def tinyBad : List Byte :=
  hdrPre (tiny 1) ++ le32 (revert (checksum (hdrPre (tiny 1)))) ++ le32 0

/-- A concrete file meeting the hypothesis of C06 with a non-empty dataset. -/
example : (stateOf (loadFile intOps (tinyFile 1) 6 fresh)).map (fun s => s.data.map fun e => (e.1, e.2.data, e.2.time))
    = some [(7, [[5]], [1])] := by decide +kernel

/-- C06 does not extend to a loader that is used again: after a file whose header end mark is damaged the
configuration is dropped but the datasets are kept, and a third file with other item counts then leaves a
dataset with two timestamps and one cell. -/
theorem C06_reused_loader_violation : ∃ s1 s2 s3 : State Int,
    loadFile intOps (tinyFile 1) 6 fresh = .finished s1 ∧ loadFile intOps tinyBad 6 s1 = .finished s2 ∧
    loadFile intOps (tinyFile 0) 6 s2 = .finished s3 ∧ ¬ Rectangular s3 := by
  have fin : ∀ o : Outcome Int, (match o with | .finished _ => true | _ => false) = true →
      ∃ s, o = .finished s := by
    intro o h; cases o with
    | finished s => exact ⟨s, rfl⟩
    | oob => simp at h
    | running _ _ => simp at h
  let get : Outcome Int → State Int := fun o => match o with | .finished s => s | _ => fresh
  refine ⟨get (loadFile intOps (tinyFile 1) 6 fresh), get (loadFile intOps tinyBad 6 (get (loadFile intOps (tinyFile 1) 6 fresh))),
    get (loadFile intOps (tinyFile 0) 6 (get (loadFile intOps tinyBad 6 (get (loadFile intOps (tinyFile 1) 6 fresh))))), ?_, ?_, ?_, ?_⟩
  · obtain ⟨s, h⟩ := fin (loadFile intOps (tinyFile 1) 6 fresh) (by decide +kernel)
    rw [h]
  · obtain ⟨s, h⟩ := fin (loadFile intOps tinyBad 6 (get (loadFile intOps (tinyFile 1) 6 fresh))) (by decide +kernel)
    rw [h]
  · obtain ⟨s, h⟩ := fin (loadFile intOps (tinyFile 0) 6
      (get (loadFile intOps tinyBad 6 (get (loadFile intOps (tinyFile 1) 6 fresh))))) (by decide +kernel)
    rw [h]
  · intro h
    have h2 : ∀ e ∈ (get (loadFile intOps (tinyFile 0) 6 (get (loadFile intOps tinyBad 6
        (get (loadFile intOps (tinyFile 1) 6 fresh)))))).data, ∀ col ∈ e.2.data, col.length = e.2.time.length :=
      fun e he => (h e he).2.2
    revert h2
    decide +kernel

/-! ### C07 -/

/-- A load has ended (normally or by leaving the buffer). -/
def Ended {F : Type} : Outcome F → Prop
  | .running _ _ => False
  | _ => True

/-- At offset `off` the file shows the record magic, a readable length field, and the CRC over
`length - 4` bytes fails. -/
def BadRecordAt (file : List Byte) (off : Nat) : Prop :=
  off < file.length ∧ rd32 (file.drop off) = some recMagic ∧
    ∃ len blk, rd32 ((file.drop off).drop 16) = some len ∧ rdN (len - 4).toNat (file.drop off) = some blk ∧
      checksum blk ≠ 0

/-- A file for which a load passes offset `off` in its scan. -/
def Visits {F : Type} (ops : FloatOps F) (file : List Byte) (off : Nat) : Prop :=
  ∃ n s, loadFile ops file n fresh = .running off s

private theorem step_bad {F : Type} (ops : FloatOps F) (file : List Byte) (off : Nat) (s : State F)
    (h : BadRecordAt file off) : step ops file off s = .next off { s with errs := s.errs ++ [.crc] } := by
  obtain ⟨h1, h2, len, blk, h3, h4, h5⟩ := h
  unfold step
  rw [if_pos h1]
  simp only [h2, h3, h4, h5, ne_eq, not_true_eq_false, not_false_eq_true, if_false, if_true]

private theorem scan_bad {F : Type} (ops : FloatOps F) (file : List Byte) (off : Nat) (h : BadRecordAt file off) :
    ∀ n (s : State F), ∃ s', scan ops file n off s = .running off s' := by
  intro n
  induction n with
  | zero => intro s; exact ⟨s, rfl⟩
  | succ n ih => intro s; simp only [scan, step_bad ops file off s h]; exact ih _

private theorem scan_split {F : Type} (ops : FloatOps F) (file : List Byte) : ∀ (n k off : Nat) (x : State F)
    (off' : Nat) (x' : State F), scan ops file n off x = .running off' x' →
      scan ops file (n + k) off x = scan ops file k off' x' := by
  intro n
  induction n with
  | zero =>
    intro k off x off' x' h
    simp only [scan, Outcome.running.injEq] at h
    rw [h.1, h.2, Nat.zero_add]
  | succ n ih =>
    intro k off x off' x' h
    rw [show n + 1 + k = (n + k) + 1 by omega]
    simp only [scan] at h ⊢
    split at h
    · simp at h
    · exact ih k _ _ _ _ h
    · simp at h

/-- C07, violation: once the scan meets a record whose CRC fails, no number of iterations ends the load. -/
theorem C07_bad_record_hangs {F : Type} (ops : FloatOps F) (file : List Byte) (off : Nat)
    (hv : Visits ops file off) (hb : BadRecordAt file off) : ∀ n, ¬ Ended (loadFile ops file n fresh) := by
  obtain ⟨n0, s0, h0⟩ := hv
  intro n
  unfold loadFile at h0 ⊢
  split at h0
  · simp at h0
  · rename_i s1 off1 hl
    split at h0
    · simp at h0
    · rename_i hoff
      simp only [hl, hoff, if_false]
      have mono : ∀ k, ∃ o' s', scan ops file (n0 + k) off1 s1 = .running o' s' := by
        intro k
        rw [scan_split ops file n0 k _ _ _ _ h0]
        obtain ⟨s', h'⟩ := scan_bad ops file off hb k s0
        exact ⟨_, _, h'⟩
      have fin : ∀ (a b o : Nat) (x : State F), Ended (scan ops file a o x) → a ≤ b → Ended (scan ops file b o x) := by
        intro a
        induction a with
        | zero => intro b o x h; simp [scan, Ended] at h
        | succ a ih =>
          intro b o x h hab
          obtain ⟨b', rfl⟩ : ∃ b', b = b' + 1 := ⟨b - 1, by omega⟩
          simp only [scan] at h ⊢
          split at h
          · simp [Ended]
          · exact ih b' _ _ h (by omega)
          · simp [Ended]
      intro he
      obtain ⟨o', s', h'⟩ := mono n
      have := fin n (n0 + n) _ _ he (by omega)
      rw [h'] at this
      exact this

/-- C07, termination: a load of a file below 4 GiB in which the scan meets no record with failing CRC ends,
within as many iterations as the file has bytes (plus one). -/
theorem C07_terminates_partial {F : Type} (ops : FloatOps F) (file : List Byte) (hlen : file.length < 2 ^ 32 - 4)
    (hok : ∀ off, Visits ops file off → ¬ BadRecordAt file off) :
    Ended (loadFile ops file (file.length + 1) fresh) := by
  by_cases he : Ended (loadFile ops file (file.length + 1) fresh)
  · exact he
  exfalso
  -- progress: after n iterations the scan is at offset ≥ n
  have prog : ∀ n off s, loadFile ops file n fresh = .running off s → n ≤ off := by
    intro n off s h
    unfold loadFile at h
    split at h
    · simp at h
    rename_i s1 off1 hl
    split at h
    · simp at h
    rename_i hoff
    have vis : ∀ m o x, scan ops file m off1 s1 = .running o x → Visits ops file o := by
      intro m o x hm
      exact ⟨m, x, by unfold loadFile; simp only [hl, hoff, if_false]; exact hm⟩
    have gen : ∀ m off x, scan ops file m off1 s1 = .running off x → m ≤ off := by
      intro m
      induction m with
      | zero => intro _ _ _; omega
      | succ m ih =>
        intro off x hm
        -- split off the last step
        cases hm' : scan ops file m off1 s1 with
        | finished s' =>
          exfalso
          have : ∀ (a o : Nat) (y z : State F), scan ops file a o y = .finished z →
              scan ops file (a+1) o y = .finished z := by
            intro a
            induction a with
            | zero => intro o y z h; simp [scan] at h
            | succ a ih2 =>
              intro o y z h
              rw [scan] at h ⊢
              split at h
              · exact h
              · exact ih2 _ _ _ h
              · simp at h
          rw [this _ _ _ _ hm'] at hm; simp at hm
        | oob =>
          exfalso
          have : ∀ (a o : Nat) (y : State F), scan ops file a o y = .oob →
              scan ops file (a+1) o y = .oob := by
            intro a
            induction a with
            | zero => intro o y h; simp [scan] at h
            | succ a ih2 =>
              intro o y h
              rw [scan] at h ⊢
              split at h
              · simp at h
              · exact ih2 _ _ h
              · rfl
          rw [this _ _ _ hm'] at hm; simp at hm
        | running o y =>
          have h1 := ih o y hm'
          have h2 := scan_split ops file m 1 _ _ _ _ hm'
          rw [hm] at h2
          simp only [scan] at h2
          have hbad := hok o (vis m o y hm')
          split at h2
          · simp at h2
          · rename_i o2 y2 hst
            simp only [Outcome.running.injEq] at h2
            rw [h2.1]
            unfold step at hst
            split at hst
            · rename_i hlt
              simp only at hst
              split at hst
              · simp at hst
              split at hst
              · simp only [Step.next.injEq] at hst; omega
              split at hst
              · simp at hst
              split at hst
              · simp at hst
              rename_i hm0 _ len hlen' _ blk hblk
              split at hst
              · rename_i hm2 hmg hck
                exfalso
                exact hbad ⟨hlt, by simp only [ne_eq, not_not] at *; simp_all, len, blk, hlen', hblk, hck⟩
              · split at hst
                · simp at hst
                split at hst
                · simp at hst
                · simp only [Step.next.injEq] at hst
                  have : len.toNat ≠ 0 := by
                    intro hz
                    have hz' : len = 0 := by
                      apply BitVec.eq_of_toNat_eq; simpa using hz
                    rw [hz'] at hblk
                    unfold rdN at hblk
                    rw [show ((0 : BitVec 32) - 4).toNat = 2 ^ 32 - 4 from rfl] at hblk
                    split at hblk
                    · rename_i hle
                      simp only [List.length_drop] at hle
                      omega
                    · simp at hblk
                  omega
            · simp at hst
          · simp at h2
    exact gen n off s h
  unfold Ended at he
  split at he
  · rename_i off s h
    have h1 := prog _ _ _ h
    -- one iteration earlier the loop condition already failed
    have hlast : ∃ o y, loadFile ops file file.length fresh = .running o y ∧
        step ops file o y = .next off s := by
      unfold loadFile at h ⊢
      split at h
      · simp at h
      rename_i s1 off1 hl
      split at h
      · simp at h
      rename_i hoff
      simp only [hl, hoff, if_false]
      have : ∀ (a o : Nat) (y : State F), scan ops file (a+1) o y = .running off s →
          ∃ o' y', scan ops file a o y = .running o' y' ∧ step ops file o' y' = .next off s := by
        intro a
        induction a with
        | zero =>
          intro o y h
          refine ⟨o, y, rfl, ?_⟩
          simp only [scan] at h
          split at h
          · simp at h
          · rename_i hst; simp only [Outcome.running.injEq] at h; rw [hst, h.1, h.2]
          · simp at h
        | succ a ih =>
          intro o y h
          rw [scan] at h
          split at h
          · simp at h
          · rename_i o2 y2 hst
            obtain ⟨o', y', h1, h2⟩ := ih _ _ h
            exact ⟨o', y', by rw [scan, hst]; exact h1, h2⟩
          · simp at h
      exact this _ _ _ h
    obtain ⟨o, y, ho, hst⟩ := hlast
    have h2 := prog _ _ _ ho
    unfold step at hst
    rw [if_neg (by omega)] at hst
    simp at hst
  · exact he trivial

/-- C07, the exact dividing line for files below 4 GiB: the load ends if and only if its scan meets no record
with a failing CRC. -/
theorem C07_ends_iff_no_bad_record {F : Type} (ops : FloatOps F) (file : List Byte)
    (hlen : file.length < 2 ^ 32 - 4) :
    (∃ n, Ended (loadFile ops file n fresh)) ↔ ∀ off, Visits ops file off → ¬ BadRecordAt file off := by
  constructor
  · rintro ⟨n, hn⟩ off hv hb
    exact C07_bad_record_hangs ops file off hv hb n hn
  · intro h; exact ⟨_, C07_terminates_partial ops file hlen h⟩

/-- C07, violation on realistic files: take any recording, any of its records (not the first) and change at
most four consecutive bytes of it outside magic, length field and end mark. The load of that file never
ends. -/
theorem C07_corrupted_recording_hangs {F : Type} (ops : FloatOps F) (cfg : UMap SetCfg) (hok : CfgOk cfg)
    (hdr rest : List Byte) (hw : writeHeader cfg = some hdr) (ms : List Msg) (hne : ms ≠ [])
    (hsz : ∀ m ∈ ms, m.size < 2 ^ 32) (hfit : ∀ m ∈ ms, Fits cfg m)
    (m : Msg) (hm : m.size < 2 ^ 32) (pre win win' post : List Byte)
    (hrec : record m = pre ++ win ++ post) (hpre : 20 ≤ pre.length) (hpost : 4 ≤ post.length)
    (hl : win.length = win'.length) (h4 : win.length ≤ 4) (hdiff : win ≠ win') :
    ∀ n, ¬ Ended (loadFile ops (recording hdr ms ++ (pre ++ win' ++ post) ++ rest) n fresh) := by
  obtain ⟨s, _, hrun⟩ := load_msgs ops cfg hok hdr (pre ++ win' ++ post ++ rest) hw ms hne hsz
    (fun m hm => Or.inl (hfit m hm))
  set file := recording hdr ms ++ (pre ++ win' ++ post) ++ rest with hfile
  have hf : file = hdr ++ (ms.flatMap record ++ (pre ++ win' ++ post ++ rest)) := by
    simp [hfile, recording]
  rw [← hf] at hrun
  have hv : Visits ops file (hdr.length + (ms.flatMap record).length) := ⟨_, s, hrun 0⟩
  refine C07_bad_record_hangs ops file _ hv ?_
  have hd : file.drop (hdr.length + (ms.flatMap record).length) = pre ++ win' ++ post ++ rest := by
    rw [hf, ← List.append_assoc, ← List.length_append, List.drop_left]
  have hrl := record_length m
  have hbl : (pre ++ win' ++ post).length = m.size := by
    rw [← hrl, hrec]; simp [hl]
  have hpz : pre.take 20 = (record m).take 20 := by
    rw [hrec, List.append_assoc, List.take_append_of_le_length hpre]
  -- the twenty fixed bytes survive
  have hfix : ∀ x : List Byte, pre ++ x = le32 recMagic ++ (le32 m.id ++ (le64 m.time ++
      (le32 (BitVec.ofNat 32 m.size) ++ (pre.drop 20 ++ x)))) := by
    intro x
    have : pre = le32 recMagic ++ (le32 m.id ++ (le64 m.time ++
        (le32 (BitVec.ofNat 32 m.size) ++ pre.drop 20))) := by
      conv_lhs => rw [← List.take_append_drop 20 pre]
      rw [hpz, record_cons]
      rfl
    conv_lhs => rw [this]
    simp
  have hlt : hdr.length + (ms.flatMap record).length < file.length := by
    rw [hf]
    simp only [List.length_append] at hbl ⊢
    have : 28 ≤ m.size := by unfold Msg.size; omega
    omega
  have h28 : 4 ≤ m.size := by unfold Msg.size; omega
  refine ⟨hlt, ?_, BitVec.ofNat 32 m.size, (pre ++ win' ++ post).take (m.size - 4), ?_, ?_, ?_⟩
  · rw [hd, List.append_assoc, List.append_assoc, hfix, rd32_le32]
  · rw [hd, List.append_assoc, List.append_assoc, hfix, show (16:Nat) = 4 + (4 + 8) by rfl, drop_le32, drop_le32,
      drop_left (le64_length _), rd32_le32]
  · rw [hd, sub4_toNat _ h28 hm]
    unfold rdN
    rw [if_pos (by rw [List.length_append, hbl]; omega), List.take_append_of_le_length (by omega)]
  · set post' := post.take (post.length - 4) with hp'
    have e1 : (record m).take (m.size - 4) = pre ++ win ++ post' := by
      have hL := congrArg List.length hrec
      simp only [List.length_append, hrl] at hL
      rw [hrec, List.take_append, List.take_of_length_le (by simp only [List.length_append]; omega)]
      congr 2
      simp only [List.length_append]; omega
    have e2 : (pre ++ win' ++ post).take (m.size - 4) = pre ++ win' ++ post' := by
      simp only [List.length_append] at hbl
      rw [List.take_append, List.take_of_length_le (by simp only [List.length_append]; omega)]
      congr 2
      simp only [List.length_append]; omega
    rw [e2]
    refine C03_burst_detected pre win win' post' hl h4 hdiff ?_
    rw [← e1]
    have := rec_block m []
    rw [List.append_nil] at this
    unfold rdN at this
    rw [if_pos (by omega)] at this
    simp only [Option.some.injEq] at this
    rw [this]
    exact C02_written_checksum_verifies _

/-- A corruption meeting the hypotheses: the first data byte of an AHRS message. -/
example : ∃ pre win win' post : List Byte,
    record ⟨0x160027, 7, List.replicate 3 (.f32 2)⟩ = pre ++ win ++ post ∧ 20 ≤ pre.length ∧ 4 ≤ post.length ∧
      win.length = win'.length ∧ win.length ≤ 4 ∧ win ≠ win' :=
  let r := record ⟨0x160027, 7, List.replicate 3 (.f32 2)⟩
  ⟨r.take 20, (r.drop 20).take 1, [9], r.drop 21, by decide +kernel, by decide +kernel, by decide +kernel,
    by decide +kernel, by decide +kernel, by decide +kernel⟩

/-! ### C09 -/

/-- C09. On a recording with at least one record the load never leaves the buffer. -/
theorem C09_recording_in_bounds_partial {F : Type} (ops : FloatOps F) (cfg : UMap SetCfg) (hok : CfgOk cfg)
    (hdr : List Byte) (hw : writeHeader cfg = some hdr) (ms : List Msg) (hne : ms ≠ [])
    (hsz : ∀ m ∈ ms, m.size < 2 ^ 32) (hfit : ∀ m ∈ ms, Fits cfg m ∨ Unknown cfg m) :
    ∀ fuel, loadFile ops (recording hdr ms) fuel fresh ≠ .oob := by
  obtain ⟨s, h1, _⟩ := C05_C08_recording_loads ops cfg hok hdr hw ms hne hsz hfit
  intro fuel hoob
  have mono : ∀ (a b o : Nat) (x : State F), scan ops (recording hdr ms) a o x = .oob → a ≤ b →
      scan ops (recording hdr ms) b o x = .oob := by
    intro a
    induction a with
    | zero => intro b o x h; simp [scan] at h
    | succ a ih =>
      intro b o x h hab
      obtain ⟨b', rfl⟩ : ∃ b', b = b' + 1 := ⟨b - 1, by omega⟩
      simp only [scan] at h ⊢
      split at h
      · simp at h
      · exact ih b' _ _ h (by omega)
      · rfl
  have h2 := h1 (5 + ms.length + fuel) (by omega)
  unfold loadFile at h2 hoob
  split at h2
  · simp at h2
  · rename_i s1 off hl
    simp only [hl] at hoob
    split at h2
    · rename_i h0; simp [h0] at hoob
    · rename_i h0
      simp only [h0, if_false] at hoob
      rw [mono _ (5 + ms.length + fuel) _ _ hoob (by omega)] at h2
      simp at h2

/-- C09, violation: the file of a recorder that recorded nothing (header only) makes the loader read past its
end, for every dataset table. -/
theorem C09_empty_recording_out_of_bounds {F : Type} (ops : FloatOps F) (cfg : UMap SetCfg) (hok : CfgOk cfg)
    (hdr : List Byte) (hw : writeHeader cfg = some hdr) : loadFile ops (recording hdr []) 2 fresh = .oob := by
  obtain ⟨hl, _, h20, h0, hh0⟩ := loadHeader_ok cfg hok hdr [] hw (fresh : State F) rfl rfl
  have hoff : hdr.length - 4 = h0.length := by rw [hh0]; simp
  unfold loadFile recording
  rw [show ({ (fresh : State F) with errs := [], code := .ok }) = fresh from rfl]
  simp only [List.flatMap_nil, hl]
  rw [if_neg (by omega), hoff, hh0, List.append_nil]
  have st := step_skip ops h0 (le32 hdrEnd) 0 hdrEnd
    ({ (fresh : State F) with cfgs := cfg, codes := cfg.map fun e => (e.1, Code.ok), version := versionBits })
    (by simp) (by have := rd32_le32 hdrEnd []; simpa using this) (by decide)
  simp only [Nat.add_zero] at st
  rw [scan, st]
  simp only
  rw [scan]
  have : step ops (h0 ++ le32 hdrEnd) (h0.length + 1)
      ({ (fresh : State F) with cfgs := cfg, codes := cfg.map fun e => (e.1, Code.ok), version := versionBits }) =
      .oob := by
    unfold step
    rw [if_pos (by simp)]
    have : (h0 ++ le32 hdrEnd).drop (h0.length + 1) = (le32 hdrEnd).drop 1 := by rw [List.drop_append]; simp
    simp only [this]
    simp [le32, rd32]
  rw [this]

/-- C09, violation: files shorter than four bytes are read past their end. -/
theorem C09_short_file_out_of_bounds {F : Type} (ops : FloatOps F) (file : List Byte) (h : file.length < 4)
    (fuel : Nat) : loadFile ops file fuel fresh = .oob := by
  have : rd32 file = none := by
    match file, h with
    | [], _ => rfl
    | [_], _ => rfl
    | [_, _], _ => rfl
    | [_, _, _], _ => rfl
  simp [loadFile, loadHeader, this]

/-- C09, violation at every crash point: a recording cut off anywhere inside a record before its end mark (the power
went while it was being written) makes the loader read past the end of the file. -/
theorem C09_truncated_recording_out_of_bounds {F : Type} (ops : FloatOps F) (cfg : UMap SetCfg) (hok : CfgOk cfg)
    (hdr : List Byte) (hw : writeHeader cfg = some hdr) (ms : List Msg) (hne : ms ≠ [])
    (hsz : ∀ m ∈ ms, m.size < 2 ^ 32) (hfit : ∀ m ∈ ms, Fits cfg m) (m : Msg) (hm : m.size < 2 ^ 32)
    (k : Nat) (hk0 : 0 < k) (hk : k < m.size - 4) :
    ∃ fuel, loadFile ops (recording hdr ms ++ (record m).take k) fuel fresh = .oob := by
  obtain ⟨s, _, hrun⟩ := load_msgs ops cfg hok hdr ((record m).take k) hw ms hne hsz
    (fun m hm => Or.inl (hfit m hm))
  refine ⟨4 + (ms.length + 1), ?_⟩
  have hf : recording hdr ms ++ (record m).take k = hdr ++ (ms.flatMap record ++ (record m).take k) := by
    simp [recording]
  rw [hf, hrun 1]
  set file := hdr ++ (ms.flatMap record ++ (record m).take k) with hfile
  have hd : file.drop (hdr.length + (ms.flatMap record).length) = (record m).take k := by
    rw [hfile, ← List.append_assoc, ← List.length_append, List.drop_left]
  have hrl := record_length m
  have htl : ((record m).take k).length = k := by rw [List.length_take]; omega
  have hlt : hdr.length + (ms.flatMap record).length < file.length := by
    rw [hfile]; simp only [List.length_append, htl]; omega
  have hoob : step ops file (hdr.length + (ms.flatMap record).length) s = .oob := by
    unfold step
    rw [if_pos hlt]
    simp only [hd]
    have rdnone : ∀ l : List Byte, l.length < 4 → rd32 l = none := by
      intro l h
      match l, h with
      | [], _ => rfl
      | [_], _ => rfl
      | [_, _], _ => rfl
      | [_, _, _], _ => rfl
    by_cases h4 : k < 4
    · rw [rdnone _ (by omega)]
    have e4 : (record m).take k = le32 recMagic ++ ((record m).drop 4).take (k - 4) := by
      conv_lhs => rw [show k = 4 + (k - 4) by omega, List.take_add]
      rw [record_cons]
      rfl
    rw [e4, rd32_le32]
    simp only [ne_eq, not_true_eq_false, if_false]
    rw [← e4]
    by_cases h20 : k < 20
    · rw [rdnone _ (by rw [List.length_drop]; omega)]
    have e20 : ((record m).take k).drop 16 = le32 (BitVec.ofNat 32 m.size) ++ ((record m).drop 20).take (k - 20) := by
      conv_lhs => rw [show k = 20 + (k - 20) by omega, List.take_add]
      rw [record_cons]
      rfl
    rw [e20, rd32_le32]
    simp only
    have h28 : 4 ≤ m.size := by unfold Msg.size; omega
    rw [sub4_toNat _ h28 hm]
    have : rdN (m.size - 4) ((record m).take k) = none := by
      unfold rdN; rw [if_neg (by omega)]
    rw [this]
  rw [scan, hoob]

/-! ### C10 -/

/-- C10. `MSG_ID` distinguishes any two pairs with an 8 bit id and a 16 bit set. -/
theorem C10_msg_id_injective (s i s' i' : U32) (hs : s.toNat < 65536) (hs' : s'.toNat < 65536)
    (hi : i.toNat < 256) (hi' : i'.toNat < 256) (h : msgId s i = msgId s' i') : s = s' ∧ i = i' := by
  have key : ∀ a b : U32, a.toNat < 65536 → b.toNat < 256 → (msgId a b).toNat = a.toNat * 65536 + b.toNat := by
    intro a b ha hb
    unfold msgId
    rw [BitVec.toNat_or, BitVec.toNat_shiftLeft, BitVec.toNat_and,
      show BitVec.toNat (255#32) = 2 ^ 8 - 1 from rfl, Nat.and_two_pow_sub_one_eq_mod, Nat.mod_eq_of_lt hb,
      Nat.shiftLeft_eq, Nat.mod_eq_of_lt (by omega)]
    have := Nat.shiftLeft_add_eq_or_of_lt (show b.toNat < 2 ^ 16 by omega) a.toNat
    rw [Nat.shiftLeft_eq] at this
    omega
  have e := congrArg BitVec.toNat h
  rw [key s i hs hi, key s' i' hs' hi'] at e
  constructor <;> apply BitVec.eq_of_toNat_eq <;> omega

/-- C10. Outside that range ids collide: an id above 255 is truncated. -/
theorem C10_msg_id_truncates : msgId 0x16 0x121 = msgId 0x16 0x21 := by decide

/-- C10. The eight built-in datasets get eight distinct ids and their header fits its buffer. -/
theorem C10_builtin_table : builtin.length = builtinDecl.length ∧
    (builtin.map Prod.fst).Nodup ∧ (∀ d ∈ builtinDecl, msgId d.1 d.2.1 ∈ builtin.map Prod.fst) ∧
    (writeHeader builtin).isSome := by
  refine ⟨by decide +kernel, by decide +kernel, by decide +kernel, ?_⟩
  have h : (writeHeader builtin).map List.length = some 1356 := by decide +kernel
  cases hw : writeHeader builtin with
  | none => simp [hw] at h
  | some _ => rfl

end Verif.Props
