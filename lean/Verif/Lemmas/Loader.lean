import Verif.Lemmas.Recorder
namespace Verif.Loader
open Verif.Crc Verif.Recorder Verif.Spec.Rec

theorem mfind_mset_self {β : Type} (k : U32) (v : β) (l : UMap β) : mfind k (mset k v l) = some v := by
  induction l with
  | nil => simp [mset, mfind]
  | cons e l ih =>
    obtain ⟨k', v'⟩ := e
    simp only [mset]
    split
    · simp [mfind]
    · split
      · simp [mfind]
      · rename_i h; simp [mfind, h, ih]

theorem mfind_mset_ne {β : Type} (k k' : U32) (v : β) (l : UMap β) (h : k' ≠ k) :
    mfind k' (mset k v l) = mfind k' l := by
  induction l with
  | nil => simp [mset, mfind, h]
  | cons e l ih =>
    obtain ⟨k1, v1⟩ := e
    simp only [mset]
    split
    · simp [mfind, h]
    · split
      · rename_i _ h2; subst h2; simp [mfind, h]
      · simp only [mfind, ih]

theorem mfind_none {β : Type} (k : U32) (l : UMap β) : mfind k l = none ↔ ∀ e ∈ l, e.1 ≠ k := by
  induction l with
  | nil => simp [mfind]
  | cons e l ih =>
    obtain ⟨k1, v1⟩ := e
    simp only [mfind, List.mem_cons, forall_eq_or_imp]
    by_cases h : k = k1
    · simp [h]
    · rw [if_neg h, ih]
      exact ⟨fun x => ⟨fun h' => h h'.symm, x⟩, fun x => x.2⟩

theorem mfind_mem {β : Type} (l : UMap β) (hs : l.Pairwise fun a b => a.1.toNat < b.1.toNat)
    (e : U32 × β) (he : e ∈ l) : mfind e.1 l = some e.2 := by
  induction l with
  | nil => simp at he
  | cons x l ih =>
    obtain ⟨k1, v1⟩ := x
    rw [List.pairwise_cons] at hs
    simp only [List.mem_cons] at he
    rcases he with rfl | he
    · simp [mfind]
    · have hlt := hs.1 e he
      have : e.1 ≠ k1 := by intro h; rw [h] at hlt; simp at hlt
      simp only [mfind, this, if_false]
      exact ih hs.2 he

theorem record_length (m : Msg) : (record m).length = m.size := by
  simp [record, Msg.pre, Msg.size]; omega

theorem record_cons (m : Msg) : record m = le32 recMagic ++ (le32 m.id ++ (le64 m.time ++
    (le32 (BitVec.ofNat 32 m.size) ++ (m.dataBytes ++ (le32 (revert (checksum m.pre)) ++ le32 recEnd))))) := by
  simp [record, Msg.pre]

theorem ofNat_size (m : Msg) (h : m.size < 2 ^ 32) : (BitVec.ofNat 32 m.size).toNat = m.size := by
  rw [BitVec.toNat_ofNat, Nat.mod_eq_of_lt h]

theorem sub4_toNat (n : Nat) (h4 : 4 ≤ n) (h : n < 2 ^ 32) : (BitVec.ofNat 32 n - 4).toNat = n - 4 := by
  rw [BitVec.toNat_sub, show BitVec.toNat (4 : BitVec 32) = 4 from rfl]
  simp only [BitVec.toNat_ofNat]
  rw [Nat.mod_eq_of_lt h]
  omega

/-- reading the fixed fields of a record -/
theorem rec_fields (m : Msg) (b : List Byte) :
    rd32 (record m ++ b) = some recMagic ∧ rd32 ((record m ++ b).drop 4) = some m.id ∧
    rd64 ((record m ++ b).drop 8) = some m.time ∧
    rd32 ((record m ++ b).drop 16) = some (BitVec.ofNat 32 m.size) ∧
    (record m ++ b).drop 20 = m.dataBytes ++ (le32 (revert (checksum m.pre)) ++ (le32 recEnd ++ b)) := by
  rw [record_cons]
  simp only [List.append_assoc]
  refine ⟨rd32_le32 _ _, ?_, ?_, ?_, ?_⟩
  · rw [drop_left (le32_length _), rd32_le32]
  · rw [show (8:Nat) = 4 + 4 by rfl, drop_le32, drop_left (le32_length _), rd64_le64]
  · rw [show (16:Nat) = 4 + (4 + 8) by rfl, drop_le32, drop_le32, drop_left (le64_length _), rd32_le32]
  · rw [show (20:Nat) = 4 + (4 + (8 + 4)) by rfl, drop_le32, drop_le32, ← List.drop_drop,
      drop_left (le64_length _), drop_left (le32_length _)]

theorem rec_block (m : Msg) (b : List Byte) :
    rdN (m.size - 4) (record m ++ b) = some (m.pre ++ le32 (revert (checksum m.pre))) := by
  have : record m ++ b = (m.pre ++ le32 (revert (checksum m.pre))) ++ (le32 recEnd ++ b) := by
    simp [record]
  rw [this]
  apply rdN_append
  simp [Msg.pre, Msg.size]; omega

theorem step_record {F : Type} (ops : FloatOps F) (a b : List Byte) (m : Msg) (hm : m.size < 2 ^ 32)
    (s : State F) : step ops (a ++ (record m ++ b)) a.length s =
      match addData ops m.id (record m ++ b) s with
      | none => .oob
      | some s1 => .next (a.length + m.size) s1 := by
  obtain ⟨h0, h4, _, h16, _⟩ := rec_fields m b
  have hlt : a.length < (a ++ (record m ++ b)).length := by
    simp only [List.length_append, record_length, Msg.size]; omega
  have hd : (a ++ (record m ++ b)).drop a.length = record m ++ b := by simp
  have h28 : 4 ≤ m.size := by unfold Msg.size; omega
  unfold step
  rw [if_pos hlt]
  simp only [hd, h0, h16, h4, ne_eq, not_true_eq_false, if_false, sub4_toNat _ h28 hm, rec_block,
    Props.C02_written_checksum_verifies, ofNat_size m hm]
  rfl

theorem addData_unknown {F : Type} (ops : FloatOps F) (id : U32) (p : List Byte) (s : State F)
    (h : mfind id s.cfgs = none) : addData ops id p s = some { s with errs := s.errs ++ [.unknownId id] } := by
  simp [addData, h]

theorem addData_known {F : Type} (ops : FloatOps F) (m : Msg) (hm : m.size < 2 ^ 32) (b : List Byte)
    (s : State F) (c : SetCfg) (hc : mfind m.id s.cfgs = some c)
    (hv : m.vals.map Val.type = c.items.map ItemCfg.type) (rows : List (List F))
    (hd : ((mfind m.id s.data).getD (newSet m.id c)).data = colsOf ops.zero c.items.length rows) :
    addData ops m.id (record m ++ b) s =
      some { s with data := (mset m.id
        { (mfind m.id s.data).getD (newSet m.id c) with
            time := ((mfind m.id s.data).getD (newSet m.id c)).time ++ [m.time],
            data := colsOf ops.zero c.items.length (rows ++ [m.vals.map (value ops)]) } s.data) } := by
  obtain ⟨h0, h4, h8, h16, h20⟩ := rec_fields m b
  have hl : (m.vals.map (value ops)).length = c.items.length := by
    have := congrArg List.length hv
    simpa using this
  simp only [addData, hc, h8, h20, h16, Msg.dataBytes, members_ok ops c.items m.vals _ hv, hd,
    pushRow_cols _ _ _ _ hl, Option.bind_eq_bind, Option.bind_some, ofNat_size m hm]
  rw [if_neg]
  simp [Msg.size, elemHeaderSize, Msg.dataBytes]; omega

/-- State after loading the messages `ms`. -/
structure Inv {F : Type} (ops : FloatOps F) (cfg : UMap SetCfg) (ms : List Msg) (s : State F) : Prop where
  cfgs : s.cfgs = cfg
  code : s.code = .ok
  errs : s.errs = (ms.filter fun m => (mfind m.id cfg).isNone).map fun m => Err.unknownId m.id
  unk : ∀ id, mfind id cfg = none → mfind id s.data = none
  known : ∀ id c, mfind id cfg = some c →
    if ms.filter (fun m => decide (m.id = id)) = [] then mfind id s.data = none
    else ∃ d, mfind id s.data = some d ∧ d.time = (ms.filter fun m => decide (m.id = id)).map Msg.time ∧
      d.data = colsOf ops.zero c.items.length
        ((ms.filter fun m => decide (m.id = id)).map fun m => m.vals.map (value ops))

theorem addData_inv {F : Type} (ops : FloatOps F) (cfg : UMap SetCfg)
    (hs : cfg.Pairwise fun a b => a.1.toNat < b.1.toNat) (ms : List Msg) (m : Msg)
    (hm : m.size < 2 ^ 32) (hfit : Fits cfg m ∨ Unknown cfg m) (b : List Byte) (s : State F)
    (h : Inv ops cfg ms s) :
    ∃ s1, addData ops m.id (record m ++ b) s = some s1 ∧ Inv ops cfg (ms ++ [m]) s1 := by
  rcases hfit with hf | hu
  · obtain ⟨e, he, hid, hv⟩ := hf
    have hc : mfind m.id cfg = some e.2 := by rw [← hid]; exact mfind_mem cfg hs e he
    have hk := h.known m.id e.2 hc
    set ds := (mfind m.id s.data).getD (newSet m.id e.2) with hds
    have hd : ds.data = colsOf ops.zero e.2.items.length
        ((ms.filter fun x => decide (x.id = m.id)).map fun x => x.vals.map (value ops)) ∧
        ds.time = (ms.filter fun x => decide (x.id = m.id)).map Msg.time := by
      split at hk
      · rename_i h0
        rw [hds, hk, h0]
        simp only [Option.getD_none, newSet, List.map_nil, and_true, colsOf]
        apply List.ext_getElem
        · simp
        · intro i h1 h2; simp
      · obtain ⟨d, h1, h2, h3⟩ := hk
        rw [hds, h1]; exact ⟨h3, h2⟩
    refine ⟨_, addData_known ops m hm b s e.2 (by rw [h.cfgs]; exact hc) hv _ hd.1, ?_⟩
    refine ⟨h.cfgs, h.code, ?_, ?_, ?_⟩
    · simp only [h.errs, List.filter_append, hc, Option.isNone_some, List.filter_cons, List.filter_nil,
        Bool.false_eq_true, if_false, List.append_nil]
    · intro id hn
      have : id ≠ m.id := by intro e'; rw [e', hc] at hn; simp at hn
      simp only [mfind_mset_ne _ _ _ _ this]; exact h.unk id hn
    · intro id c hcid
      by_cases hi : m.id = id
      · subst hi
        rw [hc] at hcid; cases hcid
        rw [if_neg (by simp [List.filter_append])]
        refine ⟨_, mfind_mset_self _ _ _, ?_, ?_⟩
        · simp only [List.filter_append, List.map_append]
          rw [← hds, hd.2]; simp
        · simp [List.filter_append, List.map_append]
      · have := h.known id c hcid
        simp only [List.filter_append, List.filter_cons, hi, decide_false, Bool.false_eq_true, if_false,
          List.filter_nil, List.append_nil]
        rw [mfind_mset_ne _ _ _ _ (Ne.symm hi)]
        exact this
  · have hn : mfind m.id cfg = none := (mfind_none _ _).2 hu
    refine ⟨_, addData_unknown ops m.id _ s (by rw [h.cfgs]; exact hn), ?_⟩
    refine ⟨h.cfgs, h.code, ?_, h.unk, ?_⟩
    · simp [h.errs, List.filter_append, hn]
    · intro id c hcid
      have hi : m.id ≠ id := by intro e'; rw [e', hcid] at hn; simp at hn
      have := h.known id c hcid
      simp only [List.filter_append, List.filter_cons, hi, decide_false, Bool.false_eq_true, if_false,
          List.filter_nil, List.append_nil]
      exact this

/-- scanning a run of records -/
theorem scan_msgs {F : Type} (ops : FloatOps F) (cfg : UMap SetCfg)
    (hs : cfg.Pairwise fun a b => a.1.toNat < b.1.toNat) (ms : List Msg) :
    ∀ (a rest : List Byte) (done : List Msg) (s : State F) (fuel : Nat),
    (∀ m ∈ ms, m.size < 2 ^ 32) → (∀ m ∈ ms, Fits cfg m ∨ Unknown cfg m) → Inv ops cfg done s →
    ∃ s', Inv ops cfg (done ++ ms) s' ∧
      scan ops (a ++ (ms.flatMap record ++ rest)) (ms.length + fuel) a.length s =
      scan ops (a ++ (ms.flatMap record ++ rest)) fuel (a.length + (ms.flatMap record).length) s' := by
  induction ms with
  | nil => intro a rest done s fuel _ _ h; exact ⟨s, by simpa using h, by simp⟩
  | cons m ms ih =>
    intro a rest done s fuel hsz hfit h
    obtain ⟨s1, h1, hi1⟩ := addData_inv ops cfg hs done m (hsz m (by simp)) (hfit m (by simp))
      (ms.flatMap record ++ rest) s h
    obtain ⟨s', hi', he⟩ := ih (a ++ record m) rest (done ++ [m]) s1 fuel
      (fun x hx => hsz x (by simp [hx])) (fun x hx => hfit x (by simp [hx])) hi1
    refine ⟨s', by simpa using hi', ?_⟩
    rw [show (m :: ms).length + fuel = (ms.length + fuel) + 1 by simp; omega]
    simp only [scan, List.flatMap_cons, List.append_assoc]
    rw [step_record ops a _ m (hsz m (by simp)) s, h1]
    simp only [List.append_assoc, List.length_append, record_length] at he
    simp only [List.length_append, record_length]
    rw [he]
    congr 1
    omega

theorem scan_end {F : Type} (ops : FloatOps F) (file : List Byte) (fuel : Nat) (s : State F) :
    scan ops file (fuel + 1) file.length s = .finished s := by
  simp [scan, step]

theorem step_skip {F : Type} (ops : FloatOps F) (a b : List Byte) (k : Nat) (v : U32) (s : State F)
    (hk : k < b.length) (hr : rd32 (b.drop k) = some v) (hv : v ≠ recMagic) :
    step ops (a ++ b) (a.length + k) s = .next (a.length + k + 1) s := by
  unfold step
  rw [if_pos (by simp; omega)]
  have : (a ++ b).drop (a.length + k) = b.drop k := by rw [List.drop_append]; simp
  simp [this, hr, hv]

/-- the four steps over the end mark of the header -/
theorem scan_endmark {F : Type} (ops : FloatOps F) (h0 b : List Byte) (fuel : Nat) (s : State F) :
    scan ops (h0 ++ (le32 hdrEnd ++ (le32 recMagic ++ b))) (4 + fuel) h0.length s =
    scan ops (h0 ++ (le32 hdrEnd ++ (le32 recMagic ++ b))) fuel (h0.length + 4) s := by
  have e : ∀ k, k < 4 → ∃ v, rd32 ((le32 hdrEnd ++ (le32 recMagic ++ b)).drop k) = some v ∧ v ≠ recMagic := by
    intro k hk
    rcases (by omega : k = 0 ∨ k = 1 ∨ k = 2 ∨ k = 3) with h | h | h | h <;> subst h <;>
      simp [le32, rd32] <;> decide
  have st : ∀ k, k < 4 → step ops (h0 ++ (le32 hdrEnd ++ (le32 recMagic ++ b))) (h0.length + k) s =
      .next (h0.length + k + 1) s := by
    intro k hk
    obtain ⟨v, h1, h2⟩ := e k hk
    exact step_skip ops h0 _ k v s (by simp; omega) h1 h2
  rw [show 4 + fuel = fuel + 1 + 1 + 1 + 1 by omega]
  have s0 := st 0 (by omega)
  simp only [Nat.add_zero] at s0
  rw [scan, s0]
  simp only
  rw [scan, st 1 (by omega)]
  simp only
  rw [scan, st 2 (by omega)]
  simp only
  rw [scan, st 3 (by omega)]

theorem inv_fresh {F : Type} (ops : FloatOps F) (cfg : UMap SetCfg) (s : State F) (h1 : s.cfgs = cfg)
    (h2 : s.code = .ok) (h3 : s.errs = []) (h4 : s.data = []) : Inv ops cfg [] s := by
  refine ⟨h1, h2, by simp [h3], by intro id _; simp [h4, mfind], ?_⟩
  intro id c _; simp [h4, mfind]

/-- main lemma: a load arrives behind a run of records with the invariant -/
theorem load_msgs {F : Type} (ops : FloatOps F) (cfg : UMap SetCfg) (hok : CfgOk cfg) (hdr rest : List Byte)
    (hw : writeHeader cfg = some hdr) (ms : List Msg) (hne : ms ≠ [])
    (hsz : ∀ m ∈ ms, m.size < 2 ^ 32) (hfit : ∀ m ∈ ms, Fits cfg m ∨ Unknown cfg m) :
    ∃ s', Inv ops cfg ms s' ∧ ∀ fuel,
      loadFile ops (hdr ++ (ms.flatMap record ++ rest)) (4 + (ms.length + fuel)) fresh =
      scan ops (hdr ++ (ms.flatMap record ++ rest)) fuel (hdr.length + (ms.flatMap record).length) s' := by
  obtain ⟨hl, hle, h20, h0, hh0⟩ := loadHeader_ok cfg hok hdr (ms.flatMap record ++ rest) hw
    ({ (fresh : State F) with errs := [], code := .ok }) rfl rfl
  set s0 : State F := { (fresh : State F) with
    cfgs := cfg, codes := cfg.map fun e => (e.1, Code.ok), version := versionBits, errs := [], code := .ok } with hs0
  have hi0 : Inv ops cfg [] s0 := inv_fresh ops cfg s0 rfl rfl rfl rfl
  obtain ⟨s', hi', _⟩ := scan_msgs ops cfg hok.sorted ms hdr rest [] s0 0 hsz hfit hi0
  have hall : ∀ fuel, ∃ s', Inv ops cfg ms s' ∧
      scan ops (hdr ++ (ms.flatMap record ++ rest)) (ms.length + fuel) hdr.length s0 =
      scan ops (hdr ++ (ms.flatMap record ++ rest)) fuel (hdr.length + (ms.flatMap record).length) s' :=
    fun fuel => by simpa using scan_msgs ops cfg hok.sorted ms hdr rest [] s0 fuel hsz hfit hi0
  -- the state does not depend on the fuel: take it from fuel 0
  obtain ⟨s', hi', he'⟩ := hall 0
  have run : scan ops (hdr ++ (ms.flatMap record ++ rest)) ms.length hdr.length s0 =
      .running (hdr.length + (ms.flatMap record).length) s' := by simpa [scan] using he'
  refine ⟨s', hi', ?_⟩
  intro fuel
  have split : ∀ (n k off : Nat) (x : State F) (off' : Nat) (x' : State F) (file : List Byte),
      scan ops file n off x = .running off' x' → scan ops file (n + k) off x = scan ops file k off' x' := by
    intro n
    induction n with
    | zero =>
      intro k off x off' x' file h
      simp only [scan, Outcome.running.injEq] at h
      rw [h.1, h.2, Nat.zero_add]
    | succ n ih =>
      intro k off x off' x' file h
      rw [show n + 1 + k = (n + k) + 1 by omega]
      simp only [scan] at h ⊢
      split at h
      · simp at h
      · exact ih k _ _ _ _ _ h
      · simp at h
  unfold loadFile
  rw [hl]
  simp only
  rw [if_neg (by omega)]
  have hoff : hdr.length - 4 = h0.length := by rw [hh0]; simp
  cases ms with
  | nil => exact absurd rfl hne
  | cons m ms =>
    have hfile : hdr ++ ((m :: ms).flatMap record ++ rest) = h0 ++ (le32 hdrEnd ++ (le32 recMagic ++
        (((record m).drop 4) ++ (ms.flatMap record ++ rest)))) := by
      rw [hh0]
      simp only [List.flatMap_cons, List.append_assoc]
      rw [record_cons]
      simp only [List.append_assoc]
      rw [drop_left (le32_length _)]
      simp
    have := scan_endmark ops h0 (((record m).drop 4) ++ (ms.flatMap record ++ rest))
      ((m :: ms).length + fuel) s0
    rw [← hfile] at this
    rw [hoff, this]
    have hl2 : h0.length + 4 = hdr.length := by rw [hh0]; simp
    rw [hl2]
    exact split _ _ _ _ _ _ _ run

end Verif.Loader
