import Verif.Spec.App
import Verif.Lemmas.Real
import Mathlib.Tactic.SplitIfs
import Mathlib.Tactic.Tauto
import Mathlib.Tactic.Linarith
import Mathlib.Data.List.Basic
/-! Merging of the recorded sources. Everything here holds for every arithmetic; where an order is
needed it is assumed of the times that occur only. -/
namespace Verif.Props
open Verif Verif.Spec
variable {α : Type} [Add α] [Sub α] [Mul α] [Neg α] [Div α] [Zero α] [One α] [Fl α]

/-- The manager as `PostDataFusion` builds it (PostDataFusion.cpp:56-58). -/
def manager (enableGnss : Bool) (gs : List (GnssRec α)) (is : List (ImuRec α)) : DM α :=
  (DM.new.addGnss enableGnss gs).addImu is

/-- The two sources with `p` IMU and `q` GNSS records delivered. -/
def at2 (is : List (ImuRec α)) (gs : List (GnssRec α)) (p q : Nat) : DM α :=
  { que := fun i => if i = 0 then is.map .imu else if i = 1 then gs.map .gnss else []
    position := fun i => if i = 0 then p else if i = 1 then q else 0
    queNum := 2 }

/-- Only the IMU source, `p` records delivered. -/
def at1 (is : List (ImuRec α)) (p : Nat) : DM α :=
  { que := fun i => if i = 0 then is.map .imu else []
    position := fun i => if i = 0 then p else 0
    queNum := 1 }

theorem manager_at2 (gs : List (GnssRec α)) (is : List (ImuRec α)) : manager true gs is = at2 is gs 0 0 := by
  simp only [manager, DM.addGnss, DM.addImu, DM.new, at2, DM.gnssId, DM.imuId]
  congr 1
  · funext i
    by_cases h0 : i = 0
    · subst h0; simp
    · by_cases h1 : i = 1
      · subst h1; simp
      · simp [h0, h1]
  · funext i; split_ifs <;> rfl

theorem manager_at1 (gs : List (GnssRec α)) (is : List (ImuRec α)) : manager false gs is = at1 is 0 := by
  simp only [manager, DM.addGnss, DM.addImu, DM.new, at1, DM.gnssId, DM.imuId]
  congr 1
  · funext i
    by_cases h0 : i = 0
    · subst h0; simp
    · by_cases h1 : i = 1
      · subst h1; simp
      · simp [h0]

theorem heads_at2 (is : List (ImuRec α)) (gs : List (GnssRec α)) (p q : Nat) :
    (at2 is gs p q).heads = match is[p]?, gs[q]? with
      | some i, some g => some [i.time, g.time]
      | _, _ => none := by
  unfold DM.heads
  show (List.range 2).mapM _ = _
  rw [show List.range 2 = [0, 1] from rfl]
  simp only [List.mapM_cons, List.mapM_nil, at2]
  simp only [if_true, Nat.one_ne_zero, if_false, List.getElem?_map]
  cases is[p]? with
  | none => rfl
  | some i => cases gs[q]? with
    | none => rfl
    | some g => rfl

theorem next_at2_null (is : List (ImuRec α)) (gs : List (GnssRec α)) (p q : Nat)
    (h : is[p]? = none ∨ gs[q]? = none) : (at2 is gs p q).next = .null := by
  unfold DM.next
  rw [heads_at2]
  rcases h with h | h <;> rw [h]
  cases is[p]? <;> rfl

theorem argmin_two (a b : α) (ha : Fl.lt a (Fl.lit 2147483647) = true) :
    argmin [a, b] = if Fl.lt b a then 1 else 0 := by
  simp only [argmin, argminGo, if_pos ha]

theorem next_at2 (is : List (ImuRec α)) (gs : List (GnssRec α)) (p q : Nat) (i : ImuRec α) (g : GnssRec α)
    (hi : is[p]? = some i) (hg : gs[q]? = some g) (ha : Fl.lt i.time (Fl.lit 2147483647) = true) :
    (at2 is gs p q).next = if Fl.lt g.time i.time then .data (.gnss g) (at2 is gs p (q + 1))
      else .data (.imu i) (at2 is gs (p + 1) q) := by
  unfold DM.next
  rw [heads_at2, hi, hg]
  dsimp only
  rw [argmin_two _ _ ha]
  by_cases h : Fl.lt g.time i.time = true
  · rw [if_pos h, if_pos h]
    have : ((at2 is gs p q).que 1)[(at2 is gs p q).position 1]? = some (.gnss g) := by simp [at2, hg]
    rw [this]
    dsimp only [at2]
    congr 2
    funext j
    by_cases h0 : j = 0
    · subst h0; rfl
    · by_cases h1 : j = 1
      · subst h1; simp
      · simp [h0, h1]
  · rw [if_neg h, if_neg h]
    have : ((at2 is gs p q).que 0)[(at2 is gs p q).position 0]? = some (.imu i) := by simp [at2, hi]
    rw [this]
    dsimp only [at2]
    congr 2
    funext j
    by_cases h0 : j = 0
    · subst h0; simp
    · simp [h0]

/-- All IMU times are below `INT_MAX` (times are GPS seconds of week). -/
def smallTimes (is : List (ImuRec α)) : Prop := ∀ i ∈ is, Fl.lt i.time (Fl.lit 2147483647) = true

theorem drop_of_getElem? {β : Type} (xs : List β) (p : Nat) (x : β) (h : xs[p]? = some x) :
    xs.drop p = x :: xs.drop (p + 1) := by
  obtain ⟨hp, hx⟩ := List.getElem?_eq_some_iff.mp h
  rw [← hx]; exact List.drop_eq_getElem_cons hp

theorem drop_of_none {β : Type} (xs : List β) (p : Nat) (h : xs[p]? = none) : xs.drop p = [] := by
  rw [List.getElem?_eq_none_iff] at h
  exact List.drop_eq_nil_of_le h

omit [Add α] [Sub α] [Mul α] [Neg α] [Div α] [Zero α] [One α] in
theorem merge_nil_right (is : List (ImuRec α)) : merge is [] = [] := by
  cases is <;> simp [merge]

theorem calls_at2 (is : List (ImuRec α)) (gs : List (GnssRec α)) (hs : smallTimes is) :
    ∀ (k p q : Nat), (DM.calls k (at2 is gs p q)).1 = (merge (is.drop p) (gs.drop q)).take k ∧
      (DM.calls k (at2 is gs p q)).2 =
        at2 is gs (p + (imuPart (DM.calls k (at2 is gs p q)).1).length)
          (q + (gnssPart (DM.calls k (at2 is gs p q)).1).length) := by
  intro k
  induction k with
  | zero => intro p q; exact ⟨by simp [DM.calls], by simp [DM.calls, imuPart, gnssPart]⟩
  | succ k ih =>
    intro p q
    unfold DM.calls
    cases hi : is[p]? with
    | none =>
      rw [next_at2_null is gs p q (Or.inl hi), drop_of_none is p hi]
      exact ⟨by simp [merge], by simp [imuPart, gnssPart]⟩
    | some i =>
      cases hg : gs[q]? with
      | none =>
        rw [next_at2_null is gs p q (Or.inr hg), drop_of_none gs q hg, merge_nil_right]
        exact ⟨by simp, by simp [imuPart, gnssPart]⟩
      | some g =>
        rw [next_at2 is gs p q i g hi hg (hs i (List.mem_of_getElem? hi))]
        rw [drop_of_getElem? is p i hi, drop_of_getElem? gs q g hg, merge]
        by_cases h : Fl.lt g.time i.time = true
        · rw [if_pos h, if_pos h]
          dsimp only
          obtain ⟨h1, h2⟩ := ih p (q + 1)
          refine ⟨?_, ?_⟩
          · rw [h1, drop_of_getElem? is p i hi]; rfl
          · rw [h2]
            congr 1
            simp only [gnssPart, List.filterMap_cons, List.length_cons]
            omega
        · rw [if_neg h, if_neg h]
          dsimp only
          obtain ⟨h1, h2⟩ := ih (p + 1) q
          refine ⟨?_, ?_⟩
          · rw [h1, drop_of_getElem? gs q g hg]; rfl
          · rw [h2]
            congr 1
            simp only [imuPart, List.filterMap_cons, List.length_cons]
            omega

/-- The delivered sequence is the merge of the two sources, cut off where the first one ends. -/
theorem delivered_is_merge (gs : List (GnssRec α)) (is : List (ImuRec α)) (hs : smallTimes is) (k : Nat) :
    (DM.calls k (manager true gs is)).1 = (merge is gs).take k := by
  rw [manager_at2, (calls_at2 is gs hs k 0 0).1]; rfl

section
omit [Add α] [Sub α] [Mul α] [Neg α] [Div α] [Zero α] [One α]

theorem merge_mem (is : List (ImuRec α)) (gs : List (GnssRec α)) :
    ∀ r ∈ merge is gs, (∃ i ∈ is, r = .imu i) ∨ (∃ g ∈ gs, r = .gnss g) := by
  induction is, gs using merge.induct (α := α) with
  | case1 gs => intro r h; simp [merge] at h
  | case2 i is => intro r h; simp [merge] at h
  | case3 i is g gs hlt ih =>
    intro r h
    rw [merge, if_pos hlt] at h
    rcases List.mem_cons.mp h with rfl | h
    · exact Or.inr ⟨g, by simp, rfl⟩
    · rcases ih r h with ⟨x, hx, e⟩ | ⟨x, hx, e⟩
      · exact Or.inl ⟨x, hx, e⟩
      · exact Or.inr ⟨x, by simp [hx], e⟩
  | case4 i is g gs hlt ih =>
    intro r h
    rw [merge, if_neg hlt] at h
    rcases List.mem_cons.mp h with rfl | h
    · exact Or.inl ⟨i, by simp, rfl⟩
    · rcases ih r h with ⟨x, hx, e⟩ | ⟨x, hx, e⟩
      · exact Or.inl ⟨x, by simp [hx], e⟩
      · exact Or.inr ⟨x, hx, e⟩

theorem merge_sorted (S : α → Prop) (hS : Ordered S) (is : List (ImuRec α)) (gs : List (GnssRec α))
    (hi : ∀ i ∈ is, S i.time) (hg : ∀ g ∈ gs, S g.time)
    (si : is.Pairwise fun a b => Fl.lt b.time a.time = false)
    (sg : gs.Pairwise fun a b => Fl.lt b.time a.time = false) : sortedRecs (merge is gs) := by
  unfold sortedRecs
  induction is, gs using merge.induct (α := α) with
  | case1 gs => simp [merge]
  | case2 i is => simp [merge]
  | case3 i is g gs hlt ih =>
    rw [merge, if_pos hlt, List.pairwise_cons]
    rw [List.pairwise_cons] at sg
    refine ⟨?_, ih hi (fun x hx => hg x (by simp [hx])) si sg.2⟩
    intro r hr
    have hgi : Fl.lt i.time g.time = false := hS.asymm _ _ (hg g (by simp)) (hi i (by simp)) hlt
    rcases merge_mem _ _ r hr with ⟨x, hx, rfl⟩ | ⟨x, hx, rfl⟩
    · show Fl.lt x.time g.time = false
      rcases List.mem_cons.mp hx with rfl | hx'
      · exact hgi
      · exact hS.trans g.time i.time x.time (hg g (by simp)) (hi i (by simp)) (hi x hx) hgi
          ((List.pairwise_cons.mp si).1 x hx')
    · exact sg.1 x hx
  | case4 i is g gs hlt ih =>
    rw [merge, if_neg hlt, List.pairwise_cons]
    rw [List.pairwise_cons] at si
    refine ⟨?_, ih (fun x hx => hi x (by simp [hx])) hg si.2 sg⟩
    intro r hr
    have hgi : Fl.lt g.time i.time = false := by simpa using hlt
    rcases merge_mem _ _ r hr with ⟨x, hx, rfl⟩ | ⟨x, hx, rfl⟩
    · exact si.1 x hx
    · show Fl.lt x.time i.time = false
      rcases List.mem_cons.mp hx with rfl | hx'
      · exact hgi
      · exact hS.trans i.time g.time x.time (hi i (by simp)) (hg g (by simp)) (hg x hx) hgi
          ((List.pairwise_cons.mp sg).1 x hx')

/-- Each source is consumed in order: the parts of the merge are prefixes of the sources, and one of the
sources is used up completely. -/
theorem merge_parts (is : List (ImuRec α)) (gs : List (GnssRec α)) :
    imuPart (merge is gs) <+: is ∧ gnssPart (merge is gs) <+: gs ∧
      (imuPart (merge is gs) = is ∨ gnssPart (merge is gs) = gs) := by
  induction is, gs using merge.induct (α := α) with
  | case1 gs => simp [merge, imuPart, gnssPart]
  | case2 i is => simp [merge, imuPart, gnssPart]
  | case3 i is g gs hlt ih =>
    rw [merge, if_pos hlt]
    simp only [imuPart, gnssPart, List.filterMap_cons] at ih ⊢
    refine ⟨ih.1, ?_, ?_⟩
    · exact List.cons_prefix_cons.mpr ⟨rfl, ih.2.1⟩
    · rcases ih.2.2 with h | h
      · exact Or.inl h
      · exact Or.inr (by rw [h])
  | case4 i is g gs hlt ih =>
    rw [merge, if_neg hlt]
    simp only [imuPart, gnssPart, List.filterMap_cons] at ih ⊢
    refine ⟨?_, ih.2.1, ?_⟩
    · exact List.cons_prefix_cons.mpr ⟨rfl, ih.1⟩
    · rcases ih.2.2 with h | h
      · exact Or.inl (by rw [h])
      · exact Or.inr h
end

/-- C52: if both sources are sorted by time, so is everything `GetNextData` delivers, however often it
is called. -/
theorem C52_delivered_sorted (S : α → Prop) (hS : Ordered S) (is : List (ImuRec α)) (gs : List (GnssRec α))
    (hi : ∀ i ∈ is, S i.time) (hg : ∀ g ∈ gs, S g.time) (hs : smallTimes is)
    (si : is.Pairwise fun a b => Fl.lt b.time a.time = false)
    (sg : gs.Pairwise fun a b => Fl.lt b.time a.time = false) (k : Nat) :
    sortedRecs (DM.calls k (manager true gs is)).1 := by
  rw [delivered_is_merge gs is hs]
  exact (merge_sorted S hS is gs hi hg si sg).sublist (List.take_sublist _ _)

omit [Add α] [Sub α] [Mul α] [Neg α] [Div α] [Zero α] [One α] [Fl α] in
theorem parts_length (xs : List (Rec α)) : (imuPart xs).length + (gnssPart xs).length = xs.length := by
  induction xs with
  | nil => rfl
  | cons x xs ih =>
    cases x <;> simp only [imuPart, gnssPart, List.filterMap_cons, List.length_cons] at ih ⊢ <;> omega

theorem prefix_of_parts (xs : List (Rec α)) (k : Nat) :
    imuPart (xs.take k) <+: imuPart xs ∧ gnssPart (xs.take k) <+: gnssPart xs :=
  ⟨(List.take_prefix k xs).filterMap _, (List.take_prefix k xs).filterMap _⟩

/-- C53: what has been delivered is made of a prefix of each source, in order and without repetition;
the next call returns null exactly if one of the sources is used up. No assumption on the order of the
sources is needed. -/
theorem C53_prefixes (is : List (ImuRec α)) (gs : List (GnssRec α)) (hs : smallTimes is) (k : Nat) :
    let c := DM.calls k (manager true gs is)
    imuPart c.1 <+: is ∧ gnssPart c.1 <+: gs ∧
      ((∃ r d, c.2.next = .data r d) ↔ (imuPart c.1).length < is.length ∧ (gnssPart c.1).length < gs.length) ∧
      (c.2.next = .null ↔ imuPart c.1 = is ∨ gnssPart c.1 = gs) := by
  intro c
  have h1 : c.1 = (merge is gs).take k := delivered_is_merge gs is hs k
  have hp := prefix_of_parts (merge is gs) k
  rw [← h1] at hp
  have hm := merge_parts is gs
  have pi := hp.1.trans hm.1
  have pg := hp.2.trans hm.2.1
  have h2 : c.2 = at2 is gs (imuPart c.1).length (gnssPart c.1).length := by
    have := (calls_at2 is gs hs k 0 0).2
    rw [← manager_at2] at this
    simpa using this
  have hfull : ∀ {β : Type} (a b : List β), a <+: b → (a = b ↔ b[a.length]? = none) := by
    intro β a b hab
    rw [List.getElem?_eq_none_iff]
    constructor
    · rintro rfl; exact le_refl _
    · intro h; exact hab.eq_of_length (le_antisymm hab.length_le h)
  refine ⟨pi, pg, ?_, ?_⟩
  · rw [h2]
    constructor
    · rintro ⟨r, d, h⟩
      by_contra hc
      have : is[(imuPart c.1).length]? = none ∨ gs[(gnssPart c.1).length]? = none := by
        rw [List.getElem?_eq_none_iff, List.getElem?_eq_none_iff]; omega
      rw [next_at2_null is gs _ _ this] at h
      cases h
    · rintro ⟨ha, hb⟩
      obtain ⟨i, hi⟩ : ∃ i, is[(imuPart c.1).length]? = some i := ⟨_, List.getElem?_eq_getElem ha⟩
      obtain ⟨g, hg⟩ : ∃ g, gs[(gnssPart c.1).length]? = some g := ⟨_, List.getElem?_eq_getElem hb⟩
      rw [next_at2 is gs _ _ i g hi hg (hs i (List.mem_of_getElem? hi))]
      split_ifs
      · exact ⟨_, _, rfl⟩
      · exact ⟨_, _, rfl⟩
  · rw [h2, hfull _ _ pi, hfull _ _ pg]
    constructor
    · intro h
      by_contra hc
      push Not at hc
      obtain ⟨i, hi⟩ := Option.ne_none_iff_exists'.mp hc.1
      obtain ⟨g, hg⟩ := Option.ne_none_iff_exists'.mp hc.2
      rw [next_at2 is gs _ _ i g hi hg (hs i (List.mem_of_getElem? hi))] at h
      split_ifs at h
    · exact next_at2_null is gs _ _

/-- C53: calling often enough delivers one of the two sources completely. -/
theorem C53_one_source_complete (is : List (ImuRec α)) (gs : List (GnssRec α)) (hs : smallTimes is) (k : Nat)
    (hk : is.length + gs.length ≤ k) :
    imuPart (DM.calls k (manager true gs is)).1 = is ∨ gnssPart (DM.calls k (manager true gs is)).1 = gs := by
  rw [delivered_is_merge gs is hs]
  have hm := merge_parts is gs
  have : (merge is gs).length ≤ k := by
    have := parts_length (merge is gs)
    have := hm.1.length_le
    have := hm.2.1.length_le
    omega
  rw [List.take_of_length_le this]
  exact hm.2.2

/-! Only the IMU source (GNSS disabled). -/

theorem next_at1 (is : List (ImuRec α)) (p : Nat) : (at1 is p).next = match is[p]? with
    | none => .null
    | some i => .data (.imu i) (at1 is (p + 1)) := by
  have hh : (at1 is p).heads = (is[p]?).map fun i => [i.time] := by
    unfold DM.heads
    show (List.range 1).mapM _ = _
    rw [show List.range 1 = [0] from rfl]
    simp only [List.mapM_cons, List.mapM_nil, at1, if_true, List.getElem?_map]
    cases is[p]? <;> rfl
  unfold DM.next
  rw [hh]
  cases hi : is[p]? with
  | none => rfl
  | some i =>
    have ha : argmin [i.time] = 0 := by
      simp only [argmin, argminGo]
      split_ifs <;> rfl
    have : ((at1 is p).que 0)[(at1 is p).position 0]? = some (.imu i) := by simp [at1, hi]
    simp only [Option.map_some, ha, this]
    congr 2
    funext j
    by_cases h0 : j = 0
    · subst h0; simp [at1]
    · simp [at1, h0]

/-- C53 with GNSS disabled: exactly the IMU records are delivered. -/
theorem C53_imu_only (is : List (ImuRec α)) (gs : List (GnssRec α)) (k : Nat) :
    (DM.calls k (manager false gs is)).1 = (is.take k).map .imu := by
  rw [manager_at1]
  suffices h : ∀ k p, (DM.calls k (at1 is p)).1 = ((is.drop p).take k).map .imu by simpa using h k 0
  intro k
  induction k with
  | zero => intro p; rfl
  | succ k ih =>
    intro p
    unfold DM.calls
    rw [next_at1]
    cases hi : is[p]? with
    | none => rw [drop_of_none is p hi]; rfl
    | some i =>
      dsimp only
      rw [ih, drop_of_getElem? is p i hi]
      rfl

/-- A third source makes the manager deliver nothing at all: it waits for a queue nobody fills. -/
theorem C53_third_file_stops_delivery (is is2 : List (ImuRec α)) (gs : List (GnssRec α)) :
    ((manager true gs is).addImu is2).next = .null := by
  have h : ((manager true gs is).addImu is2).heads = none := by
    unfold DM.heads
    have hn : ((manager true gs is).addImu is2).queNum = 3 := rfl
    rw [hn, show List.range 3 = [0, 1, 2] from rfl]
    have h2 : ((((manager true gs is).addImu is2).que 2)[((manager true gs is).addImu is2).position 2]?).map Rec.time
        = none := rfl
    simp only [List.mapM_cons, List.mapM_nil, h2]
    cases ((((manager true gs is).addImu is2).que 0)[((manager true gs is).addImu is2).position 0]?).map Rec.time with
    | none => rfl
    | some a =>
      cases ((((manager true gs is).addImu is2).que 1)[((manager true gs is).addImu is2).position 1]?).map Rec.time <;> rfl
  unfold DM.next
  rw [h]

/-! Skipping. -/

theorem moveGo_at2 (is : List (ImuRec α)) (gs : List (GnssRec α)) (hs : smallTimes is) (T : α) :
    ∀ (fuel p q : Nat), (is.length - p) + (gs.length - q) < fuel → ∃ p' q',
      DM.moveGo T fuel (at2 is gs p q) = at2 is gs p' q' ∧
      merge (is.drop p') (gs.drop q') =
        ((merge (is.drop p) (gs.drop q)).dropWhile fun r => Fl.lt r.time T).tail := by
  intro fuel
  induction fuel with
  | zero => intro p q h; omega
  | succ n ih =>
    intro p q h
    unfold DM.moveGo
    cases hi : is[p]? with
    | none =>
      rw [next_at2_null is gs p q (Or.inl hi)]
      exact ⟨p, q, rfl, by rw [drop_of_none is p hi]; simp [merge]⟩
    | some i =>
      cases hg : gs[q]? with
      | none =>
        rw [next_at2_null is gs p q (Or.inr hg)]
        exact ⟨p, q, rfl, by rw [drop_of_none gs q hg, merge_nil_right]; rfl⟩
      | some g =>
        have hp := (List.getElem?_eq_some_iff.mp hi).1
        have hq := (List.getElem?_eq_some_iff.mp hg).1
        rw [next_at2 is gs p q i g hi hg (hs i (List.mem_of_getElem? hi))]
        rw [drop_of_getElem? is p i hi, drop_of_getElem? gs q g hg, merge]
        by_cases hlt : Fl.lt g.time i.time = true
        · rw [if_pos hlt, if_pos hlt]
          dsimp only
          by_cases hT : Fl.lt g.time T = true
          · rw [if_pos (show Fl.lt (Rec.gnss g).time T = true from hT)]
            obtain ⟨p', q', h1, h2⟩ := ih p (q + 1) (by omega)
            exact ⟨p', q', h1, by rw [h2, drop_of_getElem? is p i hi]; simp [List.dropWhile, hT, Rec.time]⟩
          · rw [if_neg (show ¬ Fl.lt (Rec.gnss g).time T = true from hT)]
            exact ⟨p, q + 1, rfl, by rw [drop_of_getElem? is p i hi]; simp [List.dropWhile, hT, Rec.time]⟩
        · rw [if_neg hlt, if_neg hlt]
          dsimp only
          by_cases hT : Fl.lt i.time T = true
          · rw [if_pos (show Fl.lt (Rec.imu i).time T = true from hT)]
            obtain ⟨p', q', h1, h2⟩ := ih (p + 1) q (by omega)
            exact ⟨p', q', h1, by rw [h2, drop_of_getElem? gs q g hg]; simp [List.dropWhile, hT, Rec.time]⟩
          · rw [if_neg (show ¬ Fl.lt (Rec.imu i).time T = true from hT)]
            exact ⟨p + 1, q, rfl, by rw [drop_of_getElem? gs q g hg]; simp [List.dropWhile, hT, Rec.time]⟩

/-- C54: after `MoveToTime(T)` exactly those records are delivered which follow the first record that is
not earlier than `T`; that record itself is lost. -/
theorem C54_move_to_time (is : List (ImuRec α)) (gs : List (GnssRec α)) (hs : smallTimes is) (T : α) (k : Nat) :
    (DM.calls k ((manager true gs is).moveTo T)).1 =
      (((merge is gs).dropWhile fun r => Fl.lt r.time T).drop 1).take k := by
  rw [manager_at2]
  have hrem : (at2 is gs 0 0).remaining = is.length + gs.length := by simp [DM.remaining, at2]
  unfold DM.moveTo
  rw [hrem]
  obtain ⟨p', q', h1, h2⟩ := moveGo_at2 is gs hs T (is.length + gs.length + 1) 0 0 (by omega)
  rw [h1, (calls_at2 is gs hs k p' q').1, h2, List.drop_one]
  simp

/-- C54 on sorted sources: nothing earlier than `T` is delivered afterwards. -/
theorem C54_nothing_earlier (S : α → Prop) (hS : Ordered S) (is : List (ImuRec α)) (gs : List (GnssRec α))
    (hi : ∀ i ∈ is, S i.time) (hg : ∀ g ∈ gs, S g.time) (hs : smallTimes is)
    (si : is.Pairwise fun a b => Fl.lt b.time a.time = false)
    (sg : gs.Pairwise fun a b => Fl.lt b.time a.time = false) (T : α) (hT : S T) (k : Nat) :
    ∀ r ∈ (DM.calls k ((manager true gs is).moveTo T)).1, Fl.lt r.time T = false := by
  intro r hr
  rw [C54_move_to_time is gs hs] at hr
  have hr2 := List.mem_of_mem_take hr
  have hsort := merge_sorted S hS is gs hi hg si sg
  unfold sortedRecs at hsort
  have hmem := merge_mem is gs
  have hSr : ∀ x ∈ merge is gs, S x.time := by
    intro x hx
    rcases hmem x hx with ⟨y, hy, rfl⟩ | ⟨y, hy, rfl⟩
    · exact hi y hy
    · exact hg y hy
  generalize merge is gs = L at *
  clear hmem hr hi hg hs si sg
  induction L with
  | nil => simp at hr2
  | cons x xs ih =>
    rw [List.pairwise_cons] at hsort
    by_cases hx : Fl.lt x.time T = true
    · rw [List.dropWhile_cons_of_pos (by simpa using hx)] at hr2
      exact ih hr2 hsort.2 (fun y hy => hSr y (by simp [hy]))
    · rw [List.dropWhile_cons_of_neg (by simpa using hx)] at hr2
      simp only [List.drop_one, List.tail_cons] at hr2
      exact hS.trans T x.time r.time hT (hSr x (by simp)) (hSr r (by simp [hr2])) (by simpa using hx)
        (hsort.1 r hr2)

/-- C55: after `Reset` the manager behaves as when it was built, whatever was done with it before. -/
theorem C55_reset_replays (is : List (ImuRec α)) (gs : List (GnssRec α)) (hs : smallTimes is)
    (before : List (Nat ⊕ α)) (k : Nat) :
    (DM.calls k (before.foldl (fun d o => match o with
      | .inl n => (DM.calls n d).2
      | .inr T => d.moveTo T) (manager true gs is)).reset).1 = (DM.calls k (manager true gs is)).1 := by
  have hreset : ∀ p q, (at2 is gs p q).reset = at2 is gs 0 0 := by
    intro p q
    simp only [DM.reset, at2]
    congr 1
    funext i; split_ifs <;> rfl
  suffices h : ∀ (before : List (Nat ⊕ α)) p q, ∃ p' q', before.foldl (fun d o => match o with
      | .inl n => (DM.calls n d).2
      | .inr T => d.moveTo T) (at2 is gs p q) = at2 is gs p' q' by
    rw [manager_at2]
    obtain ⟨p', q', e⟩ := h before 0 0
    rw [e, hreset]
  intro before
  induction before with
  | nil => intro p q; exact ⟨p, q, rfl⟩
  | cons o os ih =>
    intro p q
    simp only [List.foldl_cons]
    cases o with
    | inl n =>
      dsimp only
      rw [(calls_at2 is gs hs n p q).2]
      exact ih _ _
    | inr T =>
      dsimp only
      unfold DM.moveTo
      have hrem : (at2 is gs p q).remaining = is.length - p + (gs.length - q) := by simp [DM.remaining, at2]
      rw [hrem]
      obtain ⟨p', q', h1, _⟩ := moveGo_at2 is gs hs T (is.length - p + (gs.length - q) + 1) p q (by omega)
      rw [h1]
      exact ih _ _

/-- C71: the progress value stays between 0 and 100, never decreases while records are delivered, and is
100 only when the IMU source is used up. -/
theorem C71_progress (is : List (ImuRec α)) (gs : List (GnssRec α)) (hs : smallTimes is) (hne : is ≠ []) (k : Nat) :
    ∃ a b, (DM.calls k (manager true gs is)).2.progress = some a ∧
      (DM.calls (k + 1) (manager true gs is)).2.progress = some b ∧ a ≤ b ∧ b ≤ 100 ∧
      (a = 100 ↔ imuPart (DM.calls k (manager true gs is)).1 = is) := by
  have hl : 0 < is.length := List.length_pos_of_ne_nil hne
  have hpos : ∀ k, (DM.calls k (manager true gs is)).2.progress =
      some (100 * (imuPart ((merge is gs).take k)).length / is.length) := by
    intro k
    have h2 := (calls_at2 is gs hs k 0 0).2
    rw [(calls_at2 is gs hs k 0 0).1] at h2
    rw [manager_at2, h2]
    simp only [DM.progress, at2, DM.imuId, if_true, List.length_map]
    rw [if_neg (by omega)]
    simp
  have hle : ∀ k, (imuPart ((merge is gs).take k)).length ≤ is.length := fun k =>
    ((prefix_of_parts (merge is gs) k).1.trans (merge_parts is gs).1).length_le
  refine ⟨_, _, hpos k, hpos (k + 1), ?_, ?_, ?_⟩
  · apply Nat.div_le_div_right
    apply Nat.mul_le_mul_left
    have : (merge is gs).take k <+: (merge is gs).take (k + 1) := List.take_prefix_take_left (by omega)
    exact (this.filterMap _).length_le
  · apply Nat.div_le_of_le_mul
    have := hle (k + 1)
    nlinarith
  · rw [delivered_is_merge gs is hs]
    have hpre := ((prefix_of_parts (merge is gs) k).1.trans (merge_parts is gs).1)
    constructor
    · intro h
      refine hpre.eq_of_length (le_antisymm (hle k) ?_)
      by_contra hc
      have : 100 * (imuPart (List.take k (merge is gs))).length / is.length < 100 := by
        apply Nat.div_lt_of_lt_mul
        push Not at hc
        nlinarith
      omega
    · intro h
      rw [h]
      exact Nat.mul_div_cancel _ hl

/-! Witnesses. -/
/-- Real numbers are ordered. -/
theorem ordered_real : Ordered (fun _ : ℝ => True) where
  asymm a b _ _ h := by
    rw [Bool.eq_false_iff, Ne, lt_real]; rw [lt_real] at h; exact not_lt.mpr h.le
  trans a b c _ _ _ h1 h2 := by
    rw [Bool.eq_false_iff, Ne, lt_real] at *
    push Not at *; exact le_trans h1 h2

/-- Five IMU samples and two fixes (all values but the times are zero). -/
noncomputable def demoImu : List (ImuRec ℝ) := [1, 2, 3, 4, 5].map fun t => ⟨t, zero3, zero3⟩
@[inherit_doc demoImu] noncomputable def demoGnss : List (GnssRec ℝ) :=
  [3 / 2, 7 / 2].map fun t => ⟨t, 0, 0, 0, zero3, 4#32⟩

theorem demo_small : smallTimes demoImu := by
  intro i h
  simp only [demoImu, List.map_cons, List.map_nil, List.mem_cons, List.not_mem_nil, or_false] at h
  rcases h with rfl | rfl | rfl | rfl | rfl <;> simp only [lt_real, lit_real] <;> norm_num

theorem demo_sorted : (demoImu.Pairwise fun a b => Fl.lt b.time a.time = false) ∧
    (demoGnss.Pairwise fun a b => Fl.lt b.time a.time = false) := by
  have h : ∀ a b : ℝ, (Fl.lt a b = false) ↔ b ≤ a := by
    intro a b; rw [Bool.eq_false_iff, Ne, lt_real, not_lt]
  constructor
  · simp [demoImu, h]; norm_num
  · simp [demoGnss, h]; norm_num

/-- The merge of the two takes three samples and both fixes; the last two samples are never delivered. -/
theorem demo_merge : (merge demoImu demoGnss).map (fun r => (r.time, match r with | .imu _ => true | .gnss _ => false)) =
    [(1, true), (3 / 2, false), (2, true), (3, true), (7 / 2, false)] := by
  have h : ∀ a b : ℝ, (Fl.lt a b = true) = (a < b) := fun a b => propext (lt_real a b)
  simp only [demoImu, demoGnss, List.map_cons, List.map_nil]
  simp only [merge, h]
  norm_num [Rec.time]

example (k : Nat) : sortedRecs (DM.calls k (manager true demoGnss demoImu)).1 :=
  C52_delivered_sorted _ ordered_real _ _ (fun _ _ => trivial) (fun _ _ => trivial) demo_small demo_sorted.1 demo_sorted.2 k
end Verif.Props
