import Verif.Model.PostOld
import Verif.Props.Post
import Mathlib.Tactic.SplitIfs
import Mathlib.Tactic.Push
/-! The second post-processing program, `PostDataFusion_old`. Everything except the theorems about ℝ holds for
every arithmetic. -/
namespace Verif.Props
open Verif Verif.Spec
variable {α : Type} [Add α] [Sub α] [Mul α] [Neg α] [Div α] [Zero α] [One α] [Fl α]

/-- A fix handed to the API. -/
def giveFix (r : GnssRec α) : Call α := .gnss (some ⟨r.lat, r.lon, r.height, r.posStd, r.time, 1⟩)
/-- A sample handed to the API. -/
def giveImu (r : ImuRec α) : Call α := .time (some ⟨r.time, r.gyro, r.acce⟩)

/-- What `PostDataFusion_old` does with its records, told by the latest sample and the latest fix only: the API
calls made for each record up to the first record that is processed with a fix but no sample, and whether there
is such a record. -/
def turns (close : GnssRec α → ImuRec α → Bool) : Option (ImuRec α) → Option (GnssRec α) → List (Rec α) →
    List (List (Call α)) × Bool
  | _, _, [] => ([], false)
  | _, none, .imu i :: rs => ([giveImu i] :: (turns close (some i) none rs).1, (turns close (some i) none rs).2)
  | _, some g, .imu i :: rs =>
    ((giveImu i :: if close g i then [giveFix g] else []) :: (turns close (some i) (some g) rs).1,
      (turns close (some i) (some g) rs).2)
  | none, _, .gnss _ :: _ => ([], true)
  | some i, _, .gnss g :: rs =>
    ((if close g i then [giveFix g] else []) :: (turns close (some i) (some g) rs).1,
      (turns close (some i) (some g) rs).2)

/-- The lines written: after the calls of each record, one with the current result if the device then navigates. -/
def linesOf : List (List (Call α)) → α × Dev α → NavOutput α → List (NavOutput α)
  | [], _, _ => []
  | cs :: rest, s, p =>
    let s' := runCalls cs s
    if rgioeGetStatus s'.2 = 3 then
      (rgioeGetResult s'.2 p).2 :: linesOf rest s' (rgioeGetResult s'.2 p).2
    else linesOf rest s' p

theorem linesOf_nav (cs : List (Call α)) (rest : List (List (Call α))) (s : α × Dev α) (p : NavOutput α)
    (h : rgioeGetStatus (runCalls cs s).2 = 3) : linesOf (cs :: rest) s p =
      (rgioeGetResult (runCalls cs s).2 p).2 :: linesOf rest (runCalls cs s) (rgioeGetResult (runCalls cs s).2 p).2 := by
  rw [linesOf]; exact if_pos h

theorem linesOf_not (cs : List (Call α)) (rest : List (List (Call α))) (s : α × Dev α) (p : NavOutput α)
    (h : ¬ rgioeGetStatus (runCalls cs s).2 = 3) : linesOf (cs :: rest) s p = linesOf rest (runCalls cs s) p := by
  rw [linesOf]; exact if_neg h

theorem old_step (rate : Int) (e : Bool) (o : Outage α) (s : OldSt α) (r : Rec α) (rs : List (Rec α)) :
    match OldSt.step rate e o s r with
    | none => turns (OldSt.near rate) s.imu s.gnss (r :: rs) = ([], true)
    | some (s', line) => ∃ cs, turns (OldSt.near rate) s.imu s.gnss (r :: rs) =
          (cs :: (turns (OldSt.near rate) s'.imu s'.gnss rs).1, (turns (OldSt.near rate) s'.imu s'.gnss rs).2) ∧
        ∀ rest, linesOf (cs :: rest) (s.g, s.dev) s.result = line.toList ++ linesOf rest (s'.g, s'.dev) s'.result := by
  obtain ⟨g, dev, res, imu, gnss⟩ := s
  cases r with
  | imu i =>
    cases gnss with
    | none =>
      simp only [OldSt.step, OldSt.take, OldSt.fuse]
      by_cases h : rgioeGetStatus (rgioeTimeupdate g dev (some i.toRgioe)).2.2 = ST_NAVIGATION
      · rw [if_pos h]
        refine ⟨[giveImu i], by cases imu <;> rfl, fun rest => ?_⟩
        exact linesOf_nav _ _ _ _ h
      · rw [if_neg h]
        refine ⟨[giveImu i], by cases imu <;> rfl, fun rest => ?_⟩
        exact linesOf_not _ _ _ _ h
    | some f =>
      simp only [OldSt.step, OldSt.take, OldSt.fuse]
      by_cases hn : OldSt.near rate f i = true
      · rw [if_pos hn]
        dsimp only
        split_ifs with h
        · refine ⟨[giveImu i, giveFix f], by cases imu <;> simp only [turns, hn, if_true], fun rest => ?_⟩
          exact linesOf_nav _ _ _ _ h
        · refine ⟨[giveImu i, giveFix f], by cases imu <;> simp only [turns, hn, if_true], fun rest => ?_⟩
          exact linesOf_not _ _ _ _ h
      · rw [if_neg hn]
        dsimp only
        split_ifs with h
        · refine ⟨[giveImu i], by cases imu <;> simp only [turns, if_neg hn], fun rest => ?_⟩
          exact linesOf_nav _ _ _ _ h
        · refine ⟨[giveImu i], by cases imu <;> simp only [turns, if_neg hn], fun rest => ?_⟩
          exact linesOf_not _ _ _ _ h
  | gnss f =>
    simp only [OldSt.step, OldSt.take, OldSt.fuse, ite_self]
    cases imu with
    | none => cases gnss <;> rfl
    | some i =>
      dsimp only
      by_cases hn : OldSt.near rate f i = true
      · rw [if_pos hn]
        dsimp only
        split_ifs with h
        · refine ⟨[giveFix f], by cases gnss <;> simp only [turns, hn, if_true], fun rest => ?_⟩
          exact linesOf_nav _ _ _ _ h
        · refine ⟨[giveFix f], by cases gnss <;> simp only [turns, hn, if_true], fun rest => ?_⟩
          exact linesOf_not _ _ _ _ h
      · rw [if_neg hn]
        dsimp only
        split_ifs with h
        · refine ⟨[], by cases gnss <;> simp only [turns, if_neg hn], fun rest => ?_⟩
          exact linesOf_nav _ _ _ _ h
        · refine ⟨[], by cases gnss <;> simp only [turns, if_neg hn], fun rest => ?_⟩
          exact linesOf_not _ _ _ _ h

theorem old_loop_at2 (is : List (ImuRec α)) (gs : List (GnssRec α)) (hs : smallTimes is) (rate : Int) (e : Bool)
    (o : Outage α) : ∀ (fuel p q : Nat) (s : OldSt α), (is.length - p) + (gs.length - q) < fuel →
      OldSt.loop rate e o fuel (at2 is gs p q) s =
        (linesOf (turns (OldSt.near rate) s.imu s.gnss (merge (is.drop p) (gs.drop q))).1 (s.g, s.dev) s.result,
         (turns (OldSt.near rate) s.imu s.gnss (merge (is.drop p) (gs.drop q))).2) := by
  intro fuel
  induction fuel with
  | zero => intro p q s h; omega
  | succ n ih =>
    intro p q s h
    unfold OldSt.loop
    have hnil : ∀ a b, turns (OldSt.near (α := α) rate) a b [] = ([], false) := by
      intro a b; cases a <;> cases b <;> rfl
    cases hi : is[p]? with
    | none =>
      rw [next_at2_null is gs p q (Or.inl hi), drop_of_none is p hi]
      simp only [merge, hnil, linesOf]
    | some i =>
      cases hg : gs[q]? with
      | none =>
        rw [next_at2_null is gs p q (Or.inr hg), drop_of_none gs q hg, merge_nil_right]
        simp only [hnil, linesOf]
      | some g =>
        have hp := (List.getElem?_eq_some_iff.mp hi).1
        have hq := (List.getElem?_eq_some_iff.mp hg).1
        rw [next_at2 is gs p q i g hi hg (hs i (List.mem_of_getElem? hi))]
        rw [drop_of_getElem? is p i hi, drop_of_getElem? gs q g hg, merge]
        by_cases hlt : Fl.lt g.time i.time = true
        · rw [if_pos hlt, if_pos hlt]
          dsimp only
          have hst := old_step rate e o s (.gnss g) (merge (is.drop p) (gs.drop (q + 1)))
          rw [← drop_of_getElem? is p i hi]
          cases hc : OldSt.step rate e o s (.gnss g) with
          | none => rw [hc] at hst; dsimp only at hst; rw [hst]; rfl
          | some x =>
            obtain ⟨s', line⟩ := x
            rw [hc] at hst
            obtain ⟨cs, h1, h2⟩ := hst
            dsimp only
            rw [ih p (q + 1) _ (by omega), h1]
            dsimp only
            rw [h2]
        · rw [if_neg hlt, if_neg hlt]
          dsimp only
          have hst := old_step rate e o s (.imu i) (merge (is.drop (p + 1)) (gs.drop q))
          rw [← drop_of_getElem? gs q g hg]
          cases hc : OldSt.step rate e o s (.imu i) with
          | none => rw [hc] at hst; dsimp only at hst; rw [hst]; rfl
          | some x =>
            obtain ⟨s', line⟩ := x
            rw [hc] at hst
            obtain ⟨cs, h1, h2⟩ := hst
            dsimp only
            rw [ih (p + 1) q _ (by omega), h1]
            dsimp only
            rw [h2]

theorem old_loop_at1 (is : List (ImuRec α)) (rate : Int) (e : Bool) (o : Outage α) :
    ∀ (fuel p : Nat) (s : OldSt α), is.length - p < fuel →
      OldSt.loop rate e o fuel (at1 is p) s =
        (linesOf (turns (OldSt.near rate) s.imu s.gnss ((is.drop p).map .imu)).1 (s.g, s.dev) s.result,
         (turns (OldSt.near rate) s.imu s.gnss ((is.drop p).map .imu)).2) := by
  intro fuel
  induction fuel with
  | zero => intro p s h; omega
  | succ n ih =>
    intro p s h
    unfold OldSt.loop
    have hnil : ∀ a b, turns (OldSt.near (α := α) rate) a b [] = ([], false) := by
      intro a b; cases a <;> cases b <;> rfl
    rw [next_at1]
    cases hi : is[p]? with
    | none => rw [drop_of_none is p hi]; simp only [List.map_nil, hnil, linesOf]
    | some i =>
      have hp := (List.getElem?_eq_some_iff.mp hi).1
      dsimp only
      have hst := old_step rate e o s (.imu i) ((is.drop (p + 1)).map .imu)
      rw [drop_of_getElem? is p i hi, List.map_cons]
      cases hc : OldSt.step rate e o s (.imu i) with
      | none => rw [hc] at hst; dsimp only at hst; rw [hst]; rfl
      | some x =>
        obtain ⟨s', line⟩ := x
        rw [hc] at hst
        obtain ⟨cs, h1, h2⟩ := hst
        dsimp only
        rw [ih (p + 1) _ (by omega), h1]
        dsimp only
        rw [h2]

/-- C110: the program is a replay of its input: the API calls made are those of `turns`, and after the calls of a
record a line with the current result is written exactly when the device then is in the navigation status. -/
theorem C110_old_program (g0 : α) (dev0 : Dev α) (junk : Junk α) (res0 : NavOutput α) (o : Outage α) (cfg : Config α)
    (gs : List (GnssRec α)) (is : List (ImuRec α)) (hs : smallTimes is) :
    postOldMain g0 dev0 junk res0 o cfg gs is =
      (linesOf (turns (OldSt.near cfg.imu.dRate) none none (replayed cfg gs is)).1
          (runCalls [.init cfg.getOption (some cfg.align.initPva) junk] (g0, dev0)) res0,
        (turns (OldSt.near cfg.imu.dRate) none none (replayed cfg gs is)).2) := by
  unfold postOldMain replayed
  have hinit : ∃ e dev, rgioeInit junk dev0 (some cfg.getOption) (some cfg.align.initPva) = some (e, dev) := by
    unfold rgioeInit; dsimp only
    simp only [Option.isNone_some, Bool.false_eq_true, and_false, if_false]
    exact ⟨_, _, rfl⟩
  obtain ⟨e, dev, hd⟩ := hinit
  have hrun : runCalls [.init cfg.getOption (some cfg.align.initPva) junk] (g0, dev0) = (g0, dev) := by
    simp only [runCalls, Call.exec, hd]
  have hrate : cfg.getOption.dRate = cfg.imu.dRate := rfl
  rw [hd, hrun, hrate]
  dsimp only
  cases hen : cfg.gnss.enable with
  | true =>
    have hm := manager_at2 gs is
    unfold manager at hm
    rw [hm]
    have hrem : ∀ p q, (at2 is gs p q).remaining = is.length - p + (gs.length - q) := by
      intro p q; simp [DM.remaining, at2]
    unfold DM.moveTo
    rw [hrem]
    obtain ⟨p', q', h1, h2⟩ := moveGo_at2 is gs hs cfg.startTime (is.length - 0 + (gs.length - 0) + 1) 0 0 (by omega)
    rw [h1, hrem, old_loop_at2 is gs hs _ _ _ _ p' q' _ (by omega), h2]
    simp
  | false =>
    have hm := manager_at1 gs is
    unfold manager at hm
    rw [hm]
    have hrem : ∀ p, (at1 is p).remaining = is.length - p := by
      intro p; simp [DM.remaining, at1]
    unfold DM.moveTo
    rw [hrem]
    obtain ⟨p', h1, h2⟩ := moveGo_at1 is cfg.startTime (is.length - 0 + 1) 0 (by omega)
    rw [h1, hrem, old_loop_at1 is _ _ _ _ p' _ (by omega), h2]
    simp

/-- C107, the violation: the configured outages have no influence at all on what this program writes. -/
theorem C107_outage_ignored (g0 : α) (dev0 : Dev α) (junk : Junk α) (res0 : NavOutput α) (o o' : Outage α)
    (cfg : Config α) (c : OutageCfg α) (gs : List (GnssRec α)) (is : List (ImuRec α)) (hs : smallTimes is) :
    postOldMain g0 dev0 junk res0 o' { cfg with outage := c } gs is = postOldMain g0 dev0 junk res0 o cfg gs is := by
  rw [C110_old_program _ _ _ _ _ _ _ _ hs, C110_old_program _ _ _ _ _ _ _ _ hs]
  rfl

/-- Once there is a sample no record is processed without one. -/
theorem turns_safe (close : GnssRec α → ImuRec α → Bool) (rs : List (Rec α)) :
    ∀ (i : ImuRec α) (g : Option (GnssRec α)), (turns close (some i) g rs).2 = false := by
  induction rs with
  | nil => intro i g; cases g <;> rfl
  | cons r rs ih =>
    intro i g
    cases r with
    | imu j => cases g with
      | none => exact ih j none
      | some f => exact ih j (some f)
    | gnss f => cases g <;> exact ih i (some f)

/-- C109: the program dereferences a null pointer exactly when the first record it processes is a fix. -/
theorem C109_crash_iff_first_is_fix (g0 : α) (dev0 : Dev α) (junk : Junk α) (res0 : NavOutput α) (o : Outage α)
    (cfg : Config α) (gs : List (GnssRec α)) (is : List (ImuRec α)) (hs : smallTimes is) :
    (postOldMain g0 dev0 junk res0 o cfg gs is).2 = true ↔ ∃ f, (replayed cfg gs is).head? = some (.gnss f) := by
  rw [C110_old_program _ _ _ _ _ _ _ _ hs]
  dsimp only
  cases replayed cfg gs is with
  | nil => simp [turns]
  | cons r rs =>
    cases r with
    | imu i => simp [turns, turns_safe]
    | gnss f => simp [turns]

/-- Such data are ordinary: five samples with two fixes between them, processed from time zero, run
into the null pointer whatever the device memory holds. -/
theorem C109_reachable (g0 : ℝ) (dev0 : Dev ℝ) (junk : Junk ℝ) (res0 : NavOutput ℝ) (o : Outage ℝ) :
    postOldMain g0 dev0 junk res0 o demoCfg demoGnss demoImu = ([], true) := by
  have hs : smallTimes demoImu := demo_small
  obtain ⟨_, _, _, hm, -⟩ := demo_replay
  have hc := C110_old_program g0 dev0 junk res0 o demoCfg demoGnss demoImu hs
  rw [hc]
  have hh : ∃ f rs, replayed demoCfg demoGnss demoImu = .gnss f :: rs := by
    cases hr : replayed demoCfg demoGnss demoImu with
    | nil => rw [hr] at hm; simp at hm
    | cons r rs =>
      cases r with
      | gnss f => exact ⟨f, rs, rfl⟩
      | imu i =>
        exfalso
        rw [hr] at hm
        have h32 : i.time = 3 / 2 := by
          have := congrArg (fun l => l.head?.map Prod.fst) hm
          simpa [Rec.time] using this
        have hmem : Rec.imu i ∈ replayed demoCfg demoGnss demoImu := by rw [hr]; simp
        have hsub : Rec.imu i ∈ merge demoImu demoGnss := by
          unfold replayed at hmem
          exact (List.dropWhile_sublist _).subset (List.mem_of_mem_drop hmem)
        have himu : ∀ (is : List (ImuRec ℝ)) (gs : List (GnssRec ℝ)), Rec.imu i ∈ merge is gs → i ∈ is := by
          intro is gs
          induction is, gs using merge.induct (α := ℝ) with
          | case1 gs => simp [merge]
          | case2 j is => simp [merge]
          | case3 j is g gs hlt ih => rw [merge, if_pos hlt]; simpa using ih
          | case4 j is g gs hlt ih =>
            rw [merge, if_neg hlt]
            intro h
            rcases List.mem_cons.mp h with h | h
            · cases h; simp
            · exact List.mem_cons_of_mem _ (ih h)
        have hi := himu _ _ hsub
        simp only [demoImu, List.mem_cons, List.mem_nil_iff, or_false, List.mem_map] at hi
        obtain ⟨t, ht, rfl⟩ := hi
        rcases ht with h | h | h | h | h <;> (try rw [h] at h32) <;> norm_num at h32
  obtain ⟨f, rs, hr⟩ := hh
  rw [hr]
  rfl

/-- How often the fix `f` is handed over during the given calls. -/
def handed (css : List (List (Call α))) : Nat :=
  ((css.flatten).filter fun c => match c with | .gnss _ => true | _ => false).length

theorem handed_imus (close : GnssRec α → ImuRec α → Bool) (f : GnssRec α) :
    ∀ (is : List (ImuRec α)) (i0 : Option (ImuRec α)) (rest : List (Rec α)),
      (∃ p q, turns close i0 (some f) (is.map .imu ++ rest) =
        (p ++ (turns close ((is.getLast?).or i0) (some f) rest).1, q) ∧ p.length = is.length ∧
        handed p = (is.filter fun i => close f i).length ∧
        (∀ c ∈ p.flatten, (∃ i ∈ is, c = giveImu i) ∨ c = giveFix f)) := by
  intro is
  induction is with
  | nil =>
    intro i0 rest
    refine ⟨[], _, rfl, rfl, rfl, by simp⟩
  | cons i is ih =>
    intro i0 rest
    obtain ⟨p, q, h1, h2, h3, h4⟩ := ih (some i) rest
    have hl : ((i :: is).getLast?).or i0 = (is.getLast?).or (some i) := by
      cases is with
      | nil => simp
      | cons a as => simp [List.getLast?_cons]
    refine ⟨(giveImu i :: if close f i then [giveFix f] else []) :: p, q, ?_, by simp [h2], ?_, ?_⟩
    · rw [hl]
      show turns close i0 (some f) (.imu i :: (is.map .imu ++ rest)) = _
      have : turns close i0 (some f) (.imu i :: (is.map .imu ++ rest)) =
        ((giveImu i :: if close f i then [giveFix f] else []) :: (turns close (some i) (some f) (is.map .imu ++ rest)).1,
          (turns close (some i) (some f) (is.map .imu ++ rest)).2) := by cases i0 <;> rfl
      rw [this, h1]
      rfl
    · unfold handed at h3 ⊢
      by_cases hc : close f i = true
      · simp only [hc, if_true, List.flatten_cons, List.filter_append, List.length_append, h3, List.filter_cons]
        simp [giveImu, giveFix]; omega
      · simp only [hc, List.flatten_cons, List.filter_append, List.length_append, h3, List.filter_cons]
        simp [giveImu]
    · intro c hc
      rw [List.flatten_cons, List.mem_append] at hc
      rcases hc with hc | hc
      · by_cases hcl : close f i = true
        · rw [if_pos hcl] at hc
          simp only [List.mem_cons, List.not_mem_nil, or_false] at hc
          rcases hc with hc | hc
          · exact Or.inl ⟨i, by simp, hc⟩
          · exact Or.inr hc
        · rw [if_neg hcl] at hc
          simp only [List.mem_cons, List.not_mem_nil, or_false] at hc
          exact Or.inl ⟨i, by simp, hc⟩
      · rcases h4 c hc with ⟨j, hj, h⟩ | h
        · exact Or.inl ⟨j, by simp [hj], h⟩
        · exact Or.inr h

/-- C108: after a sample `i0`, a fix and the samples up to the next fix, the fix has been handed over once for each
of these samples, `i0` included, that is close to it — and no other fix was. -/
theorem C108_once_per_close_sample (close : GnssRec α → ImuRec α → Bool) (i0 : ImuRec α) (f0 : Option (GnssRec α))
    (f : GnssRec α) (is : List (ImuRec α)) (rest : List (Rec α)) :
    ∃ p q, turns close (some i0) f0 (.gnss f :: (is.map .imu ++ rest)) =
        (p ++ (turns close ((is.getLast?).or (some i0)) (some f) rest).1, q) ∧ p.length = is.length + 1 ∧
        handed p = ((i0 :: is).filter fun i => close f i).length ∧
        (∀ c ∈ p.flatten, (∃ i ∈ is, c = giveImu i) ∨ c = giveFix f) := by
  obtain ⟨p, q, h1, h2, h3, h4⟩ := handed_imus close f is (some i0) rest
  refine ⟨(if close f i0 then [giveFix f] else []) :: p, q, ?_, by simp [h2], ?_, ?_⟩
  · have : turns close (some i0) f0 (.gnss f :: (is.map .imu ++ rest)) =
      ((if close f i0 then [giveFix f] else []) :: (turns close (some i0) (some f) (is.map .imu ++ rest)).1,
        (turns close (some i0) (some f) (is.map .imu ++ rest)).2) := by cases f0 <;> rfl
    rw [this, h1]
    rfl
  · unfold handed at h3 ⊢
    by_cases hc : close f i0 = true
    · simp only [hc, if_true, List.flatten_cons, List.filter_append, List.length_append, h3, List.filter_cons]
      simp [giveFix]; omega
    · simp only [hc, List.flatten_cons, List.filter_append, List.length_append, h3, List.filter_cons]
      simp
  · intro c hc
    rw [List.flatten_cons, List.mem_append] at hc
    rcases hc with hc | hc
    · by_cases hcl : close f i0 = true
      · rw [if_pos hcl] at hc
        simp only [List.mem_cons, List.not_mem_nil, or_false] at hc
        exact Or.inr hc
      · rw [if_neg hcl] at hc
        simp at hc
    · exact h4 c hc

theorem near_real (rate : Int) (f : GnssRec ℝ) (i : ImuRec ℝ) :
    OldSt.near rate f i = true ↔ |f.time - i.time| < 0.6 / rate := by
  unfold OldSt.near OldSt.fabs
  have h1 : (ofI rate : ℝ) = rate := by simp [ofI]
  have h2 : (Fl.lit (6 / 10) : ℝ) = 0.6 := by rw [lit_real]; norm_num
  rw [lt_real, h1, h2]
  split_ifs with h
  · rw [lt_real] at h; rw [abs_of_neg h]
  · rw [lt_real] at h; rw [abs_of_nonneg (not_lt.mp h)]

/-- C108 in exact arithmetic with samples a period apart: a fix between two samples is handed over at least once,
and twice exactly when it falls into the middle fifth of the interval. -/
theorem C108_middle_fifth (rate : Int) (hr : 0 < rate) (f : GnssRec ℝ) (i0 i1 : ImuRec ℝ)
    (hp : i1.time = i0.time + 1 / rate) (h0 : i0.time ≤ f.time) (h1 : f.time < i1.time) :
    (OldSt.near rate f i0 = true ∨ OldSt.near rate f i1 = true) ∧
    ((OldSt.near rate f i0 = true ∧ OldSt.near rate f i1 = true) ↔
      0.4 / rate < f.time - i0.time ∧ f.time - i0.time < 0.6 / rate) := by
  have hR : (0 : ℝ) < rate := by exact_mod_cast hr
  have hT : (0 : ℝ) < 1 / rate := by positivity
  have e6 : (0.6 : ℝ) / rate = 0.6 * (1 / rate) := by ring
  have e4 : (0.4 : ℝ) / rate = 0.4 * (1 / rate) := by ring
  simp only [near_real, e6, e4]
  have a0 : |f.time - i0.time| = f.time - i0.time := abs_of_nonneg (by linarith)
  have a1 : |f.time - i1.time| = i1.time - f.time := by rw [abs_sub_comm, abs_of_nonneg (by linarith)]
  rw [a0, a1, hp]
  generalize (1 : ℝ) / rate = T at *
  constructor
  · by_cases h : f.time - i0.time < 0.6 * T
    · exact Or.inl h
    · right; push Not at h; linarith
  · constructor
    · rintro ⟨a, b⟩; exact ⟨by linarith, a⟩
    · rintro ⟨a, b⟩; exact ⟨b, by linarith⟩

/-- C108, the violation: a fix half way between two samples a period apart is handed over twice, with the sample
after it in between — two measurements for the filter from one observation. -/
theorem C108_handed_twice (rate : Int) (hr : 0 < rate) (f : GnssRec ℝ) (i0 i1 : ImuRec ℝ) (f0 : Option (GnssRec ℝ))
    (hp : i1.time = i0.time + 1 / rate) (hf : f.time = i0.time + 1 / 2 / rate) :
    turns (OldSt.near rate) (some i0) f0 [.gnss f, .imu i1] = ([[giveFix f], [giveImu i1, giveFix f]], false) := by
  have hR : (0 : ℝ) < rate := by exact_mod_cast hr
  have hT : (0 : ℝ) < 1 / rate := by positivity
  have e : (1 / 2 : ℝ) / rate = 1 / 2 * (1 / rate) := by ring
  have e6 : (0.6 : ℝ) / rate = 0.6 * (1 / rate) := by ring
  have e4 : (0.4 : ℝ) / rate = 0.4 * (1 / rate) := by ring
  obtain ⟨-, h⟩ := C108_middle_fifth rate hr f i0 i1 hp (by rw [hf, e]; linarith) (by rw [hf, hp, e]; linarith)
  obtain ⟨n0, n1⟩ := h.mpr (by rw [hf, e, e6, e4]; constructor <;> linarith)
  cases f0 <;> simp [turns, n0, n1]

/-- The hypotheses are met by the samples and fixes of a 1 Hz record. -/
example : ((1 : ℝ) = 0 + 1 / (1 : Int)) ∧ ((1 / 2 : ℝ) = 0 + 1 / 2 / (1 : Int)) := by norm_num

end Verif.Props
