import Verif.Model.Post
import Verif.Props.DataManager
import Verif.Props.Outage
import Verif.Props.Fusion
/-! Post-processing. Everything holds for every arithmetic. -/
namespace Verif.Props
open Verif Verif.Spec
variable {α : Type} [Add α] [Sub α] [Mul α] [Neg α] [Div α] [Zero α] [One α] [Fl α]

/-- The records that reach the loop: the merged sources from the record after the first one not earlier
than the start time (with GNSS switched off: the IMU records). -/
def replayed (cfg : Config α) (gs : List (GnssRec α)) (is : List (ImuRec α)) : List (Rec α) :=
  ((if cfg.gnss.enable then merge is gs else is.map .imu).dropWhile fun r => Fl.lt r.time cfg.startTime).drop 1

/-- The API calls a record leads to: none if it is a fix hidden by the outage. -/
def callOf (hidden : GnssRec α → Bool) : Rec α → List (Call α)
  | .imu r => [.time (some ⟨r.time, r.gyro, r.acce⟩)]
  | .gnss r => if hidden r then [] else [.gnss (some ⟨r.lat, r.lon, r.height, r.posStd, r.time, 1⟩)]

/-- The lines obtained by replaying records through the API, asking for the result after each record. -/
def replay (hidden : GnssRec α → Bool) : List (Rec α) → α × Dev α → NavOutput α → List (NavOutput α)
  | [], _, _ => []
  | r :: rs, s, p =>
    let s' := runCalls (callOf hidden r) s
    let p' := (rgioeGetResult s'.2 p).2
    p' :: replay hidden rs s' p'

theorem step_eq (enable : Bool) (o : Outage α) (s : PostSt α) (r : Rec α) :
    s.step enable o r =
      (let s' := runCalls (callOf (fun x => enable && o.isOutage x.time) r) (s.g, s.dev)
       ⟨s'.1, s'.2, (rgioeGetResult s'.2 s.result).2⟩) := by
  cases r with
  | imu i => rfl
  | gnss g =>
    simp only [PostSt.step, PostSt.gnss, callOf]
    by_cases h : (enable && o.isOutage g.time) = true
    · rw [if_pos h, if_pos h]; rfl
    · rw [if_neg h, if_neg h]; rfl

theorem loop_at2 (is : List (ImuRec α)) (gs : List (GnssRec α)) (hs : smallTimes is) (enable : Bool) (o : Outage α) :
    ∀ (fuel p q : Nat) (s : PostSt α), (is.length - p) + (gs.length - q) < fuel →
      PostSt.loop enable o fuel (at2 is gs p q) s =
        replay (fun x => enable && o.isOutage x.time) (merge (is.drop p) (gs.drop q)) (s.g, s.dev) s.result := by
  intro fuel
  induction fuel with
  | zero => intro p q s h; omega
  | succ n ih =>
    intro p q s h
    unfold PostSt.loop
    cases hi : is[p]? with
    | none =>
      rw [next_at2_null is gs p q (Or.inl hi), drop_of_none is p hi]
      simp [merge, replay]
    | some i =>
      cases hg : gs[q]? with
      | none =>
        rw [next_at2_null is gs p q (Or.inr hg), drop_of_none gs q hg, merge_nil_right]
        rfl
      | some g =>
        have hp := (List.getElem?_eq_some_iff.mp hi).1
        have hq := (List.getElem?_eq_some_iff.mp hg).1
        rw [next_at2 is gs p q i g hi hg (hs i (List.mem_of_getElem? hi))]
        rw [drop_of_getElem? is p i hi, drop_of_getElem? gs q g hg, merge]
        by_cases hlt : Fl.lt g.time i.time = true
        · rw [if_pos hlt, if_pos hlt]
          dsimp only
          rw [ih p (q + 1) _ (by omega), replay, step_eq, drop_of_getElem? is p i hi]
        · rw [if_neg hlt, if_neg hlt]
          dsimp only
          rw [ih (p + 1) q _ (by omega), replay, step_eq, drop_of_getElem? gs q g hg]

theorem loop_at1 (is : List (ImuRec α)) (enable : Bool) (o : Outage α) :
    ∀ (fuel p : Nat) (s : PostSt α), is.length - p < fuel →
      PostSt.loop enable o fuel (at1 is p) s =
        replay (fun x => enable && o.isOutage x.time) ((is.drop p).map .imu) (s.g, s.dev) s.result := by
  intro fuel
  induction fuel with
  | zero => intro p s h; omega
  | succ n ih =>
    intro p s h
    unfold PostSt.loop
    rw [next_at1]
    cases hi : is[p]? with
    | none => rw [drop_of_none is p hi]; rfl
    | some i =>
      have hp := (List.getElem?_eq_some_iff.mp hi).1
      dsimp only
      rw [ih (p + 1) _ (by omega), drop_of_getElem? is p i hi, List.map_cons, replay, step_eq]

theorem moveGo_at1 (is : List (ImuRec α)) (T : α) : ∀ (fuel p : Nat), is.length - p < fuel →
    ∃ p', DM.moveGo T fuel (at1 is p) = at1 is p' ∧
      (is.drop p').map Rec.imu = (((is.drop p).map Rec.imu).dropWhile fun r => Fl.lt r.time T).tail := by
  intro fuel
  induction fuel with
  | zero => intro p h; omega
  | succ n ih =>
    intro p h
    unfold DM.moveGo
    rw [next_at1]
    cases hi : is[p]? with
    | none => exact ⟨p, rfl, by rw [drop_of_none is p hi]; rfl⟩
    | some i =>
      have hp := (List.getElem?_eq_some_iff.mp hi).1
      dsimp only
      rw [drop_of_getElem? is p i hi]
      by_cases hT : Fl.lt i.time T = true
      · rw [if_pos (show Fl.lt (Rec.imu i).time T = true from hT)]
        obtain ⟨p', h1, h2⟩ := ih (p + 1) (by omega)
        exact ⟨p', h1, by rw [h2]; simp [List.dropWhile, hT, Rec.time]⟩
      · rw [if_neg (show ¬ Fl.lt (Rec.imu i).time T = true from hT)]
        exact ⟨p + 1, rfl, by simp [List.dropWhile, hT, Rec.time]⟩

/-- The program is the replay of its input through the API. -/
theorem post_is_replay (g0 : α) (dev0 : Dev α) (junk : Junk α) (res0 : NavOutput α) (o : Outage α) (cfg : Config α)
    (gs : List (GnssRec α)) (is : List (ImuRec α)) (hs : smallTimes is) :
    postMain g0 dev0 junk res0 o cfg gs is =
      replay (fun x => cfg.outage.enable && o.isOutage x.time) (replayed cfg gs is)
        (runCalls [.init cfg.getOption (some cfg.align.initPva) junk] (g0, dev0)) res0 := by
  unfold postMain replayed
  have hinit : ∃ e dev, rgioeInit junk dev0 (some cfg.getOption) (some cfg.align.initPva) = some (e, dev) := by
    unfold rgioeInit; dsimp only
    simp only [Option.isNone_some, Bool.false_eq_true, and_false, if_false]
    exact ⟨_, _, rfl⟩
  obtain ⟨e, dev, hd⟩ := hinit
  have hrun : runCalls [.init cfg.getOption (some cfg.align.initPva) junk] (g0, dev0) = (g0, dev) := by
    simp only [runCalls, Call.exec, hd]
  rw [hd, hrun]
  dsimp only
  cases hen : cfg.gnss.enable with
  | true =>
    have hm := manager_at2 gs is
    unfold manager at hm
    rw [hm]
    have hrem : ∀ p q, (at2 is gs p q).remaining = is.length - p + (gs.length - q) := by
      intro p q; simp [DM.remaining, at2]
    unfold DM.moveTo
    rw [hrem]
    obtain ⟨p', q', h1, h2⟩ := moveGo_at2 is gs hs cfg.startTime (is.length - 0 + (gs.length - 0) + 1) 0 0 (by omega)
    rw [h1, hrem, loop_at2 is gs hs _ _ _ p' q' _ (by omega), h2]
    simp
  | false =>
    have hm := manager_at1 gs is
    unfold manager at hm
    rw [hm]
    have hrem : ∀ p, (at1 is p).remaining = is.length - p := by
      intro p; simp [DM.remaining, at1]
    unfold DM.moveTo
    rw [hrem]
    obtain ⟨p', h1, h2⟩ := moveGo_at1 is cfg.startTime (is.length - 0 + 1) 0 (by omega)
    rw [h1, hrem, loop_at1 is _ _ _ p' _ (by omega), h2]
    simp

/-- Asking for the result twice without a call in between gives the same twice. -/
theorem getResult_idem (d : Dev α) (p : NavOutput α) :
    (rgioeGetResult d (rgioeGetResult d p).2).2 = (rgioeGetResult d p).2 := by
  unfold rgioeGetResult
  dsimp only
  split_ifs <;> rfl

theorem replay_length (hidden : GnssRec α → Bool) : ∀ (rs : List (Rec α)) (s : α × Dev α) (p : NavOutput α),
    (replay hidden rs s p).length = rs.length
  | [], _, _ => rfl
  | r :: rs, s, p => by simp [replay, replay_length hidden rs]

/-- Whether a record is a hidden fix. -/
def isHidden (hidden : GnssRec α → Bool) : Rec α → Bool
  | .imu _ => false
  | .gnss r => hidden r

theorem replay_drop_hidden (hidden : GnssRec α → Bool) (rs : List (Rec α)) :
    ∀ (s : α × Dev α) (p : NavOutput α), (p = (rgioeGetResult s.2 p).2 ∨ ∀ r ∈ rs.head?, isHidden hidden r = false) →
      ((rs.zip (replay hidden rs s p)).filter fun x => !isHidden hidden x.1).map Prod.snd =
        replay (fun _ => false) (rs.filter fun r => !isHidden hidden r) s p := by
  induction rs with
  | nil => intro s p _; rfl
  | cons r rs ih =>
    intro s p hp
    simp only [replay, List.zip_cons_cons]
    by_cases hh : isHidden hidden r = true
    · rw [List.filter_cons_of_neg (by simpa using hh), List.filter_cons_of_neg (by simpa using hh)]
      have hc : callOf hidden r = [] := by
        cases r with
        | imu i => simp [isHidden] at hh
        | gnss g => simp only [callOf]; rw [if_pos (show hidden g = true from hh)]
      rw [hc]
      simp only [runCalls]
      have hpe : p = (rgioeGetResult s.2 p).2 := by
        rcases hp with h | h
        · exact h
        · exact absurd (h r (by simp)) (by simp [hh])
      rw [← hpe]
      exact ih s p (Or.inl hpe)
    · rw [List.filter_cons_of_pos (by simpa using hh), List.filter_cons_of_pos (by simpa using hh), List.map_cons, replay]
      have hc : callOf hidden r = callOf (fun _ => false) r := by
        cases r with
        | imu i => rfl
        | gnss g =>
          simp only [isHidden] at hh
          simp [callOf, hh]
      rw [← hc]
      congr 1
      exact ih _ _ (Or.inl (getResult_idem _ _).symm)

/-- C57: one line per replayed record; a fix hidden by an outage repeats the previous line; and the lines of
all other records are exactly those of a run without outages on the data without the hidden fixes. (If the
very first record is a hidden fix the line written for it is what the result variable happened to hold; the
hypothesis excludes only that case.) -/
theorem C57_outage_hides_gnss (g0 : α) (dev0 : Dev α) (junk : Junk α) (res0 : NavOutput α) (o : Outage α)
    (cfg : Config α) (gs : List (GnssRec α)) (is : List (ImuRec α)) (hs : smallTimes is)
    (hfirst : ∀ r ∈ (replayed cfg gs is).head?, isHidden (fun x => cfg.outage.enable && o.isOutage x.time) r = false) :
    let hidden := isHidden (fun x : GnssRec α => cfg.outage.enable && o.isOutage x.time)
    let lines := postMain g0 dev0 junk res0 o cfg gs is
    lines.length = (replayed cfg gs is).length ∧
    (∀ k r, (replayed cfg gs is)[k + 1]? = some r → hidden r = true → lines[k + 1]? = lines[k]?) ∧
    ((((replayed cfg gs is).zip lines).filter fun x => !hidden x.1).map Prod.snd =
      replay (fun _ => false) ((replayed cfg gs is).filter fun r => !hidden r)
        (runCalls [.init cfg.getOption (some cfg.align.initPva) junk] (g0, dev0)) res0) := by
  intro hidden lines
  have hl : lines = replay (fun x => cfg.outage.enable && o.isOutage x.time) (replayed cfg gs is)
        (runCalls [.init cfg.getOption (some cfg.align.initPva) junk] (g0, dev0)) res0 :=
    post_is_replay g0 dev0 junk res0 o cfg gs is hs
  rw [hl]
  generalize replayed cfg gs is = rs at *
  generalize runCalls [.init cfg.getOption (some cfg.align.initPva) junk] (g0, dev0) = s at *
  refine ⟨replay_length _ _ _ _, ?_, (replay_drop_hidden _ rs s res0 (Or.inr hfirst))⟩
  clear hl lines
  intro k r hk hr
  have key : ∀ (rs : List (Rec α)) (s : α × Dev α) (p : NavOutput α) (k : Nat), rs[k + 1]? = some r →
      (replay (fun x => cfg.outage.enable && o.isOutage x.time) rs s p)[k + 1]? =
        (replay (fun x => cfg.outage.enable && o.isOutage x.time) rs s p)[k]? := by
    intro rs
    induction rs with
    | nil => intro s p k h; simp at h
    | cons a as ih =>
      intro s p k h
      simp only [List.getElem?_cons_succ] at h
      simp only [replay, List.getElem?_cons_succ]
      cases k with
      | zero =>
        cases as with
        | nil => simp at h
        | cons b bs =>
          simp only [List.getElem?_cons_zero, Option.some.injEq] at h
          subst h
          have hc : callOf (fun x : GnssRec α => cfg.outage.enable && o.isOutage x.time) b = [] := by
            cases b with
            | imu i => simp [hidden, isHidden] at hr
            | gnss g => simp only [callOf]; rw [if_pos (show (cfg.outage.enable && o.isOutage g.time) = true from hr)]
          simp only [replay, hc, runCalls, List.getElem?_cons_zero]
          rw [getResult_idem]
      | succ k => exact ih _ _ k h
  exact key rs s res0 k hk

/-- C56, the violation: the quality flag in the file has no influence at all on the results. -/
theorem C56_quality_ignored (g0 : α) (dev0 : Dev α) (junk : Junk α) (res0 : NavOutput α) (o : Outage α)
    (cfg : Config α) (gs : List (GnssRec α)) (is : List (ImuRec α)) (hs : smallTimes is) (m : GnssRec α → BitVec 32) :
    postMain g0 dev0 junk res0 o cfg (gs.map fun r => { r with mode := m r }) is =
      postMain g0 dev0 junk res0 o cfg gs is := by
  rw [post_is_replay _ _ _ _ _ _ _ _ hs, post_is_replay _ _ _ _ _ _ _ _ hs]
  let φ : Rec α → Rec α := fun r => match r with
    | .imu i => .imu i
    | .gnss r => .gnss { r with mode := m r }
  have hm : ∀ (is : List (ImuRec α)) (gs : List (GnssRec α)),
      merge is (gs.map fun r => { r with mode := m r }) = (merge is gs).map φ := by
    intro is gs
    induction is, gs using merge.induct (α := α) with
    | case1 gs => simp [merge]
    | case2 i is => simp [merge]
    | case3 i is g gs hlt ih =>
      rw [List.map_cons, merge, merge, if_pos hlt, if_pos hlt, ih]
      rfl
    | case4 i is g gs hlt ih =>
      rw [List.map_cons] at ih
      rw [List.map_cons, merge, merge, if_neg hlt, if_neg hlt, ih]
      rfl
  have ht : ∀ r, (φ r).time = r.time := by intro r; cases r <;> rfl
  have hr : replayed cfg (gs.map fun r => { r with mode := m r }) is = (replayed cfg gs is).map φ := by
    unfold replayed
    cases cfg.gnss.enable with
    | true =>
      simp only [if_true]
      rw [hm, List.dropWhile_map, ← List.map_drop]
      congr 2
      congr 1
      funext r; simp only [Function.comp, ht]
    | false =>
      have : ∀ xs : List (ImuRec α), (xs.map Rec.imu).map φ = xs.map Rec.imu := by
        intro xs; rw [List.map_map]; rfl
      simp only [Bool.false_eq_true, if_false]
      conv_lhs => rw [← this is]
      rw [List.dropWhile_map, ← List.map_drop]
      congr 2
      congr 1
      funext r; simp only [Function.comp, ht]
  rw [hr]
  generalize replayed cfg gs is = rs
  generalize runCalls [.init cfg.getOption (some cfg.align.initPva) junk] (g0, dev0) = s
  generalize res0 = p
  induction rs generalizing s p with
  | nil => rfl
  | cons r rs ih =>
    simp only [List.map_cons, replay]
    have hc : callOf (fun x : GnssRec α => cfg.outage.enable && o.isOutage x.time) (φ r) =
        callOf (fun x : GnssRec α => cfg.outage.enable && o.isOutage x.time) r := by
      cases r <;> rfl
    rw [hc, ih]

/-- C56, the effect: while navigating, a fix whose file quality says INVALID (6) is fused like any other: the
device changes exactly as if a single-point fix had been given, and the next result line claims a fix of
quality 1. The API itself would have ignored such a fix (`C21`). -/
theorem C56_invalid_fix_is_fused (g : α) (d : Dev α) (r : GnssRec α) (hs : d.status = 3) (p : NavOutput α) :
    let s := runCalls (callOf (fun _ => false) (.gnss { r with mode := 6#32 })) (g, d)
    s.2.df = d.df.measureGnss ⟨r.lat, r.lon, r.height, r.posStd, r.time, 1⟩ ∧
    (rgioeGetResult s.2 p).2.info.gnssMode = 1#16 ∧ has (rgioeGetResult s.2 p).2.info.sensors 2#16 := by
  have hdf : rgioeGnssupdate g d (some ⟨r.lat, r.lon, r.height, r.posStd, r.time, 1⟩) =
      (0, g, { d with df := d.df.measureGnss ⟨r.lat, r.lon, r.height, r.posStd, r.time, 1⟩ }) := by
    unfold rgioeGnssupdate
    simp only [hs]
    rfl
  intro s
  have hs2 : s = (g, { d with df := d.df.measureGnss ⟨r.lat, r.lon, r.height, r.posStd, r.time, 1⟩ }) := by
    show runCalls (callOf (fun _ => false) (.gnss _)) (g, d) = _
    simp only [callOf, Bool.false_eq_true, if_false, runCalls, Call.exec, hdf]
  rw [hs2]
  refine ⟨rfl, ?_, ?_⟩
  · simp only [rgioeGetResult, hs]
    rfl
  · simp only [rgioeGetResult, hs]
    show has (d.df.ins.nav.info.sensors ||| SENSOR_GNSS) 2#16
    unfold has SENSOR_GNSS
    generalize d.df.ins.nav.info.sensors = x
    intro h
    have := congrArg (fun b : BitVec 16 => b.getLsbD 1) h
    simp at this

/-- C72: the configured stop time has no influence: everything up to the end of the data is processed. -/
theorem C72_stop_time_ignored (g0 : α) (dev0 : Dev α) (junk : Junk α) (res0 : NavOutput α) (o : Outage α)
    (cfg : Config α) (gs : List (GnssRec α)) (is : List (ImuRec α)) (t : α) :
    postMain g0 dev0 junk res0 o { cfg with stopTime := t } gs is = postMain g0 dev0 junk res0 o cfg gs is := rfl

/-- C72 (violated): a line is written for every record from the one after the start on, those later than the stop time
included, whatever the stop time. -/
theorem C72_every_record_written (g0 : α) (dev0 : Dev α) (junk : Junk α) (res0 : NavOutput α) (o : Outage α)
    (cfg : Config α) (gs : List (GnssRec α)) (is : List (ImuRec α)) (hs : smallTimes is) (t : α) :
    (postMain g0 dev0 junk res0 o { cfg with stopTime := t } gs is).length = (replayed cfg gs is).length := by
  rw [C72_stop_time_ignored, post_is_replay g0 dev0 junk res0 o cfg gs is hs]
  exact replay_length _ _ _ _

/-- C57 together with C50, in exact arithmetic: with the constructed outage object, hidden are exactly the
fixes inside a configured window. -/
theorem C57_hidden_iff_in_window (fuel : Nat) (cfg : Config ℝ) (o : Outage ℝ)
    (ho : Outage.make fuel cfg.outage.start cfg.outage.stop cfg.outage.outage cfg.outage.step = some o) (r : GnssRec ℝ) :
    isHidden (fun x => cfg.outage.enable && o.isOutage x.time) (.gnss r) = true ↔
      cfg.outage.enable = true ∧ ¬ badOutage cfg.outage.start cfg.outage.stop cfg.outage.outage cfg.outage.step ∧
        inWindow cfg.outage.start cfg.outage.stop cfg.outage.outage cfg.outage.step r.time := by
  simp only [isHidden, Bool.and_eq_true]
  rw [C50_outage_windows fuel _ _ _ _ o ho]

/-- A configuration with everything zero or off except GNSS and a one second outage every two seconds from 3 s. -/
noncomputable def demoCfg : Config ℝ :=
  { startTime := 0, stopTime := 0, enableRts := false
    gnss := { enable := true, filePath := "gnss", format := 0, index := fun _ => 0, doubleAntenna := false
              levelArm := zero3, pitch := 0, yaw := 0, scaleOfStd := 1 }
    imu := { filePath := "imu", format := 0, frame := 0, dRate := 100, parameterPath := "para"
             para := (Fusion.zeroOpt : Opt ℝ).imuPara }
    odo := { enable := false, filePath := "", odometerStd := 0, nhcEnable := false, nhcStd := fun _ => 0
             angleBv := zero3, wheelLevelArm := zero3, scaleFactor := 1, scaleFactorStd := 0 }
    zupt := { zuptEnable := false, zuptaEnable := false, zuptStd := 0, zuptaStd := 0, zuptWindow := 0
              staticWide := 0, threshold := 0 }
    align := { mode := 1, velThreshold := 0, initPva := zeroPva }
    outage := { enable := true, start := 3, stop := 5, step := 2, outage := 1 }
    output := { filePath := "out", format := 0, projectEnable := false, posProject := zero3, attiProject := zero3 }
    press := { enable := false, filePath := "", heightStd := 0 } }

/-- Five samples and two fixes replayed with that configuration: the first sample is skipped, four records
remain and the fix at 3.5 s, the last of them, is hidden while the one at 1.5 s is not. All hypotheses of C57
hold. -/
theorem demo_replay : ∃ fuel o,
    Outage.make fuel demoCfg.outage.start demoCfg.outage.stop demoCfg.outage.outage demoCfg.outage.step = some o ∧
    (replayed demoCfg demoGnss demoImu).map
      (fun r => (r.time, decide (isHidden (fun x => demoCfg.outage.enable && o.isOutage x.time) r = true))) =
      [(3 / 2, false), (2, false), (3, false), (7 / 2, true)] ∧
    (∀ r ∈ (replayed demoCfg demoGnss demoImu).head?,
      isHidden (fun x => demoCfg.outage.enable && o.isOutage x.time) r = false) := by
  obtain ⟨fuel, o, ho⟩ := C51_terminates_partial demoCfg.outage.start demoCfg.outage.stop demoCfg.outage.outage
    demoCfg.outage.step (Or.inl (by norm_num [demoCfg]))
  have hm : replayed demoCfg demoGnss demoImu = [.gnss ⟨3 / 2, 0, 0, 0, zero3, 4#32⟩, .imu ⟨2, zero3, zero3⟩,
      .imu ⟨3, zero3, zero3⟩, .gnss ⟨7 / 2, 0, 0, 0, zero3, 4#32⟩] := by
    have h : ∀ a b : ℝ, (Fl.lt a b = true) = (a < b) := fun a b => propext (lt_real a b)
    have hd : ∀ (p : Rec ℝ → Bool) r rs, p r = false → ((r :: rs).dropWhile p).tail = rs := by
      intro p r rs hp; simp [List.dropWhile, hp]
    unfold replayed
    simp only [demoImu, demoGnss, List.map_cons, List.map_nil]
    simp only [merge, h, demoCfg, if_true]
    norm_num
    rw [hd]
    rw [Bool.eq_false_iff, Ne, h]
    simp only [Rec.time]
    norm_num
  have h1 : isHidden (fun x => demoCfg.outage.enable && o.isOutage x.time) (.gnss ⟨3 / 2, 0, 0, 0, zero3, 4#32⟩) = false := by
    rw [Bool.eq_false_iff, Ne, C57_hidden_iff_in_window fuel demoCfg o ho]
    rintro ⟨-, -, k, h1, h2, h3⟩
    simp only [demoCfg] at h2
    have : (0 : ℝ) ≤ k := Nat.cast_nonneg k
    linarith
  have h2 : isHidden (fun x => demoCfg.outage.enable && o.isOutage x.time) (.gnss ⟨7 / 2, 0, 0, 0, zero3, 4#32⟩) = true := by
    rw [C57_hidden_iff_in_window fuel demoCfg o ho]
    refine ⟨rfl, by unfold badOutage demoCfg; norm_num, 0, ?_, ?_, ?_⟩ <;> simp only [demoCfg] <;> norm_num
  refine ⟨fuel, o, ho, ?_, ?_⟩
  · rw [hm]
    simp only [List.map_cons, List.map_nil, h1, h2, Rec.time]
    simp [isHidden]
  · rw [hm]
    intro r hr
    simp only [List.head?_cons, Option.mem_def, Option.some.injEq] at hr
    rw [← hr]; exact h1

/-- The demonstration replay: the fix at 3.5 s is hidden. -/
example : ∃ fuel o,
    Outage.make fuel demoCfg.outage.start demoCfg.outage.stop demoCfg.outage.outage demoCfg.outage.step = some o ∧
    ((replayed demoCfg demoGnss demoImu).map Rec.time).length = 4 ∧
    (replayed demoCfg demoGnss demoImu).any (isHidden (fun x => demoCfg.outage.enable && o.isOutage x.time)) = true := by
  obtain ⟨fuel, o, h1, h2, -⟩ := demo_replay
  refine ⟨fuel, o, h1, ?_, ?_⟩
  · have := congrArg List.length h2
    simpa using this
  · have hm : ((7 / 2 : ℝ), true) ∈ (replayed demoCfg demoGnss demoImu).map
      (fun r => (r.time, decide (isHidden (fun x => demoCfg.outage.enable && o.isOutage x.time) r = true))) := by rw [h2]; simp
    obtain ⟨r, hr, he⟩ := List.mem_map.1 hm
    rw [List.any_eq_true]
    refine ⟨r, hr, ?_⟩
    have := congrArg Prod.snd he
    simpa using this

/-- C72: with stop time 1 the demonstration replay writes four lines, for records at 1.5, 2, 3 and 3.5 s. -/
example (g0 : ℝ) (dev0 : Dev ℝ) (junk : Junk ℝ) (res0 : NavOutput ℝ) (o : Outage ℝ) :
    (postMain g0 dev0 junk res0 o { demoCfg with stopTime := 1 } demoGnss demoImu).length = 4 := by
  rw [C72_every_record_written g0 dev0 junk res0 o demoCfg demoGnss demoImu demo_small 1]
  obtain ⟨_, o, _, h2, _⟩ := demo_replay
  have := congrArg List.length h2
  simpa using this
end Verif.Props
