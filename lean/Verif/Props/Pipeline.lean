import Verif.Model.Pipeline
import Verif.Props.Post
import Verif.Props.FileIO
import Verif.Props.Refine
/-! C134, C135: from files to results. -/
namespace Verif.Props
open Verif Verif.Spec
section
variable {α : Type} [Add α] [Sub α] [Mul α] [Neg α] [Div α] [Zero α] [One α] [Fl α]

/-- A record as a call of the filter: samples as they are, fixes as single point fixes, hidden fixes not at all. -/
def asFilterCall (hidden : GnssRec α → Bool) : Rec α → List (FCall α)
  | .imu r => [.time ⟨r.time, r.gyro, r.acce⟩]
  | .gnss r => if hidden r then [] else [.gnss ⟨r.lat, r.lon, r.height, r.posStd, r.time, 1⟩]

/-- The records from the first sample on. -/
def fromFirstImu : List (Rec α) → List (Rec α)
  | .gnss _ :: rs => fromFirstImu rs
  | rs => rs

/-- The calls that replay records. -/
def replayCalls (hidden : GnssRec α → Bool) (rs : List (Rec α)) : List (Call α) := rs.flatMap (callOf hidden)

theorem replay_get (hidden : GnssRec α → Bool) (rs : List (Rec α)) : ∀ (s : α × Dev α) (p : NavOutput α) (k : Nat), k < rs.length →
    (rgioeGetStatus (runCalls (replayCalls hidden (rs.take (k + 1))) s).2 = 3) →
    (replay hidden rs s p)[k]? = some (runCalls (replayCalls hidden (rs.take (k + 1))) s).2.df.output := by
  induction rs with
  | nil => intro s p k h; simp at h
  | cons r rs ih =>
    intro s p k hk hst
    have hrun : runCalls (replayCalls hidden ((r :: rs).take (k + 1))) s = runCalls (replayCalls hidden (rs.take k)) (runCalls (callOf hidden r) s) := by
      simp only [replayCalls, List.take_succ_cons, List.flatMap_cons, runCalls_append]
    rw [hrun] at hst ⊢
    cases k with
    | zero =>
      simp only [List.take_zero, replayCalls, List.flatMap_nil, runCalls] at hst ⊢
      simp only [replay, List.getElem?_cons_zero]
      rw [(reports_nav _ hst).result]
    | succ k =>
      simp only [replay, List.getElem?_cons_succ]
      exact ih _ _ k (by simpa using hk) hst

theorem filterCalls_append (xs ys : List (Call α)) : filterCalls (xs ++ ys) = filterCalls xs ++ filterCalls ys := by
  induction xs with
  | nil => rfl
  | cons c cs ih =>
    rcases c with ⟨o, n, j⟩ | (_ | m) | (_ | m) | _ | _ | _ | _ | p | _ <;> simp [filterCalls, ih]

theorem filterCalls_replayCalls (hidden : GnssRec α → Bool) (rs : List (Rec α)) :
    filterCalls (replayCalls hidden rs) = rs.flatMap (asFilterCall hidden) := by
  induction rs with
  | nil => rfl
  | cons r rs ih =>
    have : replayCalls hidden (r :: rs) = callOf hidden r ++ replayCalls hidden rs := rfl
    rw [this, filterCalls_append, ih, List.flatMap_cons]
    congr 1
    cases r with
    | imu r => rfl
    | gnss r => unfold callOf asFilterCall; dsimp only; split_ifs <;> rfl

theorem fromFirst_replayCalls (hidden : GnssRec α → Bool) (rs : List (Rec α)) :
    fromFirstSample (replayCalls hidden rs) = replayCalls hidden (fromFirstImu rs) := by
  induction rs with
  | nil => rfl
  | cons r rs ih =>
    cases r with
    | imu r => rfl
    | gnss r =>
      have h1 : replayCalls hidden (.gnss r :: rs) = callOf hidden (.gnss r) ++ replayCalls hidden rs := rfl
      rw [h1]
      unfold callOf
      dsimp only
      split_ifs
      · exact ih
      · exact ih

theorem replayCalls_noInit (hidden : GnssRec α → Bool) (rs : List (Rec α)) : ∀ c ∈ replayCalls hidden rs, c.isInit = false := by
  intro c hc
  simp only [replayCalls, List.mem_flatMap] at hc
  obtain ⟨r, _, hr⟩ := hc
  cases r with
  | imu r => simp only [callOf, List.mem_singleton] at hr; subst hr; rfl
  | gnss r =>
    unfold callOf at hr
    dsimp only at hr
    split_ifs at hr
    · simp at hr
    · simp only [List.mem_singleton] at hr; subst hr; rfl

theorem imus_replayCalls (hidden : GnssRec α → Bool) (rs : List (Rec α)) (h : ∃ r, Rec.imu r ∈ rs) : imusOf (replayCalls hidden rs) ≠ [] := by
  induction rs with
  | nil => simp at h
  | cons r rs ih =>
    cases r with
    | imu r => intro hh; simp [replayCalls, callOf, imusOf] at hh
    | gnss r =>
      have h' : ∃ r, Rec.imu r ∈ rs := by
        obtain ⟨x, hx⟩ := h
        rcases List.mem_cons.mp hx with e | e
        · cases e
        · exact ⟨x, e⟩
      have h1 : replayCalls hidden (.gnss r :: rs) = callOf hidden (.gnss r) ++ replayCalls hidden rs := rfl
      rw [h1]; unfold callOf; dsimp only
      split_ifs
      · exact ih h'
      · exact ih h'

/-- The lines of a replay from a device just initialised for a given start. -/
theorem replay_is_filter (hidden : GnssRec α → Bool) (rs : List (Rec α)) (junk : Junk α) (d0 d : Dev α) (o : Opt α) (n res0 : NavOutput α)
    (g : α) (hm : o.alignMode = 2) (h : rgioeInit junk d0 (some o) (some n) = some (0, d)) (k : Nat) (hk : k < rs.length) :
    ((∀ r, Rec.imu r ∉ rs.take (k + 1)) → (replay hidden rs (g, d) res0)[k]? = some res0) ∧
    ((∃ r, Rec.imu r ∈ rs.take (k + 1)) → (replay hidden rs (g, d) res0)[k]? =
      some (frun ((fromFirstImu (rs.take (k + 1))).flatMap (asFilterCall hidden)) (fstart g junk.df (makeNavEpoch n o) o)).2.output) := by
  constructor
  · intro hno
    have hd : d.status = ST_INIT := by rw [(init_ok h).1]
    clear h
    induction rs generalizing k with
    | nil => simp at hk
    | cons r rs ih =>
      cases r with
      | imu r => exact absurd (by simp) (hno r)
      | gnss r =>
        have e : runCalls (callOf hidden (.gnss r)) (g, d) = (g, d) := by
          unfold callOf
          dsimp only
          split_ifs
          · rfl
          · simp only [runCalls, Call.exec]
            unfold rgioeGnssupdate
            dsimp only
            rw [if_pos hd]
        have e2 : (rgioeGetResult d res0).2 = res0 := by
          unfold rgioeGetResult
          dsimp only
          rw [if_neg (by rw [hd]; decide), if_neg (by rw [hd]; decide), if_neg (by rw [hd]; decide)]
        simp only [replay, e, e2]
        cases k with
        | zero => rfl
        | succ k =>
          rw [List.getElem?_cons_succ]
          exact ih k (by simpa using hk) (fun x hx => hno x (by rw [List.take_succ_cons]; exact List.mem_cons_of_mem _ hx))
  · intro hex
    obtain ⟨s, hs⟩ : ∃ s, s = frun (filterCalls (fromFirstSample (replayCalls hidden (rs.take (k + 1)))))
      (fstart g junk.df (makeNavEpoch n o) o) := ⟨_, rfl⟩
    have key := C126_given_start junk d0 d o n hm h (replayCalls hidden (rs.take (k + 1))) (replayCalls_noInit _ _) (imus_replayCalls _ _ hex) g s hs
    rw [replay_get hidden rs (g, d) res0 k hk key.2.status]
    rw [fromFirst_replayCalls, filterCalls_replayCalls] at hs
    rw [← hs, ← key.1]

/-- What the program must write for given records: one line per replayed record; before the first sample the result it started with,
from then on the result of the filter started from the configured state and fed with the records since the first sample. -/
def WritesFilter (g0 : α) (junk : Junk α) (res0 : NavOutput α) (o : Outage α) (cfg : Config α) (gs : List (GnssRec α)) (is : List (ImuRec α))
    (ls : List (NavOutput α)) : Prop :=
  ls.length = (replayed cfg gs is).length ∧ ∀ k, k < (replayed cfg gs is).length →
    ((∀ r, Rec.imu r ∉ (replayed cfg gs is).take (k + 1)) → ls[k]? = some res0) ∧
    ((∃ r, Rec.imu r ∈ (replayed cfg gs is).take (k + 1)) → ls[k]? = some
      (frun ((fromFirstImu ((replayed cfg gs is).take (k + 1))).flatMap (asFilterCall fun x => cfg.outage.enable && o.isOutage x.time))
        (fstart g0 junk.df (makeNavEpoch cfg.align.initPva cfg.getOption) cfg.getOption)).2.output)

/-- The main loop writes what the filter says. -/
theorem C134_loop_is_filter (g0 : α) (dev0 : Dev α) (junk : Junk α) (res0 : NavOutput α) (o : Outage α) (cfg : Config α)
    (gs : List (GnssRec α)) (is : List (ImuRec α)) (hs : smallTimes is) (hm : cfg.align.mode = 2) :
    WritesFilter g0 junk res0 o cfg gs is (postMain g0 dev0 junk res0 o cfg gs is) := by
  obtain ⟨d, hd⟩ : ∃ d, rgioeInit junk dev0 (some cfg.getOption) (some cfg.align.initPva) = some (0, d) := by
    unfold rgioeInit
    dsimp only
    rw [if_neg (by simp)]
    exact ⟨_, rfl⟩
  have hr : runCalls [.init cfg.getOption (some cfg.align.initPva) junk] (g0, dev0) = (g0, d) := by
    simp only [runCalls, Call.exec, hd]
  rw [post_is_replay g0 dev0 junk res0 o cfg gs is hs, hr]
  exact ⟨replay_length _ _ _ _, fun k hk => replay_is_filter _ _ junk dev0 d _ _ res0 g0 hm hd k hk⟩

/-- **C134.** From files to results, for every arithmetic: a text file of samples and a seven-column file of fixes at positive times,
neither ending in a newline, and a start from given values: the program ends, and writes what the filter says about the records of the two
files, merged by time. -/
theorem C134_text_files (g0 : α) (dev0 : Dev α) (junk : Junk α) (res0 : NavOutput α) (o : Outage α) (cfg : Config α)
    (s : Surroundings α) (f : Files α) (samples : List (ImuRec α)) (fixes : List (GnssFields α))
    (hi : f.imuText = some (samples.flatMap tokens, false)) (hg : f.gnss = some (fixes.map .fields, false))
    (c1 : cfg.imu.format = 0) (c2 : cfg.imu.frame = 0) (c3 : cfg.gnss.enable = true) (c4 : cfg.gnss.format = 0) (hm : cfg.align.mode = 2)
    (n1 : samples ≠ []) (n2 : fixes ≠ []) (ht : ∀ x ∈ fixes, Fl.lt 0 x.time = true) (hs : smallTimes samples) :
    ∃ ls, (∀ fuel, samples.length < fuel → fileMain fuel g0 dev0 junk res0 o cfg s f = .lines ls) ∧
      WritesFilter g0 junk res0 o cfg (fixes.map fun x => ⟨x.time, x.lat, x.lon, x.height, x.std, 1#32⟩) samples ls := by
  refine ⟨_, fun fuel hf => ?_, C134_loop_is_filter g0 dev0 junk res0 o cfg _ samples hs hm⟩
  have e1 : readGnss cfg s f = .recs (fixes.map fun x => ⟨x.time, x.lat, x.lon, x.height, x.std, 1#32⟩) := by
    unfold readGnss
    rw [c3, hg, c4]
    simp only [Bool.not_true, Bool.false_eq_true, if_false]
    refine C76_complete _ (by simp [gnssFmt]) _ _ _ (by simpa using n2) _ ?_
    apply List.ext_getElem
    · simp
    · intro i h1 h2
      simp only [List.getElem_mapIdx, List.getElem_map]
      have := ht (fixes[i]'(by simpa using h1)) (List.getElem_mem _)
      simp [lineRecord, gnssLine, gnssFmt, this]
  have e2 : readImuFile fuel cfg s g0 f = .recs samples := by
    unfold readImuFile
    rw [if_pos c1, hi, c2]
    have := C61_text_file s.imuTime samples n1 false fuel (by omega)
    simp only [show decide ((0 : Int) = 1) = false from rfl, this]
    simp
  unfold fileMain
  rw [e1]
  dsimp only
  rw [e2]

/-- Non-vacuity of C134: a fix, a sample, a fix (which shows that the fix before the first sample is not used). -/
example (i : ImuRec α) (a b : GnssRec α) :
    (fromFirstImu [.gnss a, .imu i, .gnss b]).flatMap (asFilterCall fun _ => false) =
      [.time ⟨i.time, i.gyro, i.acce⟩, .gnss ⟨b.lat, b.lon, b.height, b.posStd, b.time, 1⟩] := rfl

theorem merge_prefix (is xs : List (ImuRec α)) (gs : List (GnssRec α)) : merge is gs <+: merge (is ++ xs) gs := by
  fun_induction merge is gs with
  | case1 => simp
  | case2 => simp
  | case3 i is g gs h ih =>
    rw [List.cons_append, merge, if_pos h]
    exact (List.prefix_cons_inj _).mpr ih
  | case4 i is g gs h ih =>
    rw [List.cons_append, merge, if_neg h]
    exact (List.prefix_cons_inj _).mpr ih

omit [Add α] [Sub α] [Mul α] [Neg α] [Div α] [Zero α] [One α] [Fl α] in
theorem skip_prefix (p : Rec α → Bool) (rs ys : List (Rec α)) : (rs.dropWhile p).drop 1 <+: ((rs ++ ys).dropWhile p).drop 1 := by
  induction rs with
  | nil => simp
  | cons r rs ih =>
    rw [List.cons_append, List.dropWhile_cons, List.dropWhile_cons]
    split_ifs
    · exact ih
    · simp

theorem replayed_prefix (cfg : Config α) (gs : List (GnssRec α)) (is xs : List (ImuRec α)) :
    replayed cfg gs is <+: replayed cfg gs (is ++ xs) := by
  unfold replayed
  have h : (if cfg.gnss.enable then merge is gs else is.map .imu) <+: (if cfg.gnss.enable then merge (is ++ xs) gs else (is ++ xs).map .imu) := by
    split_ifs
    · exact merge_prefix is xs gs
    · simp
  obtain ⟨t, ht⟩ := h
  rw [← ht]
  exact skip_prefix _ _ _

theorem replay_prefix (hidden : GnssRec α → Bool) (rs ys : List (Rec α)) : ∀ s p, replay hidden rs s p <+: replay hidden (rs ++ ys) s p := by
  induction rs with
  | nil => intro s p; exact List.nil_prefix
  | cons r rs ih =>
    intro s p
    rw [List.cons_append, replay, replay]
    exact (List.prefix_cons_inj _).mpr (ih _ _)

/-- **C134, final newline.** More samples at the end of the IMU file - in particular the record a final newline adds (C61) - change no line
already written: they only add lines. -/
theorem C134_more_samples_only_add (g0 : α) (dev0 : Dev α) (junk : Junk α) (res0 : NavOutput α) (o : Outage α) (cfg : Config α)
    (gs : List (GnssRec α)) (is xs : List (ImuRec α)) (hs : smallTimes (is ++ xs)) :
    postMain g0 dev0 junk res0 o cfg gs is <+: postMain g0 dev0 junk res0 o cfg gs (is ++ xs) := by
  rw [post_is_replay g0 dev0 junk res0 o cfg gs _ hs, post_is_replay g0 dev0 junk res0 o cfg gs is (fun i hi => hs i (by simp [hi]))]
  obtain ⟨t, ht⟩ := replayed_prefix cfg gs is xs
  rw [← ht]
  exact replay_prefix _ _ _ _ _

/-- What a fix in a GGA text file counts as, by its quality: the receiver's deviations are replaced except for an unknown
quality. -/
def ggaFix (x : GnssFields α) : GnssRec α :=
  let std (s : Rat) : V3 α := fun _ => Fl.f32 (Fl.lit s)
  match x.mode with
  | 4#32 => ⟨x.time, x.lat, x.lon, x.height, std (1 / 1000), 4#32⟩
  | 5#32 => ⟨x.time, x.lat, x.lon, x.height, std (5 / 1000), 5#32⟩
  | 2#32 => ⟨x.time, x.lat, x.lon, x.height, fun _ => 1, 6#32⟩
  | 1#32 => ⟨x.time, x.lat, x.lon, x.height, fun _ => 1, 1#32⟩
  | _ => ⟨x.time, x.lat, x.lon, x.height, v3 (x.std 0) (x.std 1) 0, 6#32⟩

/-- C134, the other formats of fixes: of a file of fixes at positive times, not ending in a newline, format 4 delivers every
fix with the quality of the file (as long as no quality is zero), format 6 every fix with the deviations that go with its
quality, and every other format except 0 and 1 not a single fix. -/
theorem C134_fix_formats (cfg : Config α) (s : Surroundings α) (f : Files α) (fixes : List (GnssFields α))
    (hg : f.gnss = some (fixes.map .fields, false)) (c3 : cfg.gnss.enable = true) (n2 : fixes ≠ []) (ht : ∀ x ∈ fixes, Fl.lt 0 x.time = true) :
    (cfg.gnss.format = 4 → (∀ x ∈ fixes, x.mode ≠ 0#32) →
      readGnss cfg s f = .recs (fixes.map fun x => ⟨x.time, x.lat, x.lon, x.height, x.std, x.mode⟩)) ∧
    (cfg.gnss.format = 6 → readGnss cfg s f = .recs (fixes.map ggaFix)) ∧
    (cfg.gnss.format ≠ 0 → cfg.gnss.format ≠ 1 → cfg.gnss.format ≠ 4 → cfg.gnss.format ≠ 6 → readGnss cfg s f = .recs []) := by
  unfold readGnss
  rw [c3, hg]
  simp only [Bool.not_true, Bool.false_eq_true, if_false]
  refine ⟨fun c hm => ?_, fun c => ?_, fun a b c d => ?_⟩
  · rw [c]
    refine C76_complete _ (by simp [gnssFmt]) _ _ _ (by simpa using n2) _ ?_
    apply List.ext_getElem
    · simp
    · intro i h1 h2
      have hi : i < fixes.length := by simpa using h1
      have t := ht fixes[i] (List.getElem_mem _)
      have q := hm fixes[i] (List.getElem_mem _)
      have q' : 0 < fixes[i].mode.toNat := Nat.pos_of_ne_zero fun e => q (BitVec.eq_of_toNat_eq (by simpa using e))
      simp [lineRecord, gnssLine, gnssFmt, t, q']
  · rw [c]
    refine C76_complete _ (by simp [gnssFmt]) _ _ _ (by simpa using n2) _ ?_
    apply List.ext_getElem
    · simp
    · intro i h1 h2
      have hi : i < fixes.length := by simpa using h1
      have t := ht fixes[i] (List.getElem_mem _)
      have e6 : gnssFmt 6 = .gga := rfl
      simp only [List.getElem_mapIdx, List.getElem_map, lineRecord, gnssLine, e6, ggaMap, ggaFix]
      by_cases m4 : fixes[i].mode = 4#32
      · simp [m4, t]
      by_cases m5 : fixes[i].mode = 5#32
      · simp [m5, t]
      by_cases m2 : fixes[i].mode = 2#32
      · simp [m2, t]
      by_cases m1 : fixes[i].mode = 1#32
      · simp [m1, t]
      simp [m4, m5, m2, m1, t]
  · have e : gnssFmt cfg.gnss.format = .other := by simp [gnssFmt, a, b, c, d]
    rw [e, C76_gnss_file _ (by simp)]
    cases fixes with
    | nil => exact absurd rfl n2
    | cons x xs => simp [List.mapIdx_cons, lineRecord, gnssLine, GnssRec.fresh, upToNone]

/-- The text file of C134 with a final newline: the lines without it, and possibly more. -/
theorem C134_final_newline (g0 : α) (dev0 : Dev α) (junk : Junk α) (res0 : NavOutput α) (o : Outage α) (cfg : Config α)
    (s : Surroundings α) (f : Files α) (samples : List (ImuRec α)) (ls : List (NavOutput α)) (fuel : Nat)
    (c1 : cfg.imu.format = 0) (c2 : cfg.imu.frame = 0) (n1 : samples ≠ []) (hf : samples.length < fuel)
    (ht : Fl.lt (s.imuTime samples.length) (Fl.lit 2147483647) = true) (hs : smallTimes samples)
    (hl : fileMain fuel g0 dev0 junk res0 o cfg s { f with imuText := some (samples.flatMap tokens, false) } = .lines ls) :
    ∃ more, fileMain fuel g0 dev0 junk res0 o cfg s { f with imuText := some (samples.flatMap tokens, true) } = .lines (ls ++ more) := by
  have e : ∀ ws, readImuFile fuel cfg s g0 { f with imuText := some (samples.flatMap tokens, ws) } =
      .recs (samples ++ if ws then [⟨s.imuTime samples.length, v3 0 0 0, v3 0 0 0⟩] else []) := by
    intro ws
    unfold readImuFile
    rw [if_pos c1, c2]
    have := C61_text_file s.imuTime samples n1 ws fuel (by omega)
    simp only [show decide ((0 : Int) = 1) = false from rfl, this]
  have e' : ∀ ws, readGnss cfg s { f with imuText := some (samples.flatMap tokens, ws) } = readGnss cfg s f := fun _ => rfl
  unfold fileMain at hl ⊢
  rw [e'] at hl ⊢
  cases hg : readGnss cfg s f with
  | ub => rw [hg] at hl; cases hl
  | recs gs =>
    rw [hg] at hl
    dsimp only at hl ⊢
    rw [e] at hl ⊢
    dsimp only at hl ⊢
    have hp := C134_more_samples_only_add g0 dev0 junk res0 o cfg gs samples [⟨s.imuTime samples.length, v3 0 0 0, v3 0 0 0⟩]
      (by intro i hi; rcases List.mem_append.mp hi with h | h
          · exact hs i h
          · simp only [List.mem_singleton] at h; subst h; exact ht)
    obtain ⟨more, hm⟩ := hp
    refine ⟨more, ?_⟩
    simp only [Bool.false_eq_true, if_false, List.append_nil, RunResult.lines.injEq] at hl
    rw [← hl, if_pos rfl, hm]

/-- **C135, violated.** The configuration accepts these formats, and no content of the files can be processed with them: with IMU format 1
any file that is not empty, and with GNSS format 1 any file at all, leads to undefined behaviour. -/
theorem C135_formats_crash (fuel : Nat) (g0 : α) (dev0 : Dev α) (junk : Junk α) (res0 : NavOutput α) (o : Outage α) (cfg : Config α)
    (s : Surroundings α) (f : Files α) :
    (∀ bytes, f.imuBytes = some bytes → bytes ≠ [] → cfg.imu.format = 1 → cfg.gnss.enable = false →
      fileMain fuel g0 dev0 junk res0 o cfg s f = .ub) ∧
    (f.gnss ≠ none → cfg.gnss.enable = true → cfg.gnss.format = 1 → fileMain fuel g0 dev0 junk res0 o cfg s f = .ub) := by
  constructor
  · intro bytes h1 h2 h3 h4
    unfold fileMain readGnss
    rw [h4]
    simp only [Bool.not_false, if_true]
    unfold readImuFile readImd
    rw [h3, h1]
    simp [h2]
  · intro h1 h2 h3
    cases hg : f.gnss with
    | none => exact absurd hg h1
    | some x =>
      unfold fileMain readGnss
      rw [h2, hg, h3]
      have : gnssFmt 1 = .lines10 := rfl
      simp only [this, C76_ten_columns_is_ub, Bool.not_true, Bool.false_eq_true, if_false]

/-- **C135, violated.** With any other value than 0, 1, 2 the samples are ignored: the program runs on one sample of zeros whose time is
whatever the memory held. -/
theorem C135_unknown_format (fuel : Nat) (g0 : α) (dev0 : Dev α) (junk : Junk α) (res0 : NavOutput α) (o : Outage α) (cfg : Config α)
    (s : Surroundings α) (f : Files α) (bytes : List Byte) (h : f.imuBytes = some bytes) (h0 : cfg.imu.format ≠ 0) (h1 : cfg.imu.format ≠ 1)
    (h2 : cfg.imu.format ≠ 2) (hg : cfg.gnss.enable = false) :
    fileMain fuel g0 dev0 junk res0 o cfg s f =
      .lines (postMain g0 dev0 junk res0 o cfg [] [⟨s.imuTime 0, fun _ => 0, fun _ => 0⟩]) := by
  unfold fileMain readGnss
  rw [hg]
  simp only [Bool.not_false, if_true]
  unfold readImuFile
  rw [if_neg h0, h]
  dsimp only
  rw [if_neg h1, if_neg h2]
  rfl

/-- **C135, violated.** A text file with something in it that is not a number is never finished. -/
theorem C135_bad_text_never_ends (g0 : α) (dev0 : Dev α) (junk : Junk α) (res0 : NavOutput α) (o : Outage α) (cfg : Config α)
    (s : Surroundings α) (f : Files α) (toks : List (Tok α)) (ws : Bool) (h : f.imuText = some (toks, ws)) (hb : Tok.bad ∈ toks)
    (h0 : cfg.imu.format = 0) (hg : cfg.gnss.enable = false) (fuel : Nat) :
    fileMain fuel g0 dev0 junk res0 o cfg s f = .unfinished := by
  unfold fileMain readGnss
  rw [hg]
  simp only [Bool.not_false, if_true]
  unfold readImuFile
  rw [if_pos h0, h]
  dsimp only
  rw [C75_bad_token_hangs _ _ _ _ hb fuel]

/-- **C135 (partial).** Format 0 with only numbers in the file and format 2 with any content are read to the end and processed. -/
theorem C135_readable_partial (g0 : α) (dev0 : Dev α) (junk : Junk α) (res0 : NavOutput α) (o : Outage α) (cfg : Config α)
    (s : Surroundings α) (f : Files α) (hj : ∀ k, (s.array k).length = 56)
    (hg : cfg.gnss.enable = true → cfg.gnss.format ≠ 1) :
    (cfg.imu.format = 0 → (∀ toks ws, f.imuText = some (toks, ws) → Tok.bad ∉ toks) →
      ∃ fuel ls, fileMain fuel g0 dev0 junk res0 o cfg s f = .lines ls) ∧
    (cfg.imu.format = 2 → ∃ fuel ls, fileMain fuel g0 dev0 junk res0 o cfg s f = .lines ls) := by
  have hgn : ∃ gs, readGnss cfg s f = .recs gs := by
    unfold readGnss
    cases he : cfg.gnss.enable with
    | false => exact ⟨[], by simp⟩
    | true =>
      simp only [Bool.not_true, Bool.false_eq_true, if_false]
      cases f.gnss with
      | none => exact ⟨[], rfl⟩
      | some x =>
        refine ⟨_, C76_gnss_file _ ?_ _ _ _ _⟩
        have := hg he
        unfold gnssFmt
        split_ifs <;> simp_all
  obtain ⟨gs, hgs⟩ := hgn
  have suff : (∃ fuel rs, readImuFile fuel cfg s g0 f = .recs rs) → ∃ fuel ls, fileMain fuel g0 dev0 junk res0 o cfg s f = .lines ls := by
    rintro ⟨fuel, rs, hr⟩
    refine ⟨fuel, postMain g0 dev0 junk res0 o cfg gs rs, ?_⟩
    unfold fileMain; rw [hgs]; dsimp only; rw [hr]
  refine ⟨fun h0 ht => suff ?_, fun h2 => suff ?_⟩
  · cases hi : f.imuText with
    | none => exact ⟨0, [], by unfold readImuFile; rw [if_pos h0, hi]⟩
    | some x =>
      obtain ⟨fuel, rs, hr⟩ := C75_numbers_end_partial (decide (cfg.imu.frame = 1)) s.imuTime x.1 x.2 (ht x.1 x.2 (by rw [hi]))
      exact ⟨fuel, rs, by unfold readImuFile; rw [if_pos h0, hi]; dsimp only; rw [hr]⟩
  · have n0 : cfg.imu.format ≠ 0 := by rw [h2]; decide
    have n1 : cfg.imu.format ≠ 1 := by rw [h2]; decide
    cases hi : f.imuBytes with
    | none => exact ⟨0, [], by unfold readImuFile; rw [if_neg n0, hi]⟩
    | some bytes =>
      have := C61_binary_file s.dec (decide (cfg.imu.frame = 1)) s.array hj bytes (bytes.length / 56 + 2) (le_refl _)
      exact ⟨bytes.length / 56 + 2, _, by unfold readImuFile; rw [if_neg n0, hi]; dsimp only; rw [if_neg n1, if_pos h2, this]⟩
end

/-- Non-vacuity: a configuration whose start is given, text formats; one sample, one fix. -/
example : ({ demoCfg with align := { demoCfg.align with mode := 2 } } : Config ℝ).imu.format = 0 ∧ demoCfg.imu.frame = 0 ∧
    demoCfg.gnss.enable = true ∧ demoCfg.gnss.format = 0 ∧ smallTimes [(⟨1, zero3, zero3⟩ : ImuRec ℝ)] := by
  refine ⟨rfl, rfl, rfl, rfl, ?_⟩
  intro i hi
  simp only [List.mem_singleton] at hi
  subst hi
  rw [lt_real, lit_real]; norm_num
end Verif.Props
