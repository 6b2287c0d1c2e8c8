import Verif.Spec.FixFile
import Verif.Props.FilterFlight
import Verif.Props.ResultFile
/-! C211: with a file of fixes, too, the result file follows the flight. -/
namespace Verif.Props
open Verif Verif.Spec Verif.Convert Matrix
section
variable {α : Type} [Add α] [Sub α] [Mul α] [Neg α] [Div α] [Zero α] [One α] [Fl α]

theorem used_replayed (cfg : Config α) (h : cfg.gnss.enable = true) (gs : List (GnssRec α)) (is : List (ImuRec α)) :
    replayed cfg gs is = usedRecords cfg gs is := by
  unfold replayed usedRecords
  rw [if_pos h]

theorem calls_replay (hide : GnssRec α → Bool) (rs : List (Rec α)) : replayCalls hide rs = callsFor hide rs := by
  induction rs with
  | nil => rfl
  | cons r rs ih =>
    have h1 : replayCalls hide (r :: rs) = callOf hide r ++ replayCalls hide rs := rfl
    rw [h1, ih]
    cases r with
    | imu r => rfl
    | gnss r =>
      rw [callsFor]
      unfold callOf
      dsimp only
      split_ifs <;> rfl

theorem imus_callsFor (hide : GnssRec α → Bool) (rs : List (Rec α)) :
    imusOf (callsFor hide rs) = (imuPart rs).map fun r => ⟨r.time, r.gyro, r.acce⟩ := by
  induction rs with
  | nil => rfl
  | cons r rs ih =>
    cases r with
    | imu r => exact congrArg (_ :: ·) ih
    | gnss r =>
      have e : imuPart (.gnss r :: rs) = imuPart rs := rfl
      rw [callsFor, e, ← ih]
      split_ifs <;> rfl

theorem fixes_callsFor (hide : GnssRec α → Bool) (rs : List (Rec α)) : (fixesOf (callsFor hide rs)).length ≤ (gnssPart rs).length := by
  induction rs with
  | nil => simp [callsFor, fixesOf]
  | cons r rs ih =>
    cases r with
    | imu r => exact ih
    | gnss r =>
      have e : gnssPart (.gnss r :: rs) = r :: gnssPart rs := rfl
      rw [callsFor, e, List.length_cons]
      split_ifs
      · omega
      · simp only [fixesOf, List.length_cons]; omega

/-- Where a fix is called, it is one of the records, not hidden, after the records called before. -/
theorem callsFor_fix (hide : GnssRec α → Bool) (rs : List (Rec α)) : ∀ (a : List (Call α)) (m : Gnss α) (b : List (Call α)),
    callsFor hide rs = a ++ .gnss (some m) :: b →
    ∃ (xs ys : List (Rec α)) (r : GnssRec α), rs = xs ++ .gnss r :: ys ∧ hide r = false ∧ m = asFix r ∧ a = callsFor hide xs := by
  induction rs with
  | nil => intro a m b h; rcases a with _ | ⟨c, a⟩ <;> exact absurd h (by simp [callsFor])
  | cons r rs ih =>
    intro a m b h
    cases r with
    | imu r =>
      rcases a with _ | ⟨c, a⟩
      · exact absurd h (by simp [callsFor])
      · simp only [callsFor, List.cons_append, List.cons.injEq] at h
        obtain ⟨xs, ys, g, h1, h2, h3, h4⟩ := ih a m b h.2
        exact ⟨.imu r :: xs, ys, g, by rw [h1]; rfl, h2, h3, by rw [callsFor, h.1, h4]⟩
    | gnss r =>
      rw [callsFor] at h
      by_cases hh : hide r = true
      · rw [if_pos hh] at h
        obtain ⟨xs, ys, g, h1, h2, h3, h4⟩ := ih a m b h
        exact ⟨.gnss r :: xs, ys, g, by rw [h1]; rfl, h2, h3, by rw [callsFor, if_pos hh, h4]⟩
      · rw [if_neg hh] at h
        rcases a with _ | ⟨c, a⟩
        · simp only [List.nil_append, List.cons.injEq, Call.gnss.injEq, Option.some.injEq] at h
          exact ⟨[], rs, r, rfl, by simpa using hh, h.1.symm, rfl⟩
        · simp only [List.cons_append, List.cons.injEq] at h
          obtain ⟨xs, ys, g, h1, h2, h3, h4⟩ := ih a m b h.2
          exact ⟨.gnss r :: xs, ys, g, by rw [h1]; rfl, h2, h3, by rw [callsFor, if_neg hh, h.1, h4]⟩

theorem imuPart_append (xs ys : List (Rec α)) : imuPart (xs ++ ys) = imuPart xs ++ imuPart ys := List.filterMap_append

theorem used_fixes (cfg : Config α) (gs : List (GnssRec α)) (is : List (ImuRec α)) : (gnssPart (usedRecords cfg gs is)).length ≤ gs.length := by
  have h1 : (gnssPart (usedRecords cfg gs is)).Sublist (gnssPart (merge is gs)) :=
    ((List.drop_sublist _ _).trans (List.dropWhile_sublist _)).filterMap _
  exact h1.length_le.trans (merge_parts is gs).2.1.length_le

theorem noAids_cfg (cfg : Config α) (h1 : cfg.zupt.zuptEnable = false) (h2 : cfg.odo.nhcEnable = false ∨ cfg.odo.enable = true) : noAids cfg.getOption := by
  refine ⟨?_, ?_⟩
  · show Config.b2i cfg.zupt.zuptEnable = 0
    rw [h1]; rfl
  · rcases h2 with e | e
    · exact Or.inl (show Config.b2i cfg.odo.nhcEnable = 0 by rw [e]; rfl)
    · exact Or.inr (show Config.b2i cfg.odo.enable ≠ 0 by rw [e]; decide)

/-- **C211, every arithmetic.** On a text file of samples and a seven-column file of fixes the program ends, and writes one line per record
it uses: from the first sample on, the result the C interface reports after exactly the records so far, and before it the result it started
with. -/
theorem C211_one_line_per_record (g0 : α) (dev0 : Dev α) (junk : Junk α) (res0 : NavOutput α) (o : Outage α) (cfg : Config α)
    (hc : WithFixes cfg) (s : Surroundings α) (f : Files α) (samples : List (ImuRec α)) (fixes : List (GnssFields α)) (n1 : samples ≠ [])
    (n2 : fixes ≠ []) (hs : smallTimes samples) (ht : ∀ x ∈ fixes, Fl.lt 0 x.time = true)
    (hi : f.imuText = some (samples.flatMap tokens, false)) (hg : f.gnss = some (fixes.map .fields, false)) :
    ∃ ls d, rgioeInit junk dev0 (some cfg.getOption) (some cfg.align.initPva) = some (0, d) ∧
      (∀ fuel, samples.length < fuel → fileMain fuel g0 dev0 junk res0 o cfg s f = .lines ls) ∧
      ls.length = (usedRecords cfg (fixRecords fixes) samples).length ∧
      ∀ k, k < ls.length → ∀ rs, rs = (usedRecords cfg (fixRecords fixes) samples).take (k + 1) →
        (imuPart rs = [] → ls[k]? = some res0) ∧
        (imuPart rs ≠ [] → ls[k]? = some (rgioeGetResult (runCalls (callsFor (hidden cfg o) rs) (g0, d)).2 res0).2) := by
  obtain ⟨d, hd⟩ : ∃ d, rgioeInit junk dev0 (some cfg.getOption) (some cfg.align.initPva) = some (0, d) := by
    unfold rgioeInit
    dsimp only
    rw [if_neg (by simp)]
    exact ⟨_, rfl⟩
  have hr : runCalls [.init cfg.getOption (some cfg.align.initPva) junk] (g0, dev0) = (g0, d) := by
    simp only [runCalls, Call.exec, hd]
  have hpost := post_is_replay g0 dev0 junk res0 o cfg (fixRecords fixes) samples hs
  obtain ⟨ls, hl1, hl2⟩ := C134_text_files g0 dev0 junk res0 o cfg s f samples fixes hi hg hc.text hc.frame hc.gnss hc.columns hc.given n1 n2 ht hs
  obtain ⟨hw1, hw2⟩ := C134_loop_is_filter g0 dev0 junk res0 o cfg (fixRecords fixes) samples hs hc.given
  have hls : ls = postMain g0 dev0 junk res0 o cfg (fixRecords fixes) samples := by
    have e1 : readGnss cfg s f = .recs (fixRecords fixes) := by
      unfold readGnss
      rw [hc.gnss, hg, hc.columns]
      simp only [Bool.not_true, Bool.false_eq_true, if_false]
      refine C76_complete _ (by simp [gnssFmt]) _ _ _ (by simpa using n2) _ ?_
      apply List.ext_getElem
      · simp [fixRecords]
      · intro i h1 h2
        simp only [List.getElem_mapIdx, List.getElem_map, fixRecords]
        have := ht (fixes[i]'(by simpa using h1)) (List.getElem_mem _)
        simp [lineRecord, gnssLine, gnssFmt, this]
    have e2 : readImuFile (samples.length + 1) cfg s g0 f = .recs samples := by
      unfold readImuFile
      rw [if_pos hc.text, hi, hc.frame]
      have := C61_text_file s.imuTime samples n1 false (samples.length + 1) (by omega)
      simp only [show decide ((0 : Int) = 1) = false from rfl, this]
      simp
    have := hl1 (samples.length + 1) (by omega)
    unfold fileMain at this
    rw [e1] at this
    dsimp only at this
    rw [e2] at this
    exact (RunResult.lines.inj this).symm
  clear hl2
  subst hls
  rw [used_replayed cfg hc.gnss] at hw1 hw2
  refine ⟨_, d, hd, hl1, hw1, fun k hk rs hrs => ?_⟩
  rw [hw1] at hk
  refine ⟨fun h0 => (hw2 k hk).1 fun r hr => ?_, fun h0 => ?_⟩
  · rw [← hrs] at hr
    have : r ∈ imuPart rs := List.mem_filterMap.2 ⟨_, hr, rfl⟩
    rw [h0] at this
    exact absurd this (by simp)
  · rw [hpost, hr, used_replayed cfg hc.gnss]
    have hne : imusOf (replayCalls (hidden cfg o) rs) ≠ [] := by
      rw [calls_replay, imus_callsFor]
      intro hh
      exact h0 (List.map_eq_nil_iff.1 hh)
    have key := C126_given_start junk dev0 d cfg.getOption cfg.align.initPva hc.given hd (replayCalls (hidden cfg o) rs)
      (replayCalls_noInit _ _) hne g0 _ rfl
    have hst := key.2.status
    have hres := (reports_nav _ hst).result res0
    rw [hrs] at hst
    refine (replay_get (hidden cfg o) _ (g0, d) res0 k hk hst).trans ?_
    rw [← calls_replay, hres, ← hrs]
end

/-- **C211, in part.** From the sensor files to the result file, in exact arithmetic, with the assumption of C210 on the covariance each fix
is met with: there are a constant and a radius such that, for every flight within the limits, every configuration for a start from given
values, every text file of samples and every seven-column file of at most `N` fixes, where the readings are those of the flight to within
the sensor error, the fixes used are where the antenna is to within the fix error, and start error, sensor error, fix error and sampling
interval are together below the radius, the program ends, writes one line per record it uses, and from the first sample on every line is
within the constant times start error plus sensor error plus fix error plus sampling interval of the truth at the time of the last sample
before it. -/
theorem C211_result_file_with_fixes_partial (B : Limits) (hB : B.Sane) (T l p σ : ℝ) (hp : 0 ≤ p) (hσ : 0 < σ) (N : ℕ) : ∃ K r : ℝ, 0 < r ∧
    ∀ (lat lon h : ℝ → ℝ) (v : ℝ → V3 ℝ) (C : ℝ → M3 ℝ) (w θ f α : ℝ → V3 ℝ), TrueFlight B T lat lon h v C w θ f α →
    ∀ cfg : Config ℝ, WithFixes cfg → len cfg.gnss.levelArm ≤ l → (∀ i, |cfg.imu.para.gsIni i| ≤ 1) → (∀ i, |cfg.imu.para.asIni i| ≤ 1) →
    ∀ (e δ ε dt x : ℝ), dt = 1 / cfg.imu.dRate → x = e + δ + ε + dt → x ≤ r → 0 ≤ δ → 0 ≤ ε →
    ResultNear e cfg.align.initPva (lat 0) (lon 0) (h 0) (v 0) (C 0) →
    ∀ (samples : List (ImuRec ℝ)) (fixes : List (GnssFields ℝ)), samples ≠ [] → fixes ≠ [] → fixes.length ≤ N →
    (∀ m ∈ samples, m.time < 2147483647) → (∀ m ∈ fixes, 0 < m.time) → ∀ used, used = usedRecords cfg (fixRecords fixes) samples →
    ReadsNear δ cfg.imu.para dt θ α 0 ((imuPart used).map fun r => ⟨r.time, r.gyro, r.acce⟩) → (imuPart used).length * dt ≤ T →
    ∀ (g0 : ℝ) (dev0 d : Dev ℝ) (junk : Junk ℝ) (res0 : NavOutput ℝ) (o : Outage ℝ) (s : Surroundings ℝ) (fs : Files ℝ),
    fs.imuText = some (samples.flatMap tokens, false) → fs.gnss = some (fixes.map .fields, false) →
    rgioeInit junk dev0 (some cfg.getOption) (some cfg.align.initPva) = some (0, d) →
    (∀ a m b, used = a ++ .gnss m :: b → hidden cfg o m = false → imuPart a ≠ [] → ∀ t, t = (imuPart a).length * dt →
      FixGood σ ε p cfg.gnss.scaleOfStd (runCalls (callsFor (hidden cfg o) a) (g0, d)).2.df.kf.P (asFix m)
        (antennaAt (lat t) (lon t) (h t) (C t) cfg.gnss.levelArm)) →
    ∃ ls, (∀ fuel, samples.length < fuel → fileMain fuel g0 dev0 junk res0 o cfg s fs = .lines ls) ∧
      ls.length = used.length ∧
      ∀ (k : ℕ) (q : NavOutput ℝ) (n : ℕ) (t : ℝ), ls[k]? = some q → n = (imuPart (used.take (k + 1))).length → 0 < n → t = n * dt →
        |inRad q.lat - lat t| ≤ K * x ∧ |inRad q.lon - lon t| ≤ K * x ∧ |q.height - h t| ≤ K * x ∧ len (q.vn - v t) ≤ K * x ∧
        (|C t 2 0| ≤ 99 / 100 → ResultNear (K * x) q (lat t) (lon t) (h t) (v t) (C t)) := by
  obtain ⟨K, r, hr, H⟩ := C210_filter_follows_the_flight_partial B hB T l p σ hp hσ N
  refine ⟨K, r, hr, ?_⟩
  intro lat lon h v C w θ f α F cfg hc hl hgs has e δ ε dt x hdt hx hxr hδ hε hn samples fixes n1 n2 hN ht hft used hu hrd hT g0 dev0 d junk res0 o s fs hi hg hd hfix
  have hs : smallTimes samples := fun i hi => by
    simp only [Fl.lt]
    exact decide_eq_true (by simpa [Fl.lit] using ht i hi)
  obtain ⟨ls, d', hd', h1, h2, h3⟩ := C211_one_line_per_record g0 dev0 junk res0 o cfg hc s fs samples fixes n1 n2 hs
    (fun m hm => decide_eq_true (hft m hm)) hi hg
  rw [hd, Option.some.injEq, Prod.mk.injEq] at hd'
  obtain ⟨-, rfl⟩ := hd'
  rw [← hu] at h2 h3
  refine ⟨ls, h1, h2, ?_⟩
  intro k q n t hq hnk hn0 htk
  have hk : k < ls.length := (List.getElem?_eq_some_iff.mp hq).1
  obtain ⟨rs, hrs⟩ : ∃ rs, rs = used.take (k + 1) := ⟨_, rfl⟩
  have hsplit : used = rs ++ used.drop (k + 1) := by rw [hrs, List.take_append_drop]
  rw [← hrs] at hnk
  have hne : imuPart rs ≠ [] := by intro hh; rw [hh] at hnk; simp at hnk; omega
  have hline := (h3 k hk rs hrs).2 hne
  have hdt0 : 0 < dt := by rw [hdt]; exact one_div_pos.2 (by exact_mod_cast hc.rate)
  have hlen : (imusOf (callsFor (hidden cfg o) rs)).length = n := by rw [imus_callsFor, List.length_map, hnk]
  have htake : (imuPart used).take n = imuPart rs := by
    rw [hsplit, imuPart_append, hnk, List.take_left]
  have hreads : ReadsNear δ cfg.imu.para dt θ α 0 (imusOf (callsFor (hidden cfg o) rs)) := by
    rw [imus_callsFor, ← htake, List.map_take]
    exact readsNear_take _ _ _ _ _ _ _ _ hrd
  have htT : t ≤ T := by
    refine le_trans ?_ hT
    rw [htk]
    refine mul_le_mul_of_nonneg_right ?_ hdt0.le
    have : n ≤ (imuPart used).length := by rw [hsplit, imuPart_append, List.length_append, ← hnk]; omega
    exact_mod_cast this
  have hcount : usableCount (callsFor (hidden cfg o) rs) ≤ N := by
    have q1 : usableCount (callsFor (hidden cfg o) rs) ≤ (gnssPart rs).length := (List.length_filter_le _ _).trans (fixes_callsFor _ _)
    have q2 : (gnssPart rs).length ≤ (gnssPart used).length := by
      rw [hrs]; exact ((List.take_sublist _ _).filterMap _).length_le
    have q3 := used_fixes cfg (fixRecords fixes) samples
    rw [← hu] at q3
    have q4 : (fixRecords fixes).length = fixes.length := List.length_map _
    omega
  obtain ⟨q', e1, e2⟩ := H lat lon h v C w θ f α F junk dev0 d cfg.getOption cfg.align.initPva hc.given (noAids_cfg cfg hc.noZupt hc.noNhc)
    (show Config.b2i cfg.output.projectEnable = 0 by rw [hc.centre]; rfl) hc.rate hl hgs has hd e δ ε dt x hdt hx hxr hδ hε hn
    (callsFor (hidden cfg o) rs) g0 (by rw [← calls_replay]; exact replayCalls_noInit _ _)
    (by intro hh; rw [hh] at hlen; simp at hlen; omega) hcount hreads
    (by
      intro a m b hab hus hia τ hτ
      obtain ⟨xs, ys, m', y1, y2, y3, y4⟩ := callsFor_fix _ rs a m b hab
      rw [y4, imus_callsFor, List.length_map] at hτ
      rw [y4, imus_callsFor] at hia
      have := hfix xs m' (ys ++ used.drop (k + 1)) (hsplit.trans (by rw [y1]; simp)) y2 (fun hh => hia (by rw [hh]; rfl)) τ hτ
      rw [y3, y4]
      exact this)
    t (by rw [hlen, htk]) htT res0
  rw [hq, e1, Option.some.injEq] at hline
  rw [hline]
  exact e2

/-! The hypotheses of C211 are met. -/

/-- The lift's perfect samples as records, timed from the start time 10. -/
noncomputable def liftSamples (dt : ℝ) : ℕ → ℝ → List (ImuRec ℝ)
  | 0, _ => []
  | k + 1, t => ⟨10 + (t + dt), liftImpulse (t + dt) - liftImpulse t, (t + dt) • earthRate (1 / 2) - t • earthRate (1 / 2)⟩ :: liftSamples dt k (t + dt)

/-- A true fix of the lift's antenna, 2 m above the device, as a line of a file. -/
noncomputable def liftLine (t : ℝ) : GnssFields ℝ := ⟨10 + t, 1 / 2 / deg, 1 / deg, 102 + 3 * t, fun _ => 1, 0⟩

/-- A true fix for every sample. -/
noncomputable def liftLines (dt : ℝ) : ℕ → ℝ → List (GnssFields ℝ)
  | 0, _ => []
  | k + 1, t => liftLine (t + dt) :: liftLines dt k (t + dt)

/-- The two files of the lift, merged: the last fix comes after the last sample and is not used. -/
theorem lift_merge (dt : ℝ) (hd : 0 < dt) (k : ℕ) : ∀ t, ∃ u, u = merge (liftSamples dt k t) (fixRecords (liftLines dt k t)) ∧
    imuPart u = liftSamples dt k t ∧ (gnssPart u).length = k - 1 ∧
    ∀ a m b, u = a ++ .gnss m :: b → ∃ z, z = liftLine (t + (imuPart a).length * dt) ∧ m = ⟨z.time, z.lat, z.lon, z.height, z.std, 1#32⟩ := by
  induction k with
  | zero =>
    intro t
    refine ⟨_, rfl, ?_, ?_, ?_⟩
    · simp [liftSamples, merge, imuPart]
    · simp [liftSamples, merge, gnssPart]
    · intro a m b hh
      rcases a with _ | ⟨c, a⟩ <;> exact absurd hh (by simp [liftSamples, merge])
  | succ k ih =>
    intro t
    obtain ⟨u, h1, h2, h3, h4⟩ := ih (t + dt)
    obtain ⟨i, hi⟩ : ∃ i : ImuRec ℝ, i = ⟨10 + (t + dt), liftImpulse (t + dt) - liftImpulse t, (t + dt) • earthRate (1 / 2) - t • earthRate (1 / 2)⟩ := ⟨_, rfl⟩
    obtain ⟨z, hz⟩ : ∃ z, z = liftLine (t + dt) := ⟨_, rfl⟩
    obtain ⟨g, hg⟩ : ∃ g : GnssRec ℝ, g = ⟨z.time, z.lat, z.lon, z.height, z.std, 1#32⟩ := ⟨_, rfl⟩
    have e1 : liftSamples dt (k + 1) t = i :: liftSamples dt k (t + dt) := by rw [hi]; rfl
    have e2 : fixRecords (liftLines dt (k + 1) t) = g :: fixRecords (liftLines dt k (t + dt)) := by rw [hg, hz]; rfl
    have it : i.time = 10 + (t + dt) := by rw [hi]
    have gt : g.time = 10 + (t + dt) := by rw [hg, hz]; rfl
    have same : ¬ Fl.lt g.time i.time = true := by rw [it, gt]; show ¬ decide ((10 + (t + dt) : ℝ) < 10 + (t + dt)) = true; simp
    rw [e1, e2, merge, if_neg same]
    cases k with
    | zero =>
      have e3 : merge (liftSamples dt 0 (t + dt)) (g :: fixRecords (liftLines dt 0 (t + dt))) = [] := by simp [liftSamples, merge]
      rw [e3]
      refine ⟨_, rfl, rfl, rfl, ?_⟩
      intro a m b hh
      rcases a with _ | ⟨c, _ | ⟨c', a⟩⟩ <;> exact absurd hh (by simp)
    | succ k =>
      obtain ⟨i', hi'⟩ : ∃ i' : ImuRec ℝ, i' = ⟨10 + (t + dt + dt), liftImpulse (t + dt + dt) - liftImpulse (t + dt), (t + dt + dt) • earthRate (1 / 2) - (t + dt) • earthRate (1 / 2)⟩ := ⟨_, rfl⟩
      have e4 : liftSamples dt (k + 1) (t + dt) = i' :: liftSamples dt k (t + dt + dt) := by rw [hi']; rfl
      have it' : i'.time = 10 + (t + dt + dt) := by rw [hi']
      have later : Fl.lt g.time i'.time = true := by rw [gt, it']; exact decide_eq_true (by linarith)
      rw [e4, merge, if_pos later, ← e4, ← h1]
      refine ⟨_, rfl, ?_, ?_, ?_⟩
      · show i :: imuPart u = _
        rw [h2]
      · show (gnssPart u).length + 1 = _
        rw [h3]; omega
      · intro a m b hh
        rcases a with _ | ⟨c, _ | ⟨c', a⟩⟩
        · exact absurd hh (by simp)
        · simp only [List.cons_append, List.nil_append, List.cons.injEq, Rec.gnss.injEq] at hh
          refine ⟨_, rfl, ?_⟩
          rw [← hh.2.1, ← hh.1, hg, hz]
          have e5 : (imuPart [Rec.imu i]).length = 1 := rfl
          rw [e5]; simp
        · simp only [List.cons_append, List.cons.injEq] at hh
          obtain ⟨z', q1, q2⟩ := h4 a m b hh.2.2
          refine ⟨z', ?_, q2⟩
          rw [q1, ← hh.1, ← hh.2.1]
          have e5 : imuPart (Rec.imu i :: Rec.gnss g :: a) = i :: imuPart a := rfl
          rw [e5, List.length_cons]
          congr 1; push_cast; ring

theorem lift_times (dt : ℝ) (hd : 0 < dt) (k : ℕ) : ∀ t, 0 ≤ t → (∀ m ∈ liftSamples dt k t, m.time ≤ 10 + t + k * dt) ∧ (∀ m ∈ liftLines dt k t, 10 < m.time) ∧
    (liftSamples dt k t).length = k ∧ (liftLines dt k t).length = k ∧
    ReadsNear 0 (Fusion.zeroOpt : Opt ℝ).imuPara dt (fun t => t • earthRate (1 / 2)) liftImpulse t ((liftSamples dt k t).map fun r => ⟨r.time, r.gyro, r.acce⟩) := by
  induction k with
  | zero =>
    intro t _
    refine ⟨by simp [liftSamples], by simp [liftLines], rfl, rfl, trivial⟩
  | succ k ih =>
    intro t ht
    obtain ⟨h1, h2, h3, h4, h5⟩ := ih (t + dt) (by linarith)
    have hk : 0 ≤ (k : ℝ) * dt := by positivity
    refine ⟨?_, ?_, ?_, ?_, ⟨⟨?_, ?_⟩, h5⟩⟩
    · intro m hm
      rw [liftSamples] at hm
      push_cast
      rcases List.mem_cons.1 hm with rfl | hm
      · dsimp only; linarith
      · have := h1 m hm; linarith
    · intro m hm
      rw [liftLines] at hm
      rcases List.mem_cons.1 hm with rfl | hm
      · show 10 < 10 + (t + dt); linarith
      · exact h2 m hm
    · rw [liftSamples, List.length_cons, h3]
    · rw [liftLines, List.length_cons, h4]
    · rw [show (_ - _ : V3 ℝ) = 0 by ext i; fin_cases i <;> simp [Fusion.zeroOpt, zero3, v3]]
      rw [len_zero', zero_mul]
    · rw [show (_ - _ : V3 ℝ) = 0 by ext i; fin_cases i <;> simp [Fusion.zeroOpt, zero3, v3]]
      rw [len_zero', zero_mul]

/-- The lift's configuration with a file of fixes. -/
noncomputable def fixCfg (rate : Int) : Config ℝ :=
  { liftCfg rate with gnss := ⟨true, "gnss.txt", 0, fun _ => 0, false, ![0, 0, -2], 0, 1, 1⟩ }

/-- The hypotheses of C211 are met on the flight of the lift beside C201: a file of perfect samples (after two that are skipped) and a file
with a true fix at the time of every sample, of which all but the last are used. -/
example (rate : Int) (hr : 0 < rate) (dt : ℝ) (hdt : dt = 1 / rate) (k : ℕ) (hk : k * dt ≤ 1000) : WithFixes (fixCfg rate) ∧ len (fixCfg rate).gnss.levelArm = 2 ∧
    (∀ i, |(fixCfg rate).imu.para.gsIni i| ≤ 1) ∧ (∀ i, |(fixCfg rate).imu.para.asIni i| ≤ 1) ∧ (fixCfg rate).align.initPva = liftGiven ∧
    ∃ (samples : List (ImuRec ℝ)) (fixes : List (GnssFields ℝ)) (used : List (Rec ℝ)), samples ≠ [] ∧ fixes ≠ [] ∧ fixes.length = k + 1 ∧
      (∀ m ∈ samples, m.time < 2147483647) ∧ (∀ m ∈ fixes, 0 < m.time) ∧ used = usedRecords (fixCfg rate) (fixRecords fixes) samples ∧
      (imuPart used).length = k + 1 ∧ (gnssPart used).length = k ∧
      ReadsNear 0 (fixCfg rate).imu.para dt (fun t => t • earthRate (1 / 2)) liftImpulse 0 ((imuPart used).map fun r => ⟨r.time, r.gyro, r.acce⟩) ∧
      ∃ d, rgioeInit Ex.zJunk Ex.zDev (some (fixCfg rate).getOption) (some (fixCfg rate).align.initPva) = some (0, d) ∧
      ∀ (o : Outage ℝ) (g0 : ℝ) a m b, used = a ++ .gnss m :: b → hidden (fixCfg rate) o m = false → imuPart a ≠ [] → ∀ t, t = (imuPart a).length * dt →
        FixGood 1 0 0 (fixCfg rate).gnss.scaleOfStd (runCalls (callsFor (hidden (fixCfg rate) o) a) (g0, d)).2.df.kf.P (asFix m)
          (antennaAt (1 / 2) 1 (100 + 3 * t) 1 (fixCfg rate).gnss.levelArm) := by
  have hd : 0 < dt := by rw [hdt]; exact one_div_pos.2 (by exact_mod_cast hr)
  refine ⟨⟨rfl, rfl, rfl, rfl, rfl, rfl, Or.inl rfl, rfl, hr⟩, ?_, ?_, ?_, rfl, ?_⟩
  · show len (![0, 0, -2] : V3 ℝ) = 2
    have q : len (![0, 0, -2] : V3 ℝ) ^ 2 = 4 := by rw [len_sq]; simp; norm_num
    have q0 := len_nonneg (![0, 0, -2] : V3 ℝ)
    nlinarith
  · intro i; fin_cases i <;> simp [fixCfg, liftCfg, Fusion.zeroOpt, zero3, v3]
  · intro i; fin_cases i <;> simp [fixCfg, liftCfg, Fusion.zeroOpt, zero3, v3]
  obtain ⟨t1, t2, t3, t4, t5⟩ := lift_times dt hd (k + 1) 0 (le_refl 0)
  obtain ⟨u, u1, u2, u3, u4⟩ := lift_merge dt hd (k + 1) 0
  have hu : u = usedRecords (fixCfg rate) (fixRecords (liftLines dt (k + 1) 0)) (⟨9, 0, 0⟩ :: ⟨10, 0, 0⟩ :: liftSamples dt (k + 1) 0) := by
    obtain ⟨g, gs, hg, hgt⟩ : ∃ g gs, fixRecords (liftLines dt (k + 1) 0) = g :: gs ∧ 10 < g.time :=
      ⟨_, _, rfl, t2 _ (by rw [liftLines]; exact List.mem_cons_self ..)⟩
    have e1 : Fl.lt (9 : ℝ) 10 = true := decide_eq_true (by norm_num)
    have e2 : ¬ Fl.lt (10 : ℝ) 10 = true := by show ¬ decide ((10 : ℝ) < 10) = true; simp
    have e3 : ¬ Fl.lt g.time (9 : ℝ) = true := by show ¬ decide (g.time < 9) = true; rw [decide_eq_true_eq]; linarith
    have e4 : ¬ Fl.lt g.time (10 : ℝ) = true := by show ¬ decide (g.time < 10) = true; rw [decide_eq_true_eq]; linarith
    unfold usedRecords
    rw [u1, hg, merge, if_neg e3, merge, if_neg e4, List.dropWhile_cons_of_pos (by exact e1), List.dropWhile_cons_of_neg (by exact e2)]
    rfl
  obtain ⟨d, hdi⟩ : ∃ d, rgioeInit Ex.zJunk Ex.zDev (some (fixCfg rate).getOption) (some (fixCfg rate).align.initPva) = some (0, d) := by
    unfold rgioeInit
    dsimp only
    rw [if_neg (by simp)]
    exact ⟨_, rfl⟩
  refine ⟨_, liftLines dt (k + 1) 0, u, List.cons_ne_nil _ _, by rw [liftLines]; exact List.cons_ne_nil _ _, t4, ?_, fun m hm => by have := t2 m hm; linarith, hu, by rw [u2, t3], u3,
    by rw [u2]; exact t5, d, hdi, ?_⟩
  · intro m hm
    rcases List.mem_cons.1 hm with rfl | hm
    · norm_num
    rcases List.mem_cons.1 hm with rfl | hm
    · norm_num
    have := t1 m hm
    push_cast at this
    have hd1 : dt ≤ 1 := by
      rw [hdt, div_le_one (by exact_mod_cast hr)]
      exact_mod_cast hr
    linarith
  intro o g0 a m b hab hh hia t ht
  obtain ⟨z, z1, z2⟩ := u4 a m b hab
  rw [zero_add, ← ht] at z1
  obtain ⟨s0, hs0⟩ : ∃ s0, s0 = fstart g0 (Ex.zJunk : Junk ℝ).df (makeNavEpoch liftGiven (fixCfg rate).getOption) (fixCfg rate).getOption := ⟨_, rfl⟩
  have hq : Fusion.initQ0 (fixCfg rate).getOption = 0 := by
    ext i j
    simp only [Fusion.initQ0, diagM, Config.getOption, fixCfg, liftCfg, Fusion.zeroOpt, Matrix.zero_apply]
    split_ifs <;> simp [zero3, v3]
  have hP : s0.2.kf.P = 0 := by
    have e : s0.2.kf.P = Fusion.initStd (makeNavEpoch liftGiven (fixCfg rate).getOption) (fixCfg rate).getOption * Fusion.initStd (makeNavEpoch liftGiven (fixCfg rate).getOption) (fixCfg rate).getOption := by
      rw [hs0]; exact mmul_real _ _
    have z : Fusion.initStd (makeNavEpoch liftGiven (fixCfg rate).getOption) (fixCfg rate).getOption = 0 := by
      ext i j
      fin_cases i <;> fin_cases j <;> simp [Fusion.initStd, setBlock, diagM, makeNavEpoch, Config.getOption, fixCfg, liftCfg, Fusion.zeroOpt, zero3, v3]
    rw [e, z, Matrix.mul_zero]
  have key := quiet_after (fixCfg rate).getOption (noAids_cfg _ rfl (Or.inl rfl)) hq (by show (0 : ℝ) ≤ 1; norm_num) s0 (by rw [hs0]; exact ⟨rfl, rfl, rfl⟩)
    (by rw [hs0]; exact init_valid _ _ _ _) (callsFor (hidden (fixCfg rate) o) a)
  have hne : imusOf (callsFor (hidden (fixCfg rate) o) a) ≠ [] := by
    rw [imus_callsFor]
    intro hh
    exact hia (List.map_eq_nil_iff.1 hh)
  have er := (C126_given_start Ex.zJunk Ex.zDev d (fixCfg rate).getOption liftGiven rfl hdi (callsFor (hidden (fixCfg rate) o) a)
    (by rw [← calls_replay]; exact replayCalls_noInit _ _) hne g0 _ rfl).1
  rw [← hs0] at er
  have er2 : (runCalls (callsFor (hidden (fixCfg rate) o) a) (g0, d)).2.df = (filterAfter s0 (callsFor (hidden (fixCfg rate) o) a)).2 := congrArg Prod.snd er
  rw [er2]
  have hz0 := key.2.2 hP
  refine ⟨?_, ?_, key.2.1, fun i => by rw [hz0]; simp⟩
  · have e : fixPlace (asFix m) = fixPlace (liftFix t) := by rw [z2, z1]; rfl
    rw [e, ← lift_antenna]
    show len (_ - _) ≤ 0
    rw [show (fixCfg rate).gnss.levelArm = ![0, 0, -2] from rfl, sub_self, len_zero']
  · intro i
    rw [z2, z1]
    show (1 : ℝ) ^ 2 ≤ 1 ^ 2 * 1
    norm_num
end Verif.Props
