import Verif.Props.CovFile
import Verif.Props.CovBound
import Verif.Props.CovDrop
/-! C216: the deviations in a result file. -/
namespace Verif.Props
open Verif Verif.Spec Verif.Convert Matrix

theorem calls_append (hide : GnssRec ℝ → Bool) (xs ys : List (Rec ℝ)) : callsFor hide (xs ++ ys) = callsFor hide xs ++ callsFor hide ys := by
  induction xs with
  | nil => rfl
  | cons x xs ih =>
    cases x with
    | imu x => simp only [List.cons_append, callsFor, ih]
    | gnss x =>
      simp only [List.cons_append, callsFor]
      split_ifs
      · exact ih
      · rw [ih]; rfl

/-- C216: under the hypotheses of C213 every deviation in the results of a run is, from the first sample on, at most a constant that depends on the flight limits, the duration, the number of fixes
and the bounds on the configuration. -/
theorem C216_file_deviations (B : Limits) (hB : B.Sane) (T l s q τ σ : ℝ) (hτ : 0 < τ) (hσ : 0 < σ) (N : ℕ) : ∃ K r : ℝ, 0 < r ∧
    ∀ (lat lon h : ℝ → ℝ) (v : ℝ → V3 ℝ) (C : ℝ → M3 ℝ) (w θ f α : ℝ → V3 ℝ), TrueFlight B T lat lon h v C w θ f α →
    ∀ cfg : Config ℝ, WithFixes cfg → len cfg.gnss.levelArm ≤ l → SpreadsWithin s q τ cfg.getOption → (∀ i, |cfg.imu.para.gsIni i| ≤ 1) → (∀ i, |cfg.imu.para.asIni i| ≤ 1) →
    ∀ (e δ ε dt x : ℝ), dt = 1 / cfg.imu.dRate → x = e + δ + ε + dt → x ≤ r → 0 ≤ δ → 0 ≤ ε →
    ResultNear e cfg.align.initPva (lat 0) (lon 0) (h 0) (v 0) (C 0) →
    ∀ (samples : List (ImuRec ℝ)) (fixes : List (GnssFields ℝ)), samples ≠ [] → fixes ≠ [] → fixes.length ≤ N →
    (∀ m ∈ samples, m.time < 2147483647) → (∀ m ∈ fixes, 0 < m.time) → ∀ used, used = usedRecords cfg (fixRecords fixes) samples →
    ReadsNear δ cfg.imu.para dt θ α 0 ((imuPart used).map fun r => ⟨r.time, r.gyro, r.acce⟩) → (imuPart used).length * dt ≤ T →
    ∀ (g0 : ℝ) (dev0 d : Dev ℝ) (junk : Junk ℝ) (res0 : NavOutput ℝ) (o : Outage ℝ) (su : Surroundings ℝ) (fs : Files ℝ),
    fs.imuText = some (samples.flatMap tokens, false) → fs.gnss = some (fixes.map .fields, false) →
    rgioeInit junk dev0 (some cfg.getOption) (some cfg.align.initPva) = some (0, d) →
    (∀ a m b, used = a ++ .gnss m :: b → hidden cfg o m = false → imuPart a ≠ [] → ∀ t, t = (imuPart a).length * dt →
      FixWithin σ ε cfg.gnss.scaleOfStd (asFix m) (antennaAt (lat t) (lon t) (h t) (C t) cfg.gnss.levelArm)) →
    ∃ ls, (∀ fuel, samples.length < fuel → fileMain fuel g0 dev0 junk res0 o cfg su fs = .lines ls) ∧
      ls.length = used.length ∧
      ∀ (k : ℕ) (q : NavOutput ℝ) (n : ℕ) (t : ℝ), ls[k]? = some q → n = (imuPart (used.take (k + 1))).length → 0 < n → t = n * dt →
        ∀ i, q.posStd i ≤ K ∧ q.vnStd i ≤ K ∧ q.attiStd i ≤ K := by
  obtain ⟨K, r, hr, H⟩ := C214_deviations_stay_bounded B hB T l s q τ σ hτ hσ N
  refine ⟨K, r, hr, ?_⟩
  intro lat lon h v C w θ f α F cfg hc hl hS hgs has e δ ε dt x hdt hx hxr hδ hε hn samples fixes n1 n2 hN ht hft used hu hrd hT g0 dev0 d junk res0 o su fs hi hg hd hfix
  have hs : smallTimes samples := fun i hi => by
    simp only [Fl.lt]
    exact decide_eq_true (by simpa [Fl.lit] using ht i hi)
  obtain ⟨ls, d', hd', h1, h2, h3⟩ := C211_one_line_per_record g0 dev0 junk res0 o cfg hc su fs samples fixes n1 n2 hs
    (fun m hm => decide_eq_true (hft m hm)) hi hg
  rw [hd, Option.some.injEq, Prod.mk.injEq] at hd'
  obtain ⟨-, rfl⟩ := hd'
  rw [← hu] at h2 h3
  refine ⟨ls, h1, h2, ?_⟩
  intro k q n t hq hnk hn0 htk
  have hk : k < ls.length := (List.getElem?_eq_some_iff.mp hq).1
  obtain ⟨rs, hrs⟩ : ∃ rs, rs = used.take (k + 1) := ⟨_, rfl⟩
  have hsplit : used = rs ++ used.drop (k + 1) := by rw [hrs, List.take_append_drop]
  rw [← hrs] at hnk
  have hne : imuPart rs ≠ [] := by intro hh; rw [hh] at hnk; simp at hnk; omega
  have hline := (h3 k hk rs hrs).2 hne
  have hdt0 : 0 < dt := by rw [hdt]; exact one_div_pos.2 (by exact_mod_cast hc.rate)
  have hlen : (imusOf (callsFor (hidden cfg o) rs)).length = n := by rw [imus_callsFor, List.length_map, hnk]
  have htake : (imuPart used).take n = imuPart rs := by
    rw [hsplit, imuPart_append, hnk, List.take_left]
  have hreads : ReadsNear δ cfg.imu.para dt θ α 0 (imusOf (callsFor (hidden cfg o) rs)) := by
    rw [imus_callsFor, ← htake, List.map_take]
    exact readsNear_take _ _ _ _ _ _ _ _ hrd
  have htT : t ≤ T := by
    refine le_trans ?_ hT
    rw [htk]
    refine mul_le_mul_of_nonneg_right ?_ hdt0.le
    have : n ≤ (imuPart used).length := by rw [hsplit, imuPart_append, List.length_append, ← hnk]; omega
    exact_mod_cast this
  have hcount : usableCount (callsFor (hidden cfg o) rs) ≤ N := by
    have q1 : usableCount (callsFor (hidden cfg o) rs) ≤ (gnssPart rs).length := (List.length_filter_le _ _).trans (fixes_callsFor _ _)
    have q2 : (gnssPart rs).length ≤ (gnssPart used).length := by
      rw [hrs]; exact ((List.take_sublist _ _).filterMap _).length_le
    have q3 := used_fixes cfg (fixRecords fixes) samples
    rw [← hu] at q3
    have q4 : (fixRecords fixes).length = fixes.length := List.length_map _
    omega
  obtain ⟨hres, -, -⟩ := H lat lon h v C w θ f α F junk dev0 d cfg.getOption cfg.align.initPva hc.given (noAids_cfg cfg hc.noZupt hc.noNhc)
    (show Config.b2i cfg.output.projectEnable = 0 by rw [hc.centre]; rfl) hc.rate hl hS hgs has hd e δ ε dt x hdt hx hxr hδ hε hn
    (callsFor (hidden cfg o) rs) g0 (by rw [← calls_replay]; exact replayCalls_noInit _ _)
    (by intro hh; rw [hh] at hlen; simp at hlen; omega) hcount hreads
    (by
      intro a m b hab hus hia t1 hτ
      obtain ⟨xs, ys, m', y1, y2, y3, y4⟩ := callsFor_fix _ rs a m b hab
      rw [y4, imus_callsFor, List.length_map] at hτ
      rw [y4, imus_callsFor] at hia
      have := hfix xs m' (ys ++ used.drop (k + 1)) (hsplit.trans (by rw [y1, List.append_assoc, List.cons_append])) y2 (fun hh => hia (by rw [hh]; rfl)) t1 hτ
      rw [y3]
      exact this)
    t (by rw [hlen, htk]) htT
  obtain ⟨q', e1, e2⟩ := hres res0
  rw [hq, e1, Option.some.injEq] at hline
  rw [hline]
  exact e2

/-- C216: under the hypotheses of C213 the result written for a fix that is used has no deviation larger than the result written before it. -/
theorem C216_fix_lines (B : Limits) (hB : B.Sane) (T l s q τ σ : ℝ) (hτ : 0 < τ) (hσ : 0 < σ) (N : ℕ) : ∃ r : ℝ, 0 < r ∧
    ∀ (lat lon h : ℝ → ℝ) (v : ℝ → V3 ℝ) (C : ℝ → M3 ℝ) (w θ f α : ℝ → V3 ℝ), TrueFlight B T lat lon h v C w θ f α →
    ∀ cfg : Config ℝ, WithFixes cfg → len cfg.gnss.levelArm ≤ l → SpreadsWithin s q τ cfg.getOption → (∀ i, |cfg.imu.para.gsIni i| ≤ 1) → (∀ i, |cfg.imu.para.asIni i| ≤ 1) →
    ∀ (e δ ε dt x : ℝ), dt = 1 / cfg.imu.dRate → x = e + δ + ε + dt → x ≤ r → 0 ≤ δ → 0 ≤ ε →
    ResultNear e cfg.align.initPva (lat 0) (lon 0) (h 0) (v 0) (C 0) →
    ∀ (samples : List (ImuRec ℝ)) (fixes : List (GnssFields ℝ)), samples ≠ [] → fixes ≠ [] → fixes.length ≤ N →
    (∀ m ∈ samples, m.time < 2147483647) → (∀ m ∈ fixes, 0 < m.time) → ∀ used, used = usedRecords cfg (fixRecords fixes) samples →
    ReadsNear δ cfg.imu.para dt θ α 0 ((imuPart used).map fun r => ⟨r.time, r.gyro, r.acce⟩) → (imuPart used).length * dt ≤ T →
    ∀ (g0 : ℝ) (dev0 d : Dev ℝ) (junk : Junk ℝ) (res0 : NavOutput ℝ) (o : Outage ℝ) (su : Surroundings ℝ) (fs : Files ℝ),
    fs.imuText = some (samples.flatMap tokens, false) → fs.gnss = some (fixes.map .fields, false) →
    rgioeInit junk dev0 (some cfg.getOption) (some cfg.align.initPva) = some (0, d) →
    (∀ a m b, used = a ++ .gnss m :: b → hidden cfg o m = false → imuPart a ≠ [] → ∀ t, t = (imuPart a).length * dt →
      FixWithin σ ε cfg.gnss.scaleOfStd (asFix m) (antennaAt (lat t) (lon t) (h t) (C t) cfg.gnss.levelArm)) →
    ∃ ls, (∀ fuel, samples.length < fuel → fileMain fuel g0 dev0 junk res0 o cfg su fs = .lines ls) ∧
      ls.length = used.length ∧
      ∀ (k : ℕ) (q1 q2 : NavOutput ℝ) (m : GnssRec ℝ), ls[k]? = some q1 → ls[k + 1]? = some q2 → used[k + 1]? = some (.gnss m) → hidden cfg o m = false → imuPart (used.take (k + 1)) ≠ [] →
        ∀ i, q2.posStd i ≤ q1.posStd i ∧ q2.vnStd i ≤ q1.vnStd i ∧ q2.attiStd i ≤ q1.attiStd i := by
  obtain ⟨r, hr, H⟩ := C215_fixes_never_add_uncertainty B hB T l s q τ σ hτ hσ N
  refine ⟨r, hr, ?_⟩
  intro lat lon h v C w θ f α F cfg hc hl hS hgs has e δ ε dt x hdt hx hxr hδ hε hn samples fixes n1 n2 hN ht hft used hu hrd hT g0 dev0 d junk res0 o su fs hi hg hd hfix
  have hs : smallTimes samples := fun i hi => by
    simp only [Fl.lt]
    exact decide_eq_true (by simpa [Fl.lit] using ht i hi)
  obtain ⟨ls, d', hd', h1, h2, h3⟩ := C211_one_line_per_record g0 dev0 junk res0 o cfg hc su fs samples fixes n1 n2 hs
    (fun m hm => decide_eq_true (hft m hm)) hi hg
  rw [hd, Option.some.injEq, Prod.mk.injEq] at hd'
  obtain ⟨-, rfl⟩ := hd'
  rw [← hu] at h2 h3
  refine ⟨ls, h1, h2, ?_⟩
  intro k q1 q2 m hq1 hq hm hmh hne1
  have hk : k + 1 < ls.length := (List.getElem?_eq_some_iff.mp hq).1
  obtain ⟨rs, hrs⟩ : ∃ rs, rs = used.take (k + 1 + 1) := ⟨_, rfl⟩
  have hsplit : used = rs ++ used.drop (k + 1 + 1) := by rw [hrs, List.take_append_drop]
  have hrs2 : rs = used.take (k + 1) ++ [.gnss m] := by rw [hrs, List.take_add_one, hm]; rfl
  have hcalls : callsFor (hidden cfg o) rs = callsFor (hidden cfg o) (used.take (k + 1)) ++ [.gnss (some (asFix m))] := by
    rw [hrs2, calls_append]
    simp [callsFor, hmh]
  have hne : imuPart rs ≠ [] := by rw [hrs2, imuPart_append]; intro hh; exact hne1 (List.append_eq_nil_iff.1 hh).1
  have hline1 := (h3 k (by omega) _ rfl).2 hne1
  have hline := (h3 (k + 1) hk rs hrs).2 hne
  obtain ⟨n, hnk⟩ : ∃ n, n = (imuPart rs).length := ⟨_, rfl⟩
  have hn0 : 0 < n := by rw [hnk]; exact List.length_pos_iff.2 hne
  obtain ⟨t, htk⟩ : ∃ t : ℝ, t = n * dt := ⟨_, rfl⟩
  have hdt0 : 0 < dt := by rw [hdt]; exact one_div_pos.2 (by exact_mod_cast hc.rate)
  have hlen : (imusOf (callsFor (hidden cfg o) rs)).length = n := by rw [imus_callsFor, List.length_map, hnk]
  have htake : (imuPart used).take n = imuPart rs := by
    rw [hsplit, imuPart_append, hnk, List.take_left]
  have hreads : ReadsNear δ cfg.imu.para dt θ α 0 (imusOf (callsFor (hidden cfg o) rs)) := by
    rw [imus_callsFor, ← htake, List.map_take]
    exact readsNear_take _ _ _ _ _ _ _ _ hrd
  have htT : t ≤ T := by
    refine le_trans ?_ hT
    rw [htk]
    refine mul_le_mul_of_nonneg_right ?_ hdt0.le
    have : n ≤ (imuPart used).length := by rw [hsplit, imuPart_append, List.length_append, ← hnk]; omega
    exact_mod_cast this
  have hcount : usableCount (callsFor (hidden cfg o) rs) ≤ N := by
    have q1 : usableCount (callsFor (hidden cfg o) rs) ≤ (gnssPart rs).length := (List.length_filter_le _ _).trans (fixes_callsFor _ _)
    have q2 : (gnssPart rs).length ≤ (gnssPart used).length := by
      rw [hrs]; exact ((List.take_sublist _ _).filterMap _).length_le
    have q3 := used_fixes cfg (fixRecords fixes) samples
    rw [← hu] at q3
    have q4 : (fixRecords fixes).length = fixes.length := List.length_map _
    omega
  obtain ⟨hres, -⟩ := H lat lon h v C w θ f α F junk dev0 d cfg.getOption cfg.align.initPva hc.given (noAids_cfg cfg hc.noZupt hc.noNhc)
    (show Config.b2i cfg.output.projectEnable = 0 by rw [hc.centre]; rfl) hc.rate hl hS hgs has hd e δ ε dt x hdt hx hxr hδ hε hn
    (callsFor (hidden cfg o) rs) g0 (by rw [← calls_replay]; exact replayCalls_noInit _ _)
    (by intro hh; rw [hh] at hlen; simp at hlen; omega) hcount hreads
    (by
      intro a m b hab hus hia t1 hτ
      obtain ⟨xs, ys, m', y1, y2, y3, y4⟩ := callsFor_fix _ rs a m b hab
      rw [y4, imus_callsFor, List.length_map] at hτ
      rw [y4, imus_callsFor] at hia
      have := hfix xs m' (ys ++ used.drop (k + 1 + 1)) (hsplit.trans (by rw [y1, List.append_assoc, List.cons_append])) y2 (fun hh => hia (by rw [hh]; rfl)) t1 hτ
      rw [y3]
      exact this)
    (by rw [hlen, ← htk]; exact htT) _ (asFix m) [] hcalls (Or.inl rfl) (by rw [imus_callsFor]; intro hh; exact hne1 (List.map_eq_nil_iff.1 hh))
  obtain ⟨p1, p2, e1, e2, e3⟩ := hres res0
  rw [← hcalls] at e2
  rw [hq1, e1, Option.some.injEq] at hline1
  rw [hq, e2, Option.some.injEq] at hline
  rw [hline1, hline]
  exact e3

/-! The hypotheses are those of C213; the example in `CovFile` meets them, with a visible fix after every sample. -/
/-- In that example with exactly known start values (`s = 0`) the covariance is no valid one after the first sample (C26): C212 to C216 do cover runs which C210's hypothesis excludes. -/
example (rate : Int) (hr : rate ≠ 0) (q τ : ℝ) (hq : q ≠ 0) (g : ℝ) (m : Imu ℝ) : ¬ validCov
    (frun [.time m] (fstart g (Ex.zJunk : Junk ℝ).df (makeNavEpoch liftGiven (walkCfg rate 0 q τ).getOption) (walkCfg rate 0 q τ).getOption)).2.kf.P := by
  refine C26_first_sample_breaks_covariance g _ _ _ m ?_ ?_ hq hr rfl rfl
  · funext i; fin_cases i <;> simp [makeNavEpoch, Config.getOption, zero3, v3]
  · funext i; fin_cases i <;> simp [makeNavEpoch, Config.getOption, zero3, v3]
end Verif.Props
