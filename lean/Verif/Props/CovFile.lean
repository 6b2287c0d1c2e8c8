import Verif.Props.CovC212
import Verif.Props.FixFile
/-! C213: the result file of a run with fixes, with nothing assumed about the covariance; and flights that meet the hypotheses of C212 and C213. -/
namespace Verif.Props
open Verif Verif.Spec Verif.Convert Matrix

/-- C213: for every set of flight limits, duration, number of fixes, lever arm length, bounds on the deviations, random walks and correlation times of the configuration and bound on the scaled
deviations of the fixes there are a constant and a radius such that a post-processing run started from values near the truth, on a text file of samples and a seven-column file of fixes, ends,
writes one line per record it uses, and from the first sample on every line is within the constant times start error plus sensor error plus fix error plus sampling interval of the truth at the
time of the last sample before it. Nothing is assumed about the filter's covariance. -/
theorem C213_result_file_with_fixes (B : Limits) (hB : B.Sane) (T l s q τ σ : ℝ) (hτ : 0 < τ) (hσ : 0 < σ) (N : ℕ) : ∃ K r : ℝ, 0 < r ∧
    ∀ (lat lon h : ℝ → ℝ) (v : ℝ → V3 ℝ) (C : ℝ → M3 ℝ) (w θ f α : ℝ → V3 ℝ), TrueFlight B T lat lon h v C w θ f α →
    ∀ cfg : Config ℝ, WithFixes cfg → len cfg.gnss.levelArm ≤ l → SpreadsWithin s q τ cfg.getOption → (∀ i, |cfg.imu.para.gsIni i| ≤ 1) → (∀ i, |cfg.imu.para.asIni i| ≤ 1) →
    ∀ (e δ ε dt x : ℝ), dt = 1 / cfg.imu.dRate → x = e + δ + ε + dt → x ≤ r → 0 ≤ δ → 0 ≤ ε →
    ResultNear e cfg.align.initPva (lat 0) (lon 0) (h 0) (v 0) (C 0) →
    ∀ (samples : List (ImuRec ℝ)) (fixes : List (GnssFields ℝ)), samples ≠ [] → fixes ≠ [] → fixes.length ≤ N →
    (∀ m ∈ samples, m.time < 2147483647) → (∀ m ∈ fixes, 0 < m.time) → ∀ used, used = usedRecords cfg (fixRecords fixes) samples →
    ReadsNear δ cfg.imu.para dt θ α 0 ((imuPart used).map fun r => ⟨r.time, r.gyro, r.acce⟩) → (imuPart used).length * dt ≤ T →
    ∀ (g0 : ℝ) (dev0 d : Dev ℝ) (junk : Junk ℝ) (res0 : NavOutput ℝ) (o : Outage ℝ) (su : Surroundings ℝ) (fs : Files ℝ),
    fs.imuText = some (samples.flatMap tokens, false) → fs.gnss = some (fixes.map .fields, false) →
    rgioeInit junk dev0 (some cfg.getOption) (some cfg.align.initPva) = some (0, d) →
    (∀ a m b, used = a ++ .gnss m :: b → hidden cfg o m = false → imuPart a ≠ [] → ∀ t, t = (imuPart a).length * dt →
      FixWithin σ ε cfg.gnss.scaleOfStd (asFix m) (antennaAt (lat t) (lon t) (h t) (C t) cfg.gnss.levelArm)) →
    ∃ ls, (∀ fuel, samples.length < fuel → fileMain fuel g0 dev0 junk res0 o cfg su fs = .lines ls) ∧
      ls.length = used.length ∧
      ∀ (k : ℕ) (q : NavOutput ℝ) (n : ℕ) (t : ℝ), ls[k]? = some q → n = (imuPart (used.take (k + 1))).length → 0 < n → t = n * dt →
        |inRad q.lat - lat t| ≤ K * x ∧ |inRad q.lon - lon t| ≤ K * x ∧ |q.height - h t| ≤ K * x ∧ len (q.vn - v t) ≤ K * x ∧
        (|C t 2 0| ≤ 99 / 100 → ResultNear (K * x) q (lat t) (lon t) (h t) (v t) (C t)) := by
  obtain ⟨K, r, hr, H⟩ := C212_filter_follows_the_flight B hB T l s q τ σ hτ hσ N
  refine ⟨K, r, hr, ?_⟩
  intro lat lon h v C w θ f α F cfg hc hl hS hgs has e δ ε dt x hdt hx hxr hδ hε hn samples fixes n1 n2 hN ht hft used hu hrd hT g0 dev0 d junk res0 o su fs hi hg hd hfix
  have hs : smallTimes samples := fun i hi => by
    simp only [Fl.lt]
    exact decide_eq_true (by simpa [Fl.lit] using ht i hi)
  obtain ⟨ls, d', hd', h1, h2, h3⟩ := C211_one_line_per_record g0 dev0 junk res0 o cfg hc su fs samples fixes n1 n2 hs
    (fun m hm => decide_eq_true (hft m hm)) hi hg
  rw [hd, Option.some.injEq, Prod.mk.injEq] at hd'
  obtain ⟨-, rfl⟩ := hd'
  rw [← hu] at h2 h3
  refine ⟨ls, h1, h2, ?_⟩
  intro k q n t hq hnk hn0 htk
  have hk : k < ls.length := (List.getElem?_eq_some_iff.mp hq).1
  obtain ⟨rs, hrs⟩ : ∃ rs, rs = used.take (k + 1) := ⟨_, rfl⟩
  have hsplit : used = rs ++ used.drop (k + 1) := by rw [hrs, List.take_append_drop]
  rw [← hrs] at hnk
  have hne : imuPart rs ≠ [] := by intro hh; rw [hh] at hnk; simp at hnk; omega
  have hline := (h3 k hk rs hrs).2 hne
  have hdt0 : 0 < dt := by rw [hdt]; exact one_div_pos.2 (by exact_mod_cast hc.rate)
  have hlen : (imusOf (callsFor (hidden cfg o) rs)).length = n := by rw [imus_callsFor, List.length_map, hnk]
  have htake : (imuPart used).take n = imuPart rs := by
    rw [hsplit, imuPart_append, hnk, List.take_left]
  have hreads : ReadsNear δ cfg.imu.para dt θ α 0 (imusOf (callsFor (hidden cfg o) rs)) := by
    rw [imus_callsFor, ← htake, List.map_take]
    exact readsNear_take _ _ _ _ _ _ _ _ hrd
  have htT : t ≤ T := by
    refine le_trans ?_ hT
    rw [htk]
    refine mul_le_mul_of_nonneg_right ?_ hdt0.le
    have : n ≤ (imuPart used).length := by rw [hsplit, imuPart_append, List.length_append, ← hnk]; omega
    exact_mod_cast this
  have hcount : usableCount (callsFor (hidden cfg o) rs) ≤ N := by
    have q1 : usableCount (callsFor (hidden cfg o) rs) ≤ (gnssPart rs).length := (List.length_filter_le _ _).trans (fixes_callsFor _ _)
    have q2 : (gnssPart rs).length ≤ (gnssPart used).length := by
      rw [hrs]; exact ((List.take_sublist _ _).filterMap _).length_le
    have q3 := used_fixes cfg (fixRecords fixes) samples
    rw [← hu] at q3
    have q4 : (fixRecords fixes).length = fixes.length := List.length_map _
    omega
  obtain ⟨q', e1, e2⟩ := H lat lon h v C w θ f α F junk dev0 d cfg.getOption cfg.align.initPva hc.given (noAids_cfg cfg hc.noZupt hc.noNhc)
    (show Config.b2i cfg.output.projectEnable = 0 by rw [hc.centre]; rfl) hc.rate hl hS hgs has hd e δ ε dt x hdt hx hxr hδ hε hn
    (callsFor (hidden cfg o) rs) g0 (by rw [← calls_replay]; exact replayCalls_noInit _ _)
    (by intro hh; rw [hh] at hlen; simp at hlen; omega) hcount hreads
    (by
      intro a m b hab hus hia t1 hτ
      obtain ⟨xs, ys, m', y1, y2, y3, y4⟩ := callsFor_fix _ rs a m b hab
      rw [y4, imus_callsFor, List.length_map] at hτ
      rw [y4, imus_callsFor] at hia
      have := hfix xs m' (ys ++ used.drop (k + 1)) (hsplit.trans (by rw [y1]; simp)) y2 (fun hh => hia (by rw [hh]; rfl)) t1 hτ
      rw [y3]
      exact this)
    t (by rw [hlen, htk]) htT res0
  rw [hq, e1, Option.some.injEq] at hline
  rw [hline]
  exact e2

/-! The hypotheses of C212 and C213 are met. -/

/-- Sensors with noise: random walks `q`, instabilities `s` with correlation time `τ`. -/
noncomputable def walkPara (s q τ : ℝ) : ImuPara ℝ :=
  { (Fusion.zeroOpt : Opt ℝ).imuPara with arw := q, vrw := q, gbStd := fun _ => s, abStd := fun _ => s, gtCorr := τ, atCorr := τ }

theorem reads_para {δ dt : ℝ} {p p' : ImuPara ℝ} {θ α : ℝ → V3 ℝ} (h1 : p'.gsIni = p.gsIni) (h2 : p'.gbIni = p.gbIni) (h3 : p'.asIni = p.asIni) (h4 : p'.abIni = p.abIni)
    (ms : List (Imu ℝ)) : ∀ t, ReadsNear δ p dt θ α t ms → ReadsNear δ p' dt θ α t ms := by
  induction ms with
  | nil => intro t _; trivial
  | cons m ms ih =>
    intro t h
    refine ⟨?_, ih _ h.2⟩
    rw [h1, h2, h3, h4]
    exact h.1

theorem spreads_walk {s q τ : ℝ} (hs : 0 ≤ s) (hq : 0 ≤ q) (o : Opt ℝ) (h : o.imuPara = walkPara s q τ) (h1 : ∀ i, |o.posStd i| ≤ s) (h2 : ∀ i, |o.velStd i| ≤ s) (h3 : ∀ i, |o.attiStd i| ≤ s) :
    SpreadsWithin s q τ o := by
  refine ⟨h1, h2, h3, ?_, ?_, ?_, ?_, ?_, ?_⟩ <;> rw [h] <;> simp [walkPara, abs_of_nonneg hs, abs_of_nonneg hq]

theorem arm_two : len (![0, 0, -2] : V3 ℝ) = 2 := by
  have q : len (![0, 0, -2] : V3 ℝ) ^ 2 = 4 := by rw [len_sq]; simp; norm_num
  have q0 := len_nonneg (![0, 0, -2] : V3 ℝ)
  nlinarith

/-- The hypotheses of C212 are met on the flight of the lift beside C201, at any sampling rate, for any number of fixes and any initial deviations, instabilities and random walks: exact start
values, perfect samples, and a true fix after every sample. -/
example (rate : Int) (dt : ℝ) (hdt : dt = 1 / rate) (s q τ : ℝ) (hs : 0 ≤ s) (hq : 0 ≤ q) (k : ℕ) : ∃ o : Opt ℝ, o.dRate = rate ∧ o.alignMode = 2 ∧ noAids o ∧ o.outputProjectEnable = 0 ∧ len o.lbGnss = 2 ∧
    SpreadsWithin s q τ o ∧ o.posStd = (fun _ => s) ∧ o.imuPara.arw = q ∧ (∀ i, |o.imuPara.gsIni i| ≤ 1) ∧ (∀ i, |o.imuPara.asIni i| ≤ 1) ∧ ResultNear 0 liftGiven (1 / 2) 1 100 ![0, 0, -3] 1 ∧
    ∃ d, rgioeInit Ex.zJunk Ex.zDev (some o) (some liftGiven) = some (0, d) ∧
    ∃ cs : List (Call ℝ), (∀ c ∈ cs, c.isInit = false) ∧ (imusOf cs).length = k ∧ usableCount cs = k ∧
      ReadsNear 0 o.imuPara dt (fun t => t • earthRate (1 / 2)) liftImpulse 0 (imusOf cs) ∧
      ∀ a m b, cs = a ++ .gnss (some m) :: b → usable m.mode → imusOf a ≠ [] → ∀ t, t = (imusOf a).length * dt →
        FixWithin 1 0 o.gnssStdScale m (antennaAt (1 / 2) 1 (100 + 3 * t) 1 o.lbGnss) := by
  obtain ⟨o, ho⟩ : ∃ o : Opt ℝ, o = { (Ex.opt 2 : Opt ℝ) with dRate := rate, gnssStdScale := 1, lbGnss := ![0, 0, -2], posStd := fun _ => s, velStd := fun _ => s, attiStd := fun _ => s, imuPara := walkPara s q τ } := ⟨_, rfl⟩
  have h4 : o.imuPara = walkPara s q τ := by rw [ho]
  obtain ⟨c1, c2, c3, c4, c5⟩ := lift_calls dt k 0
  refine ⟨o, by rw [ho], by rw [ho]; rfl, by rw [ho]; exact ⟨rfl, Or.inl rfl⟩, by rw [ho]; rfl, by rw [ho]; exact arm_two, spreads_walk hs hq o h4 ?_ ?_ ?_, by rw [ho], by rw [h4]; rfl, ?_, ?_, ?_, ?_⟩
  · intro i; rw [ho]; exact (abs_of_nonneg hs).le
  · intro i; rw [ho]; exact (abs_of_nonneg hs).le
  · intro i; rw [ho]; exact (abs_of_nonneg hs).le
  · intro i; rw [h4]; fin_cases i <;> simp [walkPara, Fusion.zeroOpt, zero3, v3]
  · intro i; rw [h4]; fin_cases i <;> simp [walkPara, Fusion.zeroOpt, zero3, v3]
  · have e : rotOf (zeroPva : NavOutput ℝ).atti = 1 := by
      ext i j
      fin_cases i <;> fin_cases j <;> simp [rotOf, inRad, zeroPva, Rx, Ry, Rz, Matrix.mul_apply, Fin.sum_univ_three, zero3, v3]
    refine ⟨?_, ?_, ?_, ?_, ?_⟩
    · simp only [liftGiven]; rw [rad_deg, sub_self, abs_zero]
    · simp only [liftGiven]; rw [rad_deg, sub_self, abs_zero]
    · simp [liftGiven]
    · simp only [liftGiven]; rw [sub_self, len_zero']
    · intro x
      show len (rotOf (zeroPva : NavOutput ℝ).atti *ᵥ x - (1 : M3 ℝ) *ᵥ x) ≤ 0 * len x
      rw [e, sub_self, len_zero', zero_mul]
  obtain ⟨d, hd⟩ : ∃ d, rgioeInit Ex.zJunk Ex.zDev (some o) (some liftGiven) = some (0, d) := by rw [ho]; exact ⟨_, rfl⟩
  refine ⟨d, hd, liftCalls dt k 0, c1, c2, c3, reads_para ?_ ?_ ?_ ?_ _ _ c4, ?_⟩
  · rw [h4]; rfl
  · rw [h4]; rfl
  · rw [h4]; rfl
  · rw [h4]; rfl
  intro a m b hab hu hia t ht
  have hm := c5 a m b hab
  rw [zero_add, ← ht] at hm
  have harm : o.lbGnss = ![0, 0, -2] := by rw [ho]
  have hsc : o.gnssStdScale = 1 := by rw [ho]
  rw [harm, hsc]
  refine ⟨?_, ?_⟩
  · rw [lift_antenna, hm, sub_self, len_zero']
  · intro i; rw [hm]; simp [liftFix, Ex.fix]

/-- The lift's configuration with a file of fixes and noisy sensors. -/
noncomputable def walkCfg (rate : Int) (s q τ : ℝ) : Config ℝ :=
  { fixCfg rate with imu := ⟨"imu.txt", 0, 0, rate, "", walkPara s q τ⟩ }

/-- The hypotheses of C213 are met on the flight of the lift beside C201, whatever the instabilities and random walks: a file of perfect samples (after two that are skipped) and a file with a
true fix at the time of every sample, of which all but the last are used. -/
example (rate : Int) (hr : 0 < rate) (dt : ℝ) (hdt : dt = 1 / rate) (s q τ : ℝ) (hs : 0 ≤ s) (hq : 0 ≤ q) (k : ℕ) (hk : k * dt ≤ 1000) : WithFixes (walkCfg rate s q τ) ∧ len (walkCfg rate s q τ).gnss.levelArm = 2 ∧
    SpreadsWithin s q τ (walkCfg rate s q τ).getOption ∧
    (∀ i, |(walkCfg rate s q τ).imu.para.gsIni i| ≤ 1) ∧ (∀ i, |(walkCfg rate s q τ).imu.para.asIni i| ≤ 1) ∧ (walkCfg rate s q τ).align.initPva = liftGiven ∧
    ∃ (samples : List (ImuRec ℝ)) (fixes : List (GnssFields ℝ)) (used : List (Rec ℝ)), samples ≠ [] ∧ fixes ≠ [] ∧ fixes.length = k + 1 ∧
      (∀ m ∈ samples, m.time < 2147483647) ∧ (∀ m ∈ fixes, 0 < m.time) ∧ used = usedRecords (walkCfg rate s q τ) (fixRecords fixes) samples ∧
      (imuPart used).length = k + 1 ∧ (gnssPart used).length = k ∧
      ReadsNear 0 (walkCfg rate s q τ).imu.para dt (fun t => t • earthRate (1 / 2)) liftImpulse 0 ((imuPart used).map fun r => ⟨r.time, r.gyro, r.acce⟩) ∧
      (∃ d, rgioeInit Ex.zJunk Ex.zDev (some (walkCfg rate s q τ).getOption) (some (walkCfg rate s q τ).align.initPva) = some (0, d)) ∧
      ∀ a m b, used = a ++ .gnss m :: b → imuPart a ≠ [] → ∀ t, t = (imuPart a).length * dt →
        FixWithin 1 0 (walkCfg rate s q τ).gnss.scaleOfStd (asFix m) (antennaAt (1 / 2) 1 (100 + 3 * t) 1 (walkCfg rate s q τ).gnss.levelArm) := by
  have hd : 0 < dt := by rw [hdt]; exact one_div_pos.2 (by exact_mod_cast hr)
  have z3 : ∀ i, |(zero3 : V3 ℝ) i| ≤ s := fun i => by rw [show (zero3 : V3 ℝ) i = 0 by fin_cases i <;> simp [zero3, v3], abs_zero]; exact hs
  refine ⟨⟨rfl, rfl, rfl, rfl, rfl, rfl, Or.inl rfl, rfl, hr⟩, arm_two, spreads_walk hs hq _ rfl z3 z3 z3, ?_, ?_, rfl, ?_⟩
  · intro i; fin_cases i <;> simp [walkCfg, walkPara, Fusion.zeroOpt, zero3, v3]
  · intro i; fin_cases i <;> simp [walkCfg, walkPara, Fusion.zeroOpt, zero3, v3]
  obtain ⟨t1, t2, t3, t4, t5⟩ := lift_times dt hd (k + 1) 0 (le_refl 0)
  obtain ⟨u, u1, u2, u3, u4⟩ := lift_merge dt hd (k + 1) 0
  have hu : u = usedRecords (walkCfg rate s q τ) (fixRecords (liftLines dt (k + 1) 0)) (⟨9, 0, 0⟩ :: ⟨10, 0, 0⟩ :: liftSamples dt (k + 1) 0) := by
    obtain ⟨g, gs, hg, hgt⟩ : ∃ g gs, fixRecords (liftLines dt (k + 1) 0) = g :: gs ∧ 10 < g.time :=
      ⟨_, _, rfl, t2 _ (by rw [liftLines]; exact List.mem_cons_self ..)⟩
    have e1 : Fl.lt (9 : ℝ) 10 = true := decide_eq_true (by norm_num)
    have e2 : ¬ Fl.lt (10 : ℝ) 10 = true := by show ¬ decide ((10 : ℝ) < 10) = true; simp
    have e3 : ¬ Fl.lt g.time (9 : ℝ) = true := by show ¬ decide (g.time < 9) = true; rw [decide_eq_true_eq]; linarith
    have e4 : ¬ Fl.lt g.time (10 : ℝ) = true := by show ¬ decide (g.time < 10) = true; rw [decide_eq_true_eq]; linarith
    unfold usedRecords
    rw [u1, hg, merge, if_neg e3, merge, if_neg e4, List.dropWhile_cons_of_pos (by exact e1), List.dropWhile_cons_of_neg (by exact e2)]
    rfl
  refine ⟨_, liftLines dt (k + 1) 0, u, List.cons_ne_nil _ _, by rw [liftLines]; exact List.cons_ne_nil _ _, t4, ?_, fun m hm => by have := t2 m hm; linarith, hu, by rw [u2, t3], u3,
    by rw [u2]; exact reads_para (p := (Fusion.zeroOpt : Opt ℝ).imuPara) (p' := (walkCfg rate s q τ).imu.para) rfl rfl rfl rfl _ _ t5, ?_, ?_⟩
  · intro m hm
    rcases List.mem_cons.1 hm with rfl | hm
    · norm_num
    rcases List.mem_cons.1 hm with rfl | hm
    · norm_num
    have := t1 m hm
    push_cast at this
    have hd1 : dt ≤ 1 := by
      rw [hdt, div_le_one (by exact_mod_cast hr)]
      exact_mod_cast hr
    linarith
  · unfold rgioeInit
    dsimp only
    rw [if_neg (by simp)]
    exact ⟨_, rfl⟩
  intro a m b hab hia t ht
  obtain ⟨z, z1, z2⟩ := u4 a m b hab
  rw [zero_add, ← ht] at z1
  refine ⟨?_, ?_⟩
  · have e : fixPlace (asFix m) = fixPlace (liftFix t) := by rw [z2, z1]; rfl
    rw [e, ← lift_antenna]
    show len (_ - _) ≤ 0
    rw [show (walkCfg rate s q τ).gnss.levelArm = ![0, 0, -2] from rfl, sub_self, len_zero']
  · intro i
    rw [z2, z1]
    show (1 : ℝ) ^ 2 ≤ 1 ^ 2 * 1
    norm_num
end Verif.Props
