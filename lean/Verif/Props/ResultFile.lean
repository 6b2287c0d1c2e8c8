import Verif.Spec.ResultFile
import Verif.Props.Coasting
import Verif.Props.Pipeline
import Verif.Props.RoundedAttitude
/-! C207: the result file of a run on inertial samples alone follows the true flight. -/
namespace Verif.Props
open Verif Verif.Spec Verif.Convert Matrix
section
variable {α : Type} [Add α] [Sub α] [Mul α] [Neg α] [Div α] [Zero α] [One α] [Fl α]

theorem dropWhile_imu (T : α) (is : List (ImuRec α)) :
    (is.map Rec.imu).dropWhile (fun r => Fl.lt r.time T) = (is.dropWhile fun r => Fl.lt r.time T).map Rec.imu := by
  induction is with
  | nil => rfl
  | cons i is ih =>
    simp only [List.map_cons, List.dropWhile_cons, Rec.time]
    split
    · exact ih
    · rfl

/-- Without a GNSS file the records replayed are the samples navigated with. -/
theorem replayed_imu (cfg : Config α) (h : cfg.gnss.enable = false) (is : List (ImuRec α)) :
    replayed cfg [] is = ((is.dropWhile fun r => Fl.lt r.time cfg.startTime).drop 1).map Rec.imu := by
  unfold replayed
  rw [h]
  simp only [Bool.false_eq_true, if_false]
  rw [dropWhile_imu, ← List.map_drop]

theorem imus_map (hidden : GnssRec α → Bool) (rs : List (ImuRec α)) :
    imusOf (replayCalls hidden (rs.map Rec.imu)) = rs.map (fun r => ⟨r.time, r.gyro, r.acce⟩) ∧ fixesOf (replayCalls hidden (rs.map Rec.imu)) = [] := by
  induction rs with
  | nil => exact ⟨rfl, rfl⟩
  | cons r rs ih =>
    obtain ⟨h1, h2⟩ := ih
    have e : replayCalls hidden ((r :: rs).map Rec.imu) = .time (some ⟨r.time, r.gyro, r.acce⟩) :: replayCalls hidden (rs.map Rec.imu) := rfl
    rw [e]
    refine ⟨?_, ?_⟩
    · rw [imusOf, h1]; rfl
    · simpa only [fixesOf] using h2

theorem noAids_config (cfg : Config α) (h : InertialOnly cfg) : noAids cfg.getOption := by
  refine ⟨?_, ?_⟩
  · show Config.b2i cfg.zupt.zuptEnable = 0
    rw [h.noZupt]; rfl
  · rcases h.noNhc with e | e
    · exact Or.inl (show Config.b2i cfg.odo.nhcEnable = 0 by rw [e]; rfl)
    · exact Or.inr (show Config.b2i cfg.odo.enable ≠ 0 by rw [e]; decide)

/-- **C207, every arithmetic.** On a text file of samples the program ends, and writes one line per sample it navigates with: the result
the C interface reports after exactly the samples so far. -/
theorem C207_one_line_per_sample (g0 : α) (dev0 : Dev α) (junk : Junk α) (res0 : NavOutput α) (o : Outage α) (cfg : Config α)
    (hc : InertialOnly cfg) (s : Surroundings α) (f : Files α) (samples : List (ImuRec α)) (n1 : samples ≠ []) (hs : smallTimes samples)
    (hi : f.imuText = some (samples.flatMap tokens, false)) :
    ∃ ls d, rgioeInit junk dev0 (some cfg.getOption) (some cfg.align.initPva) = some (0, d) ∧
      (∀ fuel, samples.length < fuel → fileMain fuel g0 dev0 junk res0 o cfg s f = .lines ls) ∧
      ls.length = (navigated cfg samples).length ∧
      ∀ k, k < ls.length → ∃ cs : List (Call α), (∀ c ∈ cs, c.isInit = false) ∧ fixesOf cs = [] ∧
        imusOf cs = (navigated cfg samples).take (k + 1) ∧ ls[k]? = some (rgioeGetResult (runCalls cs (g0, d)).2 res0).2 := by
  obtain ⟨d, hd⟩ : ∃ d, rgioeInit junk dev0 (some cfg.getOption) (some cfg.align.initPva) = some (0, d) := by
    unfold rgioeInit
    dsimp only
    rw [if_neg (by simp)]
    exact ⟨_, rfl⟩
  have hr : runCalls [.init cfg.getOption (some cfg.align.initPva) junk] (g0, dev0) = (g0, d) := by
    simp only [runCalls, Call.exec, hd]
  obtain ⟨us, hus⟩ : ∃ us, us = (samples.dropWhile fun r => Fl.lt r.time cfg.startTime).drop 1 := ⟨_, rfl⟩
  have hnav : navigated cfg samples = us.map fun r => ⟨r.time, r.gyro, r.acce⟩ := by rw [hus]; rfl
  have hpost := post_is_replay g0 dev0 junk res0 o cfg [] samples hs
  rw [hr, replayed_imu cfg hc.noGnss, ← hus] at hpost
  refine ⟨postMain g0 dev0 junk res0 o cfg [] samples, d, hd, fun fuel hf => ?_, ?_, fun k hk => ?_⟩
  · have e1 : readGnss cfg s f = .recs [] := by
      unfold readGnss
      rw [hc.noGnss]
      rfl
    have e2 : readImuFile fuel cfg s g0 f = .recs samples := by
      unfold readImuFile
      rw [if_pos hc.text, hi, hc.frame]
      have := C61_text_file s.imuTime samples n1 false fuel (by omega)
      simp only [show decide ((0 : Int) = 1) = false from rfl, this]
      simp
    unfold fileMain
    rw [e1]
    dsimp only
    rw [e2]
  · rw [hpost, replay_length, hnav, List.length_map, List.length_map]
  · rw [hpost, replay_length, List.length_map] at hk
    rw [hpost, hnav]
    obtain ⟨a1, a2⟩ := imus_map (fun x => cfg.outage.enable && o.isOutage x.time) (us.take (k + 1))
    have hne : imusOf (replayCalls (fun x => cfg.outage.enable && o.isOutage x.time) ((us.take (k + 1)).map Rec.imu)) ≠ [] := by
      rw [a1]
      intro hh
      have := congrArg List.length hh
      simp only [List.length_map, List.length_take, List.length_nil] at this
      omega
    have key := C126_given_start junk dev0 d cfg.getOption cfg.align.initPva hc.given hd
      (replayCalls (fun x => cfg.outage.enable && o.isOutage x.time) ((us.take (k + 1)).map Rec.imu)) (replayCalls_noInit _ _) hne g0 _ rfl
    refine ⟨_, replayCalls_noInit _ _, a2, ?_, ?_⟩
    · rw [a1, List.map_take]
    · have hk' : k < (us.map Rec.imu).length := by rw [List.length_map]; exact hk
      rw [replay_get _ _ (g0, d) res0 k hk' (by rw [← List.map_take]; exact key.2.status), ← List.map_take]
      rw [(reports_nav _ key.2.status).result]
end

theorem readsNear_take (δ : ℝ) (p : ImuPara ℝ) (dt : ℝ) (θ α : ℝ → V3 ℝ) : ∀ (ms : List (Imu ℝ)) (t : ℝ) (k : Nat),
    ReadsNear δ p dt θ α t ms → ReadsNear δ p dt θ α t (ms.take k) := by
  intro ms
  induction ms with
  | nil => intro t k _; rw [List.take_nil]; trivial
  | cons m ms ih =>
    intro t k h
    cases k with
    | zero => trivial
    | succ k => exact ⟨h.1, ih _ k h.2⟩

/-- **C207.** From the sensor file to the result file, in exact arithmetic: there are a constant and a radius such that, for every flight
within the limits, every configuration for inertial navigation from given values, and every text file of samples at that rate whose readings
are those of the flight to within the sensor error, where the start values, the sensor error and the sampling interval are together below
the radius, the program ends, writes one line per sample it navigates with, and every line is within the constant times start error plus
sensor error plus sampling interval of the truth at the time of that sample (the attitude wherever the pitch is not within about 8 degrees
of the vertical). -/
theorem C207_result_file_follows_the_flight (B : Limits) (hB : B.Sane) (T : ℝ) : ∃ K r : ℝ, 0 < r ∧
    ∀ (lat lon h : ℝ → ℝ) (v : ℝ → V3 ℝ) (C : ℝ → M3 ℝ) (w θ f α : ℝ → V3 ℝ), TrueFlight B T lat lon h v C w θ f α →
    ∀ cfg : Config ℝ, InertialOnly cfg →
    ∀ (e δ dt x : ℝ), dt = 1 / cfg.imu.dRate → x = e + δ + dt → x ≤ r → 0 ≤ δ →
    ResultNear e cfg.align.initPva (lat 0) (lon 0) (h 0) (v 0) (C 0) →
    ∀ samples : List (ImuRec ℝ), samples ≠ [] → (∀ m ∈ samples, m.time < 2147483647) →
    ReadsNear δ cfg.imu.para dt θ α 0 (navigated cfg samples) → (navigated cfg samples).length * dt ≤ T →
    ∀ (g0 : ℝ) (dev0 : Dev ℝ) (junk : Junk ℝ) (res0 : NavOutput ℝ) (o : Outage ℝ) (s : Surroundings ℝ) (fs : Files ℝ),
    fs.imuText = some (samples.flatMap tokens, false) →
    ∃ ls, (∀ fuel, samples.length < fuel → fileMain fuel g0 dev0 junk res0 o cfg s fs = .lines ls) ∧
      ls.length = (navigated cfg samples).length ∧
      ∀ (k : ℕ) (q : NavOutput ℝ) (t : ℝ), ls[k]? = some q → t = (k + 1) * dt →
        |inRad q.lat - lat t| ≤ K * x ∧ |inRad q.lon - lon t| ≤ K * x ∧ |q.height - h t| ≤ K * x ∧ len (q.vn - v t) ≤ K * x ∧
        (|C t 2 0| ≤ 99 / 100 → ResultNear (K * x) q (lat t) (lon t) (h t) (v t) (C t)) := by
  obtain ⟨K, r, hr, H⟩ := C205_reports_follow_the_flight B hB T
  refine ⟨K, r, hr, ?_⟩
  intro lat lon h v C w θ f α F cfg hc e δ dt x hdt hx hxr hδ hn samples n1 ht hp hT g0 dev0 junk res0 o s fs hi
  have hs : smallTimes samples := fun i hi => by
    simp only [Fl.lt]
    exact decide_eq_true (by simpa [Fl.lit] using ht i hi)
  obtain ⟨ls, d, hd, h1, h2, h3⟩ := C207_one_line_per_sample g0 dev0 junk res0 o cfg hc s fs samples n1 hs hi
  refine ⟨ls, h1, h2, ?_⟩
  intro k q t hq htk
  have hk : k < ls.length := (List.getElem?_eq_some_iff.mp hq).1
  obtain ⟨cs, c1, c2, c3, c4⟩ := h3 k hk
  have hlen : (imusOf cs).length = k + 1 := by rw [c3, List.length_take, ← h2]; omega
  have hdt0 : 0 < dt := by rw [hdt]; exact one_div_pos.2 (by exact_mod_cast hc.rate)
  have htT : t ≤ T := by
    refine le_trans ?_ hT
    rw [htk, ← h2]
    exact mul_le_mul_of_nonneg_right (by exact_mod_cast hk) hdt0.le
  obtain ⟨q', e1, e2⟩ := H lat lon h v C w θ f α F junk dev0 d cfg.getOption cfg.align.initPva hc.given (noAids_config cfg hc)
    (show Config.b2i cfg.output.projectEnable = 0 by rw [hc.centre]; rfl) hc.rate hd e δ dt x hdt hx hxr hδ hn cs c1 (by rw [c2]; simp)
    (fun hh => by rw [hh] at hlen; simp at hlen) (by rw [c3]; exact readsNear_take _ _ _ _ _ _ _ _ hp) t
    (by rw [hlen, htk]; push_cast; ring) htT g0 res0
  rw [hq, e1, Option.some.injEq] at c4
  rw [c4]
  exact e2

/-- **C207, with rounding.** The same for the program computing with rounding: in every arithmetic accurate to `u`, every line is within the
constant times start error plus sensor error plus sampling interval plus `u` per sampling interval of the true place and velocity at the
time of its sample. -/
theorem C207_rounded_result_file (B : Limits) (hB : B.Sane) (T b : ℝ) : ∃ K r : ℝ, 0 < r ∧
    ∀ (lat lon h : ℝ → ℝ) (v : ℝ → V3 ℝ) (C : ℝ → M3 ℝ) (w θ f α : ℝ → V3 ℝ), TrueFlight B T lat lon h v C w θ f α →
    ∀ (R : Rounding) (u : ℝ), AccurateLib R u →
    ∀ cfg : Config (RR R), InertialOnly cfg →
    (∀ j, |(cfg.imu.para.gbIni j).v| ≤ b ∧ |(cfg.imu.para.abIni j).v| ≤ b ∧ |(cfg.imu.para.gsIni j).v| ≤ b ∧ |(cfg.imu.para.asIni j).v| ≤ b) →
    (∀ j, |(cfg.align.initPva.atti j).v| ≤ b) →
    ∀ (e δ dt x : ℝ), dt = 1 / cfg.imu.dRate → x = e + δ + dt + u / dt → x ≤ r → 0 ≤ δ →
    ResultNear e (valsOut cfg.align.initPva) (lat 0) (lon 0) (h 0) (v 0) (C 0) →
    ∀ samples : List (ImuRec (RR R)), samples ≠ [] → smallTimes samples → (∀ m ∈ samples, ∀ j, |(m.gyro j).v| ≤ b ∧ |(m.acce j).v| ≤ b) →
    ReadsNear δ (valsPara cfg.imu.para) dt θ α 0 ((navigated cfg samples).map valsImu) → (navigated cfg samples).length * dt ≤ T →
    ∀ (g0 : RR R) (dev0 : Dev (RR R)) (junk : Junk (RR R)) (res0 : NavOutput (RR R)) (o : Outage (RR R)) (s : Surroundings (RR R))
      (fs : Files (RR R)), fs.imuText = some (samples.flatMap tokens, false) →
    ∃ ls, (∀ fuel, samples.length < fuel → fileMain fuel g0 dev0 junk res0 o cfg s fs = .lines ls) ∧
      ls.length = (navigated cfg samples).length ∧
      ∀ (k : ℕ) (q : NavOutput (RR R)) (t : ℝ), ls[k]? = some q → t = (k + 1) * dt →
        |inRad q.lat.v - lat t| ≤ K * x ∧ |inRad q.lon.v - lon t| ≤ K * x ∧ |q.height.v - h t| ≤ K * x ∧ len (valsV q.vn - v t) ≤ K * x := by
  obtain ⟨K, r, hr, H⟩ := C206_rounded_reports_follow_the_flight B hB T b
  refine ⟨K, r, hr, ?_⟩
  intro lat lon h v C w θ f α F R u acc cfg hc hb hba e δ dt x hdt hx hxr hδ hn samples n1 hs hrb hp hT g0 dev0 junk res0 o s fs hi
  obtain ⟨ls, d, hd, h1, h2, h3⟩ := C207_one_line_per_sample g0 dev0 junk res0 o cfg hc s fs samples n1 hs hi
  refine ⟨ls, h1, h2, ?_⟩
  intro k q t hq htk
  have hk : k < ls.length := (List.getElem?_eq_some_iff.mp hq).1
  obtain ⟨cs, c1, c2, c3, c4⟩ := h3 k hk
  have hlen : (imusOf cs).length = k + 1 := by rw [c3, List.length_take, ← h2]; omega
  have hdt0 : 0 < dt := by rw [hdt]; exact one_div_pos.2 (by exact_mod_cast hc.rate)
  have htT : t ≤ T := by
    refine le_trans ?_ hT
    rw [htk, ← h2]
    exact mul_le_mul_of_nonneg_right (by exact_mod_cast hk) hdt0.le
  have hmem : ∀ m ∈ imusOf cs, ∀ j, |(m.gyro j).v| ≤ b ∧ |(m.acce j).v| ≤ b := by
    intro m hm
    rw [c3] at hm
    have hm' := List.mem_of_mem_take hm
    unfold navigated at hm'
    obtain ⟨i, him, rfl⟩ := List.mem_map.mp hm'
    exact hrb i ((List.dropWhile_sublist _).subset (List.mem_of_mem_drop him))
  obtain ⟨q', e1, e2⟩ := H lat lon h v C w θ f α F R u acc junk dev0 d cfg.getOption cfg.align.initPva hc.given (noAids_config cfg hc)
    (show Config.b2i cfg.output.projectEnable = 0 by rw [hc.centre]; rfl) hc.rate hd hb hba e δ dt x hdt hx hxr hδ hn cs c1 (by rw [c2]; simp)
    (fun hh => by rw [hh] at hlen; simp at hlen) (by rw [c3, List.map_take]; exact readsNear_take _ _ _ _ _ _ _ _ hp) hmem t
    (by rw [hlen, htk]; push_cast; ring) htT g0 res0
  rw [hq, e1, Option.some.injEq] at c4
  rw [c4]
  exact e2

/-- **C207, with rounding, the attitude too,** wherever the true pitch is not within about 8 degrees of the vertical, if the two-argument
arctangent is accurate as an angle. -/
theorem C207_rounded_attitude (B : Limits) (hB : B.Sane) (T b : ℝ) : ∃ K r : ℝ, 0 < r ∧
    ∀ (lat lon h : ℝ → ℝ) (v : ℝ → V3 ℝ) (C : ℝ → M3 ℝ) (w θ f α : ℝ → V3 ℝ), TrueFlight B T lat lon h v C w θ f α →
    ∀ (R : Rounding) (u : ℝ), AccurateLib R u → AccurateAtan2 R u →
    ∀ cfg : Config (RR R), InertialOnly cfg →
    (∀ j, |(cfg.imu.para.gbIni j).v| ≤ b ∧ |(cfg.imu.para.abIni j).v| ≤ b ∧ |(cfg.imu.para.gsIni j).v| ≤ b ∧ |(cfg.imu.para.asIni j).v| ≤ b) →
    (∀ j, |(cfg.align.initPva.atti j).v| ≤ b) →
    ∀ (e δ dt x : ℝ), dt = 1 / cfg.imu.dRate → x = e + δ + dt + u / dt → x ≤ r → 0 ≤ δ →
    ResultNear e (valsOut cfg.align.initPva) (lat 0) (lon 0) (h 0) (v 0) (C 0) →
    ∀ samples : List (ImuRec (RR R)), samples ≠ [] → smallTimes samples → (∀ m ∈ samples, ∀ j, |(m.gyro j).v| ≤ b ∧ |(m.acce j).v| ≤ b) →
    ReadsNear δ (valsPara cfg.imu.para) dt θ α 0 ((navigated cfg samples).map valsImu) → (navigated cfg samples).length * dt ≤ T →
    ∀ (g0 : RR R) (dev0 : Dev (RR R)) (junk : Junk (RR R)) (res0 : NavOutput (RR R)) (o : Outage (RR R)) (s : Surroundings (RR R))
      (fs : Files (RR R)), fs.imuText = some (samples.flatMap tokens, false) →
    ∃ ls, (∀ fuel, samples.length < fuel → fileMain fuel g0 dev0 junk res0 o cfg s fs = .lines ls) ∧
      ls.length = (navigated cfg samples).length ∧
      ∀ (k : ℕ) (q : NavOutput (RR R)) (t : ℝ), ls[k]? = some q → t = (k + 1) * dt →
        |C t 2 0| ≤ 99 / 100 → ResultNear (K * x) (valsOut q) (lat t) (lon t) (h t) (v t) (C t) := by
  obtain ⟨K, r, hr, H⟩ := C206_rounded_attitude B hB T b
  refine ⟨K, r, hr, ?_⟩
  intro lat lon h v C w θ f α F R u acc acc2 cfg hc hb hba e δ dt x hdt hx hxr hδ hn samples n1 hs hrb hp hT g0 dev0 junk res0 o s fs hi
  obtain ⟨ls, d, hd, h1, h2, h3⟩ := C207_one_line_per_sample g0 dev0 junk res0 o cfg hc s fs samples n1 hs hi
  refine ⟨ls, h1, h2, ?_⟩
  intro k q t hq htk hl
  have hk : k < ls.length := (List.getElem?_eq_some_iff.mp hq).1
  obtain ⟨cs, c1, c2, c3, c4⟩ := h3 k hk
  have hlen : (imusOf cs).length = k + 1 := by rw [c3, List.length_take, ← h2]; omega
  have hdt0 : 0 < dt := by rw [hdt]; exact one_div_pos.2 (by exact_mod_cast hc.rate)
  have htT : t ≤ T := by
    refine le_trans ?_ hT
    rw [htk, ← h2]
    exact mul_le_mul_of_nonneg_right (by exact_mod_cast hk) hdt0.le
  have hmem : ∀ m ∈ imusOf cs, ∀ j, |(m.gyro j).v| ≤ b ∧ |(m.acce j).v| ≤ b := by
    intro m hm
    rw [c3] at hm
    have hm' := List.mem_of_mem_take hm
    unfold navigated at hm'
    obtain ⟨i, him, rfl⟩ := List.mem_map.mp hm'
    exact hrb i ((List.dropWhile_sublist _).subset (List.mem_of_mem_drop him))
  obtain ⟨q', e1, e2⟩ := H lat lon h v C w θ f α F R u acc acc2 junk dev0 d cfg.getOption cfg.align.initPva hc.given (noAids_config cfg hc)
    (show Config.b2i cfg.output.projectEnable = 0 by rw [hc.centre]; rfl) hc.rate hd hb hba e δ dt x hdt hx hxr hδ hn cs c1 (by rw [c2]; simp)
    (fun hh => by rw [hh] at hlen; simp at hlen) (by rw [c3, List.map_take]; exact readsNear_take _ _ _ _ _ _ _ _ hp) hmem t
    (by rw [hlen, htk]; push_cast; ring) htT hl g0 res0
  rw [hq, e1, Option.some.injEq] at c4
  rw [c4]
  exact e2

/-- A configuration for the lift's flight: start at time 10. -/
noncomputable def liftCfg (rate : Int) : Config ℝ :=
  { startTime := 10, stopTime := 1000, enableRts := false
    gnss := ⟨false, "", 0, fun _ => 0, false, zero3, 0, 0, 1⟩
    imu := ⟨"imu.txt", 0, 0, rate, "", (Fusion.zeroOpt : Opt ℝ).imuPara⟩
    odo := ⟨false, "", 0, false, fun _ => 0, zero3, zero3, 1, 0⟩
    zupt := ⟨false, false, 0, 0, 0, 0, 0⟩
    align := ⟨2, 0, liftGiven⟩
    outage := ⟨false, 0, 0, 0, 0⟩
    output := ⟨"out.txt", 0, false, zero3, zero3⟩
    press := ⟨false, "", 0⟩ }

/-- The hypotheses of C207 are met on the flight of the lift beside C201 (whose start values beside C205 have no error): a file whose first
two samples, at times 9 and 10, are skipped, and with any number of perfect samples after them. -/
example (rate : Int) (hr : 0 < rate) (dt : ℝ) (k : ℕ) : InertialOnly (liftCfg rate) ∧ (liftCfg rate).align.initPva = liftGiven ∧
    ∃ samples : List (ImuRec ℝ), samples.length = k + 2 ∧ (∀ m ∈ samples, m.time < 2147483647) ∧
      (navigated (liftCfg rate) samples).length = k ∧
      ReadsNear 0 (liftCfg rate).imu.para dt (fun t => t • earthRate (1 / 2)) liftImpulse 0 (navigated (liftCfg rate) samples) := by
  refine ⟨⟨rfl, rfl, rfl, rfl, rfl, Or.inl rfl, rfl, hr⟩, rfl, ?_⟩
  have key : ∀ (k : ℕ) (t : ℝ), ∃ ms : List (ImuRec ℝ), ms.length = k ∧ (∀ m ∈ ms, m.time = 11) ∧
      ReadsNear 0 (liftCfg rate).imu.para dt (fun t => t • earthRate (1 / 2)) liftImpulse t (ms.map fun r => ⟨r.time, r.gyro, r.acce⟩) := by
    intro k
    induction k with
    | zero => intro t; exact ⟨[], rfl, by simp, trivial⟩
    | succ k ih =>
      intro t
      obtain ⟨ms, h1, h2, h3⟩ := ih (t + dt)
      refine ⟨⟨11, liftImpulse (t + dt) - liftImpulse t, (t + dt) • earthRate (1 / 2) - t • earthRate (1 / 2)⟩ :: ms, by simp [h1], ?_, ⟨⟨?_, ?_⟩, h3⟩⟩
      · intro m hm
        rcases List.mem_cons.mp hm with rfl | hm
        · rfl
        · exact h2 m hm
      · rw [show (_ - _ : V3 ℝ) = 0 by ext i; fin_cases i <;> simp [liftCfg, Fusion.zeroOpt, zero3, v3]]
        rw [len_zero', zero_mul]
      · rw [show (_ - _ : V3 ℝ) = 0 by ext i; fin_cases i <;> simp [liftCfg, Fusion.zeroOpt, zero3, v3]]
        rw [len_zero', zero_mul]
  obtain ⟨ms, h1, h2, h3⟩ := key k 0
  have e : navigated (liftCfg rate) (⟨9, 0, 0⟩ :: ⟨10, 0, 0⟩ :: ms) = ms.map fun r => ⟨r.time, r.gyro, r.acce⟩ := by
    have e1 : Fl.lt (9 : ℝ) 10 = true := decide_eq_true (by norm_num)
    have e2 : Fl.lt (10 : ℝ) 10 = false := decide_eq_false (by norm_num)
    unfold navigated
    rw [List.dropWhile_cons_of_pos (by exact e1), List.dropWhile_cons_of_neg (by show ¬ Fl.lt (10 : ℝ) 10 = true; rw [e2]; simp)]
    rfl
  refine ⟨⟨9, 0, 0⟩ :: ⟨10, 0, 0⟩ :: ms, by simp [h1], ?_, by rw [e, List.length_map, h1], by rw [e]; exact h3⟩
  intro m hm
  simp only [List.mem_cons] at hm
  rcases hm with rfl | rfl | hm
  · norm_num
  · norm_num
  · rw [h2 m hm]; norm_num

/-- The same configuration in an arithmetic that rounds. -/
noncomputable def gridCfg (u : ℝ) (rate : Int) : Config (RR (grid u)) :=
  { startTime := ⟨10⟩, stopTime := ⟨1000⟩, enableRts := false
    gnss := ⟨false, "", 0, fun _ => 0, false, zero3, 0, 0, 1⟩
    imu := ⟨"imu.txt", 0, 0, rate, "", (Fusion.zeroOpt : Opt (RR (grid u))).imuPara⟩
    odo := ⟨false, "", 0, false, fun _ => 0, zero3, zero3, 1, 0⟩
    zupt := ⟨false, false, 0, 0, 0, 0, 0⟩
    align := ⟨2, 0, gridGiven u⟩
    outage := ⟨false, 0, 0, 0, 0⟩
    output := ⟨"out.txt", 0, false, zero3, zero3⟩
    press := ⟨false, "", 0⟩ }

/-- The hypotheses of C207 with rounding are met in the arithmetic that rounds down to multiples of `u`, from the start values shown beside
C206: any samples, after one at the start time, are navigated with, for instance the rounded readings shown beside C203. -/
example (u : ℝ) (h0 : 0 < u) (h1 : u ≤ 1 / 1000000) (rate : Int) (hr : 0 < rate) : AccurateLib (grid u) u ∧ AccurateAtan2 (grid u) u ∧
    InertialOnly (gridCfg u rate) ∧ (gridCfg u rate).align.initPva = gridGiven u ∧
    (gridCfg u rate).imu.para = (Ex.opt 2 : Opt (RR (grid u))).imuPara ∧
    ∀ ms : List (Imu (RR (grid u))), ∃ samples : List (ImuRec (RR (grid u))), samples ≠ [] ∧
      ((∀ m ∈ ms, m.gpst.v < 2147483646) → smallTimes samples) ∧ navigated (gridCfg u rate) samples = ms := by
  refine ⟨grid_lib u h0 h1, grid_atan2 u h0, ⟨rfl, rfl, rfl, rfl, rfl, Or.inl rfl, rfl, hr⟩, rfl, rfl, ?_⟩
  intro ms
  refine ⟨⟨⟨10⟩, fun _ => 0, fun _ => 0⟩ :: ms.map fun m => ⟨m.gpst, m.acce, m.gyro⟩, by simp, ?_, ?_⟩
  · intro hm i hi
    have e : (2147483646 : ℝ) < (grid u).rnd (((2147483647 : ℚ) : ℝ)) := by
      have := (abs_le.1 (grid_rnd u h0 (((2147483647 : ℚ) : ℝ)))).1
      push_cast at this ⊢
      linarith
    have key : i.time.v < 2147483646 := by
      rcases List.mem_cons.1 hi with rfl | hi
      · norm_num
      · obtain ⟨m, hm', rfl⟩ := List.mem_map.1 hi
        exact hm m hm'
    exact decide_eq_true (key.trans e)
  · have e2 : ¬ Fl.lt (⟨10⟩ : RR (grid u)) ⟨10⟩ = true := by
      show ¬ @decide ((10 : ℝ) < 10) (Classical.propDecidable _) = true
      simp
    unfold navigated
    rw [List.dropWhile_cons_of_neg (by exact e2), List.drop_succ_cons, List.drop_zero, List.map_map]
    exact List.map_id ms
end Verif.Props
