import Verif.Lemmas.Schedule
/-! Which pseudo-measurements happen when, what the flags say, what time a result carries; for every
scalar type. -/
namespace Verif.Props
open Verif Verif.Spec
variable {α : Type} [Add α] [Sub α] [Mul α] [Neg α] [Div α] [Zero α] [One α] [Fl α]

theorem static_iff (xs : List (Imu α)) (hx : xs ≠ []) :
    (feed (zuptThr : α) 2 10 xs).isStatic = true ↔ calmLast (zuptThr : α) 2 10 xs 3 := by
  obtain ⟨n, _, h2, h3⟩ := feed_cnt (zuptThr : α) 2 10 xs
  rw [h3 hx, h2]
  simp only [decide_eq_true_eq]
  omega

theorem has_or_self (s b : BitVec 16) (hb : b ≠ 0) : has (s ||| b) b := by
  unfold has
  rw [show (s ||| b) &&& b = b by ext i; simp; tauto]
  exact hb
theorem has_clear_self (s b : BitVec 16) : ¬ has (s &&& ~~~b) b := by
  unfold has
  rw [show (s &&& ~~~b) &&& b = 0 by ext i; simp]
  simp

open Classical in
/-- What the pseudo-measurement stages amount to, given the propagated filter `p`. -/
theorem stages_kf (p : Fusion α) :
    let due1 := p.timeUpdateIdx.toNat % 8 ≠ 0 ∧ p.opt.zuptEnable ≠ 0 ∧ p.smooth.isStatic = true
    let due2 := p.timeUpdateIdx.toNat % 32 = 1 ∧ p.opt.nhcEnable ≠ 0 ∧ p.opt.odoEnable = 0
    let q := if due1 then p.measureZeroVelocity else p
    let r := if due2 then q.measureNHC else q
    p.zuptStage.nhcStage.kf = r.kf ∧ p.zuptStage.nhcStage.updateFlag = r.updateFlag := by
  intro due1 due2 q r
  have hz : Fusion.sameButInfo q p.zuptStage := by
    unfold Fusion.zuptStage
    by_cases h : p.timeUpdateIdx.toNat % 8 ≠ 0 ∧ p.opt.zuptEnable ≠ 0
    · rw [if_pos h]
      by_cases h2 : p.smooth.isStatic = true
      · rw [if_pos h2]
        have : q = p.measureZeroVelocity := if_pos ⟨h.1, h.2, h2⟩
        rw [this]; exact Fusion.setSensor_same _ _
      · rw [if_neg h2]
        have : q = p := if_neg (fun hh => h2 hh.2.2)
        rw [this]; exact Fusion.clearSensor_same _ _
    · rw [if_neg h]
      have : q = p := if_neg (fun hh => h ⟨hh.1, hh.2.1⟩)
      rw [this]; exact Fusion.sameButInfo.refl _
  obtain ⟨i, hi⟩ := hz
  rw [hi]
  have hidx : (q.withInfo i).timeUpdateIdx = p.timeUpdateIdx := by rw [← hi]; exact Fusion.zupt_idx p
  have hopt : (q.withInfo i).opt = p.opt := by rw [← hi]; exact Fusion.zupt_opt p
  unfold Fusion.nhcStage
  rw [hidx, hopt]
  by_cases h : p.timeUpdateIdx.toNat % 32 = 1 ∧ p.opt.nhcEnable ≠ 0 ∧ p.opt.odoEnable = 0
  · have hr : r = q.measureNHC := if_pos h
    rw [if_pos h, hr, Fusion.nhc_withInfo]
    exact ⟨rfl, rfl⟩
  · have hr : r = q := if_neg h
    rw [if_neg h, hr]
    exact ⟨rfl, rfl⟩

open Classical in
/-- C30: for every history of a filter after initialisation, at the next IMU sample a ZUPT is performed
exactly if it is due, then an NHC update exactly if it is due, and nothing else touches the filter; the
epoch number counts the IMU samples (modulo 2^32) and "static" means that the smoothed deviation was not above
the threshold at the last three samples. -/
theorem C30_schedule (g : α) (junk : Fusion α) (nav : NavEpoch α) (o : Opt α) (cs : List (FCall α)) (m : Imu α) :
    let before := frun cs (fstart g junk nav o)
    let after := (FCall.exec (.time m) before).2
    let samples := fimus cs ++ [m]
    let epoch := samples.length % 2 ^ 32
    let p := propagated before m
    let q := if zuptDue o epoch (calmLast (zuptThr : α) 2 10 samples 3) then p.measureZeroVelocity else p
    let r := if nhcDue o epoch then q.measureNHC else q
    after.timeUpdateIdx.toNat = epoch ∧ after.kf = r.kf ∧ after.updateFlag = r.updateFlag ∧
    (after.updateFlag ≠ 0 ↔ zuptDue o epoch (calmLast (zuptThr : α) 2 10 samples 3) ∨ nhcDue o epoch) := by
  intro before after samples epoch p q r
  have hb := hist g junk nav o cs
  have ha : HistInv o samples after := by
    have := hist g junk nav o (cs ++ [.time m])
    rwa [frun_append, fimus_append] at this
  have hidx : p.timeUpdateIdx.toNat = epoch := by
    show (propagated before m).timeUpdateIdx.toNat = _
    have e := congrArg BitVec.toNat ha.idx
    rw [BitVec.toNat_ofNat] at e
    rw [propagated_idx]
    have e2 : after.timeUpdateIdx = before.2.timeUpdateIdx + 1 := Fusion.timeUpdate_idx before.1 before.2 m
    rw [← e2]; exact e
  have hopt : p.opt = o := (propagated_opt before m).trans hb.opt
  have hst : p.smooth.isStatic = true ↔ calmLast (zuptThr : α) 2 10 samples 3 := by
    have e : p.smooth = feed (zuptThr : α) 2 10 samples := by
      rw [feed_snoc, ← hb.smooth]; exact Fusion.timeUpdate_smooth before.1 before.2 m
    rw [e]; exact static_iff _ (by simp [samples])
  have h1 : (p.timeUpdateIdx.toNat % 8 ≠ 0 ∧ p.opt.zuptEnable ≠ 0 ∧ p.smooth.isStatic = true) =
      zuptDue o epoch (calmLast (zuptThr : α) 2 10 samples 3) := by
    rw [hidx, hopt, hst]; unfold zuptDue; apply propext; tauto
  have h2 : (p.timeUpdateIdx.toNat % 32 = 1 ∧ p.opt.nhcEnable ≠ 0 ∧ p.opt.odoEnable = 0) = nhcDue o epoch := by
    rw [hidx, hopt]; unfold nhcDue; apply propext; tauto
  have hk := stages_kf p
  simp only [h1, h2] at hk
  have hkf : after.kf = r.kf := hk.1
  have hfl : after.updateFlag = r.updateFlag := hk.2
  refine ⟨?_, hkf, hfl, ?_⟩
  · have e := congrArg BitVec.toNat ha.idx
    rw [BitVec.toNat_ofNat] at e; exact e
  · rw [hfl]
    have hp0 : p.updateFlag = 0 := propagated_flag before m
    have hor : ∀ b : BitVec 32, b ||| Fusion.FLAG_VELOCITY ≠ 0 := by
      intro b h0
      have := congrArg (fun v : BitVec 32 => v.getLsbD 3) h0
      simp [Fusion.FLAG_VELOCITY] at this
    have hzv : p.measureZeroVelocity.updateFlag ≠ 0 := by
      have : p.measureZeroVelocity.updateFlag = p.updateFlag ||| Fusion.FLAG_VELOCITY := by
        unfold Fusion.measureZeroVelocity; dsimp only; split_ifs <;> rfl
      rw [this]; exact hor _
    by_cases hn : nhcDue o epoch
    · have hr : r = q.measureNHC := if_pos hn
      rw [hr]
      exact ⟨fun _ => Or.inr hn, fun _ => hor _⟩
    · have hr : r = q := if_neg hn
      rw [hr]
      by_cases hz : zuptDue o epoch (calmLast (zuptThr : α) 2 10 samples 3)
      · have hq : q = p.measureZeroVelocity := if_pos hz
        rw [hq]
        exact ⟨fun _ => Or.inl hz, fun _ => hzv⟩
      · have hq : q = p := if_neg hz
        rw [hq, hp0]
        exact ⟨fun h => absurd rfl h, fun h => (h.elim hz hn).elim⟩

/-- Both updates are due at some epoch: epoch 1 with both options enabled (the NHC one unconditionally). -/
example : nhcDue ({ (Fusion.zeroOpt : Opt α) with nhcEnable := 1 }) 1 ∧
    zuptDue ({ (Fusion.zeroOpt : Opt α) with zuptEnable := 1 }) 3 True := by
  refine ⟨⟨?_, rfl, rfl⟩, ?_, trivial, ?_⟩ <;> simp

theorem and_not_or (s b c : BitVec 16) (h : b &&& c = b) : (s ||| b) &&& ~~~c = s &&& ~~~c := by
  ext i hi
  have := congrArg (fun v : BitVec 16 => v[i]) h
  simp at this ⊢
  cases hb : b[i] <;> cases hc : c[i] <;> simp_all
theorem and_not_clear (s b c : BitVec 16) (h : b &&& c = b) : (s &&& ~~~b) &&& ~~~c = s &&& ~~~c := by
  ext i hi
  have := congrArg (fun v : BitVec 16 => v[i]) h
  simp at this ⊢
  cases hb : b[i] <;> cases hc : c[i] <;> simp_all

/-- C31, IMU samples: after every IMU sample the NHC flag is set exactly if an NHC update was due (hence, by
`C30_schedule`, performed); at epochs where ZUPT is looked at, its flag tells whether it was performed; the
GNSS mode and all other sensor flags are as before. -/
theorem C31_flags_after_imu (g : α) (junk : Fusion α) (nav : NavEpoch α) (o : Opt α) (cs : List (FCall α)) (m : Imu α) :
    let before := frun cs (fstart g junk nav o)
    let after := (FCall.exec (.time m) before).2
    let samples := fimus cs ++ [m]
    let epoch := samples.length % 2 ^ 32
    let info := after.ins.nav.info
    (has info.sensors 0x10#16 ↔ nhcDue o epoch) ∧
    (epoch % 8 ≠ 0 → o.zuptEnable ≠ 0 →
      (has info.sensors 0x08#16 ↔ zuptDue o epoch (calmLast (zuptThr : α) 2 10 samples 3))) ∧
    info.gnssMode = before.2.ins.nav.info.gnssMode ∧
    info.sensors &&& ~~~0x18#16 = before.2.ins.nav.info.sensors &&& ~~~0x18#16 := by
  intro before after samples epoch info
  have hb := hist g junk nav o cs
  have ha : HistInv o samples after := by
    have := hist g junk nav o (cs ++ [.time m])
    rwa [frun_append, fimus_append] at this
  set p := propagated before m with hpdef
  have hidx : p.timeUpdateIdx.toNat = epoch := by
    have e := congrArg BitVec.toNat ha.idx
    rw [BitVec.toNat_ofNat] at e
    rw [hpdef, propagated_idx]
    have e2 : after.timeUpdateIdx = before.2.timeUpdateIdx + 1 := Fusion.timeUpdate_idx before.1 before.2 m
    rw [← e2]; exact e
  have hopt : p.opt = o := (propagated_opt before m).trans hb.opt
  have hst : p.smooth.isStatic = true ↔ calmLast (zuptThr : α) 2 10 samples 3 := by
    have e : p.smooth = feed (zuptThr : α) 2 10 samples := by
      rw [feed_snoc, ← hb.smooth]; exact Fusion.timeUpdate_smooth before.1 before.2 m
    rw [e]; exact static_iff _ (by simp [samples])
  have hpi : p.ins.nav.info = before.2.ins.nav.info := propagated_info before m
  have hinfo : info = p.zuptStage.nhcStage.ins.nav.info := rfl
  -- the ZUPT stage
  have hz : p.zuptStage.ins.nav.info =
      ⟨if epoch % 8 ≠ 0 ∧ o.zuptEnable ≠ 0 then
        (if p.smooth.isStatic then p.ins.nav.info.sensors ||| 0x08#16 else p.ins.nav.info.sensors &&& ~~~0x08#16)
       else p.ins.nav.info.sensors, p.ins.nav.info.gnssMode⟩ := by
    unfold Fusion.zuptStage
    rw [hidx, hopt]
    unfold Fusion.measureZeroVelocity
    dsimp only
    split_ifs <;> rfl
  have hn : ∀ f : Fusion α, f.timeUpdateIdx.toNat = epoch → f.opt = o → f.nhcStage.ins.nav.info =
      ⟨if epoch % 32 = 1 ∧ o.nhcEnable ≠ 0 ∧ o.odoEnable = 0 then f.ins.nav.info.sensors ||| 0x10#16
       else f.ins.nav.info.sensors &&& ~~~0x10#16, f.ins.nav.info.gnssMode⟩ := by
    intro f h1 h2
    unfold Fusion.nhcStage
    rw [h1, h2]
    split_ifs <;> rfl
  have hall := hn p.zuptStage (by rw [Fusion.zupt_idx]; exact hidx) (by rw [Fusion.zupt_opt]; exact hopt)
  rw [hz, hpi] at hall
  rw [hinfo, hall]
  dsimp only
  refine ⟨?_, ?_, rfl, ?_⟩
  · by_cases h : epoch % 32 = 1 ∧ o.nhcEnable ≠ 0 ∧ o.odoEnable = 0
    · rw [if_pos h]
      exact ⟨fun _ => ⟨h.2.1, h.2.2, h.1⟩, fun _ => has_or_self _ _ (by decide)⟩
    · rw [if_neg h]
      exact ⟨fun h' => absurd h' (has_clear_self _ _), fun h' => absurd ⟨h'.2.2, h'.1, h'.2.1⟩ h⟩
  · intro h8 hze
    rw [if_pos (show epoch % 8 ≠ 0 ∧ o.zuptEnable ≠ 0 from ⟨h8, hze⟩)]
    have hbit : ∀ s : BitVec 16, (has (if epoch % 32 = 1 ∧ o.nhcEnable ≠ 0 ∧ o.odoEnable = 0 then s ||| 0x10#16
        else s &&& ~~~0x10#16) 0x08#16 ↔ has s 0x08#16) := by
      intro s
      unfold has
      have e1 : (s ||| 0x10#16) &&& 0x08#16 = s &&& 0x08#16 := by
        rw [BitVec.and_or_distrib_right]; simp
      have e2 : (s &&& ~~~0x10#16) &&& 0x08#16 = s &&& 0x08#16 := by
        rw [BitVec.and_assoc]; rfl
      split_ifs
      · rw [e1]
      · rw [e2]
    rw [hbit]
    by_cases hs : p.smooth.isStatic = true
    · rw [if_pos hs]
      exact ⟨fun _ => ⟨hze, hst.1 hs, h8⟩, fun _ => has_or_self _ _ (by decide)⟩
    · rw [if_neg hs]
      exact ⟨fun h' => absurd h' (has_clear_self _ _), fun h' => absurd (hst.2 h'.2.1) hs⟩
  · have h1 : (0x10#16 &&& 0x18#16) = 0x10#16 := by decide
    have h2 : (0x08#16 &&& 0x18#16) = 0x08#16 := by decide
    split_ifs <;> simp only [and_not_or _ _ _ h1, and_not_or _ _ _ h2, and_not_clear _ _ _ h1, and_not_clear _ _ _ h2]

/-- C31, GNSS: after a fix the GNSS flag is set exactly if the fix was usable, which is exactly when it was
handed to the filter; the mode shown is the fix's or INVALID; other flags are as before. -/
theorem C31_flags_after_gnss (f : Fusion α) (m : Gnss α) :
    let info := (f.measureGnss m).ins.nav.info
    (has info.sensors 0x02#16 ↔ usable m.mode) ∧
    info.gnssMode = (BitVec.ofInt 16 (if m.mode = 1 ∨ m.mode = 2 ∨ m.mode = 4 ∨ m.mode = 5 then m.mode else 6)) ∧
    info.sensors &&& ~~~0x02#16 = f.ins.nav.info.sensors &&& ~~~0x02#16 ∧
    (usable m.mode → (f.measureGnss m).kf = f.kf.update f.posH (f.posZ (v3 (m.lat * deg) (m.lon * deg) m.height))
        (diagM fun i => m.posStd i * m.posStd i * f.opt.gnssStdScale)) ∧
    (¬ usable m.mode → (f.measureGnss m).kf = f.kf) := by
  have hc : Fusion.gnssCheck m = true ↔ usable m.mode := by
    unfold Fusion.gnssCheck usable MODE_SPP MODE_RTK_FIX MODE_RTK_FLOAT MODE_RTK_DGPS
    simp only [decide_eq_true_eq]; tauto
  intro info
  by_cases h : usable m.mode
  · have e : f.measureGnss m = _ := if_pos (hc.2 h)
    have h' : m.mode = 1 ∨ m.mode = 2 ∨ m.mode = 4 ∨ m.mode = 5 := h
    rw [if_pos h']
    refine ⟨?_, ?_, ?_, ?_, fun hn => absurd h hn⟩
    · have : info.sensors = f.ins.nav.info.sensors ||| 0x02#16 := by simp only [info]; rw [e]; rfl
      rw [this]
      exact ⟨fun _ => h, fun _ => has_or_self _ _ (by decide)⟩
    · simp only [info]; rw [e]; rfl
    · have : info.sensors = f.ins.nav.info.sensors ||| 0x02#16 := by simp only [info]; rw [e]; rfl
      rw [this]; exact and_not_or _ _ _ (by decide)
    · intro _; rw [e]; rfl
  · have e : f.measureGnss m = _ := if_neg (fun hh => h (hc.1 hh))
    have h' : ¬ (m.mode = 1 ∨ m.mode = 2 ∨ m.mode = 4 ∨ m.mode = 5) := h
    rw [if_neg h']
    have hs : info.sensors = f.ins.nav.info.sensors &&& ~~~0x02#16 := by simp only [info]; rw [e]; rfl
    refine ⟨?_, ?_, ?_, fun hn => absurd hn h, ?_⟩
    · rw [hs]
      exact ⟨fun hh => absurd hh (has_clear_self _ _), fun hh => absurd hh h⟩
    · simp only [info]; rw [e]; rfl
    · rw [hs]; exact and_not_clear _ _ _ (by decide)
    · intro _; rw [e]; rfl

/-- C32 for the fusion object: whatever GNSS, odometer and height measurements a history contains, the
reported time is that of the last IMU sample. -/
theorem C32_filter_time_is_last_imu (g : α) (junk : Fusion α) (nav : NavEpoch α) (o : Opt α) (cs : List (FCall α))
    (m : Imu α) (hm : (fimus cs).getLast? = some m) :
    (frun cs (fstart g junk nav o)).2.output.gpst = m.gpst :=
  (hist g junk nav o cs).gpst m hm

theorem nav_time {d : Dev α} (g : α) (m : Imu α) (h : (rgioeTimeupdate g d (some m)).2.2.status = 3)
    (hok : okStatus d.status) : (rgioeTimeupdate g d (some m)).2.2.df.ins.nav.gpst = m.gpst := by
  have hs := time_status g d m
  rcases hok with h0 | h0 | h0 | h0
  · rw [h0] at hs
    by_cases hm : d.opt.alignMode = ALIGN_USE_GIVEN
    · have e : (rgioeTimeupdate g d (some m)).2.2.df.ins.nav.gpst =
          ((d.df.initFusion g (makeNavEpoch d.curPva d.opt) d.opt).2.timeUpdate
            (d.df.initFusion g (makeNavEpoch d.curPva d.opt) d.opt).1 m).2.ins.nav.gpst := by
        unfold rgioeTimeupdate; simp only [h0, hm, if_true]
      rw [e]; apply Fusion.timeUpdate_gpst
    · exfalso
      simp [hm, ST_ALIGN] at hs
      rw [hs] at h; cases h
  · rw [h0] at hs
    exfalso
    rw [h] at hs
    simp [ST_INIT, ST_ALIGN, ST_ATTITUDE] at hs
    split_ifs at hs <;> omega
  · rw [h0] at hs
    by_cases hf : (d.am.updateImu m).alignFinished = true
    · have e : (rgioeTimeupdate g d (some m)).2.2.df.ins.nav.gpst = (d.am.updateImu m).nav.gpst := by
        unfold rgioeTimeupdate
        simp only [h0]
        simp [ST_INIT, ST_ALIGN, ST_ATTITUDE, hf]
        rfl
      rw [e]
      unfold Align.updateImu
      dsimp only
      split_ifs <;> rfl
    · exfalso
      simp [ST_INIT, ST_ALIGN, ST_ATTITUDE, hf] at hs
      rw [hs] at h; cases h
  · have e : (rgioeTimeupdate g d (some m)).2.2.df.ins.nav.gpst = (d.df.timeUpdate g m).2.ins.nav.gpst := by
      unfold rgioeTimeupdate
      simp only [h0]
      simp [ST_INIT, ST_ALIGN, ST_ATTITUDE, ST_NAVIGATION]
    rw [e]; apply Fusion.timeUpdate_gpst

/-- C32: after any history of API calls following a successful init, in NAVIGATION the result's time is the
time stamp of the last IMU sample given. -/
theorem C32_result_time_is_last_imu (junk : Junk α) (d0 d : Dev α) (o : Opt α) (nav : Option (NavOutput α)) (g : α)
    (h : rgioeInit junk d0 (some o) nav = some (E_OK, d)) (cs : List (Call α)) (hc : ∀ c ∈ cs, c.isInit = false)
    (pva : NavOutput α) (hnav : rgioeGetStatus (runCalls cs (g, d)).2 = 3) :
    ∃ m, (imusOf cs).getLast? = some m ∧ (rgioeGetResult (runCalls cs (g, d)).2 pva).2.gpst = m.gpst := by
  have key : ∀ cs : List (Call α), (∀ c ∈ cs, c.isInit = false) → ((runCalls cs (g, d)).2.status = 3 →
      ∃ m, (imusOf cs).getLast? = some m ∧ (runCalls cs (g, d)).2.df.ins.nav.gpst = m.gpst) := by
    intro cs
    induction cs using List.reverseRecOn with
    | nil =>
      intro _ h3
      have := (init_ok h).1
      simp only [runCalls] at h3
      rw [this] at h3; cases h3
    | append_singleton cs c ih =>
      intro hc h3
      have hcs : ∀ c' ∈ cs, c'.isInit = false := fun c' h' => hc c' (by simp [h'])
      rw [runCalls_append] at h3 ⊢
      rw [imusOf_append]
      have h0 : okStatus d.status := by rw [(init_ok h).1]; exact Or.inl rfl
      have hok := (runCalls_status cs hcs (g, d) h0).1
      rcases c with _ | (_ | m) | (_ | m) | _ | _ | _ | _ | p | _
      · have := hc _ (List.mem_append_right _ (List.mem_singleton_self _))
        simp [Call.isInit] at this
      all_goals first
        | (simp only [imusOf, List.append_nil]; exact ih hcs h3)
        | skip
      · refine ⟨m, by simp [imusOf], ?_⟩
        exact nav_time _ m h3 hok
      · simp only [imusOf, List.append_nil]
        have h3' : (runCalls cs (g, d)).2.status = 3 := by
          have := gnss_status (runCalls cs (g, d)).1 (runCalls cs (g, d)).2 (some m)
          rw [← this]; exact h3
        obtain ⟨m', h1, h2⟩ := ih hcs h3'
        refine ⟨m', h1, ?_⟩
        rw [← h2]
        show (rgioeGnssupdate _ _ (some m)).2.2.df.ins.nav.gpst = _
        unfold rgioeGnssupdate
        simp only [h3']
        simp [ST_INIT, ST_ALIGN, ST_ATTITUDE, ST_NAVIGATION, Fusion.measureGnss_gpst]
  obtain ⟨m, h1, h2⟩ := key cs hc hnav
  refine ⟨m, h1, ?_⟩
  rw [← h2]
  have h3 : (runCalls cs (g, d)).2.status = 3 := hnav
  unfold rgioeGetResult
  simp only [h3]
  simp [ST_ALIGN, ST_ATTITUDE, ST_NAVIGATION]
  rfl

example (m : Imu α) (g : α) : ∃ d, rgioeInit (Ex.zJunk : Junk α) Ex.zDev (some (Ex.opt 2)) (some zeroPva) = some (E_OK, d) ∧
    rgioeGetStatus (runCalls [.time (some m)] (g, d)).2 = 3 := ⟨_, rfl, rfl⟩
end Verif.Props
