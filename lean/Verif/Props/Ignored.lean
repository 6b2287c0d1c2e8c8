import Verif.Props.Post
import Verif.Spec.Examples
import Verif.Props.Kalman
import Mathlib.Tactic.SplitIfs
import Mathlib.Tactic.LinearCombination
import Mathlib.Analysis.SpecialFunctions.Pow.NNReal
/-! Options that have no influence. Everything except the theorems about ℝ holds for every arithmetic. -/
namespace Verif.Props
open Verif Verif.Spec Matrix
variable {α : Type} [Add α] [Sub α] [Mul α] [Neg α] [Div α] [Zero α] [One α] [Fl α]

/-- Two sets of options that differ at most in: GNSS on/off, RTS on/off, standard deviation of the odometer and of
its scale factor. -/
def sameButIgnored (o o' : Opt α) : Prop :=
  o' = { o with enableGnss := o'.enableGnss, enableRts := o'.enableRts, odoStd := o'.odoStd
                odoScaleStd := o'.odoScaleStd }

/-- The same call, except that an initialisation may be given such other options. -/
inductive sameCall : Call α → Call α → Prop
  | init (o o' : Opt α) (n : Option (NavOutput α)) (j : Junk α) : sameButIgnored o o' →
      sameCall (.init o n j) (.init o' n j)
  | other (c : Call α) : c.isInit = false → sameCall c c

/-! Proof: everything commutes with forgetting these fields. -/
/-- Options with the ignored fields zeroed. -/
def mask (o : Opt α) : Opt α := { o with enableGnss := 0, enableRts := 0, odoStd := 0, odoScaleStd := 0 }
/-- The filter with masked options. -/
def maskF (f : Fusion α) : Fusion α := { f with opt := mask f.opt }
/-- The alignment with masked options. -/
def maskA (a : Align α) : Align α := { a with option := mask a.option }
/-- The device with masked options. -/
def maskD (d : Dev α) : Dev α := { d with opt := mask d.opt, df := maskF d.df, am := maskA d.am }

theorem mask_same (o o' : Opt α) (h : sameButIgnored o o') : mask o' = mask o := by
  unfold sameButIgnored at h
  rw [h]
  rfl

theorem maskF_take (f : Fusion α) : (maskF f).takeCorrection = maskF f.takeCorrection := by
  unfold Fusion.takeCorrection
  show (if 0 < f.updateFlag.toNat then _ else _) = _
  split_ifs <;> rfl

theorem maskF_apply (f : Fusion α) : (maskF f).applyCorrection = maskF f.applyCorrection := by
  unfold Fusion.applyCorrection
  show (if 0 < f.updateIter then _ else _) = _
  split_ifs <;> rfl

theorem maskF_propagate (g : α) (f : Fusion α) (m : Imu α) :
    (maskF f).propagate g m = ((f.propagate g m).1, maskF (f.propagate g m).2) := by
  have h1 : ∀ (g : α) (f : Fusion α), (maskF f).transferMatrix g = f.transferMatrix g := fun _ _ => rfl
  have h2 : ∀ (f : Fusion α) phi, (maskF f).stepQ phi = f.stepQ phi := fun _ _ => rfl
  unfold Fusion.propagate
  dsimp only
  have e : ∀ ins : Ins α, ({ maskF f with smooth := (maskF f).smooth.update m, ins := ins } : Fusion α) =
    maskF { f with smooth := f.smooth.update m, ins := ins } := fun _ => rfl
  rw [show (maskF f).ins = f.ins from rfl, e, h1, h2]
  rfl

theorem maskF_zupt (f : Fusion α) : (maskF f).zuptStage = maskF f.zuptStage := by
  have hz : (maskF f).measureZeroVelocity = maskF f.measureZeroVelocity := by
    unfold Fusion.measureZeroVelocity
    dsimp only
    show (if f.opt.zuptaEnable = 0 then _ else _) = _
    split_ifs <;> rfl
  unfold Fusion.zuptStage
  show (if f.timeUpdateIdx.toNat % 8 ≠ 0 ∧ f.opt.zuptEnable ≠ 0 then
    if f.smooth.isStatic then (maskF f).measureZeroVelocity.setSensor SENSOR_ZUPT else _ else _) = _
  rw [hz]
  split_ifs <;> rfl

theorem maskF_nhc (f : Fusion α) : (maskF f).nhcStage = maskF f.nhcStage := by
  unfold Fusion.nhcStage
  show (if f.timeUpdateIdx.toNat % 32 = 1 ∧ f.opt.nhcEnable ≠ 0 ∧ f.opt.odoEnable = 0 then _ else _) = _
  split_ifs <;> rfl

theorem maskF_time (g : α) (f : Fusion α) (m : Imu α) :
    (maskF f).timeUpdate g m = ((f.timeUpdate g m).1, maskF (f.timeUpdate g m).2) := by
  unfold Fusion.timeUpdate
  dsimp only
  rw [maskF_take, maskF_apply, maskF_propagate, maskF_zupt, maskF_nhc]
  rfl

theorem maskF_gnss (f : Fusion α) (m : Gnss α) : (maskF f).measureGnss m = maskF (f.measureGnss m) := by
  unfold Fusion.measureGnss
  split_ifs <;> rfl

theorem maskF_init (g : α) (f : Fusion α) (n : NavEpoch α) (o : Opt α) :
    (maskF f).initFusion g n (mask o) = ((f.initFusion g n o).1, maskF (f.initFusion g n o).2) := rfl

theorem maskA_imu (a : Align α) (m : Imu α) : (maskA a).updateImu m = maskA (a.updateImu m) := by
  unfold Align.updateImu
  dsimp only
  show (if a.level = true then _ else if (!(a.smooth.update m).isStatic) = true then _ else _) = _
  split_ifs <;> rfl

theorem maskA_gnss (g : α) (a : Align α) (m : Gnss α) :
    (maskA a).updateGnss g m = ((a.updateGnss g m).1, maskA (a.updateGnss g m).2) := by
  have hy : (maskA a).yawStep m = maskA (a.yawStep m) := by
    unfold Align.yawStep
    dsimp only
    by_cases hc : (Fl.lt a.option.alignVelThreshold (Fl.f32 (vnorm (Earth.distance6 (m.lat * deg) (m.lon * deg)
        (a.gnssPre.lat * deg) (a.gnssPre.lon * deg) m.height a.gnssPre.height))) &&
      Fl.lt (Fl.f32 (vnorm (Earth.distance6 (m.lat * deg) (m.lon * deg)
        (a.gnssPre.lat * deg) (a.gnssPre.lon * deg) m.height a.gnssPre.height))) (Fl.lit 1000)) = true
    · rw [if_pos hc]
      exact (if_pos hc)
    · rw [if_neg hc]
      exact (if_neg hc)
  unfold Align.updateGnss
  rw [hy]
  show (if Fl.eq (a.gnssPre.posStd 0) 0 = true then _ else _) = _
  split_ifs <;> rfl

theorem mask_time (g : α) (d : Dev α) (m : Option (Imu α)) :
    rgioeTimeupdate g (maskD d) m =
      ((rgioeTimeupdate g d m).1, (rgioeTimeupdate g d m).2.1, maskD (rgioeTimeupdate g d m).2.2) := by
  cases m with
  | none => rfl
  | some m =>
    have hi : (maskA d.am).updateImu m = maskA (d.am.updateImu m) := maskA_imu _ _
    have ht := maskF_time g d.df m
    have h0 : (maskF d.df).initFusion g (makeNavEpoch d.curPva (mask d.opt)) (mask d.opt) = _ :=
      maskF_init g d.df (makeNavEpoch d.curPva (mask d.opt)) d.opt
    have hmk : makeNavEpoch d.curPva (mask d.opt) = makeNavEpoch d.curPva d.opt := rfl
    have h1 := maskF_time (d.df.initFusion g (makeNavEpoch d.curPva d.opt) d.opt).1
      (d.df.initFusion g (makeNavEpoch d.curPva d.opt) d.opt).2 m
    unfold rgioeTimeupdate
    show (if d.status = ST_INIT then
        if d.opt.alignMode = ALIGN_USE_GIVEN then _ else _
      else if d.status = ST_ALIGN then _ else if d.status = ST_ATTITUDE then _
      else if d.status = ST_NAVIGATION then _ else _) = _
    by_cases s0 : d.status = ST_INIT
    · rw [if_pos s0]
      by_cases ha : d.opt.alignMode = ALIGN_USE_GIVEN
      · rw [if_pos ha]
        dsimp only
        simp only [if_pos s0, if_pos ha]
        have e : ((maskD d).df.initFusion g (makeNavEpoch (maskD d).curPva (maskD d).opt) (maskD d).opt) =
          ((d.df.initFusion g (makeNavEpoch d.curPva d.opt) d.opt).1,
            maskF (d.df.initFusion g (makeNavEpoch d.curPva d.opt) d.opt).2) := h0
        rw [e]
        dsimp only
        rw [h1]
        rfl
      · rw [if_neg ha]
        dsimp only
        simp only [if_pos s0, if_neg ha]
        rw [show (maskD d).am.updateImu m = _ from hi]
        rfl
    · rw [if_neg s0]
      dsimp only
      simp only [if_neg s0]
      by_cases s1 : d.status = ST_ALIGN
      · rw [if_pos s1]
        simp only [if_pos s1]
        rw [show (maskD d).am.updateImu m = _ from hi]
        show (_, _, ({ maskD d with am := maskA (d.am.updateImu m), status :=
          if (d.am.updateImu m).levelFinished = true then ST_ATTITUDE else d.status } : Dev α)) = _
        rfl
      · rw [if_neg s1]
        simp only [if_neg s1]
        by_cases s2 : d.status = ST_ATTITUDE
        · rw [if_pos s2]
          simp only [if_pos s2]
          rw [show (maskD d).am.updateImu m = _ from hi]
          show (if (d.am.updateImu m).alignFinished = true then _ else _) = _
          split_ifs <;> rfl
        · rw [if_neg s2]
          simp only [if_neg s2]
          by_cases s3 : d.status = ST_NAVIGATION
          · rw [if_pos s3]
            simp only [if_pos s3]
            rw [show (maskD d).df.timeUpdate g m = _ from ht]
            rfl
          · rw [if_neg s3]
            simp only [if_neg s3]

theorem mask_gnss (g : α) (d : Dev α) (m : Option (Gnss α)) :
    rgioeGnssupdate g (maskD d) m =
      ((rgioeGnssupdate g d m).1, (rgioeGnssupdate g d m).2.1, maskD (rgioeGnssupdate g d m).2.2) := by
  cases m with
  | none => rfl
  | some m =>
    unfold rgioeGnssupdate
    have h1 : (maskD d).am.updateGnss g m = _ := maskA_gnss g d.am m
    have h2 : (maskD d).df.measureGnss m = _ := maskF_gnss d.df m
    dsimp only
    rw [h1, h2]
    show (if d.status = ST_INIT then _ else if d.status = ST_ALIGN ∨ d.status = ST_ATTITUDE then _
      else if d.status = ST_NAVIGATION then _ else _) = _
    split_ifs <;> rfl

theorem mask_query (d : Dev α) : (maskD d).df.output = d.df.output := rfl

theorem sameCall_exec (c c' : Call α) (h : sameCall c c') (g : α) (d d' : Dev α) (hd : maskD d = maskD d') :
    (c.exec (g, d)).2 = (c'.exec (g, d')).2 ∧ (c.exec (g, d)).1.1 = (c'.exec (g, d')).1.1 ∧
      maskD (c.exec (g, d)).1.2 = maskD (c'.exec (g, d')).1.2 := by
  have hst : d.status = d'.status := show (maskD d).status = (maskD d').status by rw [hd]
  have hout : d.df.output = d'.df.output := by rw [← mask_query d, hd, mask_query]
  have ham : maskA d.am = maskA d'.am := congrArg Dev.am hd
  have hnav : d.am.nav = d'.am.nav := show (maskA d.am).nav = (maskA d'.am).nav by rw [ham]
  have hcur : d.curPva = d'.curPva := show (maskD d).curPva = (maskD d').curPva by rw [hd]
  cases h with
  | init o o' n j ho =>
    have hm := mask_same o o' ho
    have hal : o'.alignMode = o.alignMode := by rw [ho]
    have hnew : maskA (Align.new j.am o) = maskA (Align.new j.am o') := by
      unfold sameButIgnored at ho; rw [ho]; rfl
    have hset : ∀ a a' : Align α, maskA a = maskA a' → maskA (a.setOption o) = maskA (a'.setOption o') := by
      intro a a' h
      show ({ maskA a with option := mask o } : Align α) = { maskA a' with option := mask o' }
      rw [h, hm]
    simp only [Call.exec, rgioeInit]
    rw [hal]
    by_cases hc : o.alignMode = ALIGN_USE_GIVEN ∧ n.isNone = true
    · simp only [if_pos hc]
      refine ⟨trivial, trivial, ?_⟩
      show (⟨maskF (Fusion.new j.df), maskA (Align.new j.am o), d.status, mask o, zeroPva⟩ : Dev α) =
        ⟨maskF (Fusion.new j.df), maskA (Align.new j.am o'), d'.status, mask o', zeroPva⟩
      rw [hm, hst, hnew]
    · simp only [if_neg hc]
      refine ⟨trivial, trivial, ?_⟩
      cases n with
      | none =>
        show (⟨maskF (Fusion.new j.df), maskA ((Align.new j.am o).setOption o), ST_INIT, mask o, d.curPva⟩ : Dev α) =
          ⟨maskF (Fusion.new j.df), maskA ((Align.new j.am o').setOption o'), ST_INIT, mask o', d'.curPva⟩
        rw [hm, hcur, hset _ _ hnew]
      | some n =>
        show (⟨maskF (Fusion.new j.df), maskA ((Align.new j.am o).setOption o), ST_INIT, mask o, n⟩ : Dev α) =
          ⟨maskF (Fusion.new j.df), maskA ((Align.new j.am o').setOption o'), ST_INIT, mask o', n⟩
        rw [hm, hset _ _ hnew]
  | other c hc =>
    cases c with
    | init => exact absurd hc (by simp [Call.isInit])
    | time m =>
      have h1 := mask_time g d m
      have h2 := mask_time g d' m
      rw [hd, h2] at h1
      simp only [Prod.mk.injEq] at h1
      refine ⟨congrArg Answer.code h1.1.symm, h1.2.1.symm, h1.2.2.symm⟩
    | gnss m =>
      have h1 := mask_gnss g d m
      have h2 := mask_gnss g d' m
      rw [hd, h2] at h1
      simp only [Prod.mk.injEq] at h1
      refine ⟨congrArg Answer.code h1.1.symm, h1.2.1.symm, h1.2.2.symm⟩
    | getAtti => exact ⟨by simp only [Call.exec, rgioeGetAtti, hout], rfl, hd⟩
    | getPos => exact ⟨by simp only [Call.exec, rgioeGetPos, hout], rfl, hd⟩
    | getVel => exact ⟨by simp only [Call.exec, rgioeGetVel, hout], rfl, hd⟩
    | getStatus => exact ⟨by simp only [Call.exec, rgioeGetStatus, hst], rfl, hd⟩
    | getResult p =>
      refine ⟨?_, rfl, hd⟩
      simp only [Call.exec, rgioeGetResult, hst, hnav, hout]
    | deinit => exact ⟨rfl, rfl, hd⟩

/-- C111/C112, the violations, for every history on a device: whether GNSS is switched on or off in the options,
whether RTS smoothing is asked for, and what is said about the quality of the odometer changes no answer. -/
theorem C111_ignored_options (cs cs' : List (Call α)) (h : List.Forall₂ sameCall cs cs') (s : α × Dev α) :
    traceCalls cs s = traceCalls cs' s := by
  obtain ⟨g, d⟩ := s
  have key : ∀ (g : α) (d d' : Dev α), maskD d = maskD d' → traceCalls cs (g, d) = traceCalls cs' (g, d') := by
    induction h with
    | nil => intro g d d' _; rfl
    | cons hc _ ih =>
      rename_i c c' cs cs' _
      intro g d d' hd
      obtain ⟨h1, h2, h3⟩ := sameCall_exec c c' hc g d d' hd
      simp only [traceCalls]
      rw [h1]
      congr 1
      have := ih (c.exec (g, d)).1.1 (c.exec (g, d)).1.2 (c'.exec (g, d')).1.2 h3
      rw [show (c.exec (g, d)).1 = ((c.exec (g, d)).1.1, (c.exec (g, d)).1.2) from rfl, this]
      rw [h2]
  exact key g d d rfl

/-- The options may in particular differ in just the GNSS switch. -/
example (o : Opt α) : sameButIgnored o { o with enableGnss := 0 } ∧ sameButIgnored o { o with enableRts := 1 } :=
  ⟨rfl, rfl⟩

/-- C111, the effect: with GNSS switched off in the options a usable fix is fused all the same. -/
theorem C111_fused_although_off (g : α) (d : Dev α) (m : Gnss α) (hs : d.status = 3) (hm : usable m.mode)
    (_hoff : d.opt.enableGnss = 0) (p : NavOutput α) :
    let s := runCalls [.gnss (some m)] (g, d)
    s.2.df = d.df.measureGnss m ∧ s.2.df.updateFlag ≠ 0 ∧
      has (rgioeGetResult s.2 p).2.info.sensors 2#16 := by
  have hdf : rgioeGnssupdate g d (some m) = (0, g, { d with df := d.df.measureGnss m }) := by
    unfold rgioeGnssupdate
    simp only [hs]
    rfl
  intro s
  have hs2 : s = (g, { d with df := d.df.measureGnss m }) := by
    show runCalls _ (g, d) = _
    simp only [runCalls, Call.exec, hdf]
  have hc : Fusion.gnssCheck m = true := (gnssCheck_iff m).mpr hm
  rw [hs2]
  refine ⟨rfl, ?_, ?_⟩
  · show (d.df.measureGnss m).updateFlag ≠ 0
    unfold Fusion.measureGnss
    rw [if_pos hc]
    show d.df.updateFlag ||| Fusion.FLAG_POSITION ≠ 0
    unfold Fusion.FLAG_POSITION
    generalize d.df.updateFlag = x
    intro h
    have := congrArg (fun b : BitVec 32 => b.getLsbD 1) h
    simp at this
  · simp only [rgioeGetResult, hs]
    show has (d.df.measureGnss m).ins.nav.info.sensors 2#16
    unfold Fusion.measureGnss
    rw [if_pos hc]
    show has (d.df.ins.nav.info.sensors ||| SENSOR_GNSS) 2#16
    unfold has SENSOR_GNSS
    generalize d.df.ins.nav.info.sensors = x
    intro h
    have := congrArg (fun b : BitVec 16 => b.getLsbD 1) h
    simp at this

/-- Two configurations that agree on the settings the post-processing uses beyond reading its files (paths, formats,
column numbers and the IMU frame act through the records that are read, and the output path and format on where the
lines go). They may differ in: the stop time, RTS, the antenna baseline (double antenna, pitch, yaw), the odometer file
and the deviations given for the odometer and its scale, the static detector (window, width, threshold) and the
pressure sensor. -/
def sameSettings (c c' : Config α) : Prop :=
  c.startTime = c'.startTime ∧ c.gnss.enable = c'.gnss.enable ∧ c.gnss.levelArm = c'.gnss.levelArm ∧
  c.gnss.scaleOfStd = c'.gnss.scaleOfStd ∧ c.imu.dRate = c'.imu.dRate ∧ c.imu.para = c'.imu.para ∧
  c.odo.enable = c'.odo.enable ∧ c.odo.nhcEnable = c'.odo.nhcEnable ∧ c.odo.nhcStd = c'.odo.nhcStd ∧
  c.odo.angleBv = c'.odo.angleBv ∧ c.odo.wheelLevelArm = c'.odo.wheelLevelArm ∧
  c.odo.scaleFactor = c'.odo.scaleFactor ∧ c.zupt.zuptEnable = c'.zupt.zuptEnable ∧
  c.zupt.zuptaEnable = c'.zupt.zuptaEnable ∧ c.zupt.zuptStd = c'.zupt.zuptStd ∧
  c.zupt.zuptaStd = c'.zupt.zuptaStd ∧ c.align = c'.align ∧ c.outage.enable = c'.outage.enable ∧
  c.output.projectEnable = c'.output.projectEnable ∧ c.output.posProject = c'.output.posProject ∧
  c.output.attiProject = c'.output.attiProject

theorem replay_mask (hidden : GnssRec α → Bool) (rs : List (Rec α)) :
    ∀ (g : α) (d d' : Dev α) (p : NavOutput α), maskD d = maskD d' →
      replay hidden rs (g, d) p = replay hidden rs (g, d') p := by
  induction rs with
  | nil => intro g d d' p _; rfl
  | cons r rs ih =>
    intro g d d' p hd
    have step : (runCalls (callOf hidden r) (g, d)).1 = (runCalls (callOf hidden r) (g, d')).1 ∧
        maskD (runCalls (callOf hidden r) (g, d)).2 = maskD (runCalls (callOf hidden r) (g, d')).2 := by
      cases r with
      | imu i =>
        exact (sameCall_exec _ _ (.other (.time (some ⟨i.time, i.gyro, i.acce⟩)) rfl) g d d' hd).2
      | gnss f =>
        simp only [callOf]
        by_cases h : hidden f = true
        · rw [if_pos h]; exact ⟨rfl, hd⟩
        · rw [if_neg h]
          exact (sameCall_exec _ _ (.other (.gnss (some ⟨f.lat, f.lon, f.height, f.posStd, f.time, 1⟩)) rfl) g d d' hd).2
    have hres : ∀ e e' : Dev α, maskD e = maskD e' → rgioeGetResult e p = rgioeGetResult e' p := by
      intro e e' he
      have := (sameCall_exec _ _ (.other (.getResult p) rfl) g e e' he).1
      simp only [Call.exec, Answer.pva.injEq] at this
      exact Prod.ext this.1 this.2
    simp only [replay]
    rw [hres _ _ step.2]
    congr 1
    have h1 := step.1
    have h2 := step.2
    revert h1 h2
    generalize runCalls (callOf hidden r) (g, d) = x
    generalize runCalls (callOf hidden r) (g, d') = y
    intro h1 h2
    obtain ⟨x1, x2⟩ := x
    obtain ⟨y1, y2⟩ := y
    dsimp only at h1 h2
    rw [h1]
    exact ih y1 x2 y2 _ h2

/-- C112: none of the settings listed at `sameSettings` has any influence on the lines written. -/
theorem C112_ignored_settings (g0 : α) (dev0 : Dev α) (junk : Junk α) (res0 : NavOutput α) (o : Outage α)
    (c c' : Config α) (h : sameSettings c c') (gs : List (GnssRec α)) (is : List (ImuRec α)) (hs : smallTimes is) :
    postMain g0 dev0 junk res0 o c gs is = postMain g0 dev0 junk res0 o c' gs is := by
  obtain ⟨h1, h2, h3, h4, h5, h6, h7, h8, h9, h10, h11, h12, h13, h14, h15, h16, h17, h18, h19, h20, h21⟩ := h
  rw [post_is_replay _ _ _ _ _ _ _ _ hs, post_is_replay _ _ _ _ _ _ _ _ hs]
  have hr : replayed c gs is = replayed c' gs is := by unfold replayed; rw [h1, h2]
  have hopt : sameButIgnored c.getOption c'.getOption := by
    unfold sameButIgnored Config.getOption
    simp only [h2, h3, h4, h5, h6, h7, h8, h9, h10, h11, h12, h13, h14, h15, h16, h17, h19, h20, h21]
  have hi := (sameCall_exec _ _ (.init c.getOption c'.getOption (some c.align.initPva) junk hopt) g0 dev0 dev0 rfl).2
  rw [hr, h18, ← h17]
  simp only [runCalls]
  revert hi
  generalize ((Call.init c.getOption (some c.align.initPva) junk).exec (g0, dev0)).1 = x
  generalize ((Call.init c'.getOption (some c.align.initPva) junk).exec (g0, dev0)).1 = y
  intro hi
  obtain ⟨x1, x2⟩ := x
  obtain ⟨y1, y2⟩ := y
  dsimp only at hi
  rw [hi.1]
  exact replay_mask _ _ _ _ _ _ hi.2

/-- For example a different threshold of the static detector. -/
example (c : Config α) (t : α) : sameSettings c { c with zupt := { c.zupt with threshold := t } } := by
  simp [sameSettings]

/-- C113, the violation: with scale `s` (not 0 or 1) a fix with deviation `σ` is not weighted like a fix with
deviation `s σ` without scaling. What the filter does instead: the variance is multiplied by `s`. -/
theorem C113_scale_applies_to_variance (f : Fusion ℝ) (m : Gnss ℝ) (hm : usable m.mode) (hs : 0 ≤ f.opt.gnssStdScale) :
    let scaled := { m with posStd := fun i => Real.sqrt f.opt.gnssStdScale * m.posStd i }
    (f.measureGnss m).kf = (({ f with opt := { f.opt with gnssStdScale := 1 } } : Fusion ℝ).measureGnss scaled).kf := by
  intro scaled
  have hc : Fusion.gnssCheck m = true := (gnssCheck_iff m).mpr hm
  have hc' : Fusion.gnssCheck scaled = true := (gnssCheck_iff scaled).mpr hm
  unfold Fusion.measureGnss
  rw [if_pos hc, if_pos hc']
  have hR : (diagM fun i => m.posStd i * m.posStd i * f.opt.gnssStdScale : M3 ℝ) =
      diagM fun i => scaled.posStd i * scaled.posStd i * 1 := by
    congr 1
    funext i
    show _ = Real.sqrt f.opt.gnssStdScale * m.posStd i * (Real.sqrt f.opt.gnssStdScale * m.posStd i) * 1
    have := Real.mul_self_sqrt hs
    linear_combination -(m.posStd i * m.posStd i) * this
  dsimp only
  rw [hR]
  rfl

/-- A filter with unit covariance, one metre above the point a fix reports, and GNSS deviations scaled by two. -/
noncomputable def demoScaled : Fusion ℝ :=
  { (Ex.zFusion : Fusion ℝ) with
    kf := { (Kf.new 15 : Kf 15 ℝ) with P := 1 }
    ins := { (Ex.zIns : Ins ℝ) with nav := { (Ex.zNav : NavEpoch ℝ) with pos := v3 0 0 1, Cne := 1 } }
    opt := { (Ex.opt 0 : Opt ℝ) with gnssStdScale := 2 } }

theorem demoScaled_update (r : ℝ) (hr : 0 < r) :
    ((demoScaled.kf.update demoScaled.posH (demoScaled.posZ (v3 0 0 0)) (diagM fun _ => r)).Xd) 0 = 1 / (1 + r) := by
  have hH : ∀ i j, demoScaled.posH i j = if j.val = i.val then (1 : ℝ) else 0 := by
    intro i j
    have h0 : (Convert.skew (mvec demoScaled.ins.nav.Cbn demoScaled.lbGnss) : M3 ℝ) = 0 := by
      ext a b
      fin_cases a <;> fin_cases b <;>
        simp [Convert.skew, mvec_real, demoScaled, Ex.zFusion, Ex.zNav, Ex.zm, zero3, Matrix.mulVec, dotProduct]
    unfold Fusion.posH
    rw [h0, eyeM_real]
    fin_cases i <;> fin_cases j <;> simp [setBlock, Matrix.one_apply]
  have hS : demoScaled.posH * demoScaled.kf.P * demoScaled.posHᵀ + diagM (fun _ => r) = (1 + r) • (1 : M3 ℝ) := by
    have h1 : demoScaled.kf.P = 1 := rfl
    rw [h1, Matrix.mul_one, diagM_real]
    ext i j
    simp only [Matrix.add_apply, Matrix.mul_apply, Matrix.transpose_apply, Matrix.smul_apply, smul_eq_mul, hH]
    fin_cases i <;> fin_cases j <;> simp [Fin.sum_univ_succ, Matrix.diagonal]
  have hz : demoScaled.posZ (v3 0 0 0) 0 = 1 := by
    unfold Fusion.posZ
    rw [mvec_real, mvec_real]
    simp [demoScaled, Ex.zFusion, zero3, Convert.llaToXyz, v3, Matrix.mulVec, dotProduct, Fin.sum_univ_three]
  have hi : ((1 + r) • (1 : M3 ℝ))⁻¹ = (1 / (1 + r)) • (1 : M3 ℝ) := by
    apply Matrix.inv_eq_right_inv
    rw [smul_mul_smul_comm, Matrix.mul_one, mul_one_div, div_self (by linarith), one_smul]
  rw [(update_P demoScaled.kf demoScaled.posH _ _).2, hS, hi]
  have h1 : demoScaled.kf.P = 1 := rfl
  rw [h1, Matrix.one_mul, Matrix.mul_smul, Matrix.mul_one, Matrix.smul_mulVec, Pi.smul_apply, smul_eq_mul]
  have : (demoScaled.posHᵀ *ᵥ demoScaled.posZ (v3 0 0 0)) 0 = 1 := by
    rw [Matrix.mulVec, dotProduct]
    simp only [Fin.sum_univ_three, Matrix.transpose_apply, hH]
    simp [hz]
  rw [this, mul_one]

/-- C113, the witness: a fix with deviation 1 m and scale 2 is not weighted as a fix with deviation 2 m: it is
weighted with variance 2, not 4, and the corrections differ. -/
theorem C113_not_the_deviation :
    let m : Gnss ℝ := Ex.fix 4
    usable m.mode ∧ demoScaled.opt.gnssStdScale = 2 ∧
    (demoScaled.measureGnss m).kf.Xd 0 = 1 / 3 ∧
    (({ demoScaled with opt := { demoScaled.opt with gnssStdScale := 1 } } : Fusion ℝ).measureGnss
      { m with posStd := fun i => 2 * m.posStd i }).kf.Xd 0 = 1 / 5 := by
  intro m
  have hu : usable m.mode := by unfold usable; simp [m, Ex.fix]
  have hc : Fusion.gnssCheck m = true := (gnssCheck_iff m).mpr hu
  refine ⟨hu, rfl, ?_, ?_⟩
  · unfold Fusion.measureGnss
    rw [if_pos hc]
    have hR : (diagM fun i => m.posStd i * m.posStd i * demoScaled.opt.gnssStdScale : M3 ℝ) = diagM fun _ => 2 := by
      congr 1; funext i; simp [m, Ex.fix, demoScaled]
    have hp : (v3 (m.lat * deg) (m.lon * deg) m.height : V3 ℝ) = v3 0 0 0 := by simp [m, Ex.fix, Align.zeroGnss]
    dsimp only
    rw [hR, hp]
    have := demoScaled_update 2 (by norm_num)
    norm_num at this ⊢
    exact this
  · unfold Fusion.measureGnss
    rw [if_pos (show Fusion.gnssCheck { m with posStd := fun i => 2 * m.posStd i } = true from hc)]
    have hR : (diagM fun i => (2 * m.posStd i) * (2 * m.posStd i) * 1 : M3 ℝ) = diagM fun _ => 4 := by
      congr 1; funext i; simp [m, Ex.fix]; norm_num
    have hp : (v3 (m.lat * deg) (m.lon * deg) m.height : V3 ℝ) = v3 0 0 0 := by simp [m, Ex.fix, Align.zeroGnss]
    dsimp only
    rw [hR, hp]
    have := demoScaled_update 4 (by norm_num)
    norm_num at this ⊢
    exact this

end Verif.Props
