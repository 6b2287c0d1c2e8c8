import Verif.Props.Post
import Verif.Spec.Examples
import Mathlib.Tactic.SplitIfs
/-! Time stamps. Everything holds for every arithmetic. -/
namespace Verif.Props
open Verif Verif.Spec Matrix
variable {α : Type} [Add α] [Sub α] [Mul α] [Neg α] [Div α] [Zero α] [One α] [Fl α]

/-- The same call, except that an IMU sample or the given initial state may carry another time stamp. -/
inductive sameButStamp : Call α → Call α → Prop
  | sample (m m' : Imu α) : m.gyro = m'.gyro → m.acce = m'.acce → sameButStamp (.time (some m)) (.time (some m'))
  | start (o : Opt α) (n : NavOutput α) (t : α) (j : Junk α) :
      sameButStamp (.init o (some n) j) (.init o (some { n with gpst := t }) j)
  | result (p : NavOutput α) (t : α) : sameButStamp (.getResult p) (.getResult { p with gpst := t })
  | other (c : Call α) : sameButStamp c c

/-- The same answer, except for the reported time. -/
inductive sameButTime : Answer α → Answer α → Prop
  | pva (e : Int) (p p' : NavOutput α) : { p with gpst := p'.gpst } = p' → sameButTime (.pva e p) (.pva e p')
  | other (a : Answer α) : sameButTime a a

/-! Proof: everything commutes with forgetting the time stamps. -/
/-- A sample without its time. -/
def imu0 (m : Imu α) : Imu α := { m with gpst := 0 }
/-- An epoch without its time. -/
def nav0 (n : NavEpoch α) : NavEpoch α := { n with gpst := 0 }
/-- The static detector without times. -/
def smooth0 (s : Smooth α) : Smooth α := { s with ave := imu0 s.ave, pre := imu0 s.pre }
/-- The filter without times. -/
def fus0 (f : Fusion α) : Fusion α := { f with ins := { f.ins with nav := nav0 f.ins.nav }, smooth := smooth0 f.smooth }
/-- The alignment without times of samples. -/
def ali0 (a : Align α) : Align α := { a with nav := nav0 a.nav, smooth := smooth0 a.smooth }
/-- A result without its time. -/
def pva0 (p : NavOutput α) : NavOutput α := { p with gpst := 0 }
/-- The device without times. -/
def dev0 (d : Dev α) : Dev α := { d with df := fus0 d.df, am := ali0 d.am, curPva := pva0 d.curPva }

theorem smooth0_update (s : Smooth α) (m : Imu α) : (smooth0 s).update (imu0 m) = smooth0 (s.update m) := rfl

theorem fus0_take (f : Fusion α) : (fus0 f).takeCorrection = fus0 f.takeCorrection := by
  unfold Fusion.takeCorrection
  show (if 0 < f.updateFlag.toNat then _ else _) = _
  split_ifs <;> rfl

theorem fus0_apply (f : Fusion α) : (fus0 f).applyCorrection = fus0 f.applyCorrection := by
  unfold Fusion.applyCorrection
  show (if 0 < f.updateIter then _ else _) = _
  split_ifs <;> rfl

theorem ins0_forward (g : α) (s : Ins α) (m : Imu α) :
    ({ s with nav := nav0 s.nav } : Ins α).forwardImu g (imu0 m) =
      ((s.forwardImu g m).1, { (s.forwardImu g m).2 with nav := nav0 (s.forwardImu g m).2.nav }) := rfl

theorem fus0_propagate (g : α) (f : Fusion α) (m : Imu α) :
    (fus0 f).propagate g (imu0 m) = ((f.propagate g m).1, fus0 (f.propagate g m).2) := by
  have h1 : ∀ (g : α) (f : Fusion α), (fus0 f).transferMatrix g = f.transferMatrix g := fun _ _ => rfl
  have h2 : ∀ (f : Fusion α) phi, (fus0 f).stepQ phi = f.stepQ phi := fun _ _ => rfl
  unfold Fusion.propagate
  dsimp only
  have e : ∀ ins : Ins α,
    ({ fus0 f with smooth := smooth0 (f.smooth.update m), ins := { ins with nav := nav0 ins.nav } } : Fusion α) =
    fus0 { f with smooth := f.smooth.update m, ins := ins } := fun _ => rfl
  rw [show (fus0 f).ins.forwardImu g (imu0 m) = _ from ins0_forward g f.ins m]
  dsimp only
  rw [show (fus0 f).smooth.update (imu0 m) = _ from smooth0_update f.smooth m, e, h1, h2]
  rfl

theorem fus0_zupt (f : Fusion α) : (fus0 f).zuptStage = fus0 f.zuptStage := by
  have hz : (fus0 f).measureZeroVelocity = fus0 f.measureZeroVelocity := by
    unfold Fusion.measureZeroVelocity
    dsimp only
    show (if f.opt.zuptaEnable = 0 then _ else _) = _
    split_ifs <;> rfl
  unfold Fusion.zuptStage
  show (if f.timeUpdateIdx.toNat % 8 ≠ 0 ∧ f.opt.zuptEnable ≠ 0 then
    if f.smooth.isStatic then (fus0 f).measureZeroVelocity.setSensor SENSOR_ZUPT else _ else _) = _
  rw [hz]
  split_ifs <;> rfl

theorem fus0_nhc (f : Fusion α) : (fus0 f).nhcStage = fus0 f.nhcStage := by
  unfold Fusion.nhcStage
  show (if f.timeUpdateIdx.toNat % 32 = 1 ∧ f.opt.nhcEnable ≠ 0 ∧ f.opt.odoEnable = 0 then _ else _) = _
  split_ifs <;> rfl

theorem fus0_time (g : α) (f : Fusion α) (m : Imu α) :
    (fus0 f).timeUpdate g (imu0 m) = ((f.timeUpdate g m).1, fus0 (f.timeUpdate g m).2) := by
  unfold Fusion.timeUpdate
  dsimp only
  rw [fus0_take, fus0_apply, fus0_propagate, fus0_zupt, fus0_nhc]
  rfl

theorem fus0_gnss (f : Fusion α) (m : Gnss α) : (fus0 f).measureGnss m = fus0 (f.measureGnss m) := by
  unfold Fusion.measureGnss
  split_ifs <;> rfl

theorem fus0_init (g : α) (f : Fusion α) (n : NavEpoch α) (o : Opt α) :
    (fus0 f).initFusion g (nav0 n) o = ((f.initFusion g n o).1, fus0 (f.initFusion g n o).2) := rfl

theorem ali0_imu (a : Align α) (m : Imu α) : (ali0 a).updateImu (imu0 m) = ali0 (a.updateImu m) := by
  unfold Align.updateImu
  dsimp only
  show (if a.level = true then _ else if (!(a.smooth.update m).isStatic) = true then _ else _) = _
  split_ifs <;> rfl

theorem fixStep0 (a b : Align α) (m : Gnss α) (h : ali0 a = ali0 b) : ali0 (a.fixStep m) = ali0 (b.fixStep m) := by
  have e : ∀ a : Align α, ali0 (a.fixStep m) = ali0 ((ali0 a).fixStep m) := fun _ => rfl
  rw [e a, e b, h]

theorem ali0_gnss (g : α) (a b : Align α) (m : Gnss α) (h : ali0 a = ali0 b) :
    (a.updateGnss g m).1 = (b.updateGnss g m).1 ∧ ali0 (a.updateGnss g m).2 = ali0 (b.updateGnss g m).2 := by
  have hy : ∀ a : Align α, (ali0 a).yawStep m = ali0 (a.yawStep m) := by
    intro a
    unfold Align.yawStep
    dsimp only
    by_cases hc : (Fl.lt a.option.alignVelThreshold (Fl.f32 (vnorm (Earth.distance6 (m.lat * deg) (m.lon * deg)
        (a.gnssPre.lat * deg) (a.gnssPre.lon * deg) m.height a.gnssPre.height))) &&
      Fl.lt (Fl.f32 (vnorm (Earth.distance6 (m.lat * deg) (m.lon * deg)
        (a.gnssPre.lat * deg) (a.gnssPre.lon * deg) m.height a.gnssPre.height))) (Fl.lit 1000)) = true
    · rw [if_pos hc]
      exact (if_pos hc)
    · rw [if_neg hc]
      exact (if_neg hc)
  have hpre : a.gnssPre = b.gnssPre := show (ali0 a).gnssPre = (ali0 b).gnssPre by rw [h]
  have hyy : ali0 (a.yawStep m) = ali0 (b.yawStep m) := by rw [← hy, ← hy, h]
  unfold Align.updateGnss
  rw [hpre]
  split_ifs
  · refine ⟨rfl, ?_⟩
    show ({ ali0 a with gnssPre := m } : Align α) = { ali0 b with gnssPre := m }
    rw [h]
  · exact ⟨rfl, fixStep0 _ _ m hyy⟩

theorem dev0_time (g : α) (d : Dev α) (m : Imu α) :
    rgioeTimeupdate g (dev0 d) (some (imu0 m)) =
      ((rgioeTimeupdate g d (some m)).1, (rgioeTimeupdate g d (some m)).2.1, dev0 (rgioeTimeupdate g d (some m)).2.2) := by
  have hi : (ali0 d.am).updateImu (imu0 m) = ali0 (d.am.updateImu m) := ali0_imu _ _
  have ht := fus0_time g d.df m
  have h0 : (fus0 d.df).initFusion g (makeNavEpoch (pva0 d.curPva) d.opt) d.opt = _ :=
    fus0_init g d.df (makeNavEpoch d.curPva d.opt) d.opt
  have h1 := fus0_time (d.df.initFusion g (makeNavEpoch d.curPva d.opt) d.opt).1
    (d.df.initFusion g (makeNavEpoch d.curPva d.opt) d.opt).2 m
  unfold rgioeTimeupdate
  show (if d.status = ST_INIT then
      if d.opt.alignMode = ALIGN_USE_GIVEN then _ else _
    else if d.status = ST_ALIGN then _ else if d.status = ST_ATTITUDE then _
    else if d.status = ST_NAVIGATION then _ else _) = _
  by_cases s0 : d.status = ST_INIT
  · rw [if_pos s0]
    by_cases ha : d.opt.alignMode = ALIGN_USE_GIVEN
    · rw [if_pos ha]
      dsimp only
      simp only [if_pos s0, if_pos ha]
      have e : ((dev0 d).df.initFusion g (makeNavEpoch (dev0 d).curPva (dev0 d).opt) (dev0 d).opt) =
        ((d.df.initFusion g (makeNavEpoch d.curPva d.opt) d.opt).1,
          fus0 (d.df.initFusion g (makeNavEpoch d.curPva d.opt) d.opt).2) := h0
      rw [e]
      dsimp only
      rw [h1]
      rfl
    · rw [if_neg ha]
      dsimp only
      simp only [if_pos s0, if_neg ha]
      rw [show (dev0 d).am.updateImu (imu0 m) = _ from hi]
      rfl
  · rw [if_neg s0]
    dsimp only
    simp only [if_neg s0]
    by_cases s1 : d.status = ST_ALIGN
    · rw [if_pos s1]
      simp only [if_pos s1]
      rw [show (dev0 d).am.updateImu (imu0 m) = _ from hi]
      show (_, _, ({ dev0 d with am := ali0 (d.am.updateImu m), status :=
        if (d.am.updateImu m).levelFinished = true then ST_ATTITUDE else d.status } : Dev α)) = _
      rfl
    · rw [if_neg s1]
      simp only [if_neg s1]
      by_cases s2 : d.status = ST_ATTITUDE
      · rw [if_pos s2]
        simp only [if_pos s2]
        rw [show (dev0 d).am.updateImu (imu0 m) = _ from hi]
        show (if (d.am.updateImu m).alignFinished = true then _ else _) = _
        split_ifs <;> rfl
      · rw [if_neg s2]
        simp only [if_neg s2]
        by_cases s3 : d.status = ST_NAVIGATION
        · rw [if_pos s3]
          simp only [if_pos s3]
          rw [show (dev0 d).df.timeUpdate g (imu0 m) = _ from ht]
          rfl
        · rw [if_neg s3]
          simp only [if_neg s3]

theorem dev0_status {d d' : Dev α} (h : dev0 d = dev0 d') : d.status = d'.status :=
  show (dev0 d).status = (dev0 d').status from congrArg Dev.status h

theorem dev0_gnss (g : α) (d d' : Dev α) (m : Option (Gnss α)) (h : dev0 d = dev0 d') :
    (rgioeGnssupdate g d m).1 = (rgioeGnssupdate g d' m).1 ∧
    (rgioeGnssupdate g d m).2.1 = (rgioeGnssupdate g d' m).2.1 ∧
    dev0 (rgioeGnssupdate g d m).2.2 = dev0 (rgioeGnssupdate g d' m).2.2 := by
  cases m with
  | none => exact ⟨rfl, rfl, h⟩
  | some m =>
    have hs := dev0_status h
    obtain ⟨a1, a2⟩ := ali0_gnss g d.am d'.am m (congrArg Dev.am h)
    have hf : fus0 (d.df.measureGnss m) = fus0 (d'.df.measureGnss m) := by
      rw [← fus0_gnss, ← fus0_gnss]
      exact congrArg (fun x => Fusion.measureGnss x m) (congrArg Dev.df h)
    unfold rgioeGnssupdate
    dsimp only
    by_cases s0 : d'.status = ST_INIT
    · rw [if_pos s0, if_pos (hs.trans s0)]
      exact ⟨rfl, rfl, h⟩
    · have t0 : ¬ d.status = ST_INIT := by rw [hs]; exact s0
      rw [if_neg s0, if_neg t0]
      by_cases s1 : d'.status = ST_ALIGN ∨ d'.status = ST_ATTITUDE
      · have t1 : d.status = ST_ALIGN ∨ d.status = ST_ATTITUDE := by rw [hs]; exact s1
        rw [if_pos s1, if_pos t1]
        refine ⟨rfl, a1, ?_⟩
        show ({ dev0 d with am := ali0 (d.am.updateGnss g m).2 } : Dev α) =
          { dev0 d' with am := ali0 (d'.am.updateGnss g m).2 }
        rw [h, a2]
      · have t1 : ¬ (d.status = ST_ALIGN ∨ d.status = ST_ATTITUDE) := by rw [hs]; exact s1
        rw [if_neg s1, if_neg t1]
        by_cases s3 : d'.status = ST_NAVIGATION
        · rw [if_pos s3, if_pos (hs.trans s3)]
          refine ⟨rfl, rfl, ?_⟩
          show ({ dev0 d with df := fus0 (d.df.measureGnss m) } : Dev α) =
            { dev0 d' with df := fus0 (d'.df.measureGnss m) }
          rw [h, hf]
        · have t3 : ¬ d.status = ST_NAVIGATION := by rw [hs]; exact s3
          rw [if_neg s3, if_neg t3]
          exact ⟨rfl, rfl, h⟩

theorem pva0_iff (p p' : NavOutput α) : pva0 p = pva0 p' → { p with gpst := p'.gpst } = p' := by
  intro h
  have e : ∀ q : NavOutput α, ({ pva0 q with gpst := p'.gpst } : NavOutput α) = { q with gpst := p'.gpst } := fun _ => rfl
  rw [← e, h, e]

theorem result0 (d d' : Dev α) (p p' : NavOutput α) (h : dev0 d = dev0 d') (hp : pva0 p = pva0 p') :
    pva0 (rgioeGetResult d p).2 = pva0 (rgioeGetResult d' p').2 := by
  have hs := dev0_status h
  have ho : pva0 d.df.output = pva0 d'.df.output := by
    have e : ∀ d : Dev α, pva0 d.df.output = pva0 (dev0 d).df.output := fun _ => rfl
    rw [e, h, ← e]
  have hn : nav0 d.am.nav = nav0 d'.am.nav := congrArg (fun x : Dev α => x.am.nav) h
  have ha : d.am.nav.atti = d'.am.nav.atti :=
    show (nav0 d.am.nav).atti = (nav0 d'.am.nav).atti from congrArg NavEpoch.atti hn
  have hb : d.am.nav.attStd = d'.am.nav.attStd :=
    show (nav0 d.am.nav).attStd = (nav0 d'.am.nav).attStd from congrArg NavEpoch.attStd hn
  simp only [rgioeGetResult]
  rw [hs]
  by_cases s1 : d'.status = ST_ALIGN
  · have s2 : ¬ d'.status = ST_ATTITUDE := by rw [s1]; decide
    have s3 : ¬ d'.status = ST_NAVIGATION := by rw [s1]; decide
    simp only [if_pos s1, if_neg s2, if_neg s3]
    exact hp
  · by_cases s2 : d'.status = ST_ATTITUDE
    · have s3 : ¬ d'.status = ST_NAVIGATION := by rw [s2]; decide
      simp only [if_neg s1, if_pos s2, if_neg s3, ha, hb]
      show ({ pva0 p with atti := vd d'.am.nav.atti deg, attiStd := d'.am.nav.attStd } : NavOutput α) =
        { pva0 p' with atti := vd d'.am.nav.atti deg, attiStd := d'.am.nav.attStd }
      rw [hp]
    · by_cases s3 : d'.status = ST_NAVIGATION
      · simp only [if_neg s1, if_neg s2, if_pos s3]
        exact ho
      · simp only [if_neg s1, if_neg s2, if_neg s3]
        exact hp

theorem stamp_exec (c c' : Call α) (h : sameButStamp c c') (g : α) (d d' : Dev α) (hd : dev0 d = dev0 d') :
    sameButTime (c.exec (g, d)).2 (c'.exec (g, d')).2 ∧ (c.exec (g, d)).1.1 = (c'.exec (g, d')).1.1 ∧
      dev0 (c.exec (g, d)).1.2 = dev0 (c'.exec (g, d')).1.2 := by
  have hs := dev0_status hd
  have code : ∀ e e' : Int, e = e' → sameButTime (.code e : Answer α) (.code e') := by
    rintro e _ rfl; exact .other _
  have smp : ∀ m m' : Imu α, m.gyro = m'.gyro → m.acce = m'.acce →
      sameButTime (Call.exec (.time (some m)) (g, d)).2 (Call.exec (.time (some m')) (g, d')).2 ∧
      (Call.exec (.time (some m)) (g, d)).1.1 = (Call.exec (.time (some m')) (g, d')).1.1 ∧
      dev0 (Call.exec (.time (some m)) (g, d)).1.2 = dev0 (Call.exec (.time (some m')) (g, d')).1.2 := by
    intro m m' h1 h2
    have e : imu0 m = imu0 m' := by
      show (⟨0, m.gyro, m.acce⟩ : Imu α) = ⟨0, m'.gyro, m'.acce⟩
      rw [h1, h2]
    have a := dev0_time g d m
    have b := dev0_time g d' m'
    rw [hd, e, b] at a
    simp only [Prod.mk.injEq] at a
    exact ⟨code _ _ a.1.symm, a.2.1.symm, a.2.2.symm⟩
  have ini : ∀ (o : Opt α) (n n' : Option (NavOutput α)) (j : Junk α), n.map pva0 = n'.map pva0 →
      sameButTime (Call.exec (.init o n j) (g, d)).2 (Call.exec (.init o n' j) (g, d')).2 ∧
      (Call.exec (.init o n j) (g, d)).1.1 = (Call.exec (.init o n' j) (g, d')).1.1 ∧
      dev0 (Call.exec (.init o n j) (g, d)).1.2 = dev0 (Call.exec (.init o n' j) (g, d')).1.2 := by
    intro o n n' j hn
    have hnn : n.isNone = n'.isNone := by
      cases n <;> cases n' <;> simp_all
    simp only [Call.exec, rgioeInit]
    rw [hnn]
    by_cases hc : o.alignMode = ALIGN_USE_GIVEN ∧ n'.isNone = true
    · simp only [if_pos hc]
      refine ⟨.other _, trivial, ?_⟩
      show (⟨fus0 (Fusion.new j.df), ali0 (Align.new j.am o), d.status, o, pva0 zeroPva⟩ : Dev α) =
        ⟨fus0 (Fusion.new j.df), ali0 (Align.new j.am o), d'.status, o, pva0 zeroPva⟩
      rw [hs]
    · simp only [if_neg hc]
      refine ⟨.other _, trivial, ?_⟩
      have hcur : pva0 d.curPva = pva0 d'.curPva := congrArg Dev.curPva hd
      cases n with
      | none =>
        cases n' with
        | some _ => simp at hn
        | none =>
          show (⟨fus0 (Fusion.new j.df), ali0 ((Align.new j.am o).setOption o), ST_INIT, o, pva0 d.curPva⟩ : Dev α) =
            ⟨fus0 (Fusion.new j.df), ali0 ((Align.new j.am o).setOption o), ST_INIT, o, pva0 d'.curPva⟩
          rw [hcur]
      | some n =>
        cases n' with
        | none => simp at hn
        | some n' =>
          have hn' : pva0 n = pva0 n' := Option.some.inj hn
          show (⟨fus0 (Fusion.new j.df), ali0 ((Align.new j.am o).setOption o), ST_INIT, o, pva0 n⟩ : Dev α) =
            ⟨fus0 (Fusion.new j.df), ali0 ((Align.new j.am o).setOption o), ST_INIT, o, pva0 n'⟩
          rw [hn']
  have res : ∀ p p' : NavOutput α, pva0 p = pva0 p' →
      sameButTime (Call.exec (.getResult p) (g, d)).2 (Call.exec (.getResult p') (g, d')).2 := by
    intro p p' hp
    exact .pva _ _ _ (pva0_iff _ _ (result0 d d' p p' hd hp))
  have hout : pva0 d.df.output = pva0 d'.df.output := by
    have e : ∀ d : Dev α, pva0 d.df.output = pva0 (dev0 d).df.output := fun _ => rfl
    rw [e, hd, ← e]
  cases h with
  | sample m m' h1 h2 => exact smp m m' h1 h2
  | start o n t j => exact ini o (some n) (some { n with gpst := t }) j rfl
  | result p t => exact ⟨res p _ rfl, rfl, hd⟩
  | other c =>
    cases c with
    | init o n j => exact ini o n n j rfl
    | time m =>
      cases m with
      | none => exact ⟨.other _, rfl, hd⟩
      | some m => exact smp m m rfl rfl
    | gnss m =>
      obtain ⟨a, b, c⟩ := dev0_gnss g d d' m hd
      exact ⟨code _ _ a, b, c⟩
    | getAtti =>
      refine ⟨?_, rfl, hd⟩
      have e1 := congrArg NavOutput.atti hout
      have e2 := congrArg NavOutput.attiStd hout
      simp only [pva0] at e1 e2
      simp only [Call.exec, rgioeGetAtti]
      rw [e1, e2]
      exact .other _
    | getPos =>
      refine ⟨?_, rfl, hd⟩
      have e0 := congrArg NavOutput.lat hout
      have e1 := congrArg NavOutput.lon hout
      have e2 := congrArg NavOutput.height hout
      have e3 := congrArg NavOutput.attiStd hout
      simp only [pva0] at e0 e1 e2 e3
      simp only [Call.exec, rgioeGetPos]
      rw [e0, e1, e2, e3]
      exact .other _
    | getVel =>
      refine ⟨?_, rfl, hd⟩
      have e1 := congrArg NavOutput.vn hout
      have e2 := congrArg NavOutput.vnStd hout
      simp only [pva0] at e1 e2
      simp only [Call.exec, rgioeGetVel]
      rw [e1, e2]
      exact .other _
    | getStatus =>
      refine ⟨?_, rfl, hd⟩
      simp only [Call.exec, rgioeGetStatus, hs]
      exact .other _
    | getResult p => exact ⟨res p p rfl, rfl, hd⟩
    | deinit => exact ⟨.other _, rfl, hd⟩

/-- C121, the violation, for every history on a device and in every arithmetic: whatever time stamps the IMU samples
(and the given initial state) carry, all answers are the same but for the reported time. A gap in the data, a wrong rate
or samples out of order change nothing else: every sample is integrated over 1/`d_rate`. -/
theorem C121_sample_stamps_ignored (cs cs' : List (Call α)) (h : List.Forall₂ sameButStamp cs cs') (s : α × Dev α) :
    List.Forall₂ sameButTime (traceCalls cs s) (traceCalls cs' s) := by
  obtain ⟨g, d⟩ := s
  have key : ∀ (g : α) (d d' : Dev α), dev0 d = dev0 d' →
      List.Forall₂ sameButTime (traceCalls cs (g, d)) (traceCalls cs' (g, d')) := by
    induction h with
    | nil => intro g d d' _; exact .nil
    | cons hc _ ih =>
      rename_i c c' cs cs' _
      intro g d d' hd
      obtain ⟨h1, h2, h3⟩ := stamp_exec c c' hc g d d' hd
      simp only [traceCalls]
      refine .cons h1 ?_
      have := ih (c.exec (g, d)).1.1 (c.exec (g, d)).1.2 (c'.exec (g, d')).1.2 h3
      rw [h2] at this
      rw [show c.exec (g, d) = (((c.exec (g, d)).1.1, (c.exec (g, d)).1.2), (c.exec (g, d)).2) from rfl, h2]
      exact this
  exact key g d d rfl

/-- The hypotheses are met by a run at 100 Hz in which a minute of samples is missing before the second sample. -/
example (j : Junk α) (m : Imu α) (n : NavOutput α) :
    List.Forall₂ sameButStamp
      [.init (Ex.opt 2) (some n) j, .time (some m), .time (some { m with gpst := m.gpst + Fl.lit (1 / 100) }), .getPos]
      [.init (Ex.opt 2) (some n) j, .time (some m), .time (some { m with gpst := m.gpst + Fl.lit 60 }), .getPos] :=
  .cons (.other _) (.cons (.other _) (.cons (.sample _ _ rfl rfl) (.cons (.other _) .nil)))

/-- C121, fixes: while navigating, the time stamp of a fix has no influence whatever: a fix is compared with the
position at the moment it is handed over, however old it is. -/
theorem C121_fix_stamp_ignored (g : α) (d : Dev α) (m : Gnss α) (t : α) (hs : d.status = 3) :
    (Call.exec (.gnss (some { m with gpst := t })) (g, d)) = Call.exec (.gnss (some m)) (g, d) := by
  have h0 : ¬ d.status = ST_INIT := by rw [hs]; decide
  have h1 : ¬ (d.status = ST_ALIGN ∨ d.status = ST_ATTITUDE) := by rw [hs]; decide
  have h3 : d.status = ST_NAVIGATION := hs
  have hm : d.df.measureGnss { m with gpst := t } = d.df.measureGnss m := rfl
  simp only [Call.exec, rgioeGnssupdate, if_neg h0, if_neg h1, if_pos h3, hm]

/-- A device that navigates exists. -/
example : (({ (Ex.zDev : Dev α) with status := 3 }) : Dev α).status = 3 := rfl

/-- C121, the part that holds: after a sample, the result of a navigating device carries the time of that sample. -/
theorem C121_reported_time_partial (g : α) (d : Dev α) (m : Imu α) (p : NavOutput α) (hs : d.status = 3) :
    let s := runCalls [.time (some m)] (g, d)
    (rgioeGetResult s.2 p).2.gpst = m.gpst := by
  have h0 : ¬ d.status = ST_INIT := by rw [hs]; decide
  have h1 : ¬ d.status = ST_ALIGN := by rw [hs]; decide
  have h2 : ¬ d.status = ST_ATTITUDE := by rw [hs]; decide
  have h3 : d.status = ST_NAVIGATION := hs
  have e : runCalls [.time (some m)] (g, d) =
      ((d.df.timeUpdate g m).1, { d with df := (d.df.timeUpdate g m).2 }) := by
    simp only [runCalls, Call.exec, rgioeTimeupdate, if_neg h0, if_neg h1, if_neg h2, if_pos h3]
  intro s
  show (rgioeGetResult (runCalls [.time (some m)] (g, d)).2 p).2.gpst = m.gpst
  rw [e]
  simp only [rgioeGetResult, if_neg h1, if_neg h2, if_pos h3]
  exact Fusion.timeUpdate_gpst g d.df m
end Verif.Props
