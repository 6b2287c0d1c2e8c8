import Verif.Props.Api
import Verif.Spec.Examples
import Mathlib.Tactic.SplitIfs
/-! The phase between levelling and navigation. Everything holds for every arithmetic. -/
namespace Verif.Props
open Verif Verif.Spec
variable {α : Type} [Add α] [Sub α] [Mul α] [Neg α] [Div α] [Zero α] [One α] [Fl α]

/-- The same call, except that an IMU sample with the same time may report any other motion; no initialisation. -/
inductive sameButMotion : Call α → Call α → Prop
  | sample (m m' : Imu α) : m.gpst = m'.gpst → sameButMotion (.time (some m)) (.time (some m'))
  | other (c : Call α) : c.isInit = false → sameButMotion c c

/-- The alignment without what it computes from the samples alone. -/
def mot (a : Align α) : Align α := { a with smooth := Smooth.new 0 0 0, ahrs := Ahrs.new 0 }
/-- The device with its alignment reduced so. -/
def motD (d : Dev α) : Dev α := { d with am := mot d.am }

theorem mot_imu (a : Align α) (m : Imu α) (hl : a.level = true) :
    mot (a.updateImu m) = { mot a with nav := { a.nav with gpst := m.gpst } } ∧ (a.updateImu m).level = true := by
  unfold Align.updateImu
  dsimp only
  rw [if_pos hl]
  exact ⟨rfl, hl⟩

theorem mot_gnss (g : α) (a : Align α) (m : Gnss α) :
    (mot a).updateGnss g m = ((a.updateGnss g m).1, mot (a.updateGnss g m).2) := by
  have hy : (mot a).yawStep m = mot (a.yawStep m) := by
    unfold Align.yawStep
    dsimp only
    by_cases hc : (Fl.lt a.option.alignVelThreshold (Fl.f32 (vnorm (Earth.distance6 (m.lat * deg) (m.lon * deg)
        (a.gnssPre.lat * deg) (a.gnssPre.lon * deg) m.height a.gnssPre.height))) &&
      Fl.lt (Fl.f32 (vnorm (Earth.distance6 (m.lat * deg) (m.lon * deg)
        (a.gnssPre.lat * deg) (a.gnssPre.lon * deg) m.height a.gnssPre.height))) (Fl.lit 1000)) = true
    · rw [if_pos hc]
      exact (if_pos hc)
    · rw [if_neg hc]
      exact (if_neg hc)
  unfold Align.updateGnss
  rw [hy]
  show (if Fl.eq (a.gnssPre.posStd 0) 0 = true then _ else _) = _
  split_ifs <;> rfl

theorem att_time (g : α) (d : Dev α) (m : Imu α) (hs : d.status = 2) :
    rgioeTimeupdate g d (some m) =
      if (d.am.updateImu m).alignFinished = true then
        (0, (d.df.initFusion g (d.am.updateImu m).nav d.opt).1,
          { d with am := d.am.updateImu m, df := (d.df.initFusion g (d.am.updateImu m).nav d.opt).2, status := 3 })
      else (0, g, { d with am := d.am.updateImu m }) := by
  unfold rgioeTimeupdate
  dsimp only
  rw [if_neg (by rw [hs]; decide), if_neg (by rw [hs]; decide), if_pos (show d.status = ST_ATTITUDE from hs)]
  rfl

theorem motion_exec (c c' : Call α) (h : sameButMotion c c') (g : α) (d d' : Dev α) (hd : motD d = motD d')
    (hs : d.status = 2) (hl : d.am.level = true) :
    (c.exec (g, d)).2 = (c'.exec (g, d')).2 ∧ (c.exec (g, d)).1.1 = (c'.exec (g, d')).1.1 ∧
      motD (c.exec (g, d)).1.2 = motD (c'.exec (g, d')).1.2 ∧ (c.exec (g, d)).1.2.am.level = true := by
  have hs' : d'.status = 2 := by rw [← hs]; exact (show (motD d).status = (motD d').status by rw [hd]).symm
  have hm : mot d.am = mot d'.am := congrArg Dev.am hd
  have hl' : d'.am.level = true := by
    rw [← hl]; exact (show (mot d.am).level = (mot d'.am).level by rw [hm]).symm
  have hf : d.df = d'.df := show (motD d).df = (motD d').df by rw [hd]
  have ho : d.opt = d'.opt := show (motD d).opt = (motD d').opt by rw [hd]
  have hc : d.curPva = d'.curPva := show (motD d).curPva = (motD d').curPva by rw [hd]
  have hn : d.am.nav = d'.am.nav := show (mot d.am).nav = (mot d'.am).nav by rw [hm]
  have smp : ∀ m m' : Imu α, m.gpst = m'.gpst →
      (Call.exec (.time (some m)) (g, d)).2 = (Call.exec (.time (some m')) (g, d')).2 ∧
      (Call.exec (.time (some m)) (g, d)).1.1 = (Call.exec (.time (some m')) (g, d')).1.1 ∧
      motD (Call.exec (.time (some m)) (g, d)).1.2 = motD (Call.exec (.time (some m')) (g, d')).1.2 ∧
      (Call.exec (.time (some m)) (g, d)).1.2.am.level = true := by
    intro m m' ht
    obtain ⟨e1, l1⟩ := mot_imu d.am m hl
    obtain ⟨e2, l2⟩ := mot_imu d'.am m' hl'
    have e : mot (d.am.updateImu m) = mot (d'.am.updateImu m') := by rw [e1, e2, hm, hn, ht]
    have hfin : (d.am.updateImu m).alignFinished = (d'.am.updateImu m').alignFinished :=
      show (mot (d.am.updateImu m)).alignFinished = (mot (d'.am.updateImu m')).alignFinished by rw [e]
    have hnav : (d.am.updateImu m).nav = (d'.am.updateImu m').nav :=
      show (mot (d.am.updateImu m)).nav = (mot (d'.am.updateImu m')).nav by rw [e]
    simp only [Call.exec]
    rw [att_time g d m hs, att_time g d' m' hs', hfin]
    by_cases hh : (d'.am.updateImu m').alignFinished = true
    · rw [if_pos hh, if_pos hh]
      refine ⟨rfl, ?_, ?_, l1⟩
      · show (d.df.initFusion g (d.am.updateImu m).nav d.opt).1 = (d'.df.initFusion g (d'.am.updateImu m').nav d'.opt).1
        rw [hf, ho, hnav]
      · show (⟨(d.df.initFusion g (d.am.updateImu m).nav d.opt).2, mot (d.am.updateImu m), 3, d.opt, d.curPva⟩ : Dev α) =
          ⟨(d'.df.initFusion g (d'.am.updateImu m').nav d'.opt).2, mot (d'.am.updateImu m'), 3, d'.opt, d'.curPva⟩
        rw [hf, ho, hnav, e, hc]
    · rw [if_neg hh, if_neg hh]
      refine ⟨rfl, rfl, ?_, l1⟩
      show (⟨d.df, mot (d.am.updateImu m), d.status, d.opt, d.curPva⟩ : Dev α) =
        ⟨d'.df, mot (d'.am.updateImu m'), d'.status, d'.opt, d'.curPva⟩
      rw [hf, ho, e, hc, hs, hs']
  cases h with
  | sample m m' ht => exact smp m m' ht
  | other c hi =>
    cases c with
    | init => exact absurd hi (by simp [Call.isInit])
    | time m =>
      cases m with
      | none => exact ⟨rfl, rfl, hd, hl⟩
      | some m => exact smp m m rfl
    | gnss m =>
      cases m with
      | none => exact ⟨rfl, rfl, hd, hl⟩
      | some m =>
        have r : ∀ d : Dev α, d.status = 2 → rgioeGnssupdate g d (some m) =
            (0, (d.am.updateGnss g m).1, { d with am := (d.am.updateGnss g m).2 }) := by
          intro d hs
          unfold rgioeGnssupdate
          dsimp only
          rw [if_neg (by rw [hs]; decide), if_pos (show d.status = ST_ALIGN ∨ d.status = ST_ATTITUDE from Or.inr hs)]
          rfl
        have a := mot_gnss g d.am m
        have b := mot_gnss g d'.am m
        rw [hm, b] at a
        simp only [Prod.mk.injEq] at a
        simp only [Call.exec]
        rw [r d hs, r d' hs']
        refine ⟨rfl, a.1.symm, ?_, ?_⟩
        · show ({ motD d with am := mot (d.am.updateGnss g m).2 } : Dev α) =
            { motD d' with am := mot (d'.am.updateGnss g m).2 }
          rw [hd, a.2]
        · show (d.am.updateGnss g m).2.level = true
          rw [align_gnss_level]; exact hl
    | getAtti => exact ⟨by simp only [Call.exec, rgioeGetAtti, hf], rfl, hd, hl⟩
    | getPos => exact ⟨by simp only [Call.exec, rgioeGetPos, hf], rfl, hd, hl⟩
    | getVel => exact ⟨by simp only [Call.exec, rgioeGetVel, hf], rfl, hd, hl⟩
    | getStatus => exact ⟨by simp only [Call.exec, rgioeGetStatus, hs, hs'], rfl, hd, hl⟩
    | getResult p => exact ⟨by simp only [Call.exec, rgioeGetResult, hs, hs', hn, hf], rfl, hd, hl⟩
    | deinit => exact ⟨rfl, rfl, hd, hl⟩

/-- C122 for a levelled device. -/
theorem motion_ignored_of_level (cs cs' : List (Call α)) (h : List.Forall₂ sameButMotion cs cs') (g : α) (d : Dev α)
    (hl : d.am.level = true) (hs : ∀ k < cs.length, (runCalls (cs.take k) (g, d)).2.status = 2) :
    traceCalls cs (g, d) = traceCalls cs' (g, d) ∧
    (runCalls cs (g, d)).2.df = (runCalls cs' (g, d)).2.df ∧
    (runCalls cs (g, d)).2.status = (runCalls cs' (g, d)).2.status := by
  have key : ∀ (g : α) (d d' : Dev α), motD d = motD d' → d.am.level = true →
      (∀ k < cs.length, (runCalls (cs.take k) (g, d)).2.status = 2) →
      traceCalls cs (g, d) = traceCalls cs' (g, d') ∧
      motD (runCalls cs (g, d)).2 = motD (runCalls cs' (g, d')).2 := by
    clear hl hs
    induction h with
    | nil => intro g d d' hd _ _; exact ⟨rfl, hd⟩
    | cons hc _ ih =>
      rename_i c c' cs cs' _
      intro g d d' hd hl hs
      have h0 : d.status = 2 := hs 0 (Nat.zero_lt_succ _)
      obtain ⟨h1, h2, h3, h4⟩ := motion_exec c c' hc g d d' hd h0 hl
      have e : (c.exec (g, d)).1 = ((c.exec (g, d)).1.1, (c.exec (g, d)).1.2) := rfl
      have e' : (c'.exec (g, d')).1 = ((c'.exec (g, d')).1.1, (c'.exec (g, d')).1.2) := rfl
      obtain ⟨i1, i2⟩ := ih (c.exec (g, d)).1.1 (c.exec (g, d)).1.2 (c'.exec (g, d')).1.2 h3 h4 (by
        intro k hk
        exact hs (k + 1) (Nat.succ_lt_succ hk))
      simp only [traceCalls, runCalls]
      rw [h1, e', ← h2]
      exact ⟨congrArg (List.cons _) i1, i2⟩
  obtain ⟨a, b⟩ := key g d d rfl hl hs
  exact ⟨a, show (motD _).df = (motD _).df by rw [b], show (motD _).status = (motD _).status by rw [b]⟩

/-- C122, the violation, for every history: a device set up for moving alignment that has been levelled (status ATTITUDE)
after any calls `before`. Whatever motion the IMU samples report from then until the sample that starts navigation
(included), every answer - in particular the reported attitude - and the whole state the filter starts with are the
same: the rotation of the vehicle after levelling is ignored. -/
theorem C122_motion_ignored (h00 : Fl.eq (0 : α) 0 = true)
    (junk : Junk α) (d0 d : Dev α) (o : Opt α) (nav : Option (NavOutput α)) (g : α) (hmode : o.alignMode ≠ 2)
    (h : rgioeInit junk d0 (some o) nav = some (E_OK, d))
    (before : List (Call α)) (hb : ∀ c ∈ before, c.isInit = false)
    (cs cs' : List (Call α)) (hcs : List.Forall₂ sameButMotion cs cs')
    (hs : ∀ k < cs.length, rgioeGetStatus (runCalls (before ++ cs.take k) (g, d)).2 = 2) :
    traceCalls (before ++ cs) (g, d) = traceCalls (before ++ cs') (g, d) ∧
    (runCalls (before ++ cs) (g, d)).2.df = (runCalls (before ++ cs') (g, d)).2.df ∧
    rgioeGetStatus (runCalls (before ++ cs) (g, d)).2 = rgioeGetStatus (runCalls (before ++ cs') (g, d)).2 := by
  have happ : ∀ (xs ys : List (Call α)) (s : α × Dev α), runCalls (xs ++ ys) s = runCalls ys (runCalls xs s) := by
    intro xs
    induction xs with
    | nil => intro ys s; rfl
    | cons x xs ih => intro ys s; exact ih ys _
  have tapp : ∀ (xs ys : List (Call α)) (s : α × Dev α),
      traceCalls (xs ++ ys) s = traceCalls xs s ++ traceCalls ys (runCalls xs s) := by
    intro xs
    induction xs with
    | nil => intro ys s; rfl
    | cons x xs ih => intro ys s; simp only [List.cons_append, traceCalls, runCalls, ih]
  cases hcs with
  | nil => exact ⟨rfl, rfl, rfl⟩
  | cons hc hr =>
    rename_i c c' cs cs'
    have h2 : rgioeGetStatus (runCalls before (g, d)).2 = 2 := by
      have := hs 0 (Nat.zero_lt_succ _)
      simpa using this
    have hl : (runCalls before (g, d)).2.am.level = true :=
      (C17_status_implies_alignment h00 junk d0 d o nav g hmode h before hb).1 h2
    rw [tapp, tapp, happ, happ]
    have := motion_ignored_of_level (c :: cs) (c' :: cs') (.cons hc hr) (runCalls before (g, d)).1
      (runCalls before (g, d)).2 hl (by
        intro k hk
        have := hs k hk
        rw [happ] at this
        exact this)
    exact ⟨congrArg _ this.1, this.2.1, this.2.2⟩

/-- A levelled device exists whose status stays ATTITUDE during a sample, and samples may differ in everything but
their time: the vehicle at rest, or turning. -/
example (m : Imu α) :
    let d : Dev α := { (Ex.zDev : Dev α) with status := 2, am := { (Ex.zAlign : Align α) with level := true } }
    (runCalls [.time (some m)] (0, d)).2.status = 2 ∧
    sameButMotion (.time (some { m with gyro := zero3 })) (.time (some { m with gyro := v3 1 1 1 })) := by
  refine ⟨?_, .sample _ _ rfl⟩
  simp only [runCalls, Call.exec]
  rw [att_time _ _ _ rfl]
  rw [if_neg]
  unfold Align.updateImu Align.alignFinished
  simp [Ex.zAlign]

/-- C122, the effect on the reported attitude: in status ATTITUDE a sample never changes the attitude and the
deviations that are reported, only the time. -/
theorem C122_reported_attitude_frozen (g : α) (d : Dev α) (m : Imu α) (p : NavOutput α) (hs : d.status = 2)
    (hl : d.am.level = true) (hy : d.am.yaw = false) :
    let s := runCalls [.time (some m)] (g, d)
    s.2.status = 2 ∧ (rgioeGetResult s.2 p).2 = { (rgioeGetResult d p).2 with gpst := m.gpst } := by
  obtain ⟨e1, l1⟩ := mot_imu d.am m hl
  have hn : (d.am.updateImu m).nav = { d.am.nav with gpst := m.gpst } :=
    show (mot (d.am.updateImu m)).nav = _ by rw [e1]
  have hy1 : (d.am.updateImu m).yaw = false := by
    have : (mot (d.am.updateImu m)).yaw = d.am.yaw := by rw [e1]; rfl
    exact this.trans hy
  have e : runCalls [.time (some m)] (g, d) = (g, { d with am := d.am.updateImu m }) := by
    simp only [runCalls, Call.exec]
    rw [att_time g d m hs, if_neg (by unfold Align.alignFinished; rw [hy1]; simp)]
  intro s
  have hS : s = (g, { d with am := d.am.updateImu m }) := e
  rw [hS]
  refine ⟨hs, ?_⟩
  have s1 : ¬ d.status = ST_ALIGN := by rw [hs]; decide
  have s2 : d.status = ST_ATTITUDE := hs
  have s3 : ¬ d.status = ST_NAVIGATION := by rw [hs]; decide
  simp only [rgioeGetResult, if_neg s1, if_pos s2, if_neg s3, hn]
end Verif.Props
