import Verif.Props.Stamps
import Verif.Lemmas.Real
import Mathlib.Tactic.SplitIfs
import Mathlib.Tactic.FieldSimp
/-! # C160: the clock. Only the reported time depends on the time stamps of samples, fixes and start states -/
namespace Verif.Props
open Verif Verif.Spec Matrix

/-- The same call with another clock: every time stamp `t` handed over becomes `φ t`. -/
def restamp (φ : ℝ → ℝ) : Call ℝ → Call ℝ
  | .init o (some n) j => .init o (some { n with gpst := φ n.gpst }) j
  | .time (some m) => .time (some { m with gpst := φ m.gpst })
  | .gnss (some m) => .gnss (some { m with gpst := φ m.gpst })
  | c => c

/-- An initialisation that is refused: a start state should be used, but none is given. -/
def refused : Call ℝ → Prop
  | .init o none _ => o.alignMode = ALIGN_USE_GIVEN
  | _ => False

/-- The alignment with another time stamp on the fix it remembers. -/
def preA (t : ℝ) (a : Align ℝ) : Align ℝ := { a with gnssPre := { a.gnssPre with gpst := t } }
@[inherit_doc preA] def preD (t : ℝ) (d : Dev ℝ) : Dev ℝ := { d with am := preA t d.am }

theorem preA_imu (t : ℝ) (a : Align ℝ) (m : Imu ℝ) : (preA t a).updateImu m = preA t (a.updateImu m) := by
  unfold Align.updateImu
  dsimp only
  show (if a.level = true then _ else if (!(a.smooth.update m).isStatic) = true then _ else _) = _
  split_ifs <;> rfl

theorem preD_time (t g : ℝ) (d : Dev ℝ) (m : Imu ℝ) : rgioeTimeupdate g (preD t d) (some m) =
    ((rgioeTimeupdate g d (some m)).1, (rgioeTimeupdate g d (some m)).2.1, preD t (rgioeTimeupdate g d (some m)).2.2) := by
  have hi : (preD t d).am.updateImu m = preA t (d.am.updateImu m) := preA_imu _ _ _
  have e1 : (preD t d).status = d.status := rfl
  have e2 : (preD t d).opt = d.opt := rfl
  have e3 : (preD t d).df = d.df := rfl
  have e4 : (preD t d).curPva = d.curPva := rfl
  unfold rgioeTimeupdate
  dsimp only
  rw [hi, e1, e2, e3, e4]
  by_cases s0 : d.status = ST_INIT
  · simp only [if_pos s0]
    split_ifs <;> rfl
  · simp only [if_neg s0]
    by_cases s1 : d.status = ST_ALIGN
    · simp only [if_pos s1]
      rfl
    · simp only [if_neg s1]
      by_cases s2 : d.status = ST_ATTITUDE
      · simp only [if_pos s2]
        show (if (d.am.updateImu m).alignFinished = true then _ else _) = _
        split_ifs <;> rfl
      · simp only [if_neg s2]
        split_ifs <;> rfl

/-- After a sample the remembered fix is the same. -/
theorem time_pre (g : ℝ) (d : Dev ℝ) (m : Imu ℝ) : (rgioeTimeupdate g d (some m)).2.2.am.gnssPre = d.am.gnssPre := by
  have hi : (d.am.updateImu m).gnssPre = d.am.gnssPre := by
    unfold Align.updateImu
    dsimp only
    split_ifs <;> rfl
  unfold rgioeTimeupdate
  dsimp only
  split_ifs <;> first | exact hi | rfl

theorem imu_stamp (a : Align ℝ) (m : Imu ℝ) : (a.updateImu m).nav.gpst = m.gpst := by
  unfold Align.updateImu
  dsimp only
  split_ifs <;> rfl

/-- After a sample, the time of the alignment or of the filter is that of the sample. -/
theorem time_stamp (g : ℝ) (d : Dev ℝ) (m : Imu ℝ) :
    ((rgioeTimeupdate g d (some m)).2.2.status = ST_ALIGN ∨ (rgioeTimeupdate g d (some m)).2.2.status = ST_ATTITUDE →
      (rgioeTimeupdate g d (some m)).2.2.am.nav.gpst = m.gpst) ∧
    ((rgioeTimeupdate g d (some m)).2.2.status = ST_NAVIGATION →
      (rgioeTimeupdate g d (some m)).2.2.df.ins.nav.gpst = m.gpst) := by
  have hi := imu_stamp d.am m
  have hf := fun g f => Fusion.timeUpdate_gpst (α := ℝ) g f m
  have n1 : ¬ (ST_NAVIGATION = ST_ALIGN ∨ ST_NAVIGATION = ST_ATTITUDE) := by simp [ST_NAVIGATION, ST_ALIGN, ST_ATTITUDE]
  have n2 : ¬ (ST_ALIGN = ST_NAVIGATION) := by simp [ST_NAVIGATION, ST_ALIGN]
  have n3 : ¬ (ST_ATTITUDE = ST_NAVIGATION) := by simp [ST_NAVIGATION, ST_ATTITUDE]
  unfold rgioeTimeupdate
  dsimp only
  split_ifs with s0 s1 s2 s3 s4 s5 s6
  · exact ⟨fun h => absurd h n1, fun _ => hf (d.df.initFusion g (makeNavEpoch d.curPva d.opt) d.opt).1
      (d.df.initFusion g (makeNavEpoch d.curPva d.opt) d.opt).2⟩
  · exact ⟨fun _ => hi, fun h => absurd h n2⟩
  · exact ⟨fun _ => hi, fun h => absurd h n3⟩
  · exact ⟨fun _ => hi, fun h => absurd (s2.symm.trans h) n2⟩
  · exact ⟨fun h => absurd h n1, fun _ => hi⟩
  · exact ⟨fun _ => hi, fun h => absurd (s4.symm.trans h) n3⟩
  · exact ⟨fun h => absurd (by rw [← s6]; exact h) n1, fun _ => hf g d.df⟩
  · exact ⟨fun h => absurd h (by rintro (h | h); exacts [s2 h, s4 h]), fun h => absurd h s6⟩

/-- The change of velocity the alignment forms from two fixes does not depend on their times, if these differ. -/
theorem change_dt (x : V3 ℝ) (a b : ℝ) (h : a = b ∨ a ≠ 0 ∧ b ≠ 0) : vs (vd x a) a = vs (vd x b) b := by
  rcases h with rfl | ⟨ha, hb⟩
  · rfl
  · funext i
    show x i / a * a = x i / b * b
    rw [div_mul_cancel₀ _ ha, div_mul_cancel₀ _ hb]

theorem yaw_stamps (a : Align ℝ) (m : Gnss ℝ) (t t' : ℝ)
    (h : t' - t = m.gpst - a.gnssPre.gpst ∨ t' - t ≠ 0 ∧ m.gpst - a.gnssPre.gpst ≠ 0) :
    (preA t a).yawStep { m with gpst := t' } = preA t (a.yawStep m) := by
  have e := fun x => change_dt x _ _ h
  unfold Align.yawStep
  dsimp only
  have e' : ∀ x : V3 ℝ, vs (vd x (t' - (preA t a).gnssPre.gpst)) (t' - (preA t a).gnssPre.gpst) =
    vs (vd x (m.gpst - a.gnssPre.gpst)) (m.gpst - a.gnssPre.gpst) := e
  rw [e']
  by_cases hc : (Fl.lt a.option.alignVelThreshold (Fl.f32 (vnorm (Earth.distance6 (m.lat * deg) (m.lon * deg)
        (a.gnssPre.lat * deg) (a.gnssPre.lon * deg) m.height a.gnssPre.height))) &&
      Fl.lt (Fl.f32 (vnorm (Earth.distance6 (m.lat * deg) (m.lon * deg)
        (a.gnssPre.lat * deg) (a.gnssPre.lon * deg) m.height a.gnssPre.height))) (Fl.lit 1000)) = true
  · rw [if_pos hc]
    exact (if_pos hc)
  · rw [if_neg hc]
    exact (if_neg hc)

theorem align_stamps (g : ℝ) (a : Align ℝ) (m : Gnss ℝ) (t t' : ℝ)
    (h : a.gnssPre.posStd 0 = 0 ∨ t' - t = m.gpst - a.gnssPre.gpst ∨ t' - t ≠ 0 ∧ m.gpst - a.gnssPre.gpst ≠ 0) :
    ((preA t a).updateGnss g { m with gpst := t' }).1 = (a.updateGnss g m).1 ∧
    ali0 ((preA t a).updateGnss g { m with gpst := t' }).2 = ali0 (preA t' (a.updateGnss g m).2) := by
  unfold Align.updateGnss
  show (if Fl.eq (a.gnssPre.posStd 0) 0 = true then _ else _ : ℝ × Align ℝ).1 = _ ∧ ali0 (if Fl.eq (a.gnssPre.posStd 0) 0 = true then _ else _ : ℝ × Align ℝ).2 = _
  split_ifs with hz
  · exact ⟨rfl, rfl⟩
  · refine ⟨rfl, ?_⟩
    dsimp only
    rw [yaw_stamps a m t t' (h.resolve_left (by simpa using hz))]
    rfl

/-- The two processes, their devices differing in time stamps only. -/
structure SameT (φ : ℝ → ℝ) (s s' : ℝ × Dev ℝ) : Prop where
  g : s'.1 = s.1
  dev : ∃ t, dev0 s'.2 = dev0 (preD t s.2) ∧ (s.2.am.gnssPre.posStd 0 = 0 ∨ t = φ s.2.am.gnssPre.gpst)
  am : s.2.status = ST_ALIGN ∨ s.2.status = ST_ATTITUDE → s'.2.am.nav.gpst = φ s.2.am.nav.gpst
  nav : s.2.status = ST_NAVIGATION → s'.2.df.ins.nav.gpst = φ s.2.df.ins.nav.gpst

theorem SameT.status {φ : ℝ → ℝ} {s s' : ℝ × Dev ℝ} (h : SameT φ s s') : s'.2.status = s.2.status := by
  obtain ⟨t, ht, -⟩ := h.dev
  exact (dev0_status ht : s'.2.status = (preD t s.2).status)

theorem clock_init (φ : ℝ → ℝ) (o : Opt ℝ) (n : Option (NavOutput ℝ)) (j : Junk ℝ) (s s' : ℝ × Dev ℝ)
    (hr : ¬ refused (.init o n j)) (h0 : s'.1 = s.1) (hp : n = none → pva0 s'.2.curPva = pva0 s.2.curPva) :
    ((restamp φ (.init o n j)).exec s').2 = ((Call.init o n j).exec s).2 ∧
    SameT φ ((Call.init o n j).exec s).1 ((restamp φ (.init o n j)).exec s').1 := by
  have n0 : ¬ (ST_INIT = ST_ALIGN ∨ ST_INIT = ST_ATTITUDE) := by simp [ST_INIT, ST_ALIGN, ST_ATTITUDE]
  have n3 : ¬ (ST_INIT = ST_NAVIGATION) := by simp [ST_NAVIGATION, ST_INIT]
  have hz : (Align.new j.am o).gnssPre.posStd 0 = 0 := rfl
  cases n with
  | none =>
    have hn : ¬ (o.alignMode = ALIGN_USE_GIVEN ∧ (none : Option (NavOutput ℝ)).isNone = true) := fun h => hr h.1
    simp only [restamp, Call.exec, rgioeInit, if_neg hn]
    refine ⟨trivial, h0, ⟨(Align.new j.am o).gnssPre.gpst, ?_, Or.inl hz⟩, fun h => absurd h n0, fun h => absurd h n3⟩
    show (⟨fus0 (Fusion.new j.df), ali0 ((Align.new j.am o).setOption o), ST_INIT, o, pva0 s'.2.curPva⟩ : Dev ℝ) =
      ⟨fus0 (Fusion.new j.df), ali0 (preA (Align.new j.am o).gnssPre.gpst ((Align.new j.am o).setOption o)), ST_INIT, o, pva0 s.2.curPva⟩
    rw [hp rfl]
    rfl
  | some n =>
    have hn : ∀ n : NavOutput ℝ, ¬ (o.alignMode = ALIGN_USE_GIVEN ∧ (some n).isNone = true) := by simp
    simp only [restamp, Call.exec, rgioeInit, if_neg (hn _)]
    exact ⟨trivial, h0, ⟨(Align.new j.am o).gnssPre.gpst, rfl, Or.inl hz⟩, fun h => absurd h n0, fun h => absurd h n3⟩

theorem SameT.pva {φ : ℝ → ℝ} {s s' : ℝ × Dev ℝ} (h : SameT φ s s') : pva0 s'.2.curPva = pva0 s.2.curPva := by
  obtain ⟨t, ht, -⟩ := h.dev
  exact congrArg Dev.curPva ht

theorem clock_step (φ : ℝ → ℝ) (hφ : Function.Injective φ) (c : Call ℝ) (hc : ¬ refused c) (hq : c.isQuery = false)
    (s s' : ℝ × Dev ℝ) (h : SameT φ s s') :
    ((restamp φ c).exec s').2 = (c.exec s).2 ∧ SameT φ (c.exec s).1 ((restamp φ c).exec s').1 := by
  cases c with
  | init o n j => exact clock_init φ o n j s s' hc h.g fun _ => h.pva
  | time m =>
    cases m with
    | none => exact ⟨rfl, h⟩
    | some m =>
      obtain ⟨t, ht, hd⟩ := h.dev
      have a := dev0_time s.1 s'.2 { m with gpst := φ m.gpst }
      have b := dev0_time s.1 (preD t s.2) m
      have e : imu0 { m with gpst := φ m.gpst } = imu0 m := rfl
      rw [ht, e, b, preD_time] at a
      simp only [Prod.mk.injEq] at a
      obtain ⟨a1, a2, a3⟩ := a
      show Answer.code (rgioeTimeupdate s'.1 s'.2 (some { m with gpst := φ m.gpst })).1 =
        Answer.code (rgioeTimeupdate s.1 s.2 (some m)).1 ∧ SameT φ (rgioeTimeupdate s.1 s.2 (some m)).2
        (rgioeTimeupdate s'.1 s'.2 (some { m with gpst := φ m.gpst })).2
      rw [h.g, a1]
      refine ⟨rfl, a2.symm, ⟨t, a3.symm, ?_⟩, ?_, ?_⟩
      · rw [time_pre]; exact hd
      · intro hs
        have hs' : _ := dev0_status a3
        rw [((time_stamp s.1 s.2 m).1 hs)]
        refine (time_stamp s.1 s'.2 { m with gpst := φ m.gpst }).1 ?_
        rw [← hs']; exact hs
      · intro hs
        have hs' : _ := dev0_status a3
        rw [((time_stamp s.1 s.2 m).2 hs)]
        refine (time_stamp s.1 s'.2 { m with gpst := φ m.gpst }).2 ?_
        rw [← hs']; exact hs
  | gnss m =>
    cases m with
    | none => exact ⟨rfl, h⟩
    | some m =>
      obtain ⟨t, ht, hd⟩ := h.dev
      have hst := h.status
      show Answer.code (rgioeGnssupdate s'.1 s'.2 (some { m with gpst := φ m.gpst })).1 =
        Answer.code (rgioeGnssupdate s.1 s.2 (some m)).1 ∧ SameT φ (rgioeGnssupdate s.1 s.2 (some m)).2
        (rgioeGnssupdate s'.1 s'.2 (some { m with gpst := φ m.gpst })).2
      have ok : s.2.am.gnssPre.posStd 0 = 0 ∨ φ m.gpst - t = m.gpst - s.2.am.gnssPre.gpst ∨
          φ m.gpst - t ≠ 0 ∧ m.gpst - s.2.am.gnssPre.gpst ≠ 0 := by
        rcases hd with hd | hd
        · exact Or.inl hd
        · right
          by_cases he : m.gpst = s.2.am.gnssPre.gpst
          · left; rw [hd, he, sub_self, sub_self]
          · right
            exact ⟨by rw [hd]; exact sub_ne_zero.2 fun h => he (hφ h), sub_ne_zero.2 he⟩
      have ha : ali0 s'.2.am = ali0 (preA t s.2.am) := congrArg Dev.am ht
      obtain ⟨g1, g2⟩ := ali0_gnss s.1 s'.2.am (preA t s.2.am) { m with gpst := φ m.gpst } ha
      obtain ⟨k1, k2⟩ := align_stamps s.1 s.2.am m t (φ m.gpst) ok
      have hf : fus0 (s'.2.df.measureGnss { m with gpst := φ m.gpst }) = fus0 (s.2.df.measureGnss m) := by
        have e : s'.2.df.measureGnss { m with gpst := φ m.gpst } = s'.2.df.measureGnss m := rfl
        rw [e, ← fus0_gnss, ← fus0_gnss]
        exact congrArg (fun x => Fusion.measureGnss x m) (congrArg Dev.df ht)
      have hgp : ∀ f : Fusion ℝ, (f.measureGnss m).ins.nav.gpst = f.ins.nav.gpst := by
        intro f; unfold Fusion.measureGnss; dsimp only; split_ifs <;> rfl
      have hgp' : ∀ f : Fusion ℝ, (f.measureGnss { m with gpst := φ m.gpst }).ins.nav.gpst = f.ins.nav.gpst := by
        intro f; unfold Fusion.measureGnss; dsimp only; split_ifs <;> rfl
      have hpre : (s.2.am.updateGnss s.1 m).2.gnssPre = m := by unfold Align.updateGnss; split_ifs <;> rfl
      unfold rgioeGnssupdate
      dsimp only
      rw [h.g]
      by_cases s0 : s.2.status = ST_INIT
      · rw [if_pos s0, if_pos (hst.trans s0)]
        exact ⟨rfl, rfl, h.dev, h.am, h.nav⟩
      · have t0 : ¬ s'.2.status = ST_INIT := by rw [hst]; exact s0
        rw [if_neg s0, if_neg t0]
        by_cases s1 : s.2.status = ST_ALIGN ∨ s.2.status = ST_ATTITUDE
        · have t1 : s'.2.status = ST_ALIGN ∨ s'.2.status = ST_ATTITUDE := by rw [hst]; exact s1
          rw [if_pos s1, if_pos t1]
          refine ⟨rfl, g1.trans k1, ⟨φ m.gpst, ?_, Or.inr ?_⟩, ?_, ?_⟩
          · show ({ dev0 s'.2 with am := ali0 (s'.2.am.updateGnss s.1 { m with gpst := φ m.gpst }).2 } : Dev ℝ) =
              { dev0 (preD t s.2) with am := ali0 (preA (φ m.gpst) (s.2.am.updateGnss s.1 m).2) }
            rw [g2, k2, ht]
          · show φ m.gpst = φ (s.2.am.updateGnss s.1 m).2.gnssPre.gpst
            rw [hpre]
          · intro _
            show (s'.2.am.updateGnss s.1 { m with gpst := φ m.gpst }).2.nav.gpst = φ (s.2.am.updateGnss s.1 m).2.nav.gpst
            have hz : s'.2.am.gnssPre.posStd 0 = s.2.am.gnssPre.posStd 0 := 
              (congrArg (fun a : Align ℝ => a.gnssPre.posStd 0) ha : (ali0 s'.2.am).gnssPre.posStd 0 = (ali0 (preA t s.2.am)).gnssPre.posStd 0)
            unfold Align.updateGnss
            dsimp only
            rw [hz]
            split_ifs
            · exact h.am s1
            · rfl
          · intro hs
            exfalso
            have hs2 : s.2.status = ST_NAVIGATION := hs
            rw [hs2] at s1
            simp [ST_NAVIGATION, ST_ALIGN, ST_ATTITUDE] at s1
        · have t1 : ¬ (s'.2.status = ST_ALIGN ∨ s'.2.status = ST_ATTITUDE) := by rw [hst]; exact s1
          rw [if_neg s1, if_neg t1]
          by_cases s3 : s.2.status = ST_NAVIGATION
          · rw [if_pos s3, if_pos (hst.trans s3)]
            refine ⟨rfl, rfl, ⟨t, ?_, hd⟩, fun hs => absurd hs s1, fun _ => ?_⟩
            · show ({ dev0 s'.2 with df := fus0 (s'.2.df.measureGnss { m with gpst := φ m.gpst }) } : Dev ℝ) =
                { dev0 (preD t s.2) with df := fus0 (s.2.df.measureGnss m) }
              rw [hf, ht]
            · show (s'.2.df.measureGnss { m with gpst := φ m.gpst }).ins.nav.gpst = φ (s.2.df.measureGnss m).ins.nav.gpst
              rw [hgp', hgp]
              exact h.nav s3
          · have t3 : ¬ s'.2.status = ST_NAVIGATION := by rw [hst]; exact s3
            rw [if_neg s3, if_neg t3]
            exact ⟨rfl, rfl, h.dev, h.am, h.nav⟩
  | deinit => exact ⟨rfl, h⟩
  | getAtti => simp [Call.isQuery] at hq
  | getPos => simp [Call.isQuery] at hq
  | getVel => simp [Call.isQuery] at hq
  | getStatus => simp [Call.isQuery] at hq
  | getResult => simp [Call.isQuery] at hq

theorem clock_query (φ : ℝ → ℝ) (s s' : ℝ × Dev ℝ) (h : SameT φ s s') :
    rgioeGetAtti s'.2 = rgioeGetAtti s.2 ∧ rgioeGetPos s'.2 = rgioeGetPos s.2 ∧ rgioeGetVel s'.2 = rgioeGetVel s.2 ∧
    rgioeGetStatus s'.2 = rgioeGetStatus s.2 ∧
    ∀ p, rgioeGetResult s'.2 p = ((rgioeGetResult s.2 p).1, { (rgioeGetResult s.2 p).2 with
      gpst := if s.2.status = 1 ∨ s.2.status = 2 ∨ s.2.status = 3 then φ (rgioeGetResult s.2 p).2.gpst else p.gpst }) := by
  obtain ⟨t, ht, -⟩ := h.dev
  have hs := h.status
  have hout : pva0 s'.2.df.output = pva0 s.2.df.output := by
    have e : ∀ d : Dev ℝ, pva0 d.df.output = pva0 (dev0 d).df.output := fun _ => rfl
    rw [e, ht]; rfl
  refine ⟨?_, ?_, ?_, hs, ?_⟩
  · have e1 := congrArg NavOutput.atti hout
    have e2 := congrArg NavOutput.attiStd hout
    simp only [pva0] at e1 e2
    simp only [rgioeGetAtti, e1, e2]
  · have e0 := congrArg NavOutput.lat hout
    have e1 := congrArg NavOutput.lon hout
    have e2 := congrArg NavOutput.height hout
    have e3 := congrArg NavOutput.attiStd hout
    simp only [pva0] at e0 e1 e2 e3
    simp only [rgioeGetPos, e0, e1, e2, e3]
  · have e1 := congrArg NavOutput.vn hout
    have e2 := congrArg NavOutput.vnStd hout
    simp only [pva0] at e1 e2
    simp only [rgioeGetVel, e1, e2]
  · intro p
    have r := result0 s'.2 (preD t s.2) p p ht rfl
    have e : rgioeGetResult (preD t s.2) p = rgioeGetResult s.2 p := rfl
    rw [e] at r
    have r2 := pva0_iff _ _ r.symm
    have ex : rgioeGetResult s'.2 p = (E_OK, (rgioeGetResult s'.2 p).2) := rfl
    rw [ex, ← r2]
    have ey : (rgioeGetResult s.2 p).1 = E_OK := rfl
    rw [ey]
    have hg : (rgioeGetResult s'.2 p).2.gpst =
        if s.2.status = 1 ∨ s.2.status = 2 ∨ s.2.status = 3 then φ (rgioeGetResult s.2 p).2.gpst else p.gpst := by
      unfold rgioeGetResult
      dsimp only
      rw [hs]
      by_cases s1 : s.2.status = ST_ALIGN
      · have s2 : ¬ s.2.status = ST_ATTITUDE := by rw [s1]; decide
        have s3 : ¬ s.2.status = ST_NAVIGATION := by rw [s1]; decide
        simp only [if_pos s1, if_neg s2, if_neg s3]
        refine Eq.trans ?_ (if_pos (Or.inl s1)).symm
        exact h.am (Or.inl s1)
      · by_cases s2 : s.2.status = ST_ATTITUDE
        · have s3 : ¬ s.2.status = ST_NAVIGATION := by rw [s2]; decide
          simp only [if_neg s1, if_pos s2, if_neg s3]
          refine Eq.trans ?_ (if_pos (Or.inr (Or.inl s2))).symm
          exact h.am (Or.inr s2)
        · by_cases s3 : s.2.status = ST_NAVIGATION
          · simp only [if_neg s1, if_neg s2, if_pos s3]
            refine Eq.trans ?_ (if_pos (Or.inr (Or.inr s3))).symm
            exact h.nav s3
          · simp only [if_neg s1, if_neg s2, if_neg s3]
            rw [if_neg (by rintro (h | h | h); exacts [s1 h, s2 h, s3 h])]
    rw [hg]

theorem clock_run (φ : ℝ → ℝ) (hφ : Function.Injective φ) (cs : List (Call ℝ)) (hc : ∀ c ∈ cs, ¬ refused c)
    (s s' : ℝ × Dev ℝ) (h : SameT φ s s') : SameT φ (runCalls cs s) (runCalls (cs.map (restamp φ)) s') := by
  induction cs generalizing s s' with
  | nil => exact h
  | cons c cs ih =>
    refine ih (fun c hc' => hc c (List.mem_cons_of_mem _ hc')) _ _ ?_
    cases hq : c.isQuery with
    | false => exact (clock_step φ hφ c (hc c List.mem_cons_self) hq s s' h).2
    | true => cases c <;> first | exact h | simp [Call.isQuery] at hq

/-- **C160.** A history of calls that starts by initialising the device is repeated with another clock: every time
stamp `t` handed over (samples, fixes, start states) is replaced by `φ t`, where different stamps stay different.
Whatever was in the devices before and at every point of the history: the next call that is not a query has the same
return value, status, attitude, position and velocity are the same, and so is the whole result, except that the
reported time is `φ` of the time reported before (before the first sample the caller's structure is left alone). -/
theorem C160_any_clock (φ : ℝ → ℝ) (hφ : Function.Injective φ) (o : Opt ℝ) (n : NavOutput ℝ) (j : Junk ℝ) (cs : List (Call ℝ))
    (hc : ∀ c ∈ cs, ¬ refused c) (g : ℝ) (d d' : Dev ℝ) :
    let s := runCalls (.init o (some n) j :: cs) (g, d)
    let s' := runCalls ((Call.init o (some n) j :: cs).map (restamp φ)) (g, d')
    (∀ c, ¬ refused c → c.isQuery = false → ((restamp φ c).exec s').2 = (c.exec s).2) ∧
    rgioeGetAtti s'.2 = rgioeGetAtti s.2 ∧ rgioeGetPos s'.2 = rgioeGetPos s.2 ∧ rgioeGetVel s'.2 = rgioeGetVel s.2 ∧
    rgioeGetStatus s'.2 = rgioeGetStatus s.2 ∧
    ∀ p, rgioeGetResult s'.2 p = ((rgioeGetResult s.2 p).1, { (rgioeGetResult s.2 p).2 with
      gpst := if s.2.status = 1 ∨ s.2.status = 2 ∨ s.2.status = 3 then φ (rgioeGetResult s.2 p).2.gpst else p.gpst }) := by
  intro s s'
  have k : SameT φ s s' := clock_run φ hφ cs hc _ _ (clock_init φ o (some n) j (g, d) (g, d') (fun h => h) rfl (fun h => by cases h)).2
  exact ⟨fun c hr hq => (clock_step φ hφ c hr hq s s' k).1, clock_query φ s s' k⟩

/-- **C160**, the origin of time: all stamps later by a constant, and only the reported time is later, by that constant. -/
theorem C160_time_origin (c : ℝ) (o : Opt ℝ) (n : NavOutput ℝ) (j : Junk ℝ) (cs : List (Call ℝ)) (hc : ∀ c ∈ cs, ¬ refused c)
    (g : ℝ) (d d' : Dev ℝ) (p : NavOutput ℝ) :
    let s := runCalls (.init o (some n) j :: cs) (g, d)
    let s' := runCalls ((Call.init o (some n) j :: cs).map (restamp (· + c))) (g, d')
    s.2.status = 1 ∨ s.2.status = 2 ∨ s.2.status = 3 →
    (rgioeGetResult s'.2 p).2 = { (rgioeGetResult s.2 p).2 with gpst := (rgioeGetResult s.2 p).2.gpst + c } := by
  intro s s' hs
  have k := (C160_any_clock (· + c) (add_left_injective c) o n j cs hc g d d').2.2.2.2.2 p
  rw [if_pos hs] at k
  exact congrArg Prod.snd k

/-- A history with a fix at another time each, one hour later. -/
example (n : NavOutput ℝ) (j : Junk ℝ) (m : Imu ℝ) (x : Gnss ℝ) (d : Dev ℝ) :
    let s := runCalls [.init (Ex.opt 0) (some n) j, .time (some m), .gnss (some x), .time (some m)] (0, d)
    rgioeGetAtti (runCalls [.init (Ex.opt 0) (some { n with gpst := n.gpst + 3600 }) j, .time (some { m with gpst := m.gpst + 3600 }),
      .gnss (some { x with gpst := x.gpst + 3600 }), .time (some { m with gpst := m.gpst + 3600 })] (0, d)).2 = rgioeGetAtti s.2 :=
  (C160_any_clock (· + 3600) (add_left_injective 3600) (Ex.opt 0) n j [.time (some m), .gnss (some x), .time (some m)]
    (by intro c hc; simp at hc; rcases hc with rfl | rfl | rfl <;> exact fun h => h) 0 d d).2.1
end Verif.Props
