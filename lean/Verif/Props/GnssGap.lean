import Verif.Spec.GnssGap
import Verif.Props.Coasting
import Verif.Props.Monitor
import Verif.Props.Refine
/-! C208: from any state of a navigating instance, a gap in the GNSS reception is bridged by the mechanization. -/
namespace Verif.Props
open Verif Verif.Spec Verif.Convert Matrix
section
variable {α : Type} [Add α] [Sub α] [Mul α] [Neg α] [Div α] [Zero α] [One α] [Fl α]

/-- The number of shares still to be applied. -/
def pending (f : Fusion α) : Nat := if f.updateFlag = 0 then f.updateIter.toNat else f.monitor.maxIter

omit [Add α] [Sub α] [Mul α] [Neg α] [Div α] [Zero α] [One α] [Fl α] in
theorem maxIter_cases (m : Monitor) : m.maxIter = 1 ∨ m.maxIter = 1000 := by
  unfold Monitor.maxIter; split_ifs <;> simp

theorem done_of_pending (f : Fusion α) (h : pending f = 0) (ha : noAids f.opt) : CoastQ f := by
  unfold pending at h
  split_ifs at h with h1
  · exact ⟨h1, by omega, ha⟩
  · rcases maxIter_cases f.monitor with e | e <;> omega

theorem pending_time (g : α) (f : Fusion α) (m : Imu α) (ha : noAids f.opt) :
    (f.timeUpdate g m).2.opt = f.opt ∧ pending (f.timeUpdate g m).2 ≤ pending f - 1 ∧ (f.timeUpdate g m).2.monitor.noUpdateCnt = f.monitor.noUpdateCnt + 1 ∧
    (f.timeUpdate g m).2.updateFlag = 0 := by
  have ho : (f.timeUpdate g m).2.opt = f.opt := Fusion.timeUpdate_opt g f m
  obtain ⟨c, hc⟩ : ∃ c, c = f.takeCorrection.applyCorrection := ⟨_, rfl⟩
  have c1 : c.opt = f.opt := by
    rw [hc]; unfold Fusion.applyCorrection Fusion.takeCorrection; split_ifs <;> rfl
  have c0 : c.monitor = f.monitor := by rw [hc, monitor_apply, monitor_take]
  have c2 : c.updateFlag = 0 ∧ c.updateIter.toNat ≤ pending f - 1 := by
    rw [hc]
    unfold pending
    by_cases h0 : f.updateFlag = 0
    · have e : f.takeCorrection = f := by
        unfold Fusion.takeCorrection
        rw [if_neg (by rw [h0]; decide)]
      rw [e, if_pos h0]
      unfold Fusion.applyCorrection
      split_ifs with h1
      · refine ⟨h0, ?_⟩
        show (f.updateIter - 1).toNat ≤ _
        omega
      · exact ⟨h0, by omega⟩
    · have hp : 0 < f.updateFlag.toNat := by
        rcases Nat.eq_zero_or_pos f.updateFlag.toNat with h1 | h1
        · exact absurd (BitVec.eq_of_toNat_eq (by simpa using h1)) h0
        · exact h1
      unfold Fusion.takeCorrection
      rw [if_pos hp, if_neg h0]
      unfold Fusion.applyCorrection
      have hm : (0 : Int) < f.monitor.maxIter := by rcases maxIter_cases f.monitor with e | e <;> rw [e] <;> decide
      dsimp only
      rw [if_pos hm]
      refine ⟨rfl, ?_⟩
      show ((f.monitor.maxIter : Int) - 1).toNat ≤ _
      omega
  have e2 : f.timeUpdate g m = ((c.propagate g m).1, { (c.propagate g m).2.zuptStage.nhcStage with
      monitor := (c.propagate g m).2.zuptStage.nhcStage.monitor.onTimeUpdate }) := by
    unfold Fusion.timeUpdate
    rw [hc]
  have e3 := coastq_stages (c.propagate g m).2 (by show noAids c.opt; rw [c1]; exact ha)
  refine ⟨ho, ?_, ?_, ?_⟩
  · rw [e2, e3]
    show (if c.updateFlag = 0 then c.updateIter.toNat else _) ≤ _
    rw [if_pos c2.1]
    exact c2.2
  · rw [e2, e3]
    show c.monitor.noUpdateCnt + 1 = _
    rw [c0]
  · rw [e2, e3]
    exact c2.1

theorem check_usable (m : Gnss α) : Fusion.gnssCheck m = true ↔ usable m.mode := by
  unfold Fusion.gnssCheck usable
  rw [decide_eq_true_iff]
  unfold MODE_SPP MODE_RTK_FIX MODE_RTK_FLOAT MODE_RTK_DGPS
  tauto

theorem pending_gnss (f : Fusion α) (m : Gnss α) (hm : ¬ usable m.mode) : pending (f.measureGnss m) = pending f ∧ (f.measureGnss m).opt = f.opt := by
  have e : Fusion.gnssCheck m = false := by
    rw [← Bool.not_eq_true, check_usable]; exact hm
  have e2 : f.measureGnss m = (f.clearSensor SENSOR_GNSS).setGnssMode MODE_INVALID := by
    unfold Fusion.measureGnss
    rw [e]
    rfl
  rw [e2]
  exact ⟨rfl, rfl⟩

theorem pending_run (cs : List (Call α)) (hg : ∀ m ∈ fixesOf cs, ¬ usable m.mode) (g : α) (f : Fusion α) (ha : noAids f.opt) :
    (frun (filterCalls cs) (g, f)).2.opt = f.opt ∧ pending (frun (filterCalls cs) (g, f)).2 ≤ pending f - (imusOf cs).length := by
  induction cs generalizing g f with
  | nil => exact ⟨rfl, le_refl _⟩
  | cons c cs ih =>
    rcases c with ⟨o, n, j⟩ | (_ | m) | (_ | m) | _ | _ | _ | _ | p | _
    case time.some =>
      obtain ⟨q1, q2, -⟩ := pending_time g f m ha
      obtain ⟨i1, i2⟩ := ih hg (f.timeUpdate g m).1 (f.timeUpdate g m).2 (by rw [q1]; exact ha)
      refine ⟨i1.trans q1, ?_⟩
      refine le_trans i2 ?_
      simp only [imusOf, List.length_cons]
      omega
    case gnss.some =>
      obtain ⟨q1, q2⟩ := pending_gnss f m (hg m List.mem_cons_self)
      obtain ⟨i1, i2⟩ := ih (fun x hx => hg x (List.mem_cons_of_mem _ hx)) g (f.measureGnss m) (by rw [q2]; exact ha)
      rw [q1] at i2
      exact ⟨i1.trans q2, i2⟩
    all_goals exact ih hg g f ha

theorem filterCalls_append (a b : List (Call α)) : filterCalls (a ++ b) = filterCalls a ++ filterCalls b := by
  induction a with
  | nil => rfl
  | cons c cs ih =>
    rcases c with ⟨o, n, j⟩ | (_ | m) | (_ | m) | _ | _ | _ | _ | p | _
    case time.some => exact congrArg (FCall.time m :: ·) ih
    case gnss.some => exact congrArg (FCall.gnss m :: ·) ih
    all_goals exact ih

theorem cnt_run (cs : List (Call α)) (g : α) (f : Fusion α) (k : Nat) (h : f.monitor.noUpdateCnt.toNat ≤ k) :
    (frun (filterCalls cs) (g, f)).2.monitor.noUpdateCnt.toNat ≤ k + (imusOf cs).length := by
  induction cs generalizing g f k with
  | nil => exact h
  | cons c cs ih =>
    rcases c with ⟨o, n, j⟩ | (_ | m) | (_ | m) | _ | _ | _ | _ | p | _
    case time.some =>
      have h1 : (f.timeUpdate g m).2.monitor.noUpdateCnt.toNat ≤ k + 1 := by
        rw [monitor_time]
        show (f.monitor.noUpdateCnt + 1).toNat ≤ _
        rw [BitVec.toNat_add]
        have := Nat.mod_le (f.monitor.noUpdateCnt.toNat + (1 : BitVec 32).toNat) (2 ^ 32)
        have e : (1 : BitVec 32).toNat = 1 := rfl
        omega
      have := ih (f.timeUpdate g m).1 (f.timeUpdate g m).2 (k + 1) h1
      simp only [imusOf, List.length_cons]
      exact this.trans (by omega)
    case gnss.some =>
      refine ih g (f.measureGnss m) k ?_
      by_cases hu : usable m.mode
      · rw [(monitor_gnss f m).1 hu]; exact Nat.zero_le _
      · rw [(monitor_gnss f m).2 hu]; exact h
    all_goals exact ih g f k h

theorem flag_set (x : BitVec 32) : x ||| Fusion.FLAG_POSITION ≠ 0 := by
  intro h
  have h0 : (x ||| Fusion.FLAG_POSITION).getLsbD 0 = (0 : BitVec 32).getLsbD 0 := by rw [h]
  rw [BitVec.getLsbD_or] at h0
  have e : Fusion.FLAG_POSITION.getLsbD 0 = true := by decide
  rw [e] at h0
  simp at h0

theorem pending_close (cs : List (Call α)) (hcs : endsWithCloseFixes cs) (g : α) (f : Fusion α) :
    pending (frun (filterCalls cs) (g, f)).2 ≤ 1 := by
  obtain ⟨before, between, m1, m2, rfl, u1, u2, hl⟩ := hcs
  have e : before ++ .gnss (some m1) :: (between ++ [.gnss (some m2)]) = before ++ ([.gnss (some m1)] ++ (between ++ [.gnss (some m2)])) := rfl
  rw [e, filterCalls_append, filterCalls_append, filterCalls_append, frun_append, frun_append, frun_append]
  generalize frun (filterCalls before) (g, f) = a
  have h1 : (frun (filterCalls [Call.gnss (some m1)]) a).2.monitor.noUpdateCnt.toNat ≤ 0 := by
    show (a.2.measureGnss m1).monitor.noUpdateCnt.toNat ≤ 0
    rw [(monitor_gnss a.2 m1).1 u1]; exact le_refl _
  generalize frun (filterCalls [Call.gnss (some m1)]) a = b at h1
  have h2 := cnt_run between b.1 b.2 0 h1
  have h3 : (frun (filterCalls between) b).2.monitor.noUpdateCnt.toNat ≤ 1000 := by
    have : (frun (filterCalls between) b).2.monitor.noUpdateCnt.toNat ≤ 0 + (imusOf between).length := h2
    omega
  generalize frun (filterCalls between) b = c at h3
  show pending (c.2.measureGnss m2) ≤ 1
  have h4 := (monitor_gnss c.2 m2).1 u2
  have h5 : (c.2.measureGnss m2).updateFlag ≠ 0 := by
    unfold Fusion.measureGnss
    rw [if_pos ((gnssCheck_iff m2).2 u2)]
    exact flag_set _
  unfold pending
  rw [if_neg h5, h4, maxIter_le, if_neg]
  show ¬ 1000 < (if c.2.monitor.noUpdateCnt.toNat < c.2.monitor.noUpdateCntMin.toNat then c.2.monitor.noUpdateCnt else c.2.monitor.noUpdateCntMin).toNat
  split_ifs <;> omega

/-- What every instance keeps between initialisations. -/
structure GapInv (o : Opt α) (d : Dev α) : Prop where
  opt : d.opt = o
  iter : d.df.updateIter ≤ 1000
  nav : d.status = ST_NAVIGATION → d.df.opt = o ∧ d.df.ins.dt = 1 / ofI o.dRate

theorem iter_time (g : α) (f : Fusion α) (m : Imu α) (h : f.updateIter ≤ 1000) : (f.timeUpdate g m).2.updateIter ≤ 1000 := by
  have e : (f.timeUpdate g m).2.updateIter = f.takeCorrection.applyCorrection.updateIter := by
    have h1 : ∀ x : Fusion α, x.zuptStage.updateIter = x.updateIter := by
      intro x; unfold Fusion.zuptStage Fusion.measureZeroVelocity; dsimp only; split_ifs <;> rfl
    have h2 : ∀ x : Fusion α, x.nhcStage.updateIter = x.updateIter := by
      intro x; unfold Fusion.nhcStage; split_ifs <;> rfl
    unfold Fusion.timeUpdate
    generalize f.takeCorrection.applyCorrection = c
    show ((c.propagate g m).2.zuptStage.nhcStage).updateIter = _
    rw [h2, h1]
    rfl
  have h1 : f.takeCorrection.updateIter ≤ 1000 := by
    unfold Fusion.takeCorrection
    split_ifs
    · show (f.monitor.maxIter : Int) ≤ 1000
      rcases maxIter_cases f.monitor with e | e <;> rw [e] <;> decide
    · exact h
  rw [e]
  unfold Fusion.applyCorrection
  split_ifs
  · show f.takeCorrection.updateIter - 1 ≤ 1000
    omega
  · exact h1

theorem dt_time (g : α) (f : Fusion α) (m : Imu α) : (f.timeUpdate g m).2.ins.dt = f.ins.dt := by
  obtain ⟨i, hi⟩ := Fusion.timeUpdate_ins g f m
  rw [hi]
  show f.takeCorrection.applyCorrection.ins.dt = _
  unfold Fusion.applyCorrection Fusion.takeCorrection
  split_ifs <;> rfl

theorem gapInv_time (o : Opt α) (g : α) (d : Dev α) (m : Imu α) (h : GapInv o d) : GapInv o (rgioeTimeupdate g d (some m)).2.2 := by
  have key : ∀ n, GapInv o { d with df := (d.df.initFusion g n d.opt).2 } := fun n => ⟨h.opt, h.iter, fun _ => ⟨h.opt, by show 1 / ofI d.opt.dRate = _; rw [h.opt]⟩⟩
  have key2 : ∀ n, d.df.initFusion g n d.opt = d.df.initFusion g n d.opt := fun _ => rfl
  unfold rgioeTimeupdate
  dsimp only
  split_ifs with c1 c2 c3 c4 c5 c6 c7
  · have k := key (makeNavEpoch d.curPva d.opt)
    have k1 : (d.df.initFusion g (makeNavEpoch d.curPva d.opt) d.opt).2.opt = o := h.opt
    have k2 : (d.df.initFusion g (makeNavEpoch d.curPva d.opt) d.opt).2.ins.dt = 1 / ofI o.dRate := by
      show 1 / ofI d.opt.dRate = _; rw [h.opt]
    have k3 := k.iter
    dsimp only at k3
    generalize d.df.initFusion g (makeNavEpoch d.curPva d.opt) d.opt = x at k1 k2 k3
    refine ⟨h.opt, iter_time x.1 x.2 m k3, fun _ => ⟨?_, ?_⟩⟩
    · show (x.2.timeUpdate x.1 m).2.opt = o
      rw [Fusion.timeUpdate_opt]; exact k1
    · show (x.2.timeUpdate x.1 m).2.ins.dt = _
      rw [dt_time]; exact k2
  · exact ⟨h.opt, h.iter, fun hs => by simp [ST_ALIGN, ST_NAVIGATION] at hs⟩
  · exact ⟨h.opt, h.iter, fun hs => by simp [ST_ATTITUDE, ST_NAVIGATION] at hs⟩
  · exact ⟨h.opt, h.iter, fun hs => h.nav hs⟩
  · exact ⟨h.opt, (key (d.am.updateImu m).nav).iter, fun _ => ⟨h.opt, by show 1 / ofI d.opt.dRate = _; rw [h.opt]⟩⟩
  · exact ⟨h.opt, h.iter, fun hs => h.nav hs⟩
  · refine ⟨h.opt, iter_time g d.df m h.iter, fun _ => ⟨?_, ?_⟩⟩
    · show (d.df.timeUpdate g m).2.opt = o
      rw [Fusion.timeUpdate_opt]; exact (h.nav c7).1
    · show (d.df.timeUpdate g m).2.ins.dt = _
      rw [dt_time]; exact (h.nav c7).2
  · exact h

theorem gapInv_gnss (o : Opt α) (g : α) (d : Dev α) (m : Gnss α) (h : GapInv o d) : GapInv o (rgioeGnssupdate g d (some m)).2.2 := by
  have k : (d.df.measureGnss m).updateIter = d.df.updateIter ∧ (d.df.measureGnss m).opt = d.df.opt ∧ (d.df.measureGnss m).ins.dt = d.df.ins.dt := by
    unfold Fusion.measureGnss; split_ifs <;> exact ⟨rfl, rfl, rfl⟩
  unfold rgioeGnssupdate
  dsimp only
  split_ifs with c1 c2 c3
  · exact h
  · exact ⟨h.opt, h.iter, fun hs => h.nav hs⟩
  · refine ⟨h.opt, by show (d.df.measureGnss m).updateIter ≤ 1000; rw [k.1]; exact h.iter, fun hs => ?_⟩
    show (d.df.measureGnss m).opt = o ∧ (d.df.measureGnss m).ins.dt = _
    rw [k.2.1, k.2.2]; exact h.nav hs
  · exact h

theorem gapInv_run (o : Opt α) (cs : List (Call α)) (hc : ∀ c ∈ cs, c.isInit = false) (s : α × Dev α) (h : GapInv o s.2) : GapInv o (runCalls cs s).2 := by
  induction cs generalizing s with
  | nil => exact h
  | cons c cs ih =>
    have hcs : ∀ c ∈ cs, c.isInit = false := fun c h' => hc c (List.mem_cons_of_mem _ h')
    rcases c with ⟨o', n, j⟩ | (_ | m) | (_ | m) | _ | _ | _ | _ | p | _
    · have := hc _ List.mem_cons_self
      simp [Call.isInit] at this
    · exact ih hcs _ h
    · exact ih hcs _ (gapInv_time o s.1 s.2 m h)
    · exact ih hcs _ h
    · exact ih hcs _ (gapInv_gnss o s.1 s.2 m h)
    all_goals exact ih hcs _ h

theorem gapInv_init (junk : Junk α) (d0 d : Dev α) (o : Opt α) (nav : Option (NavOutput α)) (hi : rgioeInit junk d0 (some o) nav = some (0, d)) : GapInv o d := by
  unfold rgioeInit at hi
  dsimp only at hi
  split_ifs at hi
  · simp [E_FAULT_CONFIG] at hi
  · simp only [Option.some.injEq, Prod.mk.injEq] at hi
    obtain ⟨_, rfl⟩ := hi
    cases nav <;> exact ⟨rfl, by show (0 : Int) ≤ 1000; decide, fun hs => by simp [ST_INIT, ST_NAVIGATION] at hs⟩

/-- The filter at the end of the stretch. -/
theorem gap_ready (junk : Junk α) (d0 d : Dev α) (o : Opt α) (nav : Option (NavOutput α)) (hi : rgioeInit junk d0 (some o) nav = some (0, d))
    (ha : noAids o) (history calls stretch : List (Call α)) (hc : ∀ c ∈ history ++ calls ++ stretch, c.isInit = false) (g : α)
    (hn : rgioeGetStatus (runCalls history (g, d)).2 = 3) (hg : ∀ m ∈ fixesOf stretch, ¬ usable m.mode) (hd : correctionDone calls stretch) :
    ∃ (g0 : α) (f : Fusion α), f.opt = o ∧ f.ins.dt = 1 / ofI o.dRate ∧ CoastQ f ∧
      (runCalls (history ++ calls ++ stretch) (g, d)).1 = g0 ∧ (runCalls (history ++ calls ++ stretch) (g, d)).2.df = f ∧
      rgioeGetStatus (runCalls (history ++ calls ++ stretch) (g, d)).2 = 3 := by
  have hc1 : ∀ c ∈ history, c.isInit = false := fun c h => hc c (by simp [h])
  have hc2 : ∀ c ∈ calls, c.isInit = false := fun c h => hc c (by simp [h])
  have hc3 : ∀ c ∈ stretch, c.isInit = false := fun c h => hc c (by simp [h])
  have inv := gapInv_run o history hc1 (g, d) (gapInv_init junk d0 d o nav hi)
  rw [runCalls_append, runCalls_append]
  generalize runCalls history (g, d) = a at hn inv
  obtain ⟨e1, e2⟩ := C126_navigating_is_the_filter calls hc2 a.1 a.2 hn
  have inv2 := gapInv_run o calls hc2 a inv
  have hn2 := e2.status
  have hcl : endsWithCloseFixes calls → pending (runCalls calls a).2.df ≤ 1 := by
    intro h
    have k := pending_close calls h a.1 a.2.df
    rw [← e1] at k
    exact k
  change rgioeGetStatus (runCalls calls a).2 = 3 at hn2
  generalize runCalls calls a = b at inv2 hn2 hcl
  obtain ⟨e3, e4⟩ := C126_navigating_is_the_filter stretch hc3 b.1 b.2 hn2
  have inv3 := gapInv_run o stretch hc3 b inv2
  have hn3 := e4.status
  change rgioeGetStatus (runCalls stretch b).2 = 3 at hn3
  change ((runCalls stretch b).1, (runCalls stretch b).2.df) = _ at e3
  obtain ⟨i1, i2⟩ := inv3.nav hn3
  refine ⟨_, _, i1, i2, done_of_pending _ ?_ (by rw [i1]; exact ha), rfl, rfl, hn3⟩
  have hb : noAids b.2.df.opt := by rw [(inv2.nav hn2).1]; exact ha
  obtain ⟨-, p2⟩ := pending_run stretch hg b.1 b.2.df hb
  have e5 : (runCalls stretch b).2.df = (frun (filterCalls stretch) (b.1, b.2.df)).2 := congrArg Prod.snd e3
  rw [← e5] at p2
  rcases hd with hd | ⟨hd, hcf⟩
  · have : pending b.2.df ≤ 1000 := by
      unfold pending
      split_ifs
      · have := inv2.iter; omega
      · rcases maxIter_cases b.2.df.monitor with e | e <;> omega
    omega
  · have := hcl hcf
    omega

/-- C208, for every arithmetic: an instance that navigates, whatever its alignment mode and history, without aids: once the last
correction is used up (1000 samples after the last usable fix, or one sample if the last two were at most 1000 samples apart), then
as long as there is no usable fix, whatever else is called, every report is that of the mechanization alone, run from one and the same state over the
samples given since. -/
theorem C208_gap_is_the_mechanization (junk : Junk α) (d0 d : Dev α) (o : Opt α) (nav : Option (NavOutput α)) (hi : rgioeInit junk d0 (some o) nav = some (0, d))
    (ha : noAids o) (ho : o.outputProjectEnable = 0) (history calls stretch : List (Call α)) (hc : ∀ c ∈ history ++ calls ++ stretch, c.isInit = false) (g : α)
    (hn : rgioeGetStatus (runCalls history (g, d)).2 = 3) (hg : ∀ m ∈ fixesOf stretch, ¬ usable m.mode) (hd : correctionDone calls stretch) :
    ∃ (g0 : α) (s : Ins α), s.dt = 1 / ofI o.dRate ∧ ∀ gap : List (Call α), (∀ c ∈ gap, c.isInit = false) → (∀ m ∈ fixesOf gap, ¬ usable m.mode) →
      ∃ r, (∀ p, rgioeGetResult (runCalls (history ++ calls ++ stretch ++ gap) (g, d)).2 p = (0, r)) ∧ ReportOf r (run g0 s (imusOf gap)).2.nav := by
  obtain ⟨g0, f, f1, f2, q, r1, r2, r3⟩ := gap_ready junk d0 d o nav hi ha history calls stretch hc g hn hg hd
  refine ⟨g0, f.ins, f2, ?_⟩
  intro gap hgc hgg
  rw [runCalls_append (history ++ calls ++ stretch)]
  generalize runCalls (history ++ calls ++ stretch) (g, d) = a at r1 r2 r3
  obtain ⟨-, rep⟩ := C126_navigating_is_the_filter gap hgc a.1 a.2 r3
  obtain ⟨k1, -, j, k3⟩ := coastq_run gap hgg g0 f f.ins f.ins.nav.info rfl q
  have res : ∀ p, rgioeGetResult (runCalls gap a).2 p = (0, (frun (filterCalls gap) (a.1, a.2.df)).2.output) := rep.result
  rw [r1, r2] at res
  generalize frun (filterCalls gap) (g0, f) = F at res k1 k3
  refine ⟨F.2.output, res, ?_⟩
  have hp : ¬ F.2.opt.outputProjectEnable ≠ 0 := by rw [k1, f1, ho]; simp
  unfold Fusion.output
  dsimp only
  rw [if_neg hp, if_neg hp, k3]
  exact ⟨rfl, rfl, rfl, rfl, rfl, ⟨rfl, rfl⟩, rfl, rfl, rfl, rfl⟩
end

theorem kit_mono {B : Limits} {K ρ : ℝ} (k : Kit B K ρ) (b : ℝ) : ∃ K' ρ', b ≤ K' ∧ Kit B K' ρ' := by
  have hK := k.bounds.one
  obtain ⟨K', hK'⟩ : ∃ K', K' = max K b := ⟨_, rfl⟩
  have h1 : K ≤ K' := hK' ▸ le_max_left _ _
  have h0 : 0 < K' := by linarith
  have hq : K / K' ≤ 1 := (div_le_one h0).2 h1
  have hρ : ρ * (K / K') ≤ ρ := by have := mul_le_mul_of_nonneg_left hq k.pos.le; linarith
  refine ⟨K', ρ * (K / K'), hK' ▸ le_max_right _ _, ⟨by linarith, k.bounds.lip.mono h1, by linarith [k.bounds.speed], by linarith [k.bounds.rate1], by linarith [k.bounds.force1]⟩,
    k.sane, mul_pos k.pos (div_pos (by linarith) h0), hρ.trans k.one, ?_, ?_⟩
  · have e : K' * (ρ * (K / K')) = K * ρ := by field_simp
    rw [e]; exact k.gap
  · intro l o q l1 l2 l3
    obtain ⟨c1, c2⟩ := k.lla l o q l1 l2 (l3.trans hρ)
    exact ⟨c1.trans (mul_le_mul_of_nonneg_right h1 (norm_nonneg _)), c2.trans (mul_le_mul_of_nonneg_right h1 (norm_nonneg _))⟩

theorem dist_norm (a b : Quat ℝ) : ‖toH a - toH b‖ = quatDist a b := by
  unfold quatDist
  rw [eq_comm, Real.sqrt_eq_iff_mul_self_eq (by positivity) (norm_nonneg _), ← Quaternion.normSq_eq_norm_mul_self, Quaternion.normSq_def']
  rw [Quaternion.re_sub, Quaternion.imI_sub, Quaternion.imJ_sub, Quaternion.imK_sub]
  simp only [toH]

/-- The errors of the mechanization grow in proportion, from any state it can hold. -/
theorem flight_from (B : Limits) (hs : B.Sane) (T b : ℝ) : ∃ K r : ℝ, 0 < r ∧
    ∀ (lat lon h : ℝ → ℝ) (v : ℝ → V3 ℝ) (C : ℝ → M3 ℝ) (w θ f α : ℝ → V3 ℝ), TrueFlight B T lat lon h v C w θ f α →
    ∀ (g : ℝ) (s : Ins ℝ) (e δ : ℝ), HeldNear b e s lat lon h v C → attitudeOk s.nav → positionOk s.nav → 0 < s.dt → 0 ≤ e → 0 ≤ δ → e + δ + s.dt ≤ r →
    ∀ ms : List (Imu ℝ), ms.length * s.dt ≤ T → NearImu δ s.nav s.dt θ α 0 ms → ∀ (n : NavEpoch ℝ) (t : ℝ), n = (flight g s ms).2.nav → t = ms.length * s.dt →
      |n.pos 0 - lat t| ≤ K * (e + δ + s.dt) ∧ |n.pos 1 - lon t| ≤ K * (e + δ + s.dt) ∧ |n.pos 2 - h t| ≤ K * (e + δ + s.dt) ∧ len (n.vn - v t) ≤ K * (e + δ + s.dt) ∧
      ∀ x, len (n.Cbn *ᵥ x - C t *ᵥ x) ≤ K * (e + δ + s.dt) * len x := by
  by_cases hV : 0 ≤ B.speed
  swap
  · refine ⟨0, 1, one_pos, ?_⟩
    intro lat lon h v C w θ f α F g s e δ st _ _ hd0 _ _ hd ms hT
    have := mul_nonneg (Nat.cast_nonneg ms.length : (0 : ℝ) ≤ ms.length) hd0.le
    exact absurd (limits_pos F 0 (le_refl 0) (by linarith)).2.2.2.1 hV
  obtain ⟨K0, ρ0, k0⟩ := kit_exists B hs hV
  obtain ⟨K, ρ, hb, k⟩ := kit_mono k0 b
  clear k0
  have hK := k.bounds.one
  obtain ⟨A, hA⟩ : ∃ A, A = 50 * K ^ 3 := ⟨_, rfl⟩
  have hA0 : 0 < A := by rw [hA]; positivity
  obtain ⟨G, hG⟩ : ∃ G, G = Real.exp (A * T) := ⟨_, rfl⟩
  have hG0 : 0 < G := by rw [hG]; exact Real.exp_pos _
  refine ⟨K * G, min (1 / A) (ρ / (10 * K ^ 2 * G)), lt_min (by positivity) (div_pos k.pos (by positivity)), ?_⟩
  intro lat lon h v C w θ f α F g s e δ st hatt hpos hd0 he0 hδ0 hr ms hT hp n t hn ht
  have r1 := hr.trans (min_le_left _ _)
  have r2 := hr.trans (min_le_right _ _)
  clear hr
  have hms : 0 ≤ (ms.length : ℝ) * s.dt := mul_nonneg (Nat.cast_nonneg _) hd0.le
  have hAd : A * s.dt ≤ 1 := by
    have : s.dt ≤ 1 / A := by linarith
    rw [le_div_iff₀ hA0] at this; linarith
  have hη : 0 < e + δ + s.dt := by linarith
  have hρd : 10 * K ^ 2 * ((e + δ + s.dt) * G) ≤ ρ := by
    rw [le_div_iff₀ (by positivity)] at r2; linarith
  have hpow : (1 + A * s.dt) ^ ms.length ≤ G := by
    have h1 : 1 + A * s.dt ≤ Real.exp (A * s.dt) := by have := Real.add_one_le_exp (A * s.dt); linarith
    have h2 := pow_le_pow_left₀ (by have := mul_pos hA0 hd0; linarith) h1 ms.length
    rw [← Real.exp_nat_mul] at h2
    refine h2.trans ?_
    rw [hG]
    refine Real.exp_le_exp.2 ?_
    have := mul_le_mul_of_nonneg_left hT hA0.le
    linarith
  have hbd : b * s.dt ≤ K * s.dt := mul_le_mul_of_nonneg_right hb hd0.le
  have hK0 : 0 ≤ K * s.dt := mul_nonneg (by linarith) hd0.le
  have hp0 : s.nav.pos 0 = (qneToLla s.nav.Qne).lat := congrArg LatLon.lat hpos.2.1
  have hp1 : s.nav.pos 1 = (qneToLla s.nav.Qne).lon := congrArg LatLon.lon hpos.2.1
  have start : Near K (e + δ) s.dt 0 s lat lon h v C := by
    refine ⟨hatt.1, hatt.2.1, hpos.1, hp0, hp1, rfl, by linarith [st.dvn], by linarith [st.gyro], by linarith [st.acce], ?_, ?_, ?_, ?_⟩
    · show ‖toH s.nav.Qne - toH (llaToQne ⟨lat 0, lon 0⟩)‖ ≤ _
      rw [dist_norm]; exact st.place.trans (by linarith)
    · linarith [st.vel]
    · linarith [st.height]
    · intro x; exact (st.att x).trans (mul_le_mul_of_nonneg_right (by linarith) (len_nonneg x))
  have N := near_flight k F A hA hd0 hAd δ s.nav ms g s 0 (e + δ) rfl rfl rfl rfl start (by linarith) (by linarith) (le_refl 0) (by rw [zero_add]; exact hT) (by
    refine le_trans ?_ hρd
    exact mul_le_mul_of_nonneg_left (mul_le_mul_of_nonneg_left hpow hη.le) (by positivity)) hp
  rw [zero_add, ← ht] at N
  have hE : (e + δ + s.dt) * (1 + A * s.dt) ^ ms.length - s.dt ≤ (e + δ + s.dt) * G := by
    have := mul_le_mul_of_nonneg_left hpow hη.le; linarith
  have hEK : (e + δ + s.dt) * G ≤ K * G * (e + δ + s.dt) := by
    have := mul_le_mul_of_nonneg_right hK (mul_pos hη hG0).le
    linarith
  have hEρ : (e + δ + s.dt) * G ≤ ρ := by
    have h1 : 1 ≤ 10 * K ^ 2 := by nlinarith
    have := mul_le_mul_of_nonneg_right h1 (mul_pos hη hG0).le
    linarith
  have ll := k.lla (lat t) (lon t) (flight g s ms).2.nav.Qne (F.lat_le t (by rw [ht]; exact hms) (by rw [ht]; exact hT)) (F.lon_le t (by rw [ht]; exact hms) (by rw [ht]; exact hT))
    (N.place.trans (hE.trans hEρ))
  have hq : ‖toH (flight g s ms).2.nav.Qne - toH (llaToQne ⟨lat t, lon t⟩)‖ ≤ (e + δ + s.dt) * G := N.place.trans hE
  have hKq := mul_le_mul_of_nonneg_left hq (by linarith : 0 ≤ K)
  rw [← N.pos0, ← N.pos1] at ll
  rw [hn]
  refine ⟨by linarith [ll.1], by linarith [ll.2], by linarith [N.height], by linarith [N.vel], ?_⟩
  intro x
  refine (N.att x).trans (mul_le_mul_of_nonneg_right (by linarith) (len_nonneg x))

theorem reported_near (δ : ℝ) (p : ImuPara ℝ) (q : NavOutput ℝ) (n : NavEpoch ℝ) (hq : ReportOf q n) (dt : ℝ) (θ α : ℝ → V3 ℝ) (ms : List (Imu ℝ)) :
    ∀ t, ReadsNear δ (reportedErrors p q) dt θ α t ms → NearImu δ n dt θ α t ms := by
  have hd : (deg : ℝ) = Real.pi / 180 := by simp [deg]
  have hd0 : (deg : ℝ) ≠ 0 := by rw [hd]; have := Real.pi_pos; positivity
  have g1 : (reportedErrors p q).gbIni = n.gb := by
    funext i
    show q.gb i * (Real.pi / 180) / 3600 = _
    rw [hq.gb, ← hd]
    show n.gb i / deg * hour * deg / 3600 = _
    have : (hour : ℝ) = 3600 := by simp [hour]
    rw [this]; field_simp
  have g2 : (reportedErrors p q).abIni = n.ab := by
    funext i
    show q.ab i / 100000 = _
    rw [hq.ab]
    show n.ab i / mGal / 100000 = _
    have : (mGal : ℝ) = 1 / 100000 := by simp [mGal]
    rw [this]; field_simp
  have g3 : (reportedErrors p q).gsIni = n.gs := by
    funext i
    show q.gs i / 1000000 = _
    rw [hq.gs]
    show n.gs i / ppm / 1000000 = _
    have : (ppm : ℝ) = 1 / 1000000 := by simp [ppm]
    rw [this]; field_simp
  have g4 : (reportedErrors p q).asIni = n.as := by
    funext i
    show q.as i / 1000000 = _
    rw [hq.as]
    show n.as i / ppm / 1000000 = _
    have : (ppm : ℝ) = 1 / 1000000 := by simp [ppm]
    rw [this]; field_simp
  induction ms with
  | nil => intro t _; trivial
  | cons m ms ih =>
    intro t h
    obtain ⟨⟨h1, h2⟩, h3⟩ := h
    rw [g1, g3] at h1
    rw [g2, g4] at h2
    exact ⟨⟨h1, h2⟩, ih _ h3⟩

theorem nav_ok_flight (ms : List (Imu ℝ)) : ∀ (g : ℝ) (s : Ins ℝ), attitudeOk s.nav → positionOk s.nav → attitudeOk (flight g s ms).2.nav := by
  induction ms with
  | nil => intro g s h _; exact h
  | cons m ms ih =>
    intro g s h1 h2
    obtain ⟨a1, a2⟩ := forwardImu_ok g s m (by rw [h1.1]; exact one_pos) (by rw [h2.1]; exact one_pos)
    exact ih _ _ a1 a2

theorem nav_ok_run (cs : List (Call ℝ)) : ∀ (g : ℝ) (f : Fusion ℝ),
    (attitudeOk f.ins.nav ∧ positionOk f.ins.nav → attitudeOk (frun (filterCalls cs) (g, f)).2.ins.nav ∧ positionOk (frun (filterCalls cs) (g, f)).2.ins.nav) ∧
    (Live f → imusOf cs ≠ [] → attitudeOk (frun (filterCalls cs) (g, f)).2.ins.nav ∧ positionOk (frun (filterCalls cs) (g, f)).2.ins.nav) := by
  induction cs with
  | nil => intro g f; exact ⟨fun h => h, fun _ h => absurd rfl h⟩
  | cons c cs ih =>
    intro g f
    rcases c with ⟨o, n, j⟩ | (_ | m) | (_ | m) | _ | _ | _ | _ | p | _
    case time.some =>
      have k : Live f → attitudeOk (frun (filterCalls cs) (f.timeUpdate g m)).2.ins.nav ∧ positionOk (frun (filterCalls cs) (f.timeUpdate g m)).2.ins.nav :=
        fun h => (ih (f.timeUpdate g m).1 (f.timeUpdate g m).2).1 (timeUpdate_ok g f m h)
      exact ⟨fun h => k ⟨by rw [h.1.1]; exact one_pos, by rw [h.2.1]; exact one_pos⟩, fun h _ => k h⟩
    case gnss.some =>
      obtain ⟨i1, i2⟩ := ih g (f.measureGnss m)
      refine ⟨fun h => i1 ?_, fun h hs => i2 (live_meas (meas_gnss _ m) h) hs⟩
      obtain ⟨i, hi⟩ := (meas_gnss f m).ins
      rw [hi]; exact h
    all_goals exact ih g f

theorem no_inits (cs : List (Call ℝ)) (hc : ∀ c ∈ cs, c.isInit = false) : initsOk cs := by
  induction cs with
  | nil => trivial
  | cons c cs ih =>
    have := ih fun c h => hc c (List.mem_cons_of_mem _ h)
    rcases c with ⟨o, n, j⟩ | (_ | m) | (_ | m) | _ | _ | _ | _ | p | _
    · have := hc _ List.mem_cons_self
      simp [Call.isInit] at this
    all_goals exact this

/-- C208, in exact arithmetic: when the last correction is used up and the state the instance then holds is within `e` of a true flight within given limits,
every report of the following gap without usable fix is within a constant times `e` plus the sensor error `δ` (after removing the sensor errors reported at the beginning of the gap) plus the
sampling interval of the truth at the time of the last sample, for gaps of any length up to `T`. The constant depends on the limits, on `T` and on
the bound `b` only. -/
theorem C208_gap_follows_the_flight (B : Limits) (hB : B.Sane) (T b : ℝ) : ∃ K r : ℝ, 0 < r ∧
    ∀ (lat lon h : ℝ → ℝ) (v : ℝ → V3 ℝ) (C : ℝ → M3 ℝ) (w θ f α : ℝ → V3 ℝ), TrueFlight B T lat lon h v C w θ f α →
    ∀ (junk : Junk ℝ) (d0 d : Dev ℝ) (o : Opt ℝ) (nav : Option (NavOutput ℝ)), rgioeInit junk d0 (some o) nav = some (0, d) → noAids o → o.outputProjectEnable = 0 → 0 < o.dRate →
    ∀ (history calls stretch : List (Call ℝ)), (∀ c ∈ history ++ calls ++ stretch, c.isInit = false) → ∀ g : ℝ,
    rgioeGetStatus (runCalls history (g, d)).2 = 3 → (∀ m ∈ fixesOf stretch, ¬ usable m.mode) → correctionDone calls stretch →
    ∀ (e δ dt x : ℝ), dt = 1 / o.dRate → x = e + δ + dt → x ≤ r → 0 ≤ e → 0 ≤ δ → HeldNear b e (runCalls (history ++ calls ++ stretch) (g, d)).2.df.ins lat lon h v C →
    ∀ q0 : NavOutput ℝ, q0 = (rgioeGetResult (runCalls (history ++ calls ++ stretch) (g, d)).2 zeroPva).2 →
    ∀ gap : List (Call ℝ), (∀ c ∈ gap, c.isInit = false) → (∀ m ∈ fixesOf gap, ¬ usable m.mode) →
    ReadsNear δ (reportedErrors o.imuPara q0) dt θ α 0 (imusOf gap) → ∀ t : ℝ, t = (imusOf gap).length * dt → t ≤ T →
    ∀ p : NavOutput ℝ, ∃ q : NavOutput ℝ, rgioeGetResult (runCalls (history ++ calls ++ stretch ++ gap) (g, d)).2 p = (0, q) ∧
      |inRad q.lat - lat t| ≤ K * x ∧ |inRad q.lon - lon t| ≤ K * x ∧ |q.height - h t| ≤ K * x ∧ len (q.vn - v t) ≤ K * x ∧
      (|C t 2 0| ≤ 99 / 100 → ResultNear (K * x) q (lat t) (lon t) (h t) (v t) (C t)) := by
  obtain ⟨K0, r0, hr0, H⟩ := flight_from B hB T b
  obtain ⟨K, hK⟩ : ∃ K, K = max K0 0 := ⟨_, rfl⟩
  have hK0 : K0 ≤ K := hK ▸ le_max_left _ _
  have hKn : 0 ≤ K := hK ▸ le_max_right _ _
  refine ⟨K, min r0 (9 / (1000 * (K + 1))), lt_min hr0 (by positivity), ?_⟩
  intro lat lon h v C w θ f α F junk d0 d o nav hi ha ho hdr history calls stretch hc g hn hg hd e δ dt x hdt hx hxr he0 hδ hnear q0 hq0 gap hgc hgg hreads t ht hT p
  obtain ⟨g0, fl, f1, f2, cq, r1, r2, r3⟩ := gap_ready junk d0 d o nav hi ha history calls stretch hc g hn hg hd
  have hok : attitudeOk fl.ins.nav ∧ positionOk fl.ins.nav := by
    have hinv := qinv_run (history ++ calls) (g, d) (no_inits _ fun c hcc => hc c (by simp only [List.mem_append] at hcc ⊢; tauto)) (qinv_init junk d0 o nav 0 d rfl hi)
    have hst : rgioeGetStatus (runCalls (history ++ calls) (g, d)).2 = 3 := by
      rw [runCalls_append]
      exact (C126_navigating_is_the_filter calls (fun c hcc => hc c (by simp [hcc])) (runCalls history (g, d)).1 (runCalls history (g, d)).2 hn).2.status
    have hl := hinv.live hst
    rw [runCalls_append] at r2
    generalize runCalls (history ++ calls) (g, d) = a at hst hl r2
    have k := (nav_ok_run stretch a.1 a.2.df).2 hl (by
      intro h0
      rcases hd with h1 | ⟨h1, -⟩ <;> rw [h0] at h1 <;> simp at h1)
    have e1 := (C126_navigating_is_the_filter stretch (fun c hcc => hc c (by simp [hcc])) a.1 a.2 hst).1
    have e2 : (runCalls stretch a).2.df = (frun (filterCalls stretch) (a.1, a.2.df)).2 := congrArg Prod.snd e1
    rw [← e2, r2] at k
    exact k
  rw [r2] at hnear
  have hgap : ∀ gap : List (Call ℝ), (∀ c ∈ gap, c.isInit = false) → (∀ m ∈ fixesOf gap, ¬ usable m.mode) →
      ∃ r, (∀ p, rgioeGetResult (runCalls (history ++ calls ++ stretch ++ gap) (g, d)).2 p = (0, r)) ∧ ReportOf r (run g0 fl.ins (imusOf gap)).2.nav := by
    intro gap hgc hgg
    rw [runCalls_append (history ++ calls ++ stretch)]
    generalize runCalls (history ++ calls ++ stretch) (g, d) = a at r1 r2 r3
    obtain ⟨-, rep⟩ := C126_navigating_is_the_filter gap hgc a.1 a.2 r3
    obtain ⟨k1, -, j, k3⟩ := coastq_run gap hgg g0 fl fl.ins fl.ins.nav.info rfl cq
    have res : ∀ p, rgioeGetResult (runCalls gap a).2 p = (0, (frun (filterCalls gap) (a.1, a.2.df)).2.output) := rep.result
    rw [r1, r2] at res
    generalize frun (filterCalls gap) (g0, fl) = G at res k1 k3
    refine ⟨G.2.output, res, ?_⟩
    have hp : ¬ G.2.opt.outputProjectEnable ≠ 0 := by rw [k1, f1, ho]; simp
    unfold Fusion.output
    dsimp only
    rw [if_neg hp, if_neg hp, k3]
    exact ⟨rfl, rfl, rfl, rfl, rfl, ⟨rfl, rfl⟩, rfl, rfl, rfl, rfl⟩
  obtain ⟨q1, hq1, hrep1⟩ := hgap [] (by simp) (by simp [fixesOf])
  rw [List.append_nil] at hq1
  have hq01 : q0 = q1 := by rw [hq0, hq1]
  subst hq01
  have hdt2 : fl.ins.dt = dt := by rw [f2, hdt]; simp [ofI]
  have hdt0 : 0 < dt := by rw [hdt]; exact one_div_pos.2 (by exact_mod_cast hdr)
  have hnear2 := reported_near δ o.imuPara q0 fl.ins.nav hrep1 dt θ α (imusOf gap) 0 hreads
  obtain ⟨q, hq, hrep⟩ := hgap gap hgc hgg
  refine ⟨q, hq p, ?_⟩
  obtain ⟨E, hE⟩ : ∃ E, E = (run g0 fl.ins (imusOf gap)).2.nav := ⟨_, rfl⟩
  have hE' : E = (flight g0 fl.ins (imusOf gap)).2.nav := hE
  rw [← hE] at hrep
  have k := H lat lon h v C w θ f α F g0 fl.ins e δ hnear hok.1 hok.2 (by rw [hdt2]; exact hdt0) he0 hδ
    (by rw [hdt2, ← hx]; exact hxr.trans (min_le_left _ _)) (imusOf gap) (by rw [hdt2, ← ht]; exact hT) (by rw [hdt2]; exact hnear2) E t hE' (by rw [hdt2]; exact ht)
  rw [hdt2, ← hx] at k
  have hx0 : 0 ≤ x := by rw [hx]; linarith
  have hKx : K0 * x ≤ K * x := mul_le_mul_of_nonneg_right hK0 hx0
  obtain ⟨k1, k2, k3, k4, k5⟩ := k
  have a1 : |inRad q.lat - lat t| ≤ K * x := by rw [hrep.lat, rad_deg]; exact k1.trans hKx
  have a2 : |inRad q.lon - lon t| ≤ K * x := by rw [hrep.lon, rad_deg]; exact k2.trans hKx
  have a3 : |q.height - h t| ≤ K * x := by rw [hrep.height]; exact k3.trans hKx
  have a4 : len (q.vn - v t) ≤ K * x := by rw [hrep.vel]; exact k4.trans hKx
  refine ⟨a1, a2, a3, a4, fun hl => ⟨a1, a2, a3, a4, ?_⟩⟩
  have k5' : ∀ y, len (E.Cbn *ᵥ y - C t *ᵥ y) ≤ K * x * len y := fun y => (k5 y).trans (mul_le_mul_of_nonneg_right hKx (len_nonneg y))
  obtain ⟨-, -, b3, b4⟩ : attitudeOk E := by rw [hE']; exact nav_ok_flight _ g0 _ hok.1 hok.2
  have hlock : |E.Cbn 2 0| < 999 / 1000 := by
    have c1 := entry_le _ _ _ k5'
    have c2 : K * x < 9 / 1000 := by
      have c3 := hxr.trans (min_le_right _ _)
      rw [le_div_iff₀ (by positivity)] at c3
      have c5 : 0 < x := by rw [hx]; linarith
      linarith
    have c6 := abs_sub_abs_le_abs_sub (E.Cbn 2 0) (C t 2 0)
    linarith
  intro y
  rw [hrep.atti, rotOf_deg, b4, C40_matrix_round_trip _ b3 hlock]
  exact k5' y

/-- A flight from a later moment on. -/
theorem flight_later {B : Limits} {T : ℝ} {lat lon h : ℝ → ℝ} {v : ℝ → V3 ℝ} {C : ℝ → M3 ℝ} {w θ f α : ℝ → V3 ℝ} (F : TrueFlight B T lat lon h v C w θ f α) (τ : ℝ) (hτ : 0 ≤ τ) :
    TrueFlight B (T - τ) (fun t => lat (t + τ)) (fun t => lon (t + τ)) (fun t => h (t + τ)) (fun t => v (t + τ)) (fun t => C (t + τ)) (fun t => w (t + τ)) (fun t => θ (t + τ))
      (fun t => f (t + τ)) (fun t => α (t + τ)) where
  lat_eq t h0 h1 := (F.lat_eq (t + τ) (by linarith) (by linarith)).comp_add_const t τ
  lon_eq t h0 h1 := (F.lon_eq (t + τ) (by linarith) (by linarith)).comp_add_const t τ
  height_eq t h0 h1 := (F.height_eq (t + τ) (by linarith) (by linarith)).comp_add_const t τ
  vel_eq t h0 h1 i := HasDerivAt.comp_add_const t τ (F.vel_eq (t + τ) (by linarith) (by linarith) i)
  att_eq t h0 h1 i j := HasDerivAt.comp_add_const t τ (F.att_eq (t + τ) (by linarith) (by linarith) i j)
  angle t h0 h1 i := HasDerivAt.comp_add_const t τ (F.angle (t + τ) (by linarith) (by linarith) i)
  impulse t h0 h1 i := HasDerivAt.comp_add_const t τ (F.impulse (t + τ) (by linarith) (by linarith) i)
  rot t h0 h1 := F.rot (t + τ) (by linarith) (by linarith)
  lat_le t h0 h1 := F.lat_le (t + τ) (by linarith) (by linarith)
  lon_le t h0 h1 := F.lon_le (t + τ) (by linarith) (by linarith)
  height_le t h0 h1 := F.height_le (t + τ) (by linarith) (by linarith)
  speed_le t h0 h1 := F.speed_le (t + τ) (by linarith) (by linarith)
  rate_le t h0 h1 := F.rate_le (t + τ) (by linarith) (by linarith)
  force_le t h0 h1 := F.force_le (t + τ) (by linarith) (by linarith)

theorem held_after (B : Limits) (hs : B.Sane) (T : ℝ) : ∃ b K r : ℝ, 0 ≤ K ∧ 0 < r ∧
    ∀ (lat lon h : ℝ → ℝ) (v : ℝ → V3 ℝ) (C : ℝ → M3 ℝ) (w θ f α : ℝ → V3 ℝ), TrueFlight B T lat lon h v C w θ f α →
    ∀ (g : ℝ) (s : Ins ℝ) (e δ : ℝ), StartsNear e s lat lon h v C → 0 < s.dt → 0 ≤ δ → e + δ + s.dt ≤ r →
    ∀ ms : List (Imu ℝ), ms.length * s.dt ≤ T → NearImu δ s.nav s.dt θ α 0 ms → ∀ t : ℝ, t = ms.length * s.dt →
      HeldNear b (K * (e + δ + s.dt)) (flight g s ms).2 (fun u => lat (u + t)) (fun u => lon (u + t)) (fun u => h (u + t)) (fun u => v (u + t)) (fun u => C (u + t)) := by
  by_cases hV : 0 ≤ B.speed
  swap
  · refine ⟨0, 0, 1, le_refl _, one_pos, ?_⟩
    intro lat lon h v C w θ f α F g s e δ st hd0 _ hd ms hT
    have := mul_nonneg (Nat.cast_nonneg ms.length : (0 : ℝ) ≤ ms.length) hd0.le
    exact absurd (limits_pos F 0 (le_refl 0) (by linarith)).2.2.2.1 hV
  obtain ⟨K, ρ, k⟩ := kit_exists B hs hV
  have hK := k.bounds.one
  obtain ⟨A, hA⟩ : ∃ A, A = 50 * K ^ 3 := ⟨_, rfl⟩
  have hA0 : 0 < A := by rw [hA]; positivity
  obtain ⟨G, hG⟩ : ∃ G, G = Real.exp (A * T) := ⟨_, rfl⟩
  have hG0 : 0 < G := by rw [hG]; exact Real.exp_pos _
  have g1 : 0 < (Real.pi / 2 - B.lat) / 2 := by have := hs.lat; linarith
  have g2 : 0 < (Real.pi - B.lon) / 2 := by have := hs.lon; linarith
  refine ⟨4 * K, G, min (min (1 / A) (ρ / (10 * K ^ 2 * G))) (min ((Real.pi / 2 - B.lat) / 2) ((Real.pi - B.lon) / 2)), hG0.le,
    lt_min (lt_min (by positivity) (div_pos k.pos (by positivity))) (lt_min g1 g2), ?_⟩
  intro lat lon h v C w θ f α F g s e δ st hd0 hδ0 hr ms hT hp t ht
  have he0 : 0 ≤ e := (abs_nonneg _).trans st.latitude
  have r1 := (hr.trans (min_le_left _ _)).trans (min_le_left _ _)
  have r2 := (hr.trans (min_le_left _ _)).trans (min_le_right _ _)
  have r3 := (hr.trans (min_le_right _ _)).trans (min_le_left _ _)
  have r4 := (hr.trans (min_le_right _ _)).trans (min_le_right _ _)
  clear hr
  have hms : 0 ≤ (ms.length : ℝ) * s.dt := mul_nonneg (Nat.cast_nonneg _) hd0.le
  have hAd : A * s.dt ≤ 1 := by
    have : s.dt ≤ 1 / A := by linarith
    rw [le_div_iff₀ hA0] at this; linarith
  have hη : 0 < e + δ + s.dt := by linarith
  have hρd : 10 * K ^ 2 * ((e + δ + s.dt) * G) ≤ ρ := by
    rw [le_div_iff₀ (by positivity)] at r2; linarith
  have hpow : (1 + A * s.dt) ^ ms.length ≤ G := by
    have h1 : 1 + A * s.dt ≤ Real.exp (A * s.dt) := by have := Real.add_one_le_exp (A * s.dt); linarith
    have h2 := pow_le_pow_left₀ (by have := mul_pos hA0 hd0; linarith) h1 ms.length
    rw [← Real.exp_nat_mul] at h2
    refine h2.trans ?_
    rw [hG]
    refine Real.exp_le_exp.2 ?_
    have := mul_le_mul_of_nonneg_left hT hA0.le
    linarith
  have hT0 : (0 : ℝ) ≤ T := by linarith
  have a1 := abs_le.1 (F.lat_le 0 (le_refl 0) hT0)
  have a2 := abs_le.1 (F.lon_le 0 (le_refl 0) hT0)
  have a3 := abs_le.1 st.latitude
  have a4 := abs_le.1 st.longitude
  have rt := C41_lat_lon_round_trip ⟨s.nav.pos 0, s.nav.pos 1⟩
    (by have := hs.lat; exact ⟨by dsimp only; linarith [a1.1, a1.2, a3.1, a3.2], by dsimp only; linarith [a1.1, a1.2, a3.1, a3.2]⟩)
    (by have := hs.lon; exact ⟨by dsimp only; linarith [a2.1, a2.2, a4.1, a4.2], by dsimp only; linarith [a2.1, a2.2, a4.1, a4.2]⟩)
  obtain ⟨z1, z2, z3⟩ := st.fresh
  have hK0 : 0 ≤ K * s.dt := mul_nonneg (by linarith) hd0.le
  have start : Near K (e + δ) s.dt 0 s lat lon h v C := by
    refine ⟨st.unit, st.dcm, by rw [st.place]; exact (C41_position_quaternion _).1, by rw [st.place, rt], by rw [st.place, rt], rfl,
      by rw [z1, len_zero']; linarith, by rw [z2, len_zero']; exact hK0, by rw [z3, len_zero']; exact hK0, ?_, ?_, ?_, ?_⟩
    · rw [st.place]; exact (lla_lip _ _ _ _ e st.latitude st.longitude).trans (by linarith)
    · linarith [st.vel]
    · linarith [st.height]
    · intro x; exact (st.att x).trans (mul_le_mul_of_nonneg_right (by linarith) (len_nonneg x))
  have N := near_flight k F A hA hd0 hAd δ s.nav ms g s 0 (e + δ) rfl rfl rfl rfl start (by linarith) (by linarith) (le_refl 0) (by rw [zero_add]; exact hT) (by
    refine le_trans ?_ hρd
    exact mul_le_mul_of_nonneg_left (mul_le_mul_of_nonneg_left hpow hη.le) (by positivity)) hp
  rw [zero_add, ← ht] at N
  have hE : (e + δ + s.dt) * (1 + A * s.dt) ^ ms.length - s.dt ≤ G * (e + δ + s.dt) := by
    have := mul_le_mul_of_nonneg_left hpow hη.le; linarith
  have ndt := N.dt_eq
  have nd := N.dvn; have ng := N.gyro; have na := N.acce
  refine ⟨?_, ?_, ?_, ?_, ?_, ?_, ?_⟩
  · rw [← dist_norm]; rw [zero_add]; exact N.place.trans hE
  · rw [zero_add]; exact N.height.trans hE
  · rw [zero_add]; exact N.vel.trans hE
  · intro x; rw [zero_add]; exact (N.att x).trans (mul_le_mul_of_nonneg_right hE (len_nonneg x))
  · rw [ndt]; exact nd
  · rw [ndt]; linarith
  · rw [ndt]; linarith

/-- C208: its hypothesis on the state held at the beginning of the gap is met by every instance that was started from values near the truth and has since navigated on
samples near the truth (with the constants of C205). -/
theorem C208_ready (B : Limits) (hB : B.Sane) (T : ℝ) : ∃ b K r : ℝ, 0 ≤ K ∧ 0 < r ∧
    ∀ (lat lon h : ℝ → ℝ) (v : ℝ → V3 ℝ) (C : ℝ → M3 ℝ) (w θ f α : ℝ → V3 ℝ), TrueFlight B T lat lon h v C w θ f α →
    ∀ (junk : Junk ℝ) (d0 d : Dev ℝ) (o : Opt ℝ) (n : NavOutput ℝ), o.alignMode = 2 → noAids o → 0 < o.dRate →
    rgioeInit junk d0 (some o) (some n) = some (0, d) →
    ∀ (e δ dt x : ℝ), dt = 1 / o.dRate → x = e + δ + dt → x ≤ r → 0 ≤ δ → ResultNear e n (lat 0) (lon 0) (h 0) (v 0) (C 0) →
    ∀ cs : List (Call ℝ), (∀ c ∈ cs, c.isInit = false) → (∀ m ∈ fixesOf cs, ¬ usable m.mode) → imusOf cs ≠ [] →
    ReadsNear δ o.imuPara dt θ α 0 (imusOf cs) → ∀ t : ℝ, t = (imusOf cs).length * dt → t ≤ T → ∀ g : ℝ,
      TrueFlight B (T - t) (fun u => lat (u + t)) (fun u => lon (u + t)) (fun u => h (u + t)) (fun u => v (u + t)) (fun u => C (u + t)) (fun u => w (u + t)) (fun u => θ (u + t))
        (fun u => f (u + t)) (fun u => α (u + t)) ∧
      rgioeGetStatus (runCalls cs (g, d)).2 = 3 ∧
      HeldNear b (K * x) (runCalls cs (g, d)).2.df.ins (fun u => lat (u + t)) (fun u => lon (u + t)) (fun u => h (u + t)) (fun u => v (u + t)) (fun u => C (u + t)) := by
  obtain ⟨b, K, r, hK, hr, H⟩ := held_after B hB T
  refine ⟨b, K, r, hK, hr, ?_⟩
  intro lat lon h v C w θ f α F junk d0 d o n hm ha hdr hi e δ dt x hdt hx hxr hδ hn cs hc hg hs hp t ht hT g
  have hdt0 : 0 < dt := by rw [hdt]; exact one_div_pos.2 (by exact_mod_cast hdr)
  have ht0 : 0 ≤ t := by rw [ht]; exact mul_nonneg (Nat.cast_nonneg _) hdt0.le
  have hdt2 : (coastStart junk.df.ins n o).dt = dt := by rw [hdt]; show 1 / ofI o.dRate = _; simp [ofI]
  obtain ⟨st, rep⟩ := C126_given_start junk d0 d o n hm hi cs hc hs g _ rfl
  obtain ⟨c1, c2⟩ := from_first cs
  obtain ⟨g0, fl, hf⟩ : ∃ g0 f, (g0, f) = fstart g junk.df (makeNavEpoch n o) o := ⟨_, _, rfl⟩
  have hf2 : fl = (fstart g junk.df (makeNavEpoch n o) o).2 := congrArg Prod.snd hf
  have hopt : fl.opt = o := by rw [hf2]; rfl
  obtain ⟨-, -, j, q3⟩ := coastq_run (fromFirstSample cs) (fun m h => hg m (c2 m h)) g0 fl (coastStart junk.df.ins n o) n.info (by rw [hf2]; rfl)
    ⟨by rw [hf2]; rfl, by rw [hf2]; show ¬ (0 : Int) < 0; decide, by rw [hopt]; exact ha⟩
  rw [c1] at q3
  rw [← hf] at st rep
  have e1 : (runCalls cs (g, d)).2.df.ins = reInfo (flight g0 (coastStart junk.df.ins n o) (imusOf cs)).2 j := by
    have : (runCalls cs (g, d)).2.df = (frun (filterCalls (fromFirstSample cs)) (g0, fl)).2 := congrArg Prod.snd st
    rw [this, q3]; rfl
  have k := H lat lon h v C w θ f α F g0 (coastStart junk.df.ins n o) e δ (given_near junk.df.ins n o e lat lon h v C hn) (by rw [hdt2]; exact hdt0) hδ
    (by rw [hdt2, ← hx]; exact hxr) (imusOf cs) (by rw [hdt2, ← ht]; exact hT) (by rw [hdt2]; exact reads_near δ _ n o dt θ α 0 _ hp) t (by rw [hdt2]; exact ht)
  rw [hdt2, ← hx] at k
  refine ⟨flight_later F t ht0, rep.status, ?_⟩
  rw [e1]
  exact ⟨k.place, k.height, k.vel, k.att, k.dvn, k.gyro, k.acce⟩

/-- The hypotheses of C208 about the calls are met: two usable fixes one sample apart, then a sample; or 1000 samples after any calls. -/
example (m : Imu ℝ) (calls : List (Call ℝ)) :
    correctionDone [Call.gnss (some (Ex.fix 4)), .time (some m), .gnss (some (Ex.fix 1))] [Call.getStatus, .time (some m), .gnss (some (Ex.fix 0))] ∧
    (∀ x ∈ fixesOf [Call.getStatus, .time (some m), .gnss (some (Ex.fix 0))], ¬ usable x.mode) ∧
    correctionDone calls (List.replicate 1000 (.time (some m))) := by
  refine ⟨Or.inr ⟨by simp [imusOf], [], [.time (some m)], Ex.fix 4, Ex.fix 1, rfl, ?_, ?_, by simp [imusOf]⟩, ?_, Or.inl ?_⟩
  · simp [usable, Ex.fix]
  · simp [usable, Ex.fix]
  · intro x hx
    simp only [fixesOf, List.mem_cons, List.not_mem_nil, or_false] at hx
    subst hx
    simp [usable, Ex.fix]
  · have : ∀ k, (imusOf (List.replicate k (Call.time (some m)))).length = k := by
      intro k
      induction k with
      | zero => rfl
      | succ k ih => rw [List.replicate_succ]; simp [imusOf, ih]
    rw [this]
end Verif.Props
