import Verif.Props.Schedule
import Verif.Props.Fusion
import Mathlib.Tactic.Tauto
/-! C96: over how many samples a correction is spread, and when it is used up.
Model: `Verif.Model.Fusion` (DataFusion.cpp:119-196, 576-617). -/
namespace Verif.Props
open Verif.Spec
variable {α : Type} [Add α] [Sub α] [Mul α] [Neg α] [Div α] [Zero α] [One α] [Fl α]

/-- The calls that count as measurement epochs: usable fixes, positions and velocities. -/
def isMeasurement : FCall α → Prop
  | .gnss m => usable m.mode
  | .pos _ _ => True
  | .vel _ => True
  | .speed _ => True
  | _ => False

open Classical in
/-- The numbers of IMU samples between successive measurement epochs of a history, oldest first, `k` samples
having passed before the history; and the number of samples since the last one. -/
noncomputable def spacing (k : Nat) : List (FCall α) → List Nat × Nat
  | [] => ([], k)
  | .time _ :: cs => spacing (k + 1) cs
  | c :: cs => if isMeasurement c then (k :: (spacing 0 cs).1, (spacing 0 cs).2) else spacing k cs

theorem monitor_zupt (f : Fusion α) : f.zuptStage.monitor = f.monitor := by
  unfold Fusion.zuptStage Fusion.measureZeroVelocity; dsimp only; split_ifs <;> rfl
theorem monitor_nhc (f : Fusion α) : f.nhcStage.monitor = f.monitor := by
  unfold Fusion.nhcStage; split_ifs <;> rfl
theorem monitor_take (f : Fusion α) : f.takeCorrection.monitor = f.monitor := by
  unfold Fusion.takeCorrection; split_ifs <;> rfl
theorem monitor_apply (f : Fusion α) : f.applyCorrection.monitor = f.monitor := by
  unfold Fusion.applyCorrection; split_ifs <;> rfl
theorem monitor_time (g : α) (f : Fusion α) (m : Imu α) : (f.timeUpdate g m).2.monitor = f.monitor.onTimeUpdate := by
  have h : (f.timeUpdate g m).2.monitor =
      (Fusion.propagate g f.takeCorrection.applyCorrection m).2.zuptStage.nhcStage.monitor.onTimeUpdate := rfl
  rw [h, monitor_nhc, monitor_zupt]
  have h2 : (Fusion.propagate g f.takeCorrection.applyCorrection m).2.monitor = f.takeCorrection.applyCorrection.monitor := rfl
  rw [h2, monitor_apply, monitor_take]
theorem monitor_gnss (f : Fusion α) (m : Gnss α) :
    (usable m.mode → (f.measureGnss m).monitor = f.monitor.onMeasUpdate) ∧
    (¬ usable m.mode → (f.measureGnss m).monitor = f.monitor) := by
  unfold Fusion.measureGnss
  constructor <;> intro h
  · rw [if_pos ((gnssCheck_iff m).2 h)]; rfl
  · rw [if_neg (fun h' => h ((gnssCheck_iff m).1 h'))]; rfl
theorem monitor_vel (f : Fusion α) (v : V3 α) : (f.measureVel v).monitor = f.monitor.onMeasUpdate := by
  unfold Fusion.measureVel; dsimp only; split_ifs <;> rfl
theorem monitor_height (f : Fusion α) (h : α) : (f.measureRelativeHeight h).monitor = f.monitor := by
  unfold Fusion.measureRelativeHeight; dsimp only; split_ifs <;> rfl
theorem monitor_exec (c : FCall α) (s : α × Fusion α) :
    (∀ m, c = .time m → (c.exec s).2.monitor = s.2.monitor.onTimeUpdate) ∧
    (isMeasurement c → (c.exec s).2.monitor = s.2.monitor.onMeasUpdate) ∧
    ((∀ m, c ≠ .time m) → ¬ isMeasurement c → (c.exec s).2.monitor = s.2.monitor) := by
  cases c with
  | time m => exact ⟨fun _ _ => monitor_time s.1 _ _, fun h => h.elim, fun h => absurd rfl (h m)⟩
  | gnss m => refine ⟨(fun _ h => by cases h), fun h => (monitor_gnss s.2 m).1 h, fun _ h => (monitor_gnss s.2 m).2 h⟩
  | pos p R => refine ⟨(fun _ h => by cases h), fun _ => rfl, fun _ h => absurd trivial h⟩
  | vel v => refine ⟨(fun _ h => by cases h), fun _ => monitor_vel _ _, fun _ h => absurd trivial h⟩
  | speed v => refine ⟨(fun _ h => by cases h), fun _ => monitor_vel _ _, fun _ h => absurd trivial h⟩
  | height v => refine ⟨(fun _ h => by cases h), fun h => h.elim, fun _ _ => monitor_height _ _⟩

/-- The counters after a history, in terms of the counters before it. -/
theorem monitor_run (cs : List (FCall α)) (s : α × Fusion α) (k : Nat) (hk : s.2.monitor.noUpdateCnt.toNat = k)
    (hl : k + (fimus cs).length < 2 ^ 32) (G : List Nat × Nat) (hG : G = spacing k cs) (m : Monitor) (hm : m = (frun cs s).2.monitor) :
    m.noUpdateCnt.toNat = G.2 ∧
    m.noUpdateCntMin.toNat = G.1.foldl min s.2.monitor.noUpdateCntMin.toNat ∧
    m.noUpdateCntMax.toNat = G.1.foldl max s.2.monitor.noUpdateCntMax.toNat ∧
    m.measUpdateCnt = s.2.monitor.measUpdateCnt + BitVec.ofNat 32 G.1.length ∧
    m.timeUpdateCnt = s.2.monitor.timeUpdateCnt + BitVec.ofNat 32 (fimus cs).length := by
  induction cs generalizing s k G with
  | nil => subst hG hm; simp [spacing, frun, fimus, hk]
  | cons c cs ih =>
    have hm' : m = (frun cs (c.exec s)).2.monitor := hm
    obtain ⟨h1, h2, h3⟩ := monitor_exec c s
    by_cases ht : ∃ x, c = .time x
    · obtain ⟨x, rfl⟩ := ht
      have e := h1 x rfl
      simp only [fimus, List.length_cons] at hl ⊢
      have hcnt : ((FCall.time x).exec s).2.monitor.noUpdateCnt.toNat = k + 1 := by
        rw [e]; unfold Monitor.onTimeUpdate; dsimp only
        rw [BitVec.toNat_add, hk]; show (k + 1) % 2 ^ 32 = k + 1; omega
      obtain ⟨a1, a2, a3, a4, a5⟩ := ih ((FCall.time x).exec s) (k + 1) hcnt (by omega) G hG hm'
      rw [e] at a2 a3 a4 a5
      refine ⟨a1, a2, a3, a4, ?_⟩
      rw [a5]
      show s.2.monitor.timeUpdateCnt + 1 + _ = _
      rw [BitVec.add_assoc]
      congr 1
      rw [← BitVec.ofNat_add_ofNat, BitVec.add_comm]
      rfl
    · have hnt : ∀ x, c ≠ .time x := fun x h => ht ⟨x, h⟩
      have hf : fimus (c :: cs) = fimus cs := by
        cases c <;> first | rfl | exact absurd rfl (hnt _)
      rw [hf] at hl ⊢
      by_cases hmeas : isMeasurement c
      · have e := h2 hmeas
        have hg : spacing k (c :: cs) = (k :: (spacing 0 cs).1, (spacing 0 cs).2) := by
          cases c <;> first | exact absurd rfl (hnt _) | exact if_pos hmeas
        have hcnt : (c.exec s).2.monitor.noUpdateCnt.toNat = 0 := by rw [e]; rfl
        obtain ⟨a1, a2, a3, a4, a5⟩ := ih (c.exec s) 0 hcnt (by omega) _ rfl hm'
        rw [e] at a2 a3 a4 a5
        rw [hG, hg]
        refine ⟨a1, ?_, ?_, ?_, a5⟩
        · rw [a2, List.foldl_cons]
          congr 1
          show (if s.2.monitor.noUpdateCnt.toNat < s.2.monitor.noUpdateCntMin.toNat then s.2.monitor.noUpdateCnt
            else s.2.monitor.noUpdateCntMin).toNat = _
          rw [← hk]
          split_ifs <;> omega
        · rw [a3, List.foldl_cons]
          congr 1
          show (if s.2.monitor.noUpdateCntMax.toNat < s.2.monitor.noUpdateCnt.toNat then s.2.monitor.noUpdateCnt
            else s.2.monitor.noUpdateCntMax).toNat = _
          rw [← hk]
          split_ifs <;> omega
        · rw [a4]
          show s.2.monitor.measUpdateCnt + 1 + _ = _
          rw [BitVec.add_assoc, List.length_cons]
          congr 1
          rw [← BitVec.ofNat_add_ofNat, BitVec.add_comm]
          rfl
      · have e := h3 hnt hmeas
        have hg : spacing k (c :: cs) = spacing k cs := by
          cases c <;> first | exact absurd rfl (hnt _) | exact if_neg hmeas
        obtain ⟨a1, a2, a3, a4, a5⟩ := ih (c.exec s) k (by rw [e]; exact hk) hl G (by rw [hG, hg]) hm'
        rw [e] at a2 a3 a4 a5
        exact ⟨a1, a2, a3, a4, a5⟩

theorem foldl_min_le (l : List Nat) (a b : Nat) : l.foldl min a ≤ b ↔ a ≤ b ∨ ∃ d ∈ l, d ≤ b := by
  induction l generalizing a with
  | nil => simp
  | cons x l ih =>
    rw [List.foldl_cons, ih]
    simp only [List.mem_cons, exists_eq_or_imp, min_le_iff]
    tauto

/-- C96: with no measurement epoch in the history, or none closer than 1001 samples to its predecessor (or the
start), a correction is divided by 1000; otherwise it is applied whole. Whatever the history, the sample
after a correction became pending applies exactly that share, and the outage counter, the update counter and the
sample counter are what their names say. -/
theorem C96_share (g : α) (junk : Fusion α) (nav : NavEpoch α) (o : Opt α) (cs : List (FCall α)) (imu : Imu α)
    (hl : (fimus cs).length < 2 ^ 32) (s : α × Fusion α) (hs : s = frun cs (fstart g junk nav o)) (n : Nat)
    (hn : n = open Classical in if ∃ d ∈ (spacing 0 cs).1, d ≤ 1000 then 1 else 1000) :
    (s.2.updateFlag ≠ 0 → ∃ i, (s.2.timeUpdate s.1 imu).2.ins =
      { ((s.2.feedBack (vd s.2.kf.Xd (ofI n))).ins.forwardImu s.1 imu).2 with
        nav := { ((s.2.feedBack (vd s.2.kf.Xd (ofI n))).ins.forwardImu s.1 imu).2.nav with info := i } }) ∧
    s.2.monitor.maxIter = n ∧
    s.2.monitor.noUpdateCnt.toNat = (spacing 0 cs).2 ∧ s.2.monitor.measUpdateCnt = BitVec.ofNat 32 (spacing 0 cs).1.length ∧
    s.2.monitor.timeUpdateCnt.toNat = (fimus cs).length := by
  obtain ⟨h1, h2, -, h4, h5⟩ := monitor_run cs (fstart g junk nav o) 0 rfl (by omega) _ rfl _ rfl
  rw [← hs] at h1 h2 h4 h5
  have hmin : (fstart g junk nav o).2.monitor.noUpdateCntMin.toNat = 4294967295 := rfl
  have hmax : s.2.monitor.maxIter = n := by
    rw [maxIter_le, hn]
    by_cases hd : ∃ d ∈ (spacing 0 cs).1, d ≤ 1000
    · rw [if_pos hd, if_neg]
      have := (foldl_min_le _ (fstart g junk nav o).2.monitor.noUpdateCntMin.toNat 1000).2 (Or.inr hd)
      omega
    · rw [if_neg hd, if_pos]
      by_contra hc
      have hc' : s.2.monitor.noUpdateCntMin.toNat ≤ 1000 := by omega
      rw [h2, foldl_min_le, hmin] at hc'
      rcases hc' with hc' | hc'
      · omega
      · exact hd hc'
  refine ⟨?_, hmax, h1, ?_, ?_⟩
  · intro hf
    have hp : 0 < s.2.updateFlag.toNat := by
      rcases Nat.eq_zero_or_pos s.2.updateFlag.toNat with h0 | h0
      · exact absurd (BitVec.eq_of_toNat_eq (by simpa using h0)) hf
      · exact h0
    obtain ⟨i, hi⟩ := Fusion.timeUpdate_ins s.1 s.2 imu
    have e : s.2.takeCorrection.applyCorrection.ins = (s.2.feedBack (vd s.2.kf.Xd (ofI n))).ins := by
      unfold Fusion.takeCorrection Fusion.applyCorrection
      rw [if_pos hp]
      dsimp only
      rw [hmax, if_pos (by rw [hn]; split_ifs <;> decide)]
      rfl
    exact ⟨i, by rw [hi, e]⟩
  · rw [h4]
    exact BitVec.zero_add _
  · rw [h5]
    have z : ∀ x : BitVec 32, ((fstart g junk nav o).2.monitor.timeUpdateCnt + x) = x := fun x => BitVec.zero_add x
    rw [z, BitVec.toNat_ofNat, Nat.mod_eq_of_lt (by omega)]

/-- A filter without pseudo-measurements: its time update leaves the pending share alone but for the one used. -/
theorem quiet_time (g : α) (f : Fusion α) (m : Imu α) (hz : f.opt.zuptEnable = 0) (hn : f.opt.nhcEnable = 0) :
    (f.timeUpdate g m).2.updateFlag = 0 ∧ (f.timeUpdate g m).2.updateIter = f.takeCorrection.applyCorrection.updateIter ∧
    (f.timeUpdate g m).2.kfXd = f.takeCorrection.applyCorrection.kfXd ∧ (f.timeUpdate g m).2.opt = f.opt ∧
    (f.timeUpdate g m).2.monitor.maxIter = f.monitor.maxIter := by
  have ho := propagated_opt (g, f) m
  have hfl := propagated_flag (g, f) m
  have hzs : (propagated (g, f) m).zuptStage = propagated (g, f) m := by
    unfold Fusion.zuptStage
    rw [if_neg]
    rintro ⟨-, h⟩
    exact h (by rw [ho]; exact hz)
  have hns : (propagated (g, f) m).nhcStage = (propagated (g, f) m).clearSensor SENSOR_NHC := by
    unfold Fusion.nhcStage
    rw [if_neg]
    rintro ⟨-, h, -⟩
    exact h (by rw [ho]; exact hn)
  have e := timeUpdate_stages (g, f) m
  rw [hzs, hns] at e
  dsimp only at e
  refine ⟨?_, ?_, ?_, Fusion.timeUpdate_opt g f m, ?_⟩
  · rw [e]; exact hfl
  · rw [e]; rfl
  · rw [e]; rfl
  · rw [monitor_time]; rfl

/-- C96: a pending correction, undisturbed, is applied in `n` equal shares at the next `n` samples, and not at
all afterwards. -/
theorem C96_shares_end (g : α) (f : Fusion α) (hf : f.updateFlag ≠ 0) (hz : f.opt.zuptEnable = 0) (hn : f.opt.nhcEnable = 0)
    (ms : List (Imu α)) (imu : Imu α) (n : Nat) (hN : n = f.monitor.maxIter) (s : α × Fusion α)
    (hs : s = frun (ms.map .time) (g, f)) :
    ∃ i, (s.2.timeUpdate s.1 imu).2.ins =
      let c := if ms.length < n then (s.2.feedBack (vd f.kf.Xd (ofI n))).ins else s.2.ins
      { (c.forwardImu s.1 imu).2 with nav := { (c.forwardImu s.1 imu).2.nav with info := i } } := by
  have hp : 0 < f.updateFlag.toNat := by
    rcases Nat.eq_zero_or_pos f.updateFlag.toNat with h0 | h0
    · exact absurd (BitVec.eq_of_toNat_eq (by simpa using h0)) hf
    · exact h0
  have n1 : 1 ≤ n := by rw [hN, maxIter_le]; split_ifs <;> decide
  -- the invariant after `j ≥ 1` samples
  have key : ∀ (ms : List (Imu α)) (s : α × Fusion α), s = frun (ms.map .time) (g, f) →
      s.2.opt = f.opt ∧ s.2.monitor.maxIter = n ∧
      s.2.takeCorrection.kfXd = f.kf.Xd ∧ s.2.takeCorrection.updateIter = ((n - ms.length : Nat) : Int) := by
    intro ms
    induction ms using List.reverseRecOn with
    | nil =>
      rintro s rfl
      refine ⟨rfl, hN.symm, ?_, ?_⟩
      · show f.takeCorrection.kfXd = _
        unfold Fusion.takeCorrection; rw [if_pos hp]
      · show f.takeCorrection.updateIter = _
        unfold Fusion.takeCorrection; rw [if_pos hp, hN]; rfl
    | append_singleton ms x ih =>
      rintro s hs
      rw [List.map_append, frun_append] at hs
      obtain ⟨o, mx, kx, ki⟩ := ih _ rfl
      set t := frun (ms.map FCall.time) (g, f) with ht
      have hs' : s = t.2.timeUpdate t.1 x := hs
      obtain ⟨q1, q2, q3, q4, q5⟩ := quiet_time t.1 t.2 x (by rw [o]; exact hz) (by rw [o]; exact hn)
      rw [← hs'] at q1 q2 q3 q4 q5
      have htk : s.2.takeCorrection = s.2 := by
        unfold Fusion.takeCorrection; rw [q1]; rfl
      refine ⟨q4.trans o, q5.trans mx, ?_, ?_⟩
      · rw [htk, q3]
        unfold Fusion.applyCorrection
        split_ifs
        · exact kx
        · exact kx
      · rw [htk, q2]
        unfold Fusion.applyCorrection
        split_ifs with h
        · show t.2.takeCorrection.updateIter - 1 = _
          rw [ki] at h ⊢
          rw [List.length_append, List.length_singleton]
          omega
        · rw [ki] at h ⊢
          rw [List.length_append, List.length_singleton]
          omega
  obtain ⟨o, mx, kx, ki⟩ := key ms s hs
  obtain ⟨i, hi⟩ := Fusion.timeUpdate_ins s.1 s.2 imu
  have hins : s.2.takeCorrection.ins = s.2.ins := by
    unfold Fusion.takeCorrection; split_ifs <;> rfl
  have e : s.2.takeCorrection.applyCorrection.ins =
      if ms.length < n then (s.2.feedBack (vd f.kf.Xd (ofI n))).ins else s.2.ins := by
    unfold Fusion.applyCorrection
    by_cases h : ms.length < n
    · rw [if_pos h, if_pos (by rw [ki]; omega)]
      show (s.2.takeCorrection.feedBack (vd s.2.takeCorrection.kfXd (ofI s.2.takeCorrection.monitor.maxIter))).ins = _
      rw [kx, monitor_take, mx]
      unfold Fusion.feedBack
      rw [hins]
    · rw [if_neg h, if_neg (by rw [ki]; omega), hins]
  exact ⟨i, by rw [hi, e]⟩

/-- Meets the hypotheses: a fix after 1001 samples, from the start (the correction is then spread over 1000
samples), and a fix at once (applied whole). -/
example (m : Imu α) : (¬ ∃ d ∈ (spacing 0 ((List.replicate 1001 (FCall.time m)) ++ [.gnss (Ex.fix 4)])).1, d ≤ 1000) ∧
    (∃ d ∈ (spacing 0 [FCall.time m, .gnss (Ex.fix 4), .time m]).1, d ≤ 1000) := by
  have h : ∀ (k j : Nat) (l : List (FCall α)), spacing k (List.replicate j (FCall.time m) ++ l) = spacing (k + j) l := by
    intro k j l
    induction j generalizing k with
    | zero => rfl
    | succ j ih =>
      rw [List.replicate_succ, List.cons_append]
      show spacing (k + 1) _ = _
      rw [ih]
      congr 1
      omega
  have hu : isMeasurement (FCall.gnss (Ex.fix 4) : FCall α) := Or.inr (Or.inr (Or.inl rfl))
  constructor
  · rw [h]
    have e : spacing (0 + 1001) [(FCall.gnss (Ex.fix 4) : FCall α)] = ([1001], 0) := if_pos hu
    rw [e]; simp
  · have e : spacing 0 [FCall.time m, .gnss (Ex.fix 4), .time m] = ([1], 1) := if_pos hu
    rw [e]; simp
example (junk : Fusion α) (nav : NavEpoch α) (o : Opt α) (g : α) (p : V3 α) (R : M3 α) :
    ((fstart g junk nav { o with zuptEnable := 0, nhcEnable := 0 }).2.measurePos p R).updateFlag ≠ 0 ∧
    ((fstart g junk nav { o with zuptEnable := 0, nhcEnable := 0 }).2.measurePos p R).opt.zuptEnable = 0 ∧
    ((fstart g junk nav { o with zuptEnable := 0, nhcEnable := 0 }).2.measurePos p R).opt.nhcEnable = 0 := by
  refine ⟨?_, rfl, rfl⟩
  show (0 : BitVec 32) ||| Fusion.FLAG_POSITION ≠ 0
  decide
end Verif.Props
