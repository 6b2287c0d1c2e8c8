import Verif.Props.RotVec
import Verif.Props.Convert
import Verif.Lemmas.Schedule
/-! Attitude and position stay rotations along every history, in exact arithmetic. -/
namespace Verif.Props
open Verif Verif.Spec Verif.Convert Matrix

/-- The attitude of an epoch is a rotation, in all three representations the epoch carries. -/
def attitudeOk (n : NavEpoch ℝ) : Prop :=
  qsq n.Qbn = 1 ∧ n.Cbn = quatToDcm n.Qbn ∧ isRot n.Cbn ∧ n.atti = dcmToEuler n.Cbn

/-- The position of an epoch: unit quaternion, latitude and longitude read from it, and the matrix is the one
of that latitude and longitude, a rotation. -/
def positionOk (n : NavEpoch ℝ) : Prop :=
  qsq n.Qne = 1 ∧ (⟨n.pos 0, n.pos 1⟩ : LatLon ℝ) = qneToLla n.Qne ∧ n.Cne = llaToCne ⟨n.pos 0, n.pos 1⟩ ∧ isRot n.Cne

theorem rv_pos (v : V3 ℝ) : 0 < qsq (rvToQuat v) := (C43_rotation_vector v).2.1

theorem prod3_unit (a q b : Quat ℝ) (ha : 0 < qsq a) (hq : 0 < qsq q) (hb : 0 < qsq b) :
    qsq ((a.mul q).mul b).normalized = 1 := by
  apply qsq_normalized
  rw [qsq_mul, qsq_mul]
  positivity
theorem prod2_unit (a q : Quat ℝ) (ha : 0 < qsq a) (hq : 0 < qsq q) : qsq (a.mul q).normalized = 1 := by
  apply qsq_normalized
  rw [qsq_mul]
  positivity
theorem conj_pos (v : V3 ℝ) : 0 < qsq (rvToQuat v).conj := by rw [qsq_conj]; exact rv_pos v

theorem attiUpdate_ok (s : Ins ℝ) (gy : V3 ℝ) (h : 0 < qsq s.nav.Qbn) : attitudeOk (s.attiUpdate gy).nav := by
  have h1 : qsq (s.attiUpdate gy).nav.Qbn = 1 := prod3_unit _ _ _ (conj_pos _) h (rv_pos _)
  exact ⟨h1, rfl, toRot_isRot _ h1, rfl⟩
theorem positionUpdate_ok (s : Ins ℝ) (h : 0 < qsq s.nav.Qne) : positionOk s.positionUpdate.nav := by
  have h1 : qsq s.positionUpdate.nav.Qne = 1 := prod3_unit _ _ _ (conj_pos _) h (rv_pos _)
  refine ⟨h1, rfl, rfl, (C41_position_quaternion _).2.2⟩

/-- One mechanization step repairs any non-zero quaternions. -/
theorem forwardImu_ok (g : ℝ) (s : Ins ℝ) (m : Imu ℝ) (hb : 0 < qsq s.nav.Qbn) (he : 0 < qsq s.nav.Qne) :
    attitudeOk (s.forwardImu g m).2.nav ∧ positionOk (s.forwardImu g m).2.nav := by
  unfold Ins.forwardImu Ins.forward
  dsimp only
  have e1 : s.extrapolate.2.nav = s.nav := rfl
  generalize s.extrapolate = e at e1
  have e2 : ∀ (a b : V3 ℝ), (Ins.velocityUpdate e.1 e.2 a b).nav.Qbn = s.nav.Qbn ∧
      (Ins.velocityUpdate e.1 e.2 a b).nav.Qne = s.nav.Qne := fun a b => by rw [← e1]; exact ⟨rfl, rfl⟩
  generalize Ins.compensate s.dt m.acce s.nav.ab s.nav.as = a
  generalize Ins.compensate s.dt m.gyro s.nav.gb s.nav.gs = b
  have e2 := e2 a b
  generalize Ins.velocityUpdate e.1 e.2 a b = v at e2
  have p := positionUpdate_ok v (by rw [e2.2]; exact he)
  have q : v.positionUpdate.nav.Qbn = s.nav.Qbn := e2.1
  generalize v.positionUpdate = w at p q
  have r := attiUpdate_ok w b (by rw [q]; exact hb)
  exact ⟨r, p⟩

/-- Quaternions that can be normalised. -/
def Live (f : Fusion ℝ) : Prop := 0 < qsq f.ins.nav.Qbn ∧ 0 < qsq f.ins.nav.Qne

theorem live_feedBack (f : Fusion ℝ) (x : Fin 15 → ℝ) (h : Live f) : Live (f.feedBack x) := by
  refine ⟨?_, ?_⟩
  · have : qsq (f.feedBack x).ins.nav.Qbn = 1 := prod2_unit _ _ (rv_pos _) h.1
    rw [this]; norm_num
  · have : qsq (f.feedBack x).ins.nav.Qne = 1 := prod2_unit _ _ h.2 (rv_pos _)
    rw [this]; norm_num
theorem live_correct (f : Fusion ℝ) (h : Live f) : Live f.takeCorrection.applyCorrection := by
  have h1 : Live f.takeCorrection := by unfold Fusion.takeCorrection; split_ifs <;> exact h
  generalize f.takeCorrection = f1 at h1
  unfold Fusion.applyCorrection
  split_ifs
  · exact live_feedBack f1 _ h1
  · exact h1
theorem timeUpdate_ok (g : ℝ) (f : Fusion ℝ) (m : Imu ℝ) (h : Live f) :
    attitudeOk (f.timeUpdate g m).2.ins.nav ∧ positionOk (f.timeUpdate g m).2.ins.nav := by
  obtain ⟨i, hi⟩ := Fusion.timeUpdate_ins g f m
  have h1 := live_correct f h
  rw [hi]
  generalize f.takeCorrection.applyCorrection = f1 at h1
  exact forwardImu_ok g f1.ins m h1.1 h1.2
theorem live_time (g : ℝ) (f : Fusion ℝ) (m : Imu ℝ) (h : Live f) : Live (f.timeUpdate g m).2 := by
  obtain ⟨a, b⟩ := timeUpdate_ok g f m h
  exact ⟨by rw [a.1]; norm_num, by rw [b.1]; norm_num⟩
theorem live_meas {f f' : Fusion ℝ} (k : MeasKeeps f f') (h : Live f) : Live f' := by
  obtain ⟨i, hi⟩ := k.ins
  unfold Live
  rw [hi]
  exact h

/-- C28, C29 for the filter object: after initialisation with any non-zero quaternions and any history whose last
call is a time update, attitude and position are proper rotations. -/
theorem C28_C29_filter (g : ℝ) (junk : Fusion ℝ) (nav : NavEpoch ℝ) (o : Opt ℝ) (cs : List (FCall ℝ)) (m : Imu ℝ)
    (hb : 0 < qsq nav.Qbn) (he : 0 < qsq nav.Qne) :
    attitudeOk (frun (cs ++ [.time m]) (fstart g junk nav o)).2.ins.nav ∧
    positionOk (frun (cs ++ [.time m]) (fstart g junk nav o)).2.ins.nav := by
  rw [frun_append]
  have key : ∀ (cs : List (FCall ℝ)) (s : ℝ × Fusion ℝ), Live s.2 → Live (frun cs s).2 := by
    intro cs
    induction cs with
    | nil => intro s h; exact h
    | cons c cs ih =>
      intro s h
      refine ih _ ?_
      cases c with
      | time m => exact live_time s.1 s.2 m h
      | gnss m => exact live_meas (meas_gnss _ m) h
      | pos p R => exact live_meas (meas_pos _ p R) h
      | vel v => exact live_meas (meas_vel _ v) h
      | speed v => exact live_meas (meas_vel _ _) h
      | height x => exact live_meas (meas_height _ x) h
  have h := key cs (fstart g junk nav o) ⟨hb, he⟩
  generalize frun cs (fstart g junk nav o) = s at h
  exact timeUpdate_ok s.1 s.2 m h

/-- The hypotheses hold for every epoch made from angles and a position. -/
example (n : NavOutput ℝ) (o : Opt ℝ) : 0 < qsq (makeNavEpoch n o).Qbn ∧ 0 < qsq (makeNavEpoch n o).Qne := by
  constructor
  · show 0 < qsq (eulerToQuat _); rw [qsq_euler]; norm_num
  · show 0 < qsq (llaToQne _); rw [(C41_position_quaternion _).1]; norm_num

/-- What an instance keeps: unit quaternions in the alignment, and in the filter once navigating. -/
structure QInv (d : Dev ℝ) : Prop where
  qbn : qsq d.am.nav.Qbn = 1
  qne : qsq d.am.nav.Qne = 1
  live : d.status = ST_NAVIGATION → Live d.df

theorem qinv_am_imu (a : Align ℝ) (m : Imu ℝ) (h : qsq a.nav.Qbn = 1 ∧ qsq a.nav.Qne = 1) :
    qsq (a.updateImu m).nav.Qbn = 1 ∧ qsq (a.updateImu m).nav.Qne = 1 := by
  unfold Align.updateImu
  dsimp only
  split_ifs
  · exact h
  · exact h
  · exact ⟨qsq_euler _, h.2⟩
theorem qinv_am_gnss (g : ℝ) (a : Align ℝ) (m : Gnss ℝ) (h : qsq a.nav.Qbn = 1 ∧ qsq a.nav.Qne = 1) :
    qsq (a.updateGnss g m).2.nav.Qbn = 1 ∧ qsq (a.updateGnss g m).2.nav.Qne = 1 := by
  unfold Align.updateGnss
  split_ifs
  · exact h
  · exact ⟨qsq_euler _, (C41_position_quaternion _).1⟩
theorem live_epoch (g : ℝ) (f : Fusion ℝ) (nav : NavEpoch ℝ) (o : Opt ℝ) (h : qsq nav.Qbn = 1 ∧ qsq nav.Qne = 1) :
    Live (f.initFusion g nav o).2 := ⟨by show 0 < qsq nav.Qbn; rw [h.1]; norm_num, by show 0 < qsq nav.Qne; rw [h.2]; norm_num⟩
theorem live_given (g : ℝ) (f : Fusion ℝ) (n : NavOutput ℝ) (o : Opt ℝ) :
    Live (f.initFusion g (makeNavEpoch n o) o).2 :=
  live_epoch g f _ o ⟨qsq_euler _, (C41_position_quaternion _).1⟩

theorem qinv_time (g : ℝ) (d : Dev ℝ) (m : Imu ℝ) (h : QInv d) : QInv (rgioeTimeupdate g d (some m)).2.2 := by
  have ha := qinv_am_imu d.am m ⟨h.qbn, h.qne⟩
  have h1 := live_time (d.df.initFusion g (makeNavEpoch d.curPva d.opt) d.opt).1 _ m (live_given g d.df d.curPva d.opt)
  have h2 := live_epoch g d.df (d.am.updateImu m).nav d.opt ha
  unfold rgioeTimeupdate
  dsimp only
  generalize d.df.initFusion g (d.am.updateImu m).nav d.opt = a2 at *
  generalize Fusion.timeUpdate _ (d.df.initFusion g (makeNavEpoch d.curPva d.opt) d.opt).2 m = a3 at *
  split_ifs with c1 c2 c3 c4 c5 c6 c7
  · exact ⟨h.qbn, h.qne, fun _ => h1⟩
  · exact ⟨ha.1, ha.2, fun hs => by simp [ST_ALIGN, ST_NAVIGATION] at hs⟩
  · exact ⟨ha.1, ha.2, fun hs => by simp [ST_ATTITUDE, ST_NAVIGATION] at hs⟩
  · exact ⟨ha.1, ha.2, fun hs => h.live hs⟩
  · exact ⟨ha.1, ha.2, fun _ => h2⟩
  · exact ⟨ha.1, ha.2, fun hs => h.live hs⟩
  · exact ⟨h.qbn, h.qne, fun _ => live_time g d.df m (h.live c7)⟩
  · exact h
theorem qinv_gnss (g : ℝ) (d : Dev ℝ) (m : Gnss ℝ) (h : QInv d) : QInv (rgioeGnssupdate g d (some m)).2.2 := by
  have ha := qinv_am_gnss g d.am m ⟨h.qbn, h.qne⟩
  unfold rgioeGnssupdate
  dsimp only
  generalize d.am.updateGnss g m = r at *
  split_ifs with c1 c2 c3
  · exact h
  · exact ⟨ha.1, ha.2, fun hs => h.live hs⟩
  · exact ⟨h.qbn, h.qne, fun hs => live_meas (meas_gnss d.df m) (h.live hs)⟩
  · exact h
theorem qinv_init (junk : Junk ℝ) (d0 : Dev ℝ) (o : Opt ℝ) (nav : Option (NavOutput ℝ)) (e : Int) (d : Dev ℝ)
    (hd : e = E_OK)
    (h : rgioeInit junk d0 (some o) nav = some (e, d)) : QInv d := by
  have hz : qsq (Align.new junk.am o).nav.Qbn = 1 ∧ qsq (Align.new junk.am o).nav.Qne = 1 :=
    ⟨qsq_euler _, (C41_position_quaternion _).1⟩
  unfold rgioeInit at h
  dsimp only at h
  split_ifs at h
  · simp only [Option.some.injEq, Prod.mk.injEq] at h
    rw [hd] at h
    simp [E_FAULT_CONFIG, E_OK] at h
  · simp only [Option.some.injEq, Prod.mk.injEq] at h
    obtain ⟨_, rfl⟩ := h
    cases nav <;> exact ⟨hz.1, hz.2, fun hs => by simp [ST_INIT, ST_NAVIGATION] at hs⟩

/-- Histories in which every later `rgioe_init` succeeds (a rejected one leaves a half-built instance, C18). -/
def initsOk : List (Call ℝ) → Prop
  | [] => True
  | .init o nav _ :: cs => ¬ (o.alignMode = 2 ∧ nav = none) ∧ initsOk cs
  | _ :: cs => initsOk cs

theorem qinv_run (cs : List (Call ℝ)) (s : ℝ × Dev ℝ) (hc : initsOk cs) (h : QInv s.2) : QInv (runCalls cs s).2 := by
  induction cs generalizing s with
  | nil => exact h
  | cons c cs ih =>
    rcases c with ⟨o, n, j⟩ | (_ | m) | (_ | m) | _ | _ | _ | _ | p | _
    · refine ih _ hc.2 ?_
      show QInv (Call.exec (.init o n j) s).1.2
      simp only [Call.exec]
      cases hi : rgioeInit j s.2 (some o) n with
      | none => exact h
      | some r =>
        refine qinv_init j s.2 o n r.1 r.2 ?_ hi
        unfold rgioeInit at hi
        dsimp only at hi
        rw [if_neg (by rintro ⟨a, b⟩; exact hc.1 ⟨a, by simpa using b⟩)] at hi
        simp only [Option.some.injEq] at hi
        rw [← hi]
    · exact ih _ hc h
    · exact ih _ hc (qinv_time s.1 s.2 m h)
    · exact ih _ hc h
    · exact ih _ hc (qinv_gnss s.1 s.2 m h)
    · exact ih _ hc h
    · exact ih _ hc h
    · exact ih _ hc h
    · exact ih _ hc h
    · exact ih _ hc h
    · exact ih _ hc h

/-- C28, C29 for the API: after a successful `rgioe_init`, any history of calls and one more IMU sample that is
given in NAVIGATION or starts it from given values, attitude and position are proper rotations: unit quaternions,
matching matrices, and angles / latitude / longitude read from them. -/
theorem C28_C29_api (junk : Junk ℝ) (d0 d : Dev ℝ) (o : Opt ℝ) (nav : Option (NavOutput ℝ)) (g : ℝ)
    (h : rgioeInit junk d0 (some o) nav = some (E_OK, d)) (cs : List (Call ℝ)) (hcs : initsOk cs) (m : Imu ℝ)
    (hs : (runCalls cs (g, d)).2.status = ST_NAVIGATION ∨
      ((runCalls cs (g, d)).2.status = ST_INIT ∧ (runCalls cs (g, d)).2.opt.alignMode = ALIGN_USE_GIVEN)) :
    let n := (runCalls (cs ++ [.time (some m)]) (g, d)).2.df.ins.nav
    (runCalls (cs ++ [.time (some m)]) (g, d)).2.status = ST_NAVIGATION ∧ attitudeOk n ∧ positionOk n := by
  have hq := qinv_run cs (g, d) hcs (qinv_init junk d0 o nav E_OK d rfl h)
  intro n
  have en : n = (rgioeTimeupdate (runCalls cs (g, d)).1 (runCalls cs (g, d)).2 (some m)).2.2.df.ins.nav := by
    simp only [n, runCalls_append]; rfl
  have es : (runCalls (cs ++ [.time (some m)]) (g, d)).2.status =
      (rgioeTimeupdate (runCalls cs (g, d)).1 (runCalls cs (g, d)).2 (some m)).2.2.status := by
    simp only [runCalls_append]; rfl
  rw [es, en]
  generalize runCalls cs (g, d) = s at *
  rcases hs with hs | ⟨hs, hm⟩
  · have e : rgioeTimeupdate s.1 s.2 (some m) = (E_OK, (s.2.df.timeUpdate s.1 m).1, { s.2 with df := (s.2.df.timeUpdate s.1 m).2 }) := by
      unfold rgioeTimeupdate
      dsimp only
      rw [if_neg (by rw [hs]; decide), if_neg (by rw [hs]; decide), if_neg (by rw [hs]; decide), if_pos hs]
    rw [e]
    exact ⟨hs, timeUpdate_ok s.1 s.2.df m (hq.live hs)⟩
  · have hl := live_given s.1 s.2.df s.2.curPva s.2.opt
    have e : rgioeTimeupdate s.1 s.2 (some m) =
        (E_OK, (Fusion.timeUpdate (s.2.df.initFusion s.1 (makeNavEpoch s.2.curPva s.2.opt) s.2.opt).1
          (s.2.df.initFusion s.1 (makeNavEpoch s.2.curPva s.2.opt) s.2.opt).2 m).1,
          { s.2 with df := (Fusion.timeUpdate (s.2.df.initFusion s.1 (makeNavEpoch s.2.curPva s.2.opt) s.2.opt).1
            (s.2.df.initFusion s.1 (makeNavEpoch s.2.curPva s.2.opt) s.2.opt).2 m).2, status := ST_NAVIGATION }) := by
      unfold rgioeTimeupdate
      dsimp only
      rw [if_pos hs, if_pos hm]
    rw [e]
    exact ⟨rfl, timeUpdate_ok (s.2.df.initFusion s.1 (makeNavEpoch s.2.curPva s.2.opt) s.2.opt).1 _ m hl⟩

/-- The hypotheses are met: an instance started from given values, at its first sample. -/
example : ∃ d : Dev ℝ, rgioeInit Ex.zJunk Ex.zDev (some (Ex.opt 2)) (some zeroPva) = some (E_OK, d) ∧
    ((runCalls [] (0, d)).2.status = ST_INIT ∧ (runCalls [] (0, d)).2.opt.alignMode = ALIGN_USE_GIVEN) := by
  exact ⟨_, rfl, rfl, rfl⟩
end Verif.Props
