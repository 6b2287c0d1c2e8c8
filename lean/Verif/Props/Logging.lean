import Verif.Model.Logging
import Verif.Spec.Logging
import Verif.Lemmas.Fusion
import Verif.Props.Recorder
import Verif.Props.Fusion
import Verif.Spec.Examples
import Mathlib.Tactic.SplitIfs
/-! # C103 - C106: what the recording build writes -/
namespace Verif.Props
open Verif.Crc Verif.Recorder Verif.Loader Verif.Logging Verif.Spec.Rec Verif.Spec.Log
variable {α : Type} [Add α] [Sub α] [Mul α] [Neg α] [Div α] [Zero α] [One α] [Fl α]

instance (m : Int) : Decidable (Spec.usable m) := inferInstanceAs (Decidable (_ ∨ _))

/-- The rows of one dataset of a recording. -/
def rows (id : U32) (l : List (Ev α)) : List (Ev α) := l.filter fun e => decide (e.id = id)

theorem rows_append (id : U32) (a b : List (Ev α)) : rows id (a ++ b) = rows id a ++ rows id b := by
  simp [rows]

theorem run_world (cs : List (Nat × Call α)) (w : LWorld α) : (LWorld.run cs w).world = World.run cs w.world := by
  induction cs generalizing w with
  | nil => rfl
  | cons hc cs ih => exact ih _

/-- The row of the `imu` dataset for a sample. -/
def imuRow (m : Imu α) : Ev α :=
  ⟨imuId, m.gpst, [.f (m.acce 0), .f (m.acce 1), .f (m.acce 2), .f (m.gyro 0), .f (m.gyro 1), .f (m.gyro 2)]⟩

/-- The row of the `kalman` dataset for a sample time and a report: biases in mGal and degrees per hour. -/
def kalmanRow (t : α) (r : NavOutput α) : Ev α :=
  ⟨kalmanId, t, [.f (r.ab 0), .f (r.ab 1), .f (r.ab 2), .f (r.gb 0), .f (r.gb 1), .f (r.gb 2)]⟩

/-- After a sample that is absorbed the device navigates with the sample's time. -/
theorem absorbed_after (g : α) (d : Dev α) (m : Imu α) (h : absorbs d) :
    (rgioeTimeupdate g d (some m)).2.2.status = ST_NAVIGATION ∧
      (rgioeTimeupdate g d (some m)).2.2.df.ins.nav.gpst = m.gpst ∧
      timeLog g d (some m) = timeUpdateLog (rgioeTimeupdate g d (some m)).2.2.df m := by
  rcases h with h | ⟨h, h'⟩
  · have h0 : ¬ d.status = ST_INIT := by rw [h]; decide
    have h1 : ¬ d.status = ST_ALIGN := by rw [h]; decide
    have h2 : ¬ d.status = ST_ATTITUDE := by rw [h]; decide
    refine ⟨?_, ?_, ?_⟩
    · simp only [rgioeTimeupdate, if_neg h0, if_neg h1, if_neg h2, if_pos h]; exact h
    · simp only [rgioeTimeupdate, if_neg h0, if_neg h1, if_neg h2, if_pos h, Fusion.timeUpdate_gpst]
    · simp only [timeLog, if_neg h0, if_neg h1, if_neg h2, if_pos h]
  · refine ⟨?_, ?_, ?_⟩
    · simp only [rgioeTimeupdate, if_pos h, if_pos h']
    · simp only [rgioeTimeupdate, if_pos h, if_pos h', Fusion.timeUpdate_gpst]
    · simp only [timeLog, if_pos h, if_pos h']

/-- A sample that is not absorbed writes at most an `ahrs` row. -/
theorem not_absorbed (g : α) (d : Dev α) (m : Imu α) (h : ¬ absorbs d) :
    timeLog g d (some m) = [] ∨ ∃ e, timeLog g d (some m) = [e] ∧ e.id = ahrsId := by
  unfold absorbs at h
  simp only [timeLog, alignImuLog]
  split_ifs <;> simp_all [ahrsEv]

theorem result_nav (d : Dev α) (p : NavOutput α) (h : d.status = ST_NAVIGATION) :
    (rgioeGetResult d p).2 = d.df.output := by
  simp only [rgioeGetResult]; rw [if_pos h]


theorem exec_time (w : World α) (h : Nat) (m : Option (Imu α)) :
    (w.exec h (.time m)).1.dev h = (rgioeTimeupdate w.g (w.dev h) m).2.2 := by
  simp [World.exec, Call.exec]

theorem rows_imu_one (e : Ev α) (i : U32) : rows i [e] = if e.id = i then [e] else [] := by
  simp only [rows, List.filter]
  split_ifs with h <;> simp [h]

/-- The rows a call adds to the `imu` dataset. -/
theorem imu_step (w : LWorld α) (h : Nat) (c : Call α) :
    rows imuId (w.records h c) = match c with
      | .time (some m) => if absorbs (w.world.dev h) then [imuRow m] else []
      | _ => [] := by
  cases c with
  | time m =>
    cases m with
    | none => rfl
    | some m =>
      by_cases ha : absorbs (w.world.dev h)
      · obtain ⟨_, h2, h3⟩ := absorbed_after w.world.g _ m ha
        simp only [LWorld.records, if_pos ha, h3, timeUpdateLog, rows, List.filter, kalmanEv, imuEv, h2, imuRow, xyz]
        rfl
      · simp only [LWorld.records, if_neg ha]
        rcases not_absorbed w.world.g _ m ha with he | ⟨e, he, hi⟩
        · rw [he]; rfl
        · rw [he, rows_imu_one, if_neg (by rw [hi]; decide)]
  | gnss m =>
    cases m with
    | none => rfl
    | some m =>
      simp only [LWorld.records, gnssLog, alignGnssLog, measureGnssLog]
      split_ifs <;> rfl
  | getResult p =>
    simp only [LWorld.records, resultEv]
    split_ifs <;> rfl
  | _ => rfl

/-- C103. The `imu` dataset of a recording is the list of IMU samples the devices navigated with, in the order of
the calls, each once, under its own time: for every interleaved history. -/
theorem C103_imu_rows (cs : List (Nat × Call α)) (w : LWorld α) :
    rows imuId (LWorld.run cs w).log =
      rows imuId w.log ++ (navigated cs w.world).map fun s => imuRow s.1 := by
  induction cs generalizing w with
  | nil => simp [LWorld.run, navigated]
  | cons hc cs ih =>
    obtain ⟨h, c⟩ := hc
    have e1 : rows imuId (w.exec h c).log = rows imuId w.log ++ rows imuId (w.records h c) := rows_append ..
    have e2 : (w.exec h c).world = (w.world.exec h c).1 := rfl
    show rows imuId (LWorld.run cs (w.exec h c)).log = _
    rw [ih, e1, imu_step, e2]
    cases c with
    | time m =>
      cases m with
      | none => simp [navigated]
      | some m =>
        simp only [navigated]
        split_ifs <;> simp
    | _ => simp [navigated]

/-- The rows a call adds to the `kalman` dataset. -/
theorem kalman_step (w : LWorld α) (h : Nat) (c : Call α) :
    rows kalmanId (w.records h c) = match c with
      | .time (some m) => if absorbs (w.world.dev h) then
          [kalmanRow m.gpst (rgioeGetResult ((w.world.exec h c).1.dev h) zeroPva).2] else []
      | _ => [] := by
  cases c with
  | time m =>
    cases m with
    | none => rfl
    | some m =>
      by_cases ha : absorbs (w.world.dev h)
      · obtain ⟨h1, h2, h3⟩ := absorbed_after w.world.g _ m ha
        simp only [LWorld.records, if_pos ha, h3, exec_time, result_nav _ _ h1]
        simp only [timeUpdateLog, rows, List.filter, kalmanEv, imuEv, h2, kalmanRow, xyz]
        rfl
      · simp only [LWorld.records, if_neg ha]
        rcases not_absorbed w.world.g _ m ha with he | ⟨e, he, hi⟩
        · rw [he]; rfl
        · rw [he, rows_imu_one, if_neg (by rw [hi]; decide)]
  | gnss m =>
    cases m with
    | none => rfl
    | some m =>
      simp only [LWorld.records, gnssLog, alignGnssLog, measureGnssLog]
      split_ifs <;> rfl
  | getResult p =>
    simp only [LWorld.records, resultEv]
    split_ifs <;> rfl
  | _ => rfl

/-- C103. The `kalman` dataset has one row per navigated sample, in order, under the sample's time, with the
accelerometer and gyroscope biases `rgioe_get_result` reports directly after the sample. -/
theorem C103_kalman_rows (cs : List (Nat × Call α)) (w : LWorld α) :
    rows kalmanId (LWorld.run cs w).log =
      rows kalmanId w.log ++ (navigated cs w.world).map fun s => kalmanRow s.1.gpst s.2 := by
  induction cs generalizing w with
  | nil => simp [LWorld.run, navigated]
  | cons hc cs ih =>
    obtain ⟨h, c⟩ := hc
    have e1 : rows kalmanId (w.exec h c).log = rows kalmanId w.log ++ rows kalmanId (w.records h c) := rows_append ..
    have e2 : (w.exec h c).world = (w.world.exec h c).1 := rfl
    show rows kalmanId (LWorld.run cs (w.exec h c)).log = _
    rw [ih, e1, kalman_step, e2]
    cases c with
    | time m =>
      cases m with
      | none => simp [navigated]
      | some m =>
        simp only [navigated]
        split_ifs <;> simp
    | _ => simp [navigated]

/-- The rows a call adds to the `gnss` dataset, without the position columns. -/
theorem gnss_step (w : LWorld α) (h : Nat) (c : Call α) :
    (rows gnssId (w.records h c)).map (fun e => (e.time, e.cells.drop 3)) = match c with
      | .gnss (some m) => if (w.world.dev h).status = ST_NAVIGATION then
          [((rgioeGetResult (w.world.dev h) zeroPva).2.gpst,
            [Cell.f 0, .f 0, .u16 0, .u8 (BitVec.ofInt 8 m.mode), .u32 0])] else []
      | _ => [] := by
  cases c with
  | time m =>
    cases m with
    | none => rfl
    | some m =>
      simp only [LWorld.records, timeLog, alignImuLog, timeUpdateLog]
      split_ifs <;> rfl
  | gnss m =>
    cases m with
    | none => rfl
    | some m =>
      by_cases hn : (w.world.dev h).status = ST_NAVIGATION
      · have h0 : ¬ (w.world.dev h).status = ST_INIT := by rw [hn]; decide
        have h1 : ¬ ((w.world.dev h).status = ST_ALIGN ∨ (w.world.dev h).status = ST_ATTITUDE) := by
          rw [hn]; decide
        simp only [LWorld.records, gnssLog, measureGnssLog, if_pos hn, result_nav _ _ hn, if_neg h0, if_neg h1]
        split_ifs <;> rfl
      · simp only [LWorld.records, gnssLog, alignGnssLog, if_neg hn]
        split_ifs <;> rfl
  | getResult p =>
    simp only [LWorld.records, resultEv]
    split_ifs <;> rfl
  | _ => rfl

/-- C103 and C106. The `gnss` dataset has one row per fix given to a navigating device, in order, usable or not,
under the time of the device's current state (not the fix's own time), with the fix's mode; the columns `hdop`,
`pdop`, `ns` and `gnss_cnt` are zero in every row, whatever the fix. -/
theorem C103_gnss_rows (cs : List (Nat × Call α)) (w : LWorld α) :
    (rows gnssId (LWorld.run cs w).log).map (fun e => (e.time, e.cells.drop 3)) =
      (rows gnssId w.log).map (fun e => (e.time, e.cells.drop 3)) ++ (navFixes cs w.world).map fun s =>
        (s.2.gpst, [Cell.f 0, .f 0, .u16 0, .u8 (BitVec.ofInt 8 s.1.mode), .u32 0]) := by
  induction cs generalizing w with
  | nil => simp [LWorld.run, navFixes]
  | cons hc cs ih =>
    obtain ⟨h, c⟩ := hc
    have e1 : rows gnssId (w.exec h c).log = rows gnssId w.log ++ rows gnssId (w.records h c) := rows_append ..
    have e2 : (w.exec h c).world = (w.world.exec h c).1 := rfl
    show (rows gnssId (LWorld.run cs (w.exec h c)).log).map _ = _
    rw [ih, e1, List.map_append, gnss_step, e2]
    cases c with
    | gnss m =>
      cases m with
      | none => simp [navFixes]
      | some m =>
        simp only [navFixes]
        split_ifs <;> simp
    | _ => simp [navFixes]

/-- The rows a call adds to the `meas_pos` dataset: their times. -/
theorem meas_step (w : LWorld α) (h : Nat) (c : Call α) :
    (rows measPosId (w.records h c)).map (fun e => e.time) = match c with
      | .gnss (some m) => if (w.world.dev h).status = ST_NAVIGATION ∧ Spec.usable m.mode then
          [(rgioeGetResult (w.world.dev h) zeroPva).2.gpst] else []
      | _ => [] := by
  cases c with
  | time m =>
    cases m with
    | none => rfl
    | some m =>
      simp only [LWorld.records, timeLog, alignImuLog, timeUpdateLog]
      split_ifs <;> rfl
  | gnss m =>
    cases m with
    | none => rfl
    | some m =>
      by_cases hn : (w.world.dev h).status = ST_NAVIGATION
      · have h0 : ¬ (w.world.dev h).status = ST_INIT := by rw [hn]; decide
        have h1 : ¬ ((w.world.dev h).status = ST_ALIGN ∨ (w.world.dev h).status = ST_ATTITUDE) := by
          rw [hn]; decide
        simp only [LWorld.records, gnssLog, measureGnssLog, if_pos hn, result_nav _ _ hn, if_neg h0, if_neg h1]
        by_cases hu : Fusion.gnssCheck m = true
        · rw [if_pos hu, if_pos ⟨hn, (gnssCheck_iff m).1 hu⟩]; rfl
        · rw [if_neg hu, if_neg (fun k => hu ((gnssCheck_iff m).2 k.2))]; rfl
      · simp only [LWorld.records, gnssLog, alignGnssLog, hn, false_and, if_false]
        split_ifs <;> rfl
  | getResult p =>
    simp only [LWorld.records, resultEv]
    split_ifs <;> rfl
  | _ => rfl

/-- The rows a call adds to the `result` dataset: time, status, velocity and attitude columns. -/
theorem result_step (w : LWorld α) (h : Nat) (c : Call α) :
    (rows resultId (w.records h c)).map (fun e => (e.time, e.cells.take 1, e.cells.drop 4)) = match c with
      | .getResult p =>
        let d := w.world.dev h
        let r := (rgioeGetResult d p).2
        [(r.gpst, [.u8 (BitVec.ofInt 8 (rgioeGetStatus d))],
          if d.status = ST_NAVIGATION then xyz r.vn ++ xyz r.atti
          else if d.status = ST_ATTITUDE then xyz zero3 ++ xyz r.atti else xyz zero3 ++ xyz zero3)]
      | _ => [] := by
  cases c with
  | time m =>
    cases m with
    | none => rfl
    | some m =>
      simp only [LWorld.records, timeLog, alignImuLog, timeUpdateLog]
      split_ifs <;> rfl
  | gnss m =>
    cases m with
    | none => rfl
    | some m =>
      simp only [LWorld.records, gnssLog, alignGnssLog, measureGnssLog]
      split_ifs <;> rfl
  | getResult p =>
    simp only [LWorld.records, resultEv, rgioeGetStatus]
    by_cases h1 : (w.world.dev h).status = ST_ATTITUDE
    · have h2 : ¬ (w.world.dev h).status = ST_NAVIGATION := by rw [h1]; decide
      simp only [if_pos h1, if_neg h2]; rfl
    · by_cases h2 : (w.world.dev h).status = ST_NAVIGATION
      · simp only [if_neg h1, if_pos h2]; rfl
      · simp only [if_neg h1, if_neg h2]; rfl
  | _ => rfl

/-- C103. The `meas_pos` dataset has one row per usable fix given to a navigating device, in order. -/
theorem C103_meas_rows (cs : List (Nat × Call α)) (w : LWorld α) :
    (rows measPosId (LWorld.run cs w).log).map (fun e => e.time) =
      (rows measPosId w.log).map (fun e => e.time) ++
        ((navFixes cs w.world).filter fun s => decide (Spec.usable s.1.mode)).map fun s => s.2.gpst := by
  induction cs generalizing w with
  | nil => simp [LWorld.run, navFixes]
  | cons hc cs ih =>
    obtain ⟨h, c⟩ := hc
    have e1 : rows measPosId (w.exec h c).log = rows measPosId w.log ++ rows measPosId (w.records h c) :=
      rows_append ..
    have e2 : (w.exec h c).world = (w.world.exec h c).1 := rfl
    show (rows measPosId (LWorld.run cs (w.exec h c)).log).map _ = _
    rw [ih, e1, List.map_append, meas_step, e2]
    cases c with
    | gnss m =>
      cases m with
      | none => simp [navFixes]
      | some m =>
        simp only [navFixes]
        by_cases h1 : (w.world.dev h).status = ST_NAVIGATION
        · by_cases h2 : Spec.usable m.mode
          · simp [h1, h2]
          · simp [h1, h2]
        · simp [h1]
    | _ => simp [navFixes]

/-- The velocity and attitude columns of a `result` row by status: both while navigating, only the attitude during
the alignment's attitude phase, zeros before. -/
def resultCells (st : Int) (r : NavOutput α) : List (Cell α) :=
  if st = ST_NAVIGATION then [.f (r.vn 0), .f (r.vn 1), .f (r.vn 2), .f (r.atti 0), .f (r.atti 1), .f (r.atti 2)]
  else if st = ST_ATTITUDE then [.f 0, .f 0, .f 0, .f (r.atti 0), .f (r.atti 1), .f (r.atti 2)]
  else [.f 0, .f 0, .f 0, .f 0, .f 0, .f 0]

/-- C103. The `result` dataset has one row per `rgioe_get_result`, in order: the time, velocity and attitude are
those handed to the caller, the status is the device's. -/
theorem C103_result_rows (cs : List (Nat × Call α)) (w : LWorld α) :
    (rows resultId (LWorld.run cs w).log).map (fun e => (e.time, e.cells.take 1, e.cells.drop 4)) =
      (rows resultId w.log).map (fun e => (e.time, e.cells.take 1, e.cells.drop 4)) ++
        (results cs w.world).map fun s =>
          (s.2.gpst, [Cell.u8 (BitVec.ofInt 8 s.1)], resultCells s.1 s.2) := by
  induction cs generalizing w with
  | nil => simp [LWorld.run, results]
  | cons hc cs ih =>
    obtain ⟨h, c⟩ := hc
    have e1 : rows resultId (w.exec h c).log = rows resultId w.log ++ rows resultId (w.records h c) :=
      rows_append ..
    have e2 : (w.exec h c).world = (w.world.exec h c).1 := rfl
    show (rows resultId (LWorld.run cs (w.exec h c)).log).map _ = _
    rw [ih, e1, List.map_append, result_step, e2]
    cases c with
    | getResult p =>
      simp only [results, List.map_cons, List.append_assoc, List.cons_append, List.nil_append]
      rfl
    | time m => cases m <;> simp [results]
    | gnss m => cases m <;> simp [results]
    | _ => simp [results]

/-- A record the loader accepts: its dataset is built in and its members have the declared types. -/
def wellTyped (e : Ev α) : Prop := ∀ (enc64 : α → U64) (enc32 : α → U32),
  Fits builtin (e.msg enc64 enc32) ∧ (e.msg enc64 enc32).size < 2 ^ 32

/-- The type numbers of the members of a record. -/
def cellType : Cell α → U32
  | .f _ => 8
  | .u8 _ => 0
  | .u16 _ => 2
  | .u32 _ => 4

theorem val_type (enc32 : α → U32) (c : Cell α) : (c.val enc32).type = cellType c := by
  cases c <;> rfl

theorem val_bytes_le (enc32 : α → U32) (c : Cell α) : (c.val enc32).bytes.length ≤ 4 := by
  cases c <;> simp [Cell.val, Val.bytes, le16, le32]

theorem wellTyped_of (e : Ev α) (hl : e.cells.length ≤ 100)
    (h : ∃ x ∈ builtin, x.1 = e.id ∧ x.2.items.map ItemCfg.type = e.cells.map cellType) : wellTyped e := by
  intro enc64 enc32
  obtain ⟨x, hx, h1, h2⟩ := h
  constructor
  · refine ⟨x, hx, h1, ?_⟩
    rw [h2]
    simp only [Ev.msg, List.map_map]
    apply List.map_congr_left
    intro c _
    exact val_type enc32 c
  · have hb : ∀ l : List (Cell α), ((l.map (Cell.val enc32)).flatMap Val.bytes).length ≤ 4 * l.length := by
      intro l
      induction l with
      | nil => simp
      | cons c l ih =>
        have := val_bytes_le enc32 c
        simp only [List.map_cons, List.flatMap_cons, List.length_append, List.length_cons]; omega
    have := hb e.cells
    simp only [Msg.size, Msg.dataBytes, Ev.msg]
    omega

/-- A dataset of the table by id, with its member types. -/
theorem typed_of (e : Ev α) (hl : e.cells.length ≤ 100) (i : U32) (l : List U32) (hi : e.id = i)
    (hc : e.cells.map cellType = l)
    (h : (builtin.any fun x => decide (x.1 = i) && decide (x.2.items.map ItemCfg.type = l)) = true) : wellTyped e := by
  apply wellTyped_of e hl
  rw [List.any_eq_true] at h
  obtain ⟨x, hx, hh⟩ := h
  simp only [Bool.and_eq_true, decide_eq_true_eq] at hh
  exact ⟨x, hx, by rw [hh.1, hi], by rw [hh.2, hc]⟩

theorem imu_typed (f : Fusion α) (m : Imu α) : wellTyped (imuEv f m) :=
  typed_of _ (by simp [imuEv, xyz]) imuId [8, 8, 8, 8, 8, 8] rfl rfl (by decide +kernel)
theorem kalman_typed (f : Fusion α) : wellTyped (kalmanEv f) :=
  typed_of _ (by simp [kalmanEv, xyz]) kalmanId [8, 8, 8, 8, 8, 8] rfl rfl (by decide +kernel)
theorem meas_typed (f : Fusion α) (p : V3 α) (R : M3 α) : wellTyped (measPosEv f p R) :=
  typed_of _ (by simp [measPosEv, xyz]) measPosId [8, 8, 8, 8, 8, 8] rfl rfl (by decide +kernel)
theorem gnss_typed (f : Fusion α) (p : V3 α) (m : Gnss α) : wellTyped (gnssEv f p m) :=
  typed_of _ (by simp [gnssEv, xyz]) gnssId [8, 8, 8, 8, 8, 2, 0, 4] rfl rfl (by decide +kernel)
theorem ahrs_typed (a : Ahrs α) (m : Imu α) : wellTyped (ahrsEv a m) :=
  typed_of _ (by simp [ahrsEv, xyz]) ahrsId [8, 8, 8] rfl rfl (by decide +kernel)
theorem align_typed (a a' : Align α) (m : Gnss α) : wellTyped (alignEv a a' m) :=
  typed_of _ (by simp [alignEv, xyz]) alignId [8, 8, 8, 8, 8, 8, 8, 8, 8, 8, 8, 0, 0, 0] rfl rfl (by decide +kernel)
theorem result_typed (d : Dev α) (p : NavOutput α) (o : Option (V3 α)) : wellTyped (resultEv d p o) := by
  have k : ∀ (t : α) (b : BitVec 8) (x y z : V3 α),
      wellTyped (⟨resultId, t, .u8 b :: (xyz x ++ xyz y ++ xyz z)⟩ : Ev α) := fun t b x y z =>
    typed_of _ (by simp [xyz]) resultId [0, 8, 8, 8, 8, 8, 8, 8, 8, 8] rfl rfl (by decide +kernel)
  simp only [resultEv]
  split_ifs <;> exact k _ _ _ _ _

theorem records_typed (w : LWorld α) (h : Nat) (c : Call α) : ∀ e ∈ w.records h c, wellTyped e := by
  intro e he
  cases c with
  | time m =>
    cases m with
    | none => simp [LWorld.records, timeLog] at he
    | some m =>
      simp only [LWorld.records, timeLog, alignImuLog, timeUpdateLog] at he
      split_ifs at he <;> simp only [List.mem_cons, List.not_mem_nil, or_false] at he
      all_goals first
        | (rcases he with rfl | rfl
           · exact kalman_typed _
           · exact imu_typed _ _)
        | (subst he; exact ahrs_typed _ _)
  | gnss m =>
    cases m with
    | none => simp [LWorld.records, gnssLog] at he
    | some m =>
      simp only [LWorld.records, gnssLog, alignGnssLog, measureGnssLog] at he
      split_ifs at he <;>
        simp only [List.mem_cons, List.not_mem_nil, or_false, List.nil_append, List.cons_append] at he
      all_goals first
        | (rcases he with rfl | rfl
           · exact meas_typed _ _ _
           · exact gnss_typed _ _ _)
        | (subst he; first | exact align_typed _ _ _ | exact gnss_typed _ _ _)
  | getResult p =>
    simp only [LWorld.records, List.mem_singleton] at he
    subst he; exact result_typed _ _ _
  | _ => simp [LWorld.records] at he

theorem run_typed (cs : List (Nat × Call α)) (w : LWorld α) (hw : ∀ e ∈ w.log, wellTyped e) :
    ∀ e ∈ (LWorld.run cs w).log, wellTyped e := by
  induction cs generalizing w with
  | nil => exact hw
  | cons hc cs ih =>
    apply ih
    intro e he
    simp only [LWorld.exec, List.mem_append] at he
    rcases he with he | he
    · exact hw e he
    · exact records_typed w _ _ e he

/-- The bytes a recording process leaves: the header of the built-in table, then its records. -/
def logFile (hdr : List Byte) (enc64 : α → U64) (enc32 : α → U32) (l : List (Ev α)) : List Byte :=
  recording hdr (l.map (Ev.msg enc64 enc32))

theorem rows_msgs (enc64 : α → U64) (enc32 : α → U32) (id : U32) (l : List (Ev α)) :
    (l.map (Ev.msg enc64 enc32)).filter (fun m => decide (m.id = id)) = (rows id l).map (Ev.msg enc64 enc32) := by
  simp only [rows, List.filter_map]
  rfl

/-- C103, the file. Whatever calls are made on whatever devices, the file the process leaves (if it recorded
anything) is read back by the loader without any error, and its `imu` dataset holds exactly the samples the devices
navigated with, its `kalman` dataset exactly the biases reported after them; `enc64` and `enc32` are the
representation of `double` and `float`. -/
theorem C103_file_loads {F : Type} (ops : FloatOps F) (hdr : List Byte) (hw : writeHeader builtin = some hdr)
    (enc64 : α → U64) (enc32 : α → U32) (cs : List (Nat × Call α)) (w : LWorld α) (h0 : w.log = [])
    (hne : (LWorld.run cs w).log ≠ []) :
    ∃ s, (∀ fuel, 5 + (LWorld.run cs w).log.length ≤ fuel →
        loadFile ops (logFile hdr enc64 enc32 (LWorld.run cs w).log) fuel fresh = .finished s) ∧
      s.code = .ok ∧ s.errs = [] ∧
      Holds ops s imuId ((navigated cs w.world).map fun p => (imuRow p.1).msg enc64 enc32) ∧
      Holds ops s kalmanId ((navigated cs w.world).map fun p => (kalmanRow p.1.gpst p.2).msg enc64 enc32) := by
  have ht := run_typed cs w (by rw [h0]; simp)
  have hf : ∀ m ∈ (LWorld.run cs w).log.map (Ev.msg enc64 enc32), Fits builtin m ∧ m.size < 2 ^ 32 := by
    intro m hm
    obtain ⟨e, he, rfl⟩ := List.mem_map.1 hm
    exact ht e he enc64 enc32
  obtain ⟨s, h1, h2, h3, h4⟩ := C05_recording_round_trip ops builtin builtin_ok hdr hw
    ((LWorld.run cs w).log.map (Ev.msg enc64 enc32)) (by simpa using hne) (fun m hm => (hf m hm).2)
    (fun m hm => (hf m hm).1)
  refine ⟨s, ?_, h2, h3, ?_, ?_⟩
  · intro fuel hfuel
    exact h1 fuel (by simpa using hfuel)
  · have hi : ∃ x ∈ builtin, x.1 = imuId := by decide +kernel
    obtain ⟨x, hx, hxi⟩ := hi
    have := h4 x hx
    rw [hxi, rows_msgs, C103_imu_rows, h0] at this
    simpa [rows, List.map_map, Function.comp_def] using this
  · have hi : ∃ x ∈ builtin, x.1 = kalmanId := by decide +kernel
    obtain ⟨x, hx, hxi⟩ := hi
    have := h4 x hx
    rw [hxi, rows_msgs, C103_kalman_rows, h0] at this
    simpa [rows, List.map_map, Function.comp_def] using this

/-- A process with one zeroed device that has recorded nothing. -/
def quiet : LWorld α := ⟨⟨0, fun _ => Ex.zDev⟩, fun _ => zero3, none, []⟩
/-- Start from a given state, one sample, one usable fix, one report. -/
def session : List (Nat × Call α) :=
  [(0, .init (Ex.opt ALIGN_USE_GIVEN) (some zeroPva) Ex.zJunk), (0, .time (some Ex.zImu)),
   (0, .gnss (some (Ex.fix 4))), (0, .getResult zeroPva)]

/-- The hypotheses of C103 are met by a session that puts rows in five datasets. -/
example : (LWorld.run session (quiet : LWorld α)).log.map Ev.id = [kalmanId, imuId, measPosId, gnssId, resultId] ∧
    (navigated session (quiet : LWorld α).world).length = 1 ∧ (navFixes session (quiet : LWorld α).world).length = 1 ∧
    (results session (quiet : LWorld α).world).length = 1 := ⟨rfl, rfl, rfl, rfl⟩

end Verif.Props
