import Verif.Props.Logging
import Verif.Lemmas.Align
import Verif.Lemmas.Real
/-! # C103 (measurement rows), C157: what the recording build writes while aligning -/
namespace Verif.Props
open Verif.Crc Verif.Recorder Verif.Loader Verif.Logging Verif.Spec.Rec Verif.Spec.Log
variable {α : Type} [Add α] [Sub α] [Mul α] [Neg α] [Div α] [Zero α] [One α] [Fl α]

/-- The variance columns of a `meas_pos` row: squared deviations of the fix times the configured scale. -/
def varianceCells (m : Gnss α) (scale : α) : List (Cell α) :=
  [.f (m.posStd 0 * m.posStd 0 * scale), .f (m.posStd 1 * m.posStd 1 * scale), .f (m.posStd 2 * m.posStd 2 * scale)]

theorem weighted_step (w : LWorld α) (h : Nat) (c : Call α) :
    (rows measPosId (w.records h c)).map (fun e => e.cells.drop 3) = match c with
      | .gnss (some m) => if (w.world.dev h).status = ST_NAVIGATION ∧ Spec.usable m.mode then
          [varianceCells m (w.world.dev h).df.opt.gnssStdScale] else []
      | _ => [] := by
  cases c with
  | time m =>
    cases m with
    | none => rfl
    | some m =>
      simp only [LWorld.records, timeLog, alignImuLog, timeUpdateLog]
      split_ifs <;> rfl
  | gnss m =>
    cases m with
    | none => rfl
    | some m =>
      by_cases hn : (w.world.dev h).status = ST_NAVIGATION
      · have h0 : ¬ (w.world.dev h).status = ST_INIT := by rw [hn]; decide
        have h1 : ¬ ((w.world.dev h).status = ST_ALIGN ∨ (w.world.dev h).status = ST_ATTITUDE) := by
          rw [hn]; decide
        simp only [LWorld.records, gnssLog, measureGnssLog, if_pos hn, if_neg h0, if_neg h1]
        by_cases hu : Fusion.gnssCheck m = true
        · rw [if_pos hu, if_pos ⟨hn, (gnssCheck_iff m).1 hu⟩]; rfl
        · rw [if_neg hu, if_neg (fun k => hu ((gnssCheck_iff m).2 k.2))]; rfl
      · simp only [LWorld.records, gnssLog, alignGnssLog, hn, false_and, if_false]
        split_ifs <;> rfl
  | getResult p =>
    simp only [LWorld.records, resultEv]
    split_ifs <;> rfl
  | _ => rfl

/-- C103. A row of the `meas_pos` dataset shows the variances the filter used for the fix: squared deviations times the
scale. -/
theorem C103_meas_variances (cs : List (Nat × Call α)) (w : LWorld α) :
    (rows measPosId (LWorld.run cs w).log).map (fun e => e.cells.drop 3) =
      (rows measPosId w.log).map (fun e => e.cells.drop 3) ++
        ((weighted cs w.world).filter fun s => decide (Spec.usable s.1.mode)).map fun s => varianceCells s.1 s.2 := by
  induction cs generalizing w with
  | nil => simp [LWorld.run, weighted]
  | cons hc cs ih =>
    obtain ⟨h, c⟩ := hc
    have e1 : rows measPosId (w.exec h c).log = rows measPosId w.log ++ rows measPosId (w.records h c) :=
      rows_append ..
    have e2 : (w.exec h c).world = (w.world.exec h c).1 := rfl
    show (rows measPosId (LWorld.run cs (w.exec h c)).log).map _ = _
    rw [ih, e1, List.map_append, weighted_step, e2]
    cases c with
    | gnss m =>
      cases m with
      | none => simp [weighted]
      | some m =>
        simp only [weighted]
        by_cases h1 : (w.world.dev h).status = ST_NAVIGATION
        · by_cases h2 : Spec.usable m.mode
          · simp [h1, h2]
          · simp [h1, h2]
        · simp [h1]
    | _ => simp [weighted]

/-- The row of the `ahrs` dataset for a sample: roll, pitch and heading of the attitude filter in degrees. -/
def ahrsRow (m : Imu α) (d : Dev α) : Ev α :=
  ⟨ahrsId, m.gpst, [.f (d.am.ahrs.getAtti 0 / deg), .f (d.am.ahrs.getAtti 1 / deg), .f (d.am.ahrs.getAtti 2 / deg)]⟩

/-- The row of the `align` dataset for two successive fixes: attitude, velocity and position of the alignment
solution, the distance between the fixes in metres, the deviation of the specific force, and three marks. -/
def alignRow (pre m : Gnss α) (d : Dev α) : Ev α :=
  let n := d.am.nav
  let mark (b : Bool) : Cell α := .u8 (if b then 1 else 0)
  ⟨alignId, m.gpst,
    [.f (n.atti 0), .f (n.atti 1), .f (n.atti 2), .f (n.vn 0), .f (n.vn 1), .f (n.vn 2),
     .f (n.pos 0), .f (n.pos 1), .f (n.pos 2),
     .f (Fl.f32 (vnorm (Earth.distance6 (m.lat * deg) (m.lon * deg) (pre.lat * deg) (pre.lon * deg) m.height pre.height))),
     .f d.am.smooth.getStd, mark d.am.smooth.isStatic, mark d.am.yaw, mark d.am.level]⟩

/-- The rows one call adds to the `ahrs` dataset. -/
theorem tracked_step (w : LWorld α) (h : Nat) (c : Call α) :
    rows ahrsId (w.records h c) = match c with
      | .time (some m) => if aligns (w.world.dev h) ∧ (w.world.dev h).am.level = true then
          [ahrsRow m ((w.world.exec h c).1.dev h)] else []
      | _ => [] := by
  cases c with
  | time m =>
    cases m with
    | none => rfl
    | some m =>
      have ed : ((w.world.exec h (.time (some m))).1.dev h) = (rgioeTimeupdate w.world.g (w.world.dev h) (some m)).2.2 := by
        simp [World.exec, Call.exec]
      dsimp only
      rw [ed]
      by_cases s0 : (w.world.dev h).status = ST_INIT
      · by_cases hm : (w.world.dev h).opt.alignMode = ALIGN_USE_GIVEN
        · have ha : ¬ aligns (w.world.dev h) := by
            unfold aligns; rw [s0]; simp [hm, ST_INIT, ST_ALIGN, ST_ATTITUDE]
          simp only [LWorld.records, timeLog, if_pos s0, if_pos hm, ha, false_and, if_false]; rfl
        · have ha : aligns (w.world.dev h) := Or.inr (Or.inr ⟨s0, hm⟩)
          simp only [LWorld.records, timeLog, rgioeTimeupdate, if_pos s0, if_neg hm, ha, true_and, alignImuLog]
          by_cases hl : (w.world.dev h).am.level = true
          · simp only [if_pos hl]; rfl
          · simp only [if_neg hl]; rfl
      · by_cases s1 : (w.world.dev h).status = ST_ALIGN
        · have ha : aligns (w.world.dev h) := Or.inl s1
          simp only [LWorld.records, timeLog, rgioeTimeupdate, if_neg s0, if_pos s1, ha, true_and, alignImuLog]
          by_cases hl : (w.world.dev h).am.level = true
          · simp only [if_pos hl]; rfl
          · simp only [if_neg hl]; rfl
        · by_cases s2 : (w.world.dev h).status = ST_ATTITUDE
          · have ha : aligns (w.world.dev h) := Or.inr (Or.inl s2)
            simp only [LWorld.records, timeLog, rgioeTimeupdate, if_neg s0, if_neg s1, if_pos s2, ha, true_and, alignImuLog]
            by_cases hl : (w.world.dev h).am.level = true
            · simp only [if_pos hl]
              split_ifs <;> rfl
            · simp only [if_neg hl]; rfl
          · have ha : ¬ aligns (w.world.dev h) := by unfold aligns; simp [s0, s1, s2]
            simp only [LWorld.records, timeLog, if_neg s0, if_neg s1, if_neg s2, ha, false_and, if_false]
            split_ifs <;> rfl
  | gnss m =>
    cases m with
    | none => rfl
    | some m =>
      simp only [LWorld.records, gnssLog, alignGnssLog, measureGnssLog]
      split_ifs <;> rfl
  | getResult p =>
    simp only [LWorld.records, resultEv]
    split_ifs <;> rfl
  | _ => rfl

/-- C157. The `ahrs` dataset has one row per sample given to an aligning device that had found roll and pitch, in
order, under the sample's time and with the attitude of its attitude filter after it. -/
theorem C157_ahrs_rows (cs : List (Nat × Call α)) (w : LWorld α) :
    rows ahrsId (LWorld.run cs w).log = rows ahrsId w.log ++ (tracked cs w.world).map fun s => ahrsRow s.1 s.2 := by
  induction cs generalizing w with
  | nil => simp [LWorld.run, tracked]
  | cons hc cs ih =>
    obtain ⟨h, c⟩ := hc
    have e1 : rows ahrsId (w.exec h c).log = rows ahrsId w.log ++ rows ahrsId (w.records h c) := rows_append ..
    have e2 : (w.exec h c).world = (w.world.exec h c).1 := rfl
    show rows ahrsId (LWorld.run cs (w.exec h c)).log = _
    rw [ih, e1, tracked_step, e2]
    cases c with
    | time m =>
      cases m with
      | none => simp [tracked]
      | some m =>
        simp only [tracked]
        split_ifs <;> simp
    | _ => simp [tracked]

theorem fix_time (g : α) (a : Align α) (m : Gnss α) (hp : Fl.eq (a.gnssPre.posStd 0) 0 = false) :
    (a.updateGnss g m).2.nav.gpst = m.gpst := by
  unfold Align.updateGnss
  rw [if_neg (by simp [hp])]
  rfl

/-- The rows one call adds to the `align` dataset. -/
theorem compared_step (w : LWorld α) (h : Nat) (c : Call α) :
    rows alignId (w.records h c) = match c with
      | .gnss (some m) => if ((w.world.dev h).status = ST_ALIGN ∨ (w.world.dev h).status = ST_ATTITUDE) ∧
          Fl.eq ((w.world.dev h).am.gnssPre.posStd 0) 0 = false then
          [alignRow (w.world.dev h).am.gnssPre m ((w.world.exec h c).1.dev h)] else []
      | _ => [] := by
  cases c with
  | time m =>
    cases m with
    | none => rfl
    | some m =>
      simp only [LWorld.records, timeLog, alignImuLog, timeUpdateLog]
      split_ifs <;> rfl
  | gnss m =>
    cases m with
    | none => rfl
    | some m =>
      have ed : ((w.world.exec h (.gnss (some m))).1.dev h) = (rgioeGnssupdate w.world.g (w.world.dev h) (some m)).2.2 := by
        simp [World.exec, Call.exec]
      dsimp only
      rw [ed]
      by_cases hs : (w.world.dev h).status = ST_ALIGN ∨ (w.world.dev h).status = ST_ATTITUDE
      · have h0 : ¬ (w.world.dev h).status = ST_INIT := by rcases hs with k | k <;> rw [k] <;> decide
        simp only [LWorld.records, gnssLog, alignGnssLog, rgioeGnssupdate, if_neg h0, if_pos hs, hs, true_and]
        by_cases hp : Fl.eq ((w.world.dev h).am.gnssPre.posStd 0) 0 = true
        · simp only [if_pos hp, hp, Bool.true_eq_false, if_false]; rfl
        · have hp' : Fl.eq ((w.world.dev h).am.gnssPre.posStd 0) 0 = false := by simpa using hp
          rw [if_neg hp, if_pos hp']
          have et := fix_time w.world.g (w.world.dev h).am m hp'
          simp only [rows_imu_one, alignEv, alignRow, et]
          rfl
      · simp only [LWorld.records, gnssLog, if_neg hs, hs, false_and, if_false, measureGnssLog]
        split_ifs <;> rfl
  | getResult p =>
    simp only [LWorld.records, resultEv]
    split_ifs <;> rfl
  | _ => rfl

/-- C157. The `align` dataset has one row per fix given to an aligning device that already kept a fix, in order, under
the fix's time and with the alignment solution after it. -/
theorem C157_align_rows (cs : List (Nat × Call α)) (w : LWorld α) :
    rows alignId (LWorld.run cs w).log = rows alignId w.log ++
      (compared cs w.world).map fun s => alignRow s.1 s.2.1 s.2.2 := by
  induction cs generalizing w with
  | nil => simp [LWorld.run, compared]
  | cons hc cs ih =>
    obtain ⟨h, c⟩ := hc
    have e1 : rows alignId (w.exec h c).log = rows alignId w.log ++ rows alignId (w.records h c) := rows_append ..
    have e2 : (w.exec h c).world = (w.world.exec h c).1 := rfl
    show rows alignId (LWorld.run cs (w.exec h c)).log = _
    rw [ih, e1, compared_step, e2]
    cases c with
    | gnss m =>
      cases m with
      | none => simp [compared]
      | some m =>
        simp only [compared]
        split_ifs <;> simp
    | _ => simp [compared]

/-- A levelled device in the attitude phase that kept a fix. -/
def halfway : LWorld ℝ :=
  let a : Align ℝ := { (Ex.zDev (α := ℝ)).am with level := true, gnssPre := { Ex.fix 4 with posStd := fun _ => 1 } }
  ⟨⟨0, fun _ => { Ex.zDev with status := ST_ATTITUDE, am := a }⟩, fun _ => zero3, none, []⟩

/-- C157 is not empty: a sample and a fix given to that device give a row each. -/
example : (tracked [(0, .time (some Ex.zImu)), (0, .gnss (some (Ex.fix 4)))] halfway.world).length = 1 ∧
    (compared [(0, .gnss (some (Ex.fix 4)))] halfway.world).length = 1 := by
  constructor
  · simp [tracked, halfway, aligns]
  · have h1 : Fl.eq (1 : ℝ) 0 = false := by
      cases hq : Fl.eq (1 : ℝ) 0 with
      | false => rfl
      | true => exact absurd ((eq_real (1 : ℝ) 0).1 hq) one_ne_zero
    simp [compared, halfway, h1]
end Verif.Props
