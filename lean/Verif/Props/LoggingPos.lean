import Verif.Props.Logging
import Verif.Props.Convert
import Verif.Lemmas.Real
import Verif.Spec.Examples
import Mathlib.Analysis.Real.Pi.Bounds
import Mathlib.Tactic.Positivity
/-! # C104, C105: the position columns of the `result` dataset -/
namespace Verif.Props
open Verif.Logging Verif.Spec.Log

section
variable {α : Type} [Add α] [Sub α] [Mul α] [Neg α] [Div α] [Zero α] [One α] [Fl α]

/-- The position of a report, as it is kept by the recorder. -/
def place (r : NavOutput α) : V3 α := v3 r.lat r.lon r.height

/-- C105. The origin of the position columns is one for the whole process: the position handed out by the first
`rgioe_get_result` on a navigating device, whichever device that was; nothing afterwards (no other device, no
re-initialisation) changes it. -/
theorem C105_origin (cs : List (Nat × Call α)) (w : LWorld α) :
    (LWorld.run cs w).origin = match w.origin with
      | some o => some o
      | none => ((results cs w.world).find? fun s => decide (s.1 = ST_NAVIGATION)).map fun s => place s.2 := by
  induction cs generalizing w with
  | nil => cases h : w.origin <;> simp [LWorld.run, results, h]
  | cons hc cs ih =>
    obtain ⟨h, c⟩ := hc
    show (LWorld.run cs (w.exec h c)).origin = _
    rw [ih]
    have e2 : (w.exec h c).world = (w.world.exec h c).1 := rfl
    rw [e2]
    cases c with
    | getResult p =>
      have e3 : (w.exec h (.getResult p)).origin = originAfter (w.world.dev h) p w.origin := rfl
      rw [e3]
      simp only [originAfter]
      by_cases hn : (w.world.dev h).status = ST_NAVIGATION
      · rw [if_pos hn]
        cases ho : w.origin with
        | some o => rfl
        | none => simp [results, rgioeGetStatus, hn, place]
      · rw [if_neg hn]
        cases ho : w.origin with
        | some o => rfl
        | none => simp [results, rgioeGetStatus, hn]
    | time m =>
      have e3 : (w.exec h (.time m)).origin = w.origin := rfl
      rw [e3]
      cases ho : w.origin <;> simp [results]
    | gnss m =>
      have e3 : (w.exec h (.gnss m)).origin = w.origin := rfl
      rw [e3]
      cases ho : w.origin <;> simp [results]
    | init a b j =>
      have e3 : (w.exec h (.init a b j)).origin = w.origin := rfl
      rw [e3]
      cases ho : w.origin <;> simp [results]
    | getAtti =>
      have e3 : (w.exec h .getAtti).origin = w.origin := rfl
      rw [e3]
      cases ho : w.origin <;> simp [results]
    | getPos =>
      have e3 : (w.exec h .getPos).origin = w.origin := rfl
      rw [e3]
      cases ho : w.origin <;> simp [results]
    | getVel =>
      have e3 : (w.exec h .getVel).origin = w.origin := rfl
      rw [e3]
      cases ho : w.origin <;> simp [results]
    | getStatus =>
      have e3 : (w.exec h .getStatus).origin = w.origin := rfl
      rw [e3]
      cases ho : w.origin <;> simp [results]
    | deinit =>
      have e3 : (w.exec h .deinit).origin = w.origin := rfl
      rw [e3]
      cases ho : w.origin <;> simp [results]
end

/-- The radii of the reference ellipsoid used by the position columns. -/
theorem radius_bounds (lat : ℝ) : 6335000 ≤ Earth.RM lat ∧ Earth.RM lat ≤ 6400000 := by
  obtain ⟨_, _, h1, h2, _, h3, _⟩ := C44_radii lat
  constructor
  · refine le_trans ?_ h1
    unfold wgsA wgsE2; norm_num
  · refine le_trans h2 (le_trans h3 ?_)
    have hs : (0.9966 : ℝ) ≤ Real.sqrt (1 - wgsE2) := by
      apply Real.le_sqrt_of_sq_le
      unfold wgsE2; norm_num
    rw [div_le_iff₀ (by linarith)]
    unfold wgsA
    linarith

/-- C104. The property a reader of the recording expects, that the first position column of a `result` row is the
distance in metres to the north of the origin, fails: with the reported latitude and the origin in degrees, the
column is at least 56 times the distance `Earth::distance` gives for the same two points in radians (heights above
-100 km). -/
theorem C104_result_north_wrong (d : Dev ℝ) (pva : NavOutput ℝ) (o : V3 ℝ) (hd : d.status = ST_NAVIGATION)
    (hh : -100000 ≤ ((rgioeGetResult d pva).2.height + o 2) / 2) :
    ∃ x rest, (resultEv d pva (some o)).cells = .u8 3 :: .f x :: rest ∧
      let r := (rgioeGetResult d pva).2
      56 * |Earth.distance6 (r.lat * deg) (r.lon * deg) (o 0 * deg) (o 1 * deg) r.height (o 2) 0| ≤ |x| := by
  have h1 : ¬ d.status = ST_ATTITUDE := by rw [hd]; decide
  set r := (rgioeGetResult d pva).2 with hr
  refine ⟨Earth.distance6 r.lat r.lon (o 0) (o 1) r.height (o 2) 0, (resultEv d pva (some o)).cells.drop 2, ?_, ?_⟩
  · simp only [resultEv, if_neg h1, if_pos hd, originAfter, Option.getD_some, xyz, List.cons_append,
      List.nil_append, ← hr]
    simp only [List.drop]
    rw [hd]
    rfl
  · dsimp only
    have e : ∀ a b c d' e' f : ℝ, Earth.distance6 a b c d' e' f 0 = (a - c) * (Earth.RM a + (e' / 2 + f / 2)) := by
      intro a b c d' e' f
      simp [Earth.distance6, Earth.dN3, v3]
    rw [e, e]
    have hdeg : (deg : ℝ) = Real.pi / 180 := by simp [deg]
    rw [hdeg]
    set h := r.height / 2 + o 2 / 2 with hhd
    have hh' : -100000 ≤ h := by rw [hhd]; linarith
    obtain ⟨a1, _⟩ := radius_bounds r.lat
    obtain ⟨b1, b2⟩ := radius_bounds (r.lat * (Real.pi / 180))
    have e1 : r.lat * (Real.pi / 180) - o 0 * (Real.pi / 180) = (r.lat - o 0) * (Real.pi / 180) := by ring
    rw [e1, abs_mul, abs_mul, abs_mul, abs_of_pos (show 0 < Real.pi / 180 by positivity),
      abs_of_pos (show 0 < Earth.RM r.lat + h by linarith),
      abs_of_pos (show 0 < Earth.RM (r.lat * (Real.pi / 180)) + h by linarith)]
    have hpi := Real.pi_lt_d4
    have hpi0 := Real.pi_pos
    have key : 56 * (Real.pi / 180 * (Earth.RM (r.lat * (Real.pi / 180)) + h)) ≤ Earth.RM r.lat + h := by
      have : Real.pi / 180 * (Earth.RM (r.lat * (Real.pi / 180)) + h) ≤ 3.1416 / 180 * (6400000 + h) := by
        apply mul_le_mul _ _ (by linarith) (by norm_num) <;> linarith
      linarith
    have := mul_le_mul_of_nonneg_left key (abs_nonneg (r.lat - o 0))
    calc _ = |r.lat - o 0| * (56 * (Real.pi / 180 * (Earth.RM (r.lat * (Real.pi / 180)) + h))) := by ring
      _ ≤ _ := this

/-- C105, consequence: the first report ever taken from a second navigating device is recorded relative to the
first device, so its height column is the height difference between the two devices, not zero. -/
theorem C105_second_device (w : LWorld ℝ) (p q : NavOutput ℝ) (h0 : (w.world.dev 0).status = ST_NAVIGATION)
    (h1 : (w.world.dev 1).status = ST_NAVIGATION) (ho : w.origin = none) :
    ∃ e, (LWorld.run [(0, .getResult p), (1, .getResult q)] w).log.getLast? = some e ∧
      e.cells.drop 3 = .f ((rgioeGetResult (w.world.dev 1) q).2.height -
        (rgioeGetResult (w.world.dev 0) p).2.height) :: e.cells.drop 4 := by
  have hne : ¬ (1 : ℕ) = 0 := by decide
  have h2 : ¬ (w.world.dev 1).status = ST_ATTITUDE := by rw [h1]; decide
  refine ⟨resultEv (w.world.dev 1) q (some (place (rgioeGetResult (w.world.dev 0) p).2)), ?_, ?_⟩
  · simp only [LWorld.run, LWorld.exec, LWorld.records, originAfter, if_pos h0, ho, World.exec, Call.exec,
      if_neg hne]
    simp [place]
  · simp only [resultEv, if_neg h2, if_pos h1, originAfter, Option.getD_some, xyz, place]
    simp [Earth.distance6, v3]

/-- Two navigating devices at different heights: the hypotheses of C104 and C105 hold and the recorded column of the
second device is not zero. -/
noncomputable def navAt (h : ℝ) : Dev ℝ :=
  { (Ex.zDev : Dev ℝ) with
    status := ST_NAVIGATION
    df := { (Ex.zFusion : Fusion ℝ) with ins := { (Ex.zIns : Ins ℝ) with nav := { (Ex.zNav : NavEpoch ℝ) with pos := v3 0 0 h } } } }

theorem navAt_height (h : ℝ) (p : NavOutput ℝ) : (rgioeGetResult (navAt h) p).2.height = h := by
  rw [result_nav _ _ (show (navAt h).status = ST_NAVIGATION from rfl)]
  simp [navAt, Fusion.output, Ex.zFusion, Fusion.zeroOpt, v3]

example : ∃ w : LWorld ℝ, (w.world.dev 0).status = ST_NAVIGATION ∧ (w.world.dev 1).status = ST_NAVIGATION ∧
    w.origin = none ∧ (rgioeGetResult (w.world.dev 1) zeroPva).2.height -
        (rgioeGetResult (w.world.dev 0) zeroPva).2.height = 50 ∧
      -100000 ≤ ((rgioeGetResult (w.world.dev 1) zeroPva).2.height + (v3 0 0 0 : V3 ℝ) 2) / 2 := by
  refine ⟨⟨⟨0, fun k => if k = 0 then navAt 100 else navAt 150⟩, fun _ => zero3, none, []⟩, rfl, rfl, rfl, ?_, ?_⟩
  · simp only [if_true, if_neg (show ¬ (1 : ℕ) = 0 by decide), navAt_height]; norm_num
  · simp only [if_neg (show ¬ (1 : ℕ) = 0 by decide), navAt_height]; simp [v3]; norm_num
end Verif.Props
