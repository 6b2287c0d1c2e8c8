import Verif.Props.DateLine
import Verif.Props.NaN
/-! Fixes handed over twice, or two fixes with one time stamp, while the device aligns. -/
namespace Verif.Props
open Verif Verif.Spec Matrix

section exact_arithmetic

theorem displacement_self (a : Gnss ℝ) : displacement a a = 0 := by
  ext i; fin_cases i <;> simp [displacement]

/-- C152 fails: when a fix was handed over twice, navigation starts, at the next fix that shows motion, with one and a
half times the displacement per fix, whatever the motion before was; handed over once, half of the previous
displacement is subtracted. -/
theorem C152_repeated_fix (g : ℝ) (d : Dev ℝ) (f1 f2 : Gnss ℝ) (m : Imu ℝ) (hs : d.status = 2) (hl : d.am.level = true)
    (hp : d.am.gnssPre.posStd 0 ≠ 0) (hp1 : f1.posStd 0 ≠ 0) (hm : moving d.am.option f1 f2) (hdt : f2.gpst ≠ f1.gpst) :
    (runCalls [.gnss (some f1), .gnss (some f2), .time (some m)] (g, d)).2.df.ins.nav.vn =
      (3 / 2 : ℝ) • displacement f1 f2 - (1 / 2 : ℝ) • displacement d.am.gnssPre f1 ∧
    (runCalls [.gnss (some f1), .gnss (some f1), .gnss (some f2), .time (some m)] (g, d)).2.df.ins.nav.vn =
      (3 / 2 : ℝ) • displacement f1 f2 := by
  obtain ⟨-, r2, r3, r4, r5⟩ := C89_remembers g d f1 hs hp _ rfl
  constructor
  · exact startVel_eq g _ _ d f1 f2 m hs hl hp hp1 hm hdt
  · have := startVel_eq (rgioeGnssupdate g d (some f1)).2.1
      (rgioeGnssupdate (rgioeGnssupdate g d (some f1)).2.1 (rgioeGnssupdate g d (some f1)).2.2 (some f1)).2.1
      (rgioeGnssupdate (rgioeGnssupdate (rgioeGnssupdate g d (some f1)).2.1 (rgioeGnssupdate g d (some f1)).2.2 (some f1)).2.1
        (rgioeGnssupdate (rgioeGnssupdate g d (some f1)).2.1 (rgioeGnssupdate g d (some f1)).2.2 (some f1)).2.2 (some f2)).2.1
      (rgioeGnssupdate g d (some f1)).2.2 f1 f2 m r3 (r4.trans hl)
      (by rw [r2]; exact hp1) hp1 (by rw [r5]; exact hm) hdt
    rw [r2, displacement_self, smul_zero, sub_zero] at this
    exact this

/-- C152, in steady motion: with every displacement `v`, one copy of the fix starts with `v`, two copies with one and a
half times `v`. -/
theorem C152_steady (g : ℝ) (d : Dev ℝ) (f1 f2 : Gnss ℝ) (m : Imu ℝ) (v : V3 ℝ) (hs : d.status = 2) (hl : d.am.level = true)
    (hp : d.am.gnssPre.posStd 0 ≠ 0) (hp1 : f1.posStd 0 ≠ 0) (hm : moving d.am.option f1 f2) (hdt : f2.gpst ≠ f1.gpst)
    (h0 : displacement d.am.gnssPre f1 = v) (h1 : displacement f1 f2 = v) :
    (runCalls [.gnss (some f1), .gnss (some f2), .time (some m)] (g, d)).2.df.ins.nav.vn = v ∧
    (runCalls [.gnss (some f1), .gnss (some f1), .gnss (some f2), .time (some m)] (g, d)).2.df.ins.nav.vn = (3 / 2 : ℝ) • v := by
  obtain ⟨a, b⟩ := C152_repeated_fix g d f1 f2 m hs hl hp hp1 hm hdt
  rw [h0, h1] at a
  rw [h1] at b
  refine ⟨?_, b⟩
  rw [a]
  module

/-- Driving east on the equator, a thousandth of a degree per second, meets the hypotheses. -/
example : ∃ (v : V3 ℝ), leveled.status = 2 ∧ leveled.am.level = true ∧ leveled.am.gnssPre.posStd 0 ≠ 0 ∧
    (eqFix 0.001 1).posStd 0 ≠ 0 ∧ moving leveled.am.option (eqFix 0.001 1) (eqFix 0.002 2) ∧
    (eqFix 0.002 2).gpst ≠ (eqFix 0.001 1).gpst ∧ displacement leveled.am.gnssPre (eqFix 0.001 1) = v ∧
    displacement (eqFix 0.001 1) (eqFix 0.002 2) = v ∧ 100 < v 1 := by
  have h3 := Real.pi_gt_three
  have h4 := Real.pi_lt_four
  have hd : displacement (eqFix 0.001 1) (eqFix 0.002 2) = ![0, rad 0.001 * 6378137, 0] := by
    rw [eq_displacement]; congr 1; ext i; fin_cases i <;> simp [rad]; ring
  have hlen : len ![0, rad 0.001 * 6378137, 0] = rad 0.001 * 6378137 := by
    simp only [len, Matrix.cons_val_zero, Matrix.cons_val_one, Matrix.cons_val]
    rw [show (0 : ℝ) ^ 2 + (rad 0.001 * 6378137) ^ 2 + 0 ^ 2 = (rad 0.001 * 6378137) ^ 2 by ring, Real.sqrt_sq]
    unfold rad; positivity
  refine ⟨![0, rad 0.001 * 6378137, 0], rfl, rfl, by simp [leveled, eqFix], by simp [eqFix], ?_, by simp [eqFix], ?_, hd, ?_⟩
  · unfold moving
    rw [hd, hlen]
    constructor
    · show (0 : ℝ) < _
      unfold rad; linarith
    · unfold rad; linarith
  · show displacement (eqFix 0 0) _ = _
    rw [eq_displacement]; congr 1; ext i; fin_cases i <;> simp [rad]
  · simp only [Matrix.cons_val_one, Matrix.cons_val_zero]
    unfold rad; linarith
end exact_arithmetic

section not_a_number
variable {α : Type} [Add α] [Sub α] [Mul α] [Neg α] [Div α] [Zero α] [One α] [Fl α] {bad : α → Prop}

theorem att_gnss (g : α) (d : Dev α) (f : Gnss α) (hs : d.status = 2) :
    rgioeGnssupdate g d (some f) = (0, (d.am.updateGnss g f).1, { d with am := (d.am.updateGnss g f).2 }) := by
  unfold rgioeGnssupdate
  dsimp only
  rw [if_neg (by rw [hs]; decide), if_pos (show d.status = ST_ALIGN ∨ d.status = ST_ATTITUDE from Or.inr hs)]
  rfl

theorem updateGnss_pre (g : α) (a : Align α) (f : Gnss α) : (a.updateGnss g f).2.gnssPre = f := by
  unfold Align.updateGnss
  split_ifs <;> rfl

theorem imu_flags (a : Align α) (m : Imu α) :
    (a.updateImu m).yaw = a.yaw ∧ (a.updateImu m).nav.vn = a.nav.vn := by
  unfold Align.updateImu
  dsimp only
  split_ifs <;> exact ⟨rfl, rfl⟩

theorem imu_level (a b : Align α) (m : Imu α) (h1 : a.level = b.level) (h2 : a.smooth = b.smooth) :
    (a.updateImu m).level = (b.updateImu m).level := by
  unfold Align.updateImu
  dsimp only
  rw [h1, h2]
  split_ifs <;> rfl

/-- C152, two fixes with one time stamp, in every arithmetic with a not-a-number: if the second of them makes the
device start navigating, every component of the velocity is not a number from then on, whatever follows short of a new
initialisation. -/
theorem C152_equal_stamps (A : Absorbing bad) (hdiv : ∀ x t : α, bad (x / (t - t) * (t - t)))
    (g : α) (d : Dev α) (f1 f2 : Gnss α) (m : Imu α) (hs : d.status = 2) (ht : f1.gpst = f2.gpst)
    (hwait : rgioeGetStatus (runCalls [.gnss (some f1), .time (some m)] (g, d)).2 = 2)
    (hstart : rgioeGetStatus (runCalls [.gnss (some f1), .gnss (some f2), .time (some m)] (g, d)).2 = 3)
    (cs : List (Call α)) (hc : ∀ c ∈ cs, c.isInit = false) (p : NavOutput α) (i : Fin 3) :
    let s := runCalls ([.gnss (some f1), .gnss (some f2), .time (some m)] ++ cs) (g, d)
    bad ((rgioeGetVel s.2).1 i) ∧ bad ((rgioeGetResult s.2 p).2.vn i) := by
  have hrun : ∀ (l cs : List (Call α)) s, runCalls (l ++ cs) s = runCalls cs (runCalls l s) := by
    intro l cs; induction l with
    | nil => intro s; rfl
    | cons c l ih => intro s; exact ih _
  intro s
  refine lost_output A ?_ p i
  show Lost bad (runCalls _ (g, d)).2
  rw [hrun]
  refine lost_run A cs hc _ ⟨hstart, ?_⟩
  set a1 := (d.am.updateGnss g f1).2 with ha1
  set g1 := (d.am.updateGnss g f1).1 with hg1
  set d1 : Dev α := { d with am := a1 } with hd1
  have e1 : ∀ cs, runCalls (.gnss (some f1) :: cs) (g, d) = runCalls cs (g1, d1) := by
    intro cs
    show runCalls cs ((rgioeGnssupdate g d (some f1)).2.1, (rgioeGnssupdate g d (some f1)).2.2) = _
    rw [att_gnss g d f1 hs]
  have hs1 : d1.status = 2 := hs
  have hpre : a1.gnssPre = f1 := updateGnss_pre g d.am f1
  rw [e1] at hwait hstart ⊢
  set a2 := (a1.updateGnss g1 f2).2 with ha2
  set g2 := (a1.updateGnss g1 f2).1 with hg2
  set d2 : Dev α := { d1 with am := a2 } with hd2
  have e2 : ∀ cs, runCalls (.gnss (some f2) :: cs) (g1, d1) = runCalls cs (g2, d2) := by
    intro cs
    show runCalls cs ((rgioeGnssupdate g1 d1 (some f2)).2.1, (rgioeGnssupdate g1 d1 (some f2)).2.2) = _
    rw [att_gnss g1 d1 f2 hs1]
  rw [e2] at hstart ⊢
  have hs2 : d2.status = 2 := hs
  have t1 : runCalls [.time (some m)] (g1, d1) =
    ((rgioeTimeupdate g1 d1 (some m)).2.1, (rgioeTimeupdate g1 d1 (some m)).2.2) := rfl
  have t2 : runCalls [.time (some m)] (g2, d2) =
    ((rgioeTimeupdate g2 d2 (some m)).2.1, (rgioeTimeupdate g2 d2 (some m)).2.2) := rfl
  rw [t1, att_time g1 d1 m hs1] at hwait
  rw [t2, att_time g2 d2 m hs2] at hstart ⊢
  have f1n : ¬ (d1.am.updateImu m).alignFinished = true := by
    intro h
    rw [if_pos h] at hwait
    simp [rgioeGetStatus] at hwait
  have f2y : (d2.am.updateImu m).alignFinished = true := by
    by_contra h
    rw [if_neg h] at hstart
    simp only [rgioeGetStatus] at hstart
    rw [hs2] at hstart
    exact absurd hstart (by decide)
  rw [if_pos f2y]
  show badV bad (d2.am.updateImu m).nav.vn
  rw [(imu_flags _ _).2]
  show badV bad a2.nav.vn
  have same : a2.level = a1.level ∧ a2.smooth = a1.smooth := by
    rw [ha2]
    unfold Align.updateGnss Align.yawStep
    dsimp only
    split_ifs <;> exact ⟨rfl, rfl⟩
  have hl := imu_level a2 a1 m same.1 same.2
  have y2 : a2.yaw = true ∧ (a2.updateImu m).level = true := by
    have : ((a2.updateImu m).yaw && (a2.updateImu m).level) = true := by
      have h := f2y
      unfold Align.alignFinished at h
      simp only [Bool.and_eq_true] at h ⊢
      tauto
    simpa [(imu_flags a2 m).1] using this
  have y1 : a1.yaw = false := by
    by_contra h
    have h : a1.yaw = true := by simpa using h
    apply f1n
    show (a1.updateImu m).alignFinished = true
    unfold Align.alignFinished
    rw [(imu_flags a1 m).1, h, ← hl, y2.2]
    rfl
  have y2' := y2.1
  rw [ha2] at y2' ⊢
  unfold Align.updateGnss at y2' ⊢
  split_ifs at y2' ⊢ with c0
  · exact absurd (y1.symm.trans y2') (by decide)
  · show badV bad (a1.yawStep f2).nav.vn
    have y3 : (a1.yawStep f2).yaw = true := y2'
    unfold Align.yawStep at y3 ⊢
    dsimp only at y3 ⊢
    split_ifs at y3 ⊢ with c1
    · intro i
      refine A.add_r _ _ (A.div_l _ _ ?_)
      rw [hpre, ht]
      exact hdiv _ _
    · exact absurd (y1.symm.trans y3) (by decide)
end not_a_number
/-! A device for which two fixes with one stamp (and different heights) start navigation. -/
section example_device
open NReal
/-- A number. -/
def nnum (x : ℝ) : NReal := (some x : Option ℝ)
theorem nquot (a b : ℝ) (h : b ≠ 0) : nnum a / nnum b = nnum (a / b) := by
  show (open Classical in if b = 0 then (none : Option ℝ) else some (a / b)) = some (a / b)
  rw [if_neg h]

/-- A levelled device that waits for its first fix. -/
noncomputable def firstFix : Dev NReal := { (Ex.zDev : Dev NReal) with status := 2, am := { (Ex.zAlign : Align NReal) with level := true } }
/-- A fix at height `h`. -/
noncomputable def fixAt (h : ℝ) : Gnss NReal := { (Ex.fix 4 : Gnss NReal) with height := (nnum (h)) }

theorem fixAt_distance : (Fl.f32 (vnorm (Earth.distance6 ((fixAt 100).lat * deg) ((fixAt 100).lon * deg) ((fixAt 0).lat * deg)
    ((fixAt 0).lon * deg) (fixAt 100).height (fixAt 0).height)) : NReal) = (nnum (100)) := by
  have z : ((fixAt 100).lat * deg : NReal) = (nnum (0)) ∧ ((fixAt 100).lon * deg : NReal) = (nnum (0)) ∧
      ((fixAt 0).lat * deg : NReal) = (nnum (0)) ∧ ((fixAt 0).lon * deg : NReal) = (nnum (0)) := by
    have : (deg : NReal) = (nnum ((Real.pi / ((180 : ℚ) : ℝ)))) := nquot _ _ (by norm_num)
    rw [this]
    have k : ∀ x : ℝ, ((0 : NReal) * (nnum (x)) : NReal) = (nnum (0)) := fun x =>
      congrArg some (zero_mul x)
    exact ⟨k _, k _, k _, k _⟩
  rw [z.1, z.2.1, z.2.2.1, z.2.2.2]
  have two : ∀ x : ℝ, ((nnum (x)) / Fl.lit 2 : NReal) = (nnum ((x / ((2 : ℚ) : ℝ)))) := fun x => nquot _ _ (by norm_num)
  have ha : ∀ a b : ℝ, (nnum (a) + (nnum (b)) : NReal) = (nnum ((a + b))) := fun _ _ => rfl
  have hm : ∀ a b : ℝ, (nnum (a) * (nnum (b)) : NReal) = (nnum ((a * b))) := fun _ _ => rfl
  have hsb : ∀ a b : ℝ, (nnum (a) - (nnum (b)) : NReal) = (nnum ((a - b))) := fun _ _ => rfl
  have rm : ∃ r : ℝ, (Earth.RM (nnum (0)) : NReal) = (nnum (r)) := by
    refine ⟨_, nquot _ _ ?_⟩
    simp
  have rn : ∃ r : ℝ, (Earth.RN (nnum (0)) : NReal) = (nnum (r)) := by
    refine ⟨_, nquot _ _ ?_⟩
    simp
  obtain ⟨r, rm⟩ := rm
  obtain ⟨n, rn⟩ := rn
  have v : Earth.distance6 (nnum 0) (nnum (0)) (nnum (0)) (nnum (0)) (fixAt 100).height (fixAt 0).height
      = v3 (nnum (0)) (nnum (0)) (nnum (100)) := by
    have h1 : (fixAt 100).height = (nnum (100)) := rfl
    have h0 : (fixAt 0).height = (nnum (0)) := rfl
    rw [h1, h0]
    unfold Earth.distance6 Earth.dN3 Earth.dE4
    dsimp only
    simp only [two, ha, zero_div, add_zero, rm, rn, hsb, hm, sub_zero, zero_mul]
    have hc : (Fl.cos (nnum (0)) : NReal) = (nnum ((Real.cos 0))) := rfl
    simp only [hc, hm, mul_zero]
  rw [v]
  have e : sqNorm (v3 (nnum 0) (nnum 0) (nnum 100)) = nnum (100 ^ 2) := by
    show (some (0 + 0 * 0 + 0 * 0 + 100 * 100 : ℝ) : Option ℝ) = some (100 ^ 2)
    norm_num
  unfold vnorm
  rw [e]
  show (some (Real.sqrt (100 ^ 2)) : Option ℝ) = some 100
  rw [Real.sqrt_sq (by norm_num)]

/-- The hypotheses of `C152_equal_stamps` are met. -/
example : (∀ x t : NReal, x / (t - t) * (t - t) = none) ∧ firstFix.status = 2 ∧ (fixAt 0).gpst = (fixAt 100).gpst ∧
    rgioeGetStatus (runCalls [.gnss (some (fixAt 0)), .time (some Ex.zImu)] (0, firstFix)).2 = 2 ∧
    rgioeGetStatus (runCalls [.gnss (some (fixAt 0)), .gnss (some (fixAt 100)), .time (some Ex.zImu)] (0, firstFix)).2 = 3 := by
  refine ⟨?_, rfl, rfl, ?_, ?_⟩
  · intro x t
    have : (x / (t - t) : NReal) = none := by
      cases t with
      | none => exact NReal.absorbing.div_r _ _ rfl
      | some t =>
        have e : ((nnum (t)) - (nnum (t)) : NReal) = (nnum (0)) := congrArg some (sub_self t)
        show (x / (nnum t - nnum t) : NReal) = none
        rw [e]
        cases x with
        | none => rfl
        | some x =>
          show (open Classical in if (0 : ℝ) = 0 then (none : Option ℝ) else some (x / 0)) = none
          rw [if_pos rfl]
    rw [this]
    rfl
  · have e : (firstFix.am.updateGnss 0 (fixAt 0)).2 = { firstFix.am with gnssPre := fixAt 0 } := by
      unfold Align.updateGnss
      rw [if_pos (by show decide ((0 : ℝ) = 0) = true; simp)]
    have r : runCalls [.gnss (some (fixAt 0)), .time (some Ex.zImu)] (0, firstFix) =
      ((rgioeTimeupdate (firstFix.am.updateGnss 0 (fixAt 0)).1 { firstFix with am := { firstFix.am with gnssPre := fixAt 0 } } (some Ex.zImu)).2.1,
       (rgioeTimeupdate (firstFix.am.updateGnss 0 (fixAt 0)).1 { firstFix with am := { firstFix.am with gnssPre := fixAt 0 } } (some Ex.zImu)).2.2) := by
      show runCalls [.time (some Ex.zImu)] ((rgioeGnssupdate 0 firstFix (some (fixAt 0))).2.1, (rgioeGnssupdate 0 firstFix (some (fixAt 0))).2.2) = _
      rw [att_gnss 0 firstFix _ rfl, e]
      rfl
    rw [r, att_time _ _ _ rfl, if_neg]
    · rfl
    · unfold Align.alignFinished
      rw [(imu_flags _ _).1]
      simp [firstFix, Ex.zAlign]
  · have e : (firstFix.am.updateGnss 0 (fixAt 0)).2 = { firstFix.am with gnssPre := fixAt 0 } := by
      unfold Align.updateGnss
      rw [if_pos (by show decide ((0 : ℝ) = 0) = true; simp)]
    set g1 := (firstFix.am.updateGnss 0 (fixAt 0)).1
    set a1 : Align NReal := { firstFix.am with gnssPre := fixAt 0 } with ha1
    set d1 : Dev NReal := { firstFix with am := a1 } with hd1
    set g2 := (a1.updateGnss g1 (fixAt 100)).1
    set a2 := (a1.updateGnss g1 (fixAt 100)).2 with ha2
    have r : runCalls [.gnss (some (fixAt 0)), .gnss (some (fixAt 100)), .time (some Ex.zImu)] (0, firstFix) =
      ((rgioeTimeupdate g2 { d1 with am := a2 } (some Ex.zImu)).2.1, (rgioeTimeupdate g2 { d1 with am := a2 } (some Ex.zImu)).2.2) := by
      show runCalls [.gnss (some (fixAt 100)), .time (some Ex.zImu)]
        ((rgioeGnssupdate 0 firstFix (some (fixAt 0))).2.1, (rgioeGnssupdate 0 firstFix (some (fixAt 0))).2.2) = _
      rw [att_gnss 0 firstFix _ rfl, e]
      show runCalls [.time (some Ex.zImu)] ((rgioeGnssupdate g1 d1 (some (fixAt 100))).2.1, (rgioeGnssupdate g1 d1 (some (fixAt 100))).2.2) = _
      rw [att_gnss g1 d1 _ rfl]
      rfl
    rw [r, att_time _ _ _ rfl, if_pos]
    · rfl
    · have hy : a2.yaw = true ∧ a2.level = true := by
        rw [ha2]
        unfold Align.updateGnss
        rw [if_neg (by show ¬ decide ((1 : ℝ) = 0) = true; simp)]
        unfold Align.yawStep
        dsimp only
        have hf := fixAt_distance
        rw [show a1.gnssPre = fixAt 0 from rfl, hf]
        rw [if_pos]
        · exact ⟨rfl, rfl⟩
        · show (decide ((0 : ℝ) < 100) && decide ((100 : ℝ) < ((1000 : ℚ) : ℝ))) = true
          norm_num
      unfold Align.alignFinished
      rw [(imu_flags _ _).1]
      show (_ && _) = true
      have hl : (a2.updateImu (Ex.zImu : Imu NReal)).level = true := by
        unfold Align.updateImu
        dsimp only
        rw [if_pos hy.2]
        exact hy.2
      simp [hl, hy.1]
end example_device
end Verif.Props
