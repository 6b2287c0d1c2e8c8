import Verif.Props.Range
import Verif.Spec.Examples
import Verif.Lemmas.Api
import Mathlib.Analysis.SpecialFunctions.Complex.Arg
import Mathlib.Tactic.SplitIfs
import Mathlib.Tactic.Ring
import Mathlib.Tactic.FieldSimp
/-! # C159: either convention for longitudes (-180..180 or 0..360) may be used, in the start state and in every fix -/
namespace Verif.Props
open Verif Verif.Convert Verif.Spec Matrix

/-- Two longitudes in degrees of the same meridian. -/
def sameMeridian (a b : ℝ) : Prop := ∃ k : ℤ, b = a + 360 * k

/-- The same call, except that longitudes may be written in another convention. -/
inductive sameButTurns : Call ℝ → Call ℝ → Prop
  | init (o : Opt ℝ) (n : NavOutput ℝ) (lon : ℝ) (j : Junk ℝ) : o.alignMode = ALIGN_USE_GIVEN → sameMeridian n.lon lon →
      sameButTurns (.init o (some n) j) (.init o (some { n with lon := lon }) j)
  | gnss (m : Gnss ℝ) (lon : ℝ) : sameMeridian m.lon lon → sameButTurns (.gnss (some m)) (.gnss (some { m with lon := lon }))
  | other (c : Call ℝ) : c.isInit = false → sameButTurns c c

/-- Angles in radians that differ by full turns. -/
def fullTurns (a b : ℝ) : Prop := ∃ k : ℤ, b = a + 2 * Real.pi * k
/-- The opposite quaternion (the same rotation). -/
def opp (q : Quat ℝ) : Quat ℝ := ⟨-q.w, -q.x, -q.y, -q.z⟩
/-- Quaternions that are equal or opposite. -/
def sameQuat (q p : Quat ℝ) : Prop := p = q ∨ p = opp q

theorem opp_mul (q p : Quat ℝ) : (opp q).mul p = opp (q.mul p) := by
  simp only [Quat.mul, opp, Quat.mk.injEq]; refine ⟨?_, ?_, ?_, ?_⟩ <;> ring
theorem mul_opp (q p : Quat ℝ) : q.mul (opp p) = opp (q.mul p) := by
  simp only [Quat.mul, opp, Quat.mk.injEq]; refine ⟨?_, ?_, ?_, ?_⟩ <;> ring
theorem opp_normalized (q : Quat ℝ) : (opp q).normalized = opp q.normalized := by
  have e : (opp q).nsq = q.nsq := by simp only [Quat.nsq, opp]; ring
  unfold Quat.normalized
  rw [e]
  split_ifs
  · simp only [opp, Quat.mk.injEq]; refine ⟨?_, ?_, ?_, ?_⟩ <;> ring
  · rfl
theorem sameQuat.right {q p : Quat ℝ} (h : sameQuat q p) (r : Quat ℝ) : sameQuat (q.mul r) (p.mul r) := by
  rcases h with h | h
  · exact Or.inl (by rw [h])
  · exact Or.inr (by rw [h, opp_mul])
theorem sameQuat.left {q p : Quat ℝ} (h : sameQuat q p) (r : Quat ℝ) : sameQuat (r.mul q) (r.mul p) := by
  rcases h with h | h
  · exact Or.inl (by rw [h])
  · exact Or.inr (by rw [h, mul_opp])
theorem sameQuat.norm {q p : Quat ℝ} (h : sameQuat q p) : sameQuat q.normalized p.normalized := by
  rcases h with h | h
  · exact Or.inl (by rw [h])
  · exact Or.inr (by rw [h, opp_normalized])

theorem fullTurns.refl (a : ℝ) : fullTurns a a := ⟨0, by simp⟩

/-- Equal or opposite quaternions give the same latitude and the same meridian. -/
theorem sameQuat.lla {q p : Quat ℝ} (h : sameQuat q p) :
    (qneToLla p).lat = (qneToLla q).lat ∧ fullTurns (qneToLla q).lon (qneToLla p).lon := by
  rcases h with h | h
  · subst h; exact ⟨rfl, fullTurns.refl _⟩
  · subst h
    constructor
    · simp only [qneToLla, opp, neg_div_neg_eq]
    · by_cases h0 : (⟨q.w, q.z⟩ : ℂ) = 0
      · have hw : q.w = 0 := congrArg Complex.re h0
        have hz : q.z = 0 := congrArg Complex.im h0
        refine ⟨0, ?_⟩
        simp [qneToLla, opp, hw, hz, atan2_real]
      · have e := Complex.arg_neg_coe_angle h0
        rw [← Real.Angle.coe_add, Real.Angle.angle_eq_iff_two_pi_dvd_sub] at e
        obtain ⟨k, hk⟩ := e
        have en : (-(⟨q.w, q.z⟩ : ℂ)) = ⟨-q.w, -q.z⟩ := by apply Complex.ext <;> simp
        rw [en] at hk
        refine ⟨2 * k + 1, ?_⟩
        simp only [qneToLla, opp, atan2_real, lit_real]
        push_cast
        linear_combination 2 * hk

theorem fullTurns.cos {a b : ℝ} (h : fullTurns a b) : Real.cos b = Real.cos a := by
  obtain ⟨k, rfl⟩ := h
  have := Real.cos_add_int_mul_two_pi a k
  rw [← this]; congr 1; ring
theorem fullTurns.sin {a b : ℝ} (h : fullTurns a b) : Real.sin b = Real.sin a := by
  obtain ⟨k, rfl⟩ := h
  have := Real.sin_add_int_mul_two_pi a k
  rw [← this]; congr 1; ring

theorem cne_turns {lat a b : ℝ} (h : fullTurns a b) : llaToCne (⟨lat, b⟩ : LatLon ℝ) = llaToCne ⟨lat, a⟩ := by
  simp only [llaToCne, cos_real, sin_real, h.cos, h.sin]
theorem xyz_turns {lat a b hh : ℝ} (h : fullTurns a b) : llaToXyz (v3 lat b hh) = llaToXyz (v3 lat a hh) := by
  have e0 : ∀ l : ℝ, (v3 lat l hh) 0 = lat := fun _ => rfl
  have e1 : ∀ l : ℝ, (v3 lat l hh) 1 = l := fun _ => rfl
  have e2 : ∀ l : ℝ, (v3 lat l hh) 2 = hh := fun _ => rfl
  simp only [llaToXyz, e0, e1, e2, cos_real, sin_real, h.cos, h.sin]

/-- The filter with other values for the position quaternion and for the longitude (of the epoch and of the middle of the
last step). -/
def moveI (q : Quat ℝ) (l m : ℝ) (s : Ins ℝ) : Ins ℝ :=
  { s with nav := { s.nav with Qne := q, pos := v3 (s.nav.pos 0) l (s.nav.pos 2) }, posMid := v3 (s.posMid 0) m (s.posMid 2) }
@[inherit_doc moveI] def moveF (q : Quat ℝ) (l m : ℝ) (f : Fusion ℝ) : Fusion ℝ := { f with ins := moveI q l m f.ins }

/-- Two filters that differ in the convention of the longitude only. -/
def Same (f f' : Fusion ℝ) : Prop :=
  ∃ q l m, f' = moveF q l m f ∧ sameQuat f.ins.nav.Qne q ∧ fullTurns (f.ins.nav.pos 1) l

theorem v3_eta (v : V3 ℝ) : v3 (v 0) (v 1) (v 2) = v := by funext i; fin_cases i <;> rfl
theorem moveF_self (f : Fusion ℝ) : moveF f.ins.nav.Qne (f.ins.nav.pos 1) (f.ins.posMid 1) f = f := by
  unfold moveF moveI
  rw [v3_eta, v3_eta]
theorem Same.refl (f : Fusion ℝ) : Same f f := ⟨_, _, _, (moveF_self f).symm, Or.inl rfl, fullTurns.refl _⟩

theorem same_take {f f' : Fusion ℝ} (h : Same f f') : Same f.takeCorrection f'.takeCorrection := by
  obtain ⟨q, l, m, rfl, hq, hl⟩ := h
  refine ⟨q, l, m, ?_, ?_, ?_⟩
  · unfold Fusion.takeCorrection
    show (if 0 < f.updateFlag.toNat then _ else _) = _
    split_ifs <;> rfl
  · unfold Fusion.takeCorrection; split_ifs <;> exact hq
  · unfold Fusion.takeCorrection; split_ifs <;> exact hl

theorem same_feedBack {f f' : Fusion ℝ} (h : Same f f') (xd : Fin 15 → ℝ) : Same (f.feedBack xd) (f'.feedBack xd) := by
  obtain ⟨q, l, m, rfl, hq, hl⟩ := h
  have hx := fun r : Quat ℝ => (hq.right r).norm
  refine ⟨((moveF q l m f).feedBack xd).ins.nav.Qne, ((moveF q l m f).feedBack xd).ins.nav.pos 1, m, ?_, hx _, (hx _).lla.2⟩
  have e := (hx (rvToQuat (-(v3 (xd 1 / (Earth.RN (f.ins.nav.pos 0) + f.ins.nav.pos 2))
    (-(xd 0) / (Earth.RM (f.ins.nav.pos 0) + f.ins.nav.pos 2))
    (-(xd 1) * Fl.tan (f.ins.nav.pos 0) / (Earth.RN (f.ins.nav.pos 0) + f.ins.nav.pos 2)) : V3 ℝ)))).lla.1
  have e2 : ((moveF q l m f).feedBack xd).ins.nav.pos 0 = (f.feedBack xd).ins.nav.pos 0 := e
  have e3 : ((moveF q l m f).feedBack xd).ins.nav.pos = v3 ((f.feedBack xd).ins.nav.pos 0)
      (((moveF q l m f).feedBack xd).ins.nav.pos 1) ((f.feedBack xd).ins.nav.pos 2) := by
    rw [← e2]; exact (v3_eta _).symm
  have big : (moveF q l m f).feedBack xd = { f.feedBack xd with ins := { (f.feedBack xd).ins with
      nav := { (f.feedBack xd).ins.nav with
        Qne := ((moveF q l m f).feedBack xd).ins.nav.Qne, pos := ((moveF q l m f).feedBack xd).ins.nav.pos }
      posMid := v3 (f.ins.posMid 0) m (f.ins.posMid 2) } } := rfl
  generalize hA : ((moveF q l m f).feedBack xd).ins.nav.Qne = A at *
  generalize hB : ((moveF q l m f).feedBack xd).ins.nav.pos = B at *
  rw [big, e3]
  rfl

theorem same_apply {f f' : Fusion ℝ} (h : Same f f') : Same f.applyCorrection f'.applyCorrection := by
  have hu : f'.updateIter = f.updateIter ∧ f'.kfXd = f.kfXd ∧ f'.monitor = f.monitor := by
    obtain ⟨q, l, m, rfl, -, -⟩ := h; exact ⟨rfl, rfl, rfl⟩
  unfold Fusion.applyCorrection
  rw [hu.1, hu.2.1, hu.2.2]
  split_ifs
  · obtain ⟨q, l, m, e, hq, hl⟩ := same_feedBack h (vd f.kfXd (ofI f.monitor.maxIter))
    refine ⟨q, l, m, ?_, hq, hl⟩
    rw [e]; rfl
  · exact h

theorem omegaEnN_congr (v p p' : V3 ℝ) (h0 : p 0 = p' 0) (h2 : p 2 = p' 2) : Earth.omegaEnN v p = Earth.omegaEnN v p' := by
  unfold Earth.omegaEnN
  rw [h0, h2]

/-- Two mechanizations that differ in the convention of the longitude only. -/
def SameI (s s' : Ins ℝ) : Prop := ∃ q l m, s' = moveI q l m s ∧ sameQuat s.nav.Qne q ∧ fullTurns (s.nav.pos 1) l

theorem same_extrapolate {s s' : Ins ℝ} (h : SameI s s') :
    s'.extrapolate.1 = s.extrapolate.1 ∧ SameI s.extrapolate.2 s'.extrapolate.2 := by
  obtain ⟨q, l, m, rfl, hq, hl⟩ := h
  have hx := fun a b : Quat ℝ => ((hq.left a).right b).norm
  have e := fun a b => (hx a b).lla.1
  have en : ∀ v : V3 ℝ, Earth.omegaEnN v (moveI q l m s).nav.pos = Earth.omegaEnN v s.nav.pos := fun _ => rfl
  have e0 : (moveI q l m s).extrapolate.2.posMid 0 = s.extrapolate.2.posMid 0 := e _ _
  have e2 : (moveI q l m s).extrapolate.2.posMid 2 = s.extrapolate.2.posMid 2 := rfl
  have eg : (moveI q l m s).extrapolate.1 = Earth.gravity ((moveI q l m s).extrapolate.2.posMid 0) ((moveI q l m s).extrapolate.2.posMid 2) := rfl
  refine ⟨by rw [eg, e0, e2]; rfl, q, l, (moveI q l m s).extrapolate.2.posMid 1, ?_, hq, hl⟩
  have w1 : (moveI q l m s).extrapolate.2.omegaEnN = s.extrapolate.2.omegaEnN := by
    show Earth.omegaEnN _ _ = Earth.omegaEnN _ _
    exact omegaEnN_congr _ _ _ e0 e2
  have w2 : (moveI q l m s).extrapolate.2.omegaIeN = s.extrapolate.2.omegaIeN := by
    show Earth.omegaIeN ((moveI q l m s).extrapolate.2.posMid 0) = Earth.omegaIeN (s.extrapolate.2.posMid 0)
    rw [e0]
  have w3 : (moveI q l m s).extrapolate.2.posMid = v3 (s.extrapolate.2.posMid 0) ((moveI q l m s).extrapolate.2.posMid 1) (s.extrapolate.2.posMid 2) := by
    rw [← e0, ← e2]; exact (v3_eta _).symm
  have big : (moveI q l m s).extrapolate.2 = { moveI q l m s with
      vnMid := s.extrapolate.2.vnMid, posMid := (moveI q l m s).extrapolate.2.posMid
      omegaEnN := (moveI q l m s).extrapolate.2.omegaEnN, omegaIeN := (moveI q l m s).extrapolate.2.omegaIeN } := rfl
  rw [big, w1, w2, w3]
  rfl

theorem same_velocity (g : ℝ) {s s' : Ins ℝ} (h : SameI s s') (a w : V3 ℝ) : SameI (s.velocityUpdate g a w) (s'.velocityUpdate g a w) := by
  obtain ⟨q, l, m, rfl, hq, hl⟩ := h
  exact ⟨q, l, m, rfl, hq, hl⟩

theorem same_position {s s' : Ins ℝ} (h : SameI s s') : SameI s.positionUpdate s'.positionUpdate := by
  obtain ⟨q, l, m, rfl, hq, hl⟩ := h
  have hx := fun a b : Quat ℝ => ((hq.left a).right b).norm
  have e0 : (moveI q l m s).positionUpdate.nav.pos 0 = s.positionUpdate.nav.pos 0 := (hx _ _).lla.1
  have ht : fullTurns (s.positionUpdate.nav.pos 1) ((moveI q l m s).positionUpdate.nav.pos 1) := (hx _ _).lla.2
  have ep : (moveI q l m s).positionUpdate.nav.pos = v3 (s.positionUpdate.nav.pos 0) ((moveI q l m s).positionUpdate.nav.pos 1)
      (s.positionUpdate.nav.pos 2) := by rw [← e0]; exact (v3_eta _).symm
  have m0 : (moveI q l m s).positionUpdate.posMid 0 = s.positionUpdate.posMid 0 := by
    show (moveI q l m s).positionUpdate.nav.pos 0 + Fl.lit (1 / 2) * ((moveI q l m s).positionUpdate.nav.pos 0 - s.nav.pos 0) =
      s.positionUpdate.nav.pos 0 + Fl.lit (1 / 2) * (s.positionUpdate.nav.pos 0 - s.nav.pos 0)
    rw [e0]
  have m2 : (moveI q l m s).positionUpdate.posMid 2 = s.positionUpdate.posMid 2 := rfl
  have em : (moveI q l m s).positionUpdate.posMid = v3 (s.positionUpdate.posMid 0) ((moveI q l m s).positionUpdate.posMid 1)
      (s.positionUpdate.posMid 2) := by rw [← m0, ← m2]; exact (v3_eta _).symm
  have ec : (moveI q l m s).positionUpdate.nav.Cne = s.positionUpdate.nav.Cne := by
    show llaToCne (⟨(moveI q l m s).positionUpdate.nav.pos 0, (moveI q l m s).positionUpdate.nav.pos 1⟩ : LatLon ℝ) =
      llaToCne ⟨s.positionUpdate.nav.pos 0, s.positionUpdate.nav.pos 1⟩
    rw [e0]; exact cne_turns ht
  have w1 : (moveI q l m s).positionUpdate.omegaEnN = s.positionUpdate.omegaEnN := by
    show Earth.omegaEnN _ (moveI q l m s).positionUpdate.posMid = Earth.omegaEnN _ s.positionUpdate.posMid
    exact omegaEnN_congr _ _ _ m0 m2
  have w2 : (moveI q l m s).positionUpdate.omegaIeN = s.positionUpdate.omegaIeN := by
    show Earth.omegaIeN ((moveI q l m s).positionUpdate.posMid 0) = Earth.omegaIeN (s.positionUpdate.posMid 0)
    rw [m0]
  have big : (moveI q l m s).positionUpdate = { moveI q l m s with
      nav := { (moveI q l m s).nav with
        Qne := (moveI q l m s).positionUpdate.nav.Qne, Cne := (moveI q l m s).positionUpdate.nav.Cne
        pos := (moveI q l m s).positionUpdate.nav.pos }
      posMid := (moveI q l m s).positionUpdate.posMid
      omegaIeN := (moveI q l m s).positionUpdate.omegaIeN, omegaEnN := (moveI q l m s).positionUpdate.omegaEnN } := rfl
  refine ⟨(moveI q l m s).positionUpdate.nav.Qne, (moveI q l m s).positionUpdate.nav.pos 1, (moveI q l m s).positionUpdate.posMid 1, ?_, hx _ _, ht⟩
  rw [big, w1, w2, ec, ep, em]
  rfl

theorem same_atti {s s' : Ins ℝ} (h : SameI s s') (w : V3 ℝ) : SameI (s.attiUpdate w) (s'.attiUpdate w) := by
  obtain ⟨q, l, m, rfl, hq, hl⟩ := h
  exact ⟨q, l, m, rfl, hq, hl⟩

theorem same_forward (g g' : ℝ) {s s' : Ins ℝ} (h : SameI s s') (imu : Imu ℝ) :
    (s'.forwardImu g' imu).1 = (s.forwardImu g imu).1 ∧ SameI (s.forwardImu g imu).2 (s'.forwardImu g' imu).2 := by
  have hc : Ins.compensate s'.dt imu.acce s'.nav.ab s'.nav.as = Ins.compensate s.dt imu.acce s.nav.ab s.nav.as ∧
      Ins.compensate s'.dt imu.gyro s'.nav.gb s'.nav.gs = Ins.compensate s.dt imu.gyro s.nav.gb s.nav.gs := by
    obtain ⟨q, l, m, rfl, -, -⟩ := h; exact ⟨rfl, rfl⟩
  obtain ⟨h1, h2⟩ := same_extrapolate h
  unfold Ins.forwardImu
  dsimp only
  rw [hc.1, hc.2]
  unfold Ins.forward
  dsimp only
  rw [h1]
  refine ⟨rfl, ?_⟩
  obtain ⟨q, l, m, e, hq, hl⟩ := same_atti (same_position (same_velocity s.extrapolate.1 h2
    (Ins.compensate s.dt imu.acce s.nav.ab s.nav.as) (Ins.compensate s.dt imu.gyro s.nav.gb s.nav.gs)))
    (Ins.compensate s.dt imu.gyro s.nav.gb s.nav.gs)
  refine ⟨q, l, m, ?_, hq, hl⟩
  rw [e]; rfl

theorem same_propagate (g g' : ℝ) {f f' : Fusion ℝ} (h : Same f f') (imu : Imu ℝ) :
    (f'.propagate g' imu).1 = (f.propagate g imu).1 ∧ Same (f.propagate g imu).2 (f'.propagate g' imu).2 := by
  obtain ⟨q, l, m, rfl, hq, hl⟩ := h
  obtain ⟨h1, q', l', m', e, hq', hl'⟩ := same_forward g g' (s := f.ins) (s' := moveI q l m f.ins) ⟨q, l, m, rfl, hq, hl⟩ imu
  refine ⟨h1, q', l', m', ?_, hq', hl'⟩
  have hi : ((moveF q l m f).ins.forwardImu g' imu).2 = moveI q' l' m' (f.ins.forwardImu g imu).2 := e
  have hg : ((moveF q l m f).ins.forwardImu g' imu).1 = (f.ins.forwardImu g imu).1 := h1
  unfold Fusion.propagate
  dsimp only
  have hp : ((moveF q l m f).ins.forwardImu g' imu) = ((f.ins.forwardImu g imu).1, moveI q' l' m' (f.ins.forwardImu g imu).2) :=
    Prod.ext hg hi
  rw [hp]
  rfl

theorem same_vel {f f' : Fusion ℝ} (h : Same f f') : f'.velModel = f.velModel := by
  obtain ⟨q, l, m, rfl, -, -⟩ := h; rfl

theorem same_zupt {f f' : Fusion ℝ} (h : Same f f') : Same f.zuptStage f'.zuptStage := by
  obtain ⟨q, l, m, rfl, hq, hl⟩ := h
  unfold Fusion.zuptStage
  show Same (if f.timeUpdateIdx.toNat % 8 ≠ 0 ∧ f.opt.zuptEnable ≠ 0 then _ else _)
    (if f.timeUpdateIdx.toNat % 8 ≠ 0 ∧ f.opt.zuptEnable ≠ 0 then
      if f.smooth.isStatic then _ else _ else _)
  split_ifs
  · unfold Fusion.measureZeroVelocity
    show Same _ (Fusion.setSensor (if f.opt.zuptaEnable = 0 then _ else _) _)
    dsimp only
    split_ifs
    · exact ⟨q, l, m, rfl, hq, hl⟩
    · exact ⟨q, l, m, rfl, hq, hl⟩
  · exact ⟨q, l, m, rfl, hq, hl⟩
  · exact ⟨q, l, m, rfl, hq, hl⟩

theorem same_nhc {f f' : Fusion ℝ} (h : Same f f') : Same f.nhcStage f'.nhcStage := by
  obtain ⟨q, l, m, rfl, hq, hl⟩ := h
  unfold Fusion.nhcStage
  show Same (if f.timeUpdateIdx.toNat % 32 = 1 ∧ f.opt.nhcEnable ≠ 0 ∧ f.opt.odoEnable = 0 then _ else _)
    (if f.timeUpdateIdx.toNat % 32 = 1 ∧ f.opt.nhcEnable ≠ 0 ∧ f.opt.odoEnable = 0 then _ else _)
  split_ifs
  · exact ⟨q, l, m, rfl, hq, hl⟩
  · exact ⟨q, l, m, rfl, hq, hl⟩

theorem same_time (g g' : ℝ) {f f' : Fusion ℝ} (h : Same f f') (imu : Imu ℝ) :
    (f'.timeUpdate g' imu).1 = (f.timeUpdate g imu).1 ∧ Same (f.timeUpdate g imu).2 (f'.timeUpdate g' imu).2 := by
  obtain ⟨h1, h2⟩ := same_propagate g g' (same_apply (same_take h)) imu
  obtain ⟨q, l, m, e, hq, hl⟩ := same_nhc (same_zupt h2)
  refine ⟨h1, q, l, m, ?_, hq, hl⟩
  unfold Fusion.timeUpdate
  dsimp only
  rw [e]
  rfl

theorem same_posZ {f f' : Fusion ℝ} (h : Same f f') (lat a b hh : ℝ) (hb : fullTurns a b) :
    f'.posZ (v3 lat b hh) = f.posZ (v3 lat a hh) := by
  obtain ⟨q, l, m, rfl, hq, hl⟩ := h
  unfold Fusion.posZ
  have e1 : llaToXyz (moveF q l m f).ins.nav.pos = llaToXyz f.ins.nav.pos := by
    show llaToXyz (v3 (f.ins.nav.pos 0) l (f.ins.nav.pos 2)) = _
    rw [xyz_turns hl, v3_eta]
  rw [xyz_turns hb, e1]
  rfl

theorem meridian_turns {a b : ℝ} (h : sameMeridian a b) : fullTurns (a * deg) (b * deg) := by
  obtain ⟨k, rfl⟩ := h
  refine ⟨k, ?_⟩
  simp only [deg, lit_real, pi_real]
  push_cast
  ring

theorem same_gnss {f f' : Fusion ℝ} (h : Same f f') (m : Gnss ℝ) (lon : ℝ) (hm : sameMeridian m.lon lon) :
    Same (f.measureGnss m) (f'.measureGnss { m with lon := lon }) := by
  have hz := same_posZ (f := (f.setSensor SENSOR_GNSS).setGnssMode m.mode) (f' := (f'.setSensor SENSOR_GNSS).setGnssMode m.mode)
    (by obtain ⟨q, l, m, rfl, hq, hl⟩ := h; exact ⟨q, l, m, rfl, hq, hl⟩) (m.lat * deg) (m.lon * deg) (lon * deg) m.height
    (meridian_turns hm)
  unfold Fusion.measureGnss
  show Same _ (if Fusion.gnssCheck m then _ else _)
  dsimp only
  split_ifs
  · unfold Fusion.measurePos
    rw [hz]
    obtain ⟨q, l, m, rfl, hq, hl⟩ := h
    exact ⟨q, l, m, rfl, hq, hl⟩
  · obtain ⟨q, l, m, rfl, hq, hl⟩ := h
    exact ⟨q, l, m, rfl, hq, hl⟩

/-- The quaternion of the same place with the longitude in another convention is the same or the opposite one. -/
theorem quat_turns {lat a b : ℝ} (h : fullTurns a b) : sameQuat (llaToQne (⟨lat, a⟩ : LatLon ℝ)) (llaToQne ⟨lat, b⟩) := by
  obtain ⟨k, rfl⟩ := h
  have e : (1 / 2 : ℝ) * (a + 2 * Real.pi * k) = 1 / 2 * a + k * Real.pi := by ring
  have hc := Real.cos_add_int_mul_pi (1 / 2 * a) k
  have hs := Real.sin_add_int_mul_pi (1 / 2 * a) k
  have hl : (Fl.lit (1 / 2) : ℝ) = 1 / 2 := by simp
  rcases Int.even_or_odd k with he | ho
  · left
    rw [he.neg_one_zpow, one_mul] at hc hs
    simp only [llaToQne, cos_real, sin_real, hl, e, hc, hs]
  · right
    rw [ho.neg_one_zpow, neg_one_mul] at hc hs
    simp only [llaToQne, opp, cos_real, sin_real, hl, e, hc, hs, mul_neg, neg_mul, neg_neg]

theorem same_init (g g' : ℝ) (f f' : Fusion ℝ) (hf : Same f f') (n : NavOutput ℝ) (lon : ℝ) (o : Opt ℝ) (h : sameMeridian n.lon lon) :
    (f'.initFusion g' (makeNavEpoch { n with lon := lon } o) o).1 = (f.initFusion g (makeNavEpoch n o) o).1 ∧
    Same (f.initFusion g (makeNavEpoch n o) o).2 (f'.initFusion g' (makeNavEpoch { n with lon := lon } o) o).2 := by
  have ht := meridian_turns h
  obtain ⟨q, l, m, rfl, hq, hl⟩ := hf
  refine ⟨rfl, llaToQne ⟨n.lat * deg, lon * deg⟩, lon * deg, m, ?_, quat_turns ht, ht⟩
  have ec : llaToCne (⟨n.lat * deg, lon * deg⟩ : LatLon ℝ) = llaToCne ⟨n.lat * deg, n.lon * deg⟩ := cne_turns ht
  have ec' : (makeNavEpoch { n with lon := lon } o).Cne = (makeNavEpoch n o).Cne := ec
  have big : makeNavEpoch { n with lon := lon } o = { makeNavEpoch n o with
      Cne := (makeNavEpoch { n with lon := lon } o).Cne, Qne := llaToQne ⟨n.lat * deg, lon * deg⟩
      pos := v3 (n.lat * deg) (lon * deg) n.height } := rfl
  rw [big, ec']
  rfl

theorem turns_meridian {a b : ℝ} (h : fullTurns a b) : sameMeridian (a / deg) (b / deg) := by
  obtain ⟨k, rfl⟩ := h
  refine ⟨k, ?_⟩
  simp only [deg, lit_real, pi_real]
  have := Real.pi_ne_zero
  push_cast
  field_simp
  ring

/-- The result of the two filters differs in the convention of the longitude only. -/
theorem same_output {f f' : Fusion ℝ} (h : Same f f') :
    ∃ lon, sameMeridian f.output.lon lon ∧ f'.output = { f.output with lon := lon } := by
  obtain ⟨q, l, m, rfl, hq, hl⟩ := h
  have e0 : (moveF q l m f).projPos 0 = f.projPos 0 := rfl
  have e2 : (moveF q l m f).projPos 2 = f.projPos 2 := rfl
  have e1 : fullTurns (f.projPos 1) ((moveF q l m f).projPos 1) := by
    obtain ⟨k, hk⟩ := hl
    refine ⟨k, ?_⟩
    show l + _ = f.ins.nav.pos 1 + _ + _
    rw [hk, add_right_comm]
    rfl
  by_cases ho : f.opt.outputProjectEnable ≠ 0
  · refine ⟨(moveF q l m f).projPos 1 / deg, ?_, ?_⟩
    · have e : f.output.lon = f.projPos 1 / deg := by unfold Fusion.output; dsimp only; rw [if_pos ho]
      rw [e]; exact turns_meridian e1
    · unfold Fusion.output
      dsimp only
      rw [if_pos ho, if_pos (show (moveF q l m f).opt.outputProjectEnable ≠ 0 from ho), if_pos ho, e0, e2,
        if_pos (show (moveF q l m f).opt.outputProjectEnable ≠ 0 from ho)]
      rfl
  · refine ⟨l / deg, ?_, ?_⟩
    · have e : f.output.lon = f.ins.nav.pos 1 / deg := by unfold Fusion.output; dsimp only; rw [if_neg ho]
      rw [e]; exact turns_meridian hl
    · unfold Fusion.output
      dsimp only
      rw [if_neg ho, if_neg (show ¬ (moveF q l m f).opt.outputProjectEnable ≠ 0 from ho), if_neg ho,
        if_neg (show ¬ (moveF q l m f).opt.outputProjectEnable ≠ 0 from ho)]
      rfl

/-- What two runs may answer to one call: the same, except that a longitude may be given in another convention. -/
def agree (c : Call ℝ) (a a' : Answer ℝ) : Prop :=
  match c, a, a' with
  | .getPos, .vec p s, .vec p' s' => p' 0 = p 0 ∧ sameMeridian (p 1) (p' 1) ∧ p' 2 = p 2 ∧ s' = s
  | .getResult _, .pva e p, .pva e' p' => e' = e ∧ sameMeridian p.lon p'.lon ∧ p' = { p with lon := p'.lon }
  | _, _, _ => a' = a
/-- The same for all calls of a history. -/
def agreeAll : List (Call ℝ) → List (Answer ℝ) → List (Answer ℝ) → Prop
  | [], [], [] => True
  | c :: cs, a :: as, b :: bs => agree c a b ∧ agreeAll cs as bs
  | _, _, _ => False

/-- Two processes with one device each that differ in the convention of the longitude only. -/
structure SameD (s s' : ℝ × Dev ℝ) : Prop where
  g : s'.2.status = ST_NAVIGATION → s'.1 = s.1
  df : Same s.2.df s'.2.df
  status : s'.2.status = s.2.status
  opt : s'.2.opt = s.2.opt
  phase : s.2.status = ST_NAVIGATION ∨ s.2.status = ST_INIT ∧ s.2.opt.alignMode = ALIGN_USE_GIVEN ∧
    ∃ lon, sameMeridian s.2.curPva.lon lon ∧ s'.2.curPva = { s.2.curPva with lon := lon }

theorem sameMeridian.refl (a : ℝ) : sameMeridian a a := ⟨0, by simp⟩

theorem exec_init (o : Opt ℝ) (n : NavOutput ℝ) (j : Junk ℝ) (s : ℝ × Dev ℝ) :
    (Call.init o (some n) j).exec s = ((s.1, { df := Fusion.new j.df, am := Align.new j.am o, status := ST_INIT, opt := o, curPva := n }), .code E_OK) := by
  unfold Call.exec
  dsimp only
  have e : rgioeInit j s.2 (some o) (some n) = some (E_OK, { df := Fusion.new j.df, am := Align.new j.am o, status := ST_INIT, opt := o, curPva := n }) := by
    unfold rgioeInit
    dsimp only
    rw [if_neg (by simp)]
    rfl
  rw [e]

theorem convention_init {s s' : ℝ × Dev ℝ} {o : Opt ℝ} {n : NavOutput ℝ} {lon : ℝ} {j : Junk ℝ}
    (hm : o.alignMode = ALIGN_USE_GIVEN) (h : sameMeridian n.lon lon) :
    SameD ((Call.init o (some n) j).exec s).1 ((Call.init o (some { n with lon := lon }) j).exec s').1 := by
  rw [exec_init, exec_init]
  exact ⟨fun h => by simp [ST_INIT, ST_NAVIGATION] at h, Same.refl _, rfl, rfl, Or.inr ⟨rfl, hm, lon, h, rfl⟩⟩

theorem first_epoch (g : ℝ) (d : Dev ℝ) (m : Imu ℝ) (hp : d.status = ST_INIT) (hu : d.opt.alignMode = ALIGN_USE_GIVEN) :
    rgioeTimeupdate g d (some m) = (E_OK,
      ((d.df.initFusion g (makeNavEpoch d.curPva d.opt) d.opt).2.timeUpdate (d.df.initFusion g (makeNavEpoch d.curPva d.opt) d.opt).1 m).1,
      { df := ((d.df.initFusion g (makeNavEpoch d.curPva d.opt) d.opt).2.timeUpdate (d.df.initFusion g (makeNavEpoch d.curPva d.opt) d.opt).1 m).2
        am := d.am, status := ST_NAVIGATION, opt := d.opt, curPva := d.curPva }) := by
  unfold rgioeTimeupdate
  simp only [hp, hu, if_true]

theorem convention_step {c c' : Call ℝ} (hc : sameButTurns c c') {s s' : ℝ × Dev ℝ} (h : SameD s s') :
    agree c (c.exec s).2 (c'.exec s').2 ∧ SameD (c.exec s).1 (c'.exec s').1 := by
  have hn : ¬ (ST_NAVIGATION = ST_INIT) := by simp [ST_INIT, ST_NAVIGATION]
  have hn1 : ¬ (ST_NAVIGATION = ST_ALIGN) := by simp [ST_ALIGN, ST_NAVIGATION]
  have hn2 : ¬ (ST_NAVIGATION = ST_ATTITUDE) := by simp [ST_ATTITUDE, ST_NAVIGATION]
  have hi : ¬ (ST_INIT = ST_NAVIGATION) := by simp [ST_INIT, ST_NAVIGATION]
  have hi1 : ¬ (ST_INIT = ST_ALIGN) := by simp [ST_ALIGN, ST_INIT]
  have hi2 : ¬ (ST_INIT = ST_ATTITUDE) := by simp [ST_ATTITUDE, ST_INIT]
  cases hc with
  | init o n lon j hm hl =>
    refine ⟨?_, convention_init hm hl⟩
    rw [exec_init, exec_init]
    rfl
  | gnss m lon hm =>
    rcases h.phase with hp | ⟨hp, -⟩
    · have hp' := h.status.trans hp
      refine ⟨?_, ?_⟩
      · show Answer.code _ = Answer.code _
        unfold rgioeGnssupdate
        simp only [hp, hp', if_neg hn, hn1, hn2, or_self, if_false, if_true]
      · show SameD (rgioeGnssupdate s.1 s.2 (some m)).2 (rgioeGnssupdate s'.1 s'.2 (some { m with lon := lon })).2
        unfold rgioeGnssupdate
        simp only [hp, hp', if_neg hn, hn1, hn2, or_self, if_false, if_true]
        exact ⟨fun _ => h.g hp', same_gnss h.df m lon hm, rfl, h.opt, Or.inl rfl⟩
    · have hp' := h.status.trans hp
      have e1 : rgioeGnssupdate s.1 s.2 (some m) = (E_OK, s.1, s.2) := by unfold rgioeGnssupdate; simp only [hp, if_true]
      have e2 : rgioeGnssupdate s'.1 s'.2 (some { m with lon := lon }) = (E_OK, s'.1, s'.2) := by unfold rgioeGnssupdate; simp only [hp', if_true]
      refine ⟨?_, ?_⟩
      · show Answer.code _ = Answer.code _
        rw [e1, e2]
      · show SameD (rgioeGnssupdate s.1 s.2 (some m)).2 (rgioeGnssupdate s'.1 s'.2 (some { m with lon := lon })).2
        rw [e1, e2]
        exact h
  | other c hc =>
    cases c with
    | init => simp [Call.isInit] at hc
    | time i =>
      cases i with
      | none => exact ⟨rfl, h⟩
      | some m =>
        rcases h.phase with hp | ⟨hp, hu, lon, hl, hpva⟩
        · have hp' := h.status.trans hp
          obtain ⟨h1, h2⟩ := same_time s.1 s'.1 h.df m
          refine ⟨?_, ?_⟩
          · show Answer.code _ = Answer.code _
            unfold rgioeTimeupdate
            simp only [hp, hp', if_neg hn, hn1, hn2, if_false, if_true]
          · show SameD (rgioeTimeupdate s.1 s.2 (some m)).2 (rgioeTimeupdate s'.1 s'.2 (some m)).2
            unfold rgioeTimeupdate
            simp only [hp, hp', if_neg hn, hn1, hn2, if_false, if_true]
            exact ⟨fun _ => h1, h2, rfl, h.opt, Or.inl rfl⟩
        · have hp' := h.status.trans hp
          have hu' : s'.2.opt.alignMode = ALIGN_USE_GIVEN := by rw [h.opt]; exact hu
          obtain ⟨h3, h4⟩ := same_init s.1 s'.1 _ _ h.df s.2.curPva lon s.2.opt hl
          obtain ⟨h1, h2⟩ := same_time (s.2.df.initFusion s.1 (makeNavEpoch s.2.curPva s.2.opt) s.2.opt).1
            (s'.2.df.initFusion s'.1 (makeNavEpoch { s.2.curPva with lon := lon } s.2.opt) s.2.opt).1 h4 m
          refine ⟨?_, ?_⟩
          · show Answer.code _ = Answer.code _
            unfold rgioeTimeupdate
            simp only [hp, hp', hu, hu', if_true]
          · show SameD (rgioeTimeupdate s.1 s.2 (some m)).2 (rgioeTimeupdate s'.1 s'.2 (some m)).2
            rw [first_epoch _ _ m hp hu, first_epoch _ _ m hp' hu', h.opt, hpva]
            refine SameD.mk (fun _ => ?_) ?_ rfl rfl (Or.inl rfl)
            · dsimp only; exact h1
            · dsimp only; exact h2
    | gnss m =>
      cases m with
      | none => exact ⟨rfl, h⟩
      | some m =>
        rcases h.phase with hp | ⟨hp, -⟩
        · have hp' := h.status.trans hp
          refine ⟨?_, ?_⟩
          · show Answer.code _ = Answer.code _
            unfold rgioeGnssupdate
            simp only [hp, hp', if_neg hn, hn1, hn2, or_self, if_false, if_true]
          · show SameD (rgioeGnssupdate s.1 s.2 (some m)).2 (rgioeGnssupdate s'.1 s'.2 (some m)).2
            unfold rgioeGnssupdate
            simp only [hp, hp', if_neg hn, hn1, hn2, or_self, if_false, if_true]
            exact ⟨fun _ => h.g hp', same_gnss h.df m m.lon (sameMeridian.refl _), rfl, h.opt, Or.inl rfl⟩
        · have hp' := h.status.trans hp
          have e1 : rgioeGnssupdate s.1 s.2 (some m) = (E_OK, s.1, s.2) := by unfold rgioeGnssupdate; simp only [hp, if_true]
          have e2 : rgioeGnssupdate s'.1 s'.2 (some m) = (E_OK, s'.1, s'.2) := by unfold rgioeGnssupdate; simp only [hp', if_true]
          refine ⟨?_, ?_⟩
          · show Answer.code _ = Answer.code _
            rw [e1, e2]
          · show SameD (rgioeGnssupdate s.1 s.2 (some m)).2 (rgioeGnssupdate s'.1 s'.2 (some m)).2
            rw [e1, e2]
            exact h
    | getAtti =>
      refine ⟨?_, h⟩
      obtain ⟨lon, hl, ho⟩ := same_output h.df
      show Answer.vec _ _ = Answer.vec _ _
      unfold rgioeGetAtti
      rw [ho]
    | getPos =>
      refine ⟨?_, h⟩
      obtain ⟨lon, hl, ho⟩ := same_output h.df
      show _ ∧ _ ∧ _ ∧ _
      unfold rgioeGetPos
      rw [ho]
      exact ⟨rfl, hl, rfl, rfl⟩
    | getVel =>
      refine ⟨?_, h⟩
      obtain ⟨lon, hl, ho⟩ := same_output h.df
      show Answer.vec _ _ = Answer.vec _ _
      unfold rgioeGetVel
      rw [ho]
    | getStatus =>
      refine ⟨?_, h⟩
      show Answer.status _ = Answer.status _
      unfold rgioeGetStatus
      rw [h.status]
    | getResult p =>
      refine ⟨?_, h⟩
      obtain ⟨lon, hl, ho⟩ := same_output h.df
      show _ ∧ _ ∧ _
      unfold rgioeGetResult
      rcases h.phase with hp | ⟨hp, -⟩
      · have hp' := h.status.trans hp
        simp only [hp, hp', hn1, hn2, if_false, if_true, ho]
        exact ⟨trivial, hl, trivial⟩
      · have hp' := h.status.trans hp
        simp only [hp, hp', hi, hi1, hi2, if_false]
        exact ⟨trivial, sameMeridian.refl _, trivial⟩
    | deinit => exact ⟨rfl, h⟩

theorem convention_run {cs cs' : List (Call ℝ)} (hc : List.Forall₂ sameButTurns cs cs') {s s' : ℝ × Dev ℝ} (h : SameD s s') :
    agreeAll cs (traceCalls cs s) (traceCalls cs' s') := by
  induction hc generalizing s s' with
  | nil => trivial
  | cons hd _ ih => exact ⟨(convention_step hd h).1, ih (convention_step hd h).2⟩

/-- **C159.** The longitude of the given start state, of every fix and of the start state of every later initialisation
may be written in either convention (any multiples of 360 degrees added, a different one every time, whatever was in the
two devices before): every answer of every call is the same, except that a reported longitude may differ by a multiple
of 360 degrees. -/
theorem C159_either_convention {o : Opt ℝ} (hm : o.alignMode = ALIGN_USE_GIVEN) (n : NavOutput ℝ) (lon : ℝ)
    (h : sameMeridian n.lon lon) (j : Junk ℝ) {cs cs' : List (Call ℝ)} (hc : List.Forall₂ sameButTurns cs cs') (s s' : ℝ × Dev ℝ) :
    agreeAll (.init o (some n) j :: cs) (traceCalls (.init o (some n) j :: cs) s)
      (traceCalls (.init o (some { n with lon := lon }) j :: cs') s') := by
  refine ⟨?_, convention_run hc (convention_init hm h)⟩
  rw [exec_init, exec_init]
  rfl

/-- A start and a fix at 100 degrees west, in the two conventions. -/
example : agreeAll [.init (Ex.opt ALIGN_USE_GIVEN) (some { (zeroPva : NavOutput ℝ) with lon := -100 }) ⟨Ex.zFusion, Ex.zAlign⟩,
      .time (some Ex.zImu), .gnss (some { Ex.fix 4 with lon := -100 }), .time (some Ex.zImu), .getPos]
    (traceCalls [.init (Ex.opt ALIGN_USE_GIVEN) (some { (zeroPva : NavOutput ℝ) with lon := -100 }) ⟨Ex.zFusion, Ex.zAlign⟩,
      .time (some Ex.zImu), .gnss (some { Ex.fix 4 with lon := -100 }), .time (some Ex.zImu), .getPos] (0, Ex.zDev))
    (traceCalls [.init (Ex.opt ALIGN_USE_GIVEN) (some { (zeroPva : NavOutput ℝ) with lon := 260 }) ⟨Ex.zFusion, Ex.zAlign⟩,
      .time (some Ex.zImu), .gnss (some { Ex.fix 4 with lon := 260 }), .time (some Ex.zImu), .getPos] (0, Ex.zDev)) :=
  C159_either_convention rfl { (zeroPva : NavOutput ℝ) with lon := -100 } 260 ⟨1, by norm_num⟩ _
    (.cons (.other _ rfl) (.cons (.gnss { Ex.fix 4 with lon := -100 } 260 ⟨1, by norm_num⟩) (.cons (.other _ rfl) (.cons (.other _ rfl) .nil)))) _ _
end Verif.Props
