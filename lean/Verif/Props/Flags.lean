import Verif.Props.Schedule
/-! The sensor flags after odometer and relative-height updates (C31, every arithmetic). -/
namespace Verif.Props
open Verif Verif.Spec
variable {α : Type} [Add α] [Sub α] [Mul α] [Neg α] [Div α] [Zero α] [One α] [Fl α]

theorem odo_sensors (f : Fusion α) (v : V3 α) :
    (f.measureVel v).ins.nav.info.sensors =
      (if f.opt.nhcEnable ≠ 0 then (f.ins.nav.info.sensors ||| 0x04#16) ||| 0x10#16
       else (f.ins.nav.info.sensors ||| 0x04#16) &&& ~~~0x10#16) := by
  unfold Fusion.measureVel
  dsimp only
  by_cases h : f.opt.nhcEnable ≠ 0
  · have h' : (f.setSensor SENSOR_ODO).opt.nhcEnable ≠ 0 := h
    rw [if_pos h', if_pos h]; rfl
  · have h' : ¬ (f.setSensor SENSOR_ODO).opt.nhcEnable ≠ 0 := h
    rw [if_neg h', if_neg h]; rfl

theorem odo_keep (s : BitVec 16) : has ((s ||| 0x04#16) &&& ~~~0x10#16) 0x04#16 := by
  unfold has
  rw [BitVec.and_assoc, show ~~~0x10#16 &&& 0x04#16 = 0x04#16 by decide,
    show (s ||| 0x04#16) &&& 0x04#16 = 0x04#16 by ext i; simp; tauto]
  decide

theorem odo_kf_three (f : Fusion α) (v : V3 α) (h : f.opt.nhcEnable ≠ 0) :
    (f.measureVel v).kf = f.kf.update (f.setSensor SENSOR_ODO).velModel.2
      ((f.setSensor SENSOR_ODO).velModel.1 - sv f.ins.nav.kd v)
      (mmul (diagM (v3 f.opt.odoStd (f.opt.nhcStd 0) (f.opt.nhcStd 1)))
        (diagM (v3 f.opt.odoStd (f.opt.nhcStd 0) (f.opt.nhcStd 1)))) := by
  have h' : (f.setSensor SENSOR_ODO).opt.nhcEnable ≠ 0 := h
  unfold Fusion.measureVel
  dsimp only
  rw [if_pos h']; rfl

theorem odo_kf_one (f : Fusion α) (v : V3 α) (h : ¬ f.opt.nhcEnable ≠ 0) :
    (f.measureVel v).kf = f.kf.update (fun (_ : Fin 1) j => (f.setSensor SENSOR_ODO).velModel.2 0 j)
      (fun _ => ((f.setSensor SENSOR_ODO).velModel.1 - sv f.ins.nav.kd v) 0)
      (fun _ _ => Fl.f32 (f.opt.odoStd * f.opt.odoStd)) := by
  have h' : ¬ (f.setSensor SENSOR_ODO).opt.nhcEnable ≠ 0 := h
  unfold Fusion.measureVel
  dsimp only
  rw [if_neg h']; rfl

/-- C31, odometer: after an odometer velocity (vector or forward speed) the odometer flag is set; the NHC flag is set
exactly if the lateral and vertical constraint is enabled, which is exactly when the three-row correction that contains
it was made (otherwise only the forward row is used); GNSS mode and every other flag are as before. -/
theorem C31_flags_after_odometer (f : Fusion α) (v : V3 α) :
    let info := (f.measureVel v).ins.nav.info
    let z := (f.setSensor SENSOR_ODO).velModel.1 - sv f.ins.nav.kd v
    let H := (f.setSensor SENSOR_ODO).velModel.2
    has info.sensors 0x04#16 ∧
    (has info.sensors 0x10#16 ↔ f.opt.nhcEnable ≠ 0) ∧
    info.gnssMode = f.ins.nav.info.gnssMode ∧
    info.sensors &&& ~~~0x14#16 = f.ins.nav.info.sensors &&& ~~~0x14#16 ∧
    (f.opt.nhcEnable ≠ 0 → (f.measureVel v).kf = f.kf.update H z
      (mmul (diagM (v3 f.opt.odoStd (f.opt.nhcStd 0) (f.opt.nhcStd 1)))
        (diagM (v3 f.opt.odoStd (f.opt.nhcStd 0) (f.opt.nhcStd 1))))) ∧
    (f.opt.nhcEnable = 0 → (f.measureVel v).kf = f.kf.update (fun (_ : Fin 1) j => H 0 j) (fun _ => z 0)
      (fun _ _ => Fl.f32 (f.opt.odoStd * f.opt.odoStd))) := by
  intro info z H
  have hs := odo_sensors f v
  have hm : info.gnssMode = f.ins.nav.info.gnssMode := by
    simp only [info]
    unfold Fusion.measureVel
    dsimp only
    split_ifs <;> rfl
  have hk : ∀ s : BitVec 16, (s ||| 0x04#16) &&& ~~~0x14#16 = s &&& ~~~0x14#16 := fun s => and_not_or _ _ _ (by decide)
  by_cases h : f.opt.nhcEnable ≠ 0
  · rw [if_pos h] at hs
    refine ⟨?_, ?_, hm, ?_, fun _ => ?_, fun h0 => absurd h0 h⟩
    · show has (f.measureVel v).ins.nav.info.sensors _
      rw [hs, BitVec.or_assoc, BitVec.or_comm (0x04#16), ← BitVec.or_assoc]
      exact has_or_self _ _ (by decide)
    · show has (f.measureVel v).ins.nav.info.sensors _ ↔ _
      rw [hs]
      exact ⟨fun _ => h, fun _ => has_or_self _ _ (by decide)⟩
    · show (f.measureVel v).ins.nav.info.sensors &&& _ = _
      rw [hs, and_not_or _ _ _ (by decide), hk]
    · exact odo_kf_three f v h
  · rw [if_neg h] at hs
    refine ⟨?_, ?_, hm, ?_, fun h0 => absurd h0 h, fun _ => ?_⟩
    · show has (f.measureVel v).ins.nav.info.sensors _
      rw [hs]
      exact odo_keep _
    · show has (f.measureVel v).ins.nav.info.sensors _ ↔ _
      rw [hs]
      exact ⟨fun hh => absurd hh (has_clear_self _ _), fun hh => absurd hh h⟩
    · show (f.measureVel v).ins.nav.info.sensors &&& _ = _
      rw [hs, and_not_clear _ _ _ (by decide), hk]
    · exact odo_kf_one f v h

/-- C31, forward speed: the same, for the one-number form of the odometer call. -/
theorem C31_flags_after_speed (f : Fusion α) (v : α) :
    let info := (f.measureForwardVel v).ins.nav.info
    has info.sensors 0x04#16 ∧
    (has info.sensors 0x10#16 ↔ f.opt.nhcEnable ≠ 0) ∧
    info.gnssMode = f.ins.nav.info.gnssMode ∧
    info.sensors &&& ~~~0x14#16 = f.ins.nav.info.sensors &&& ~~~0x14#16 :=
  let h := C31_flags_after_odometer f (v3 v 0 0)
  ⟨h.1, h.2.1, h.2.2.1, h.2.2.2.1⟩

/-- C31, relative height: the height flag is set exactly if the height was used, which is when four heights have gone
before it since the last fix; then one row is handed to the filter, otherwise nothing is; the GNSS mode and every other
flag are as before. -/
theorem C31_flags_after_height (f : Fusion α) (h : α) :
    let info := (f.measureRelativeHeight h).ins.nav.info
    (has info.sensors 0x80#16 ↔ 4 < f.baseHeightIsSet) ∧
    info.gnssMode = f.ins.nav.info.gnssMode ∧
    info.sensors &&& ~~~0x80#16 = f.ins.nav.info.sensors &&& ~~~0x80#16 ∧
    (4 < f.baseHeightIsSet → (f.measureRelativeHeight h).updateFlag ≠ 0) ∧
    (¬ 4 < f.baseHeightIsSet → (f.measureRelativeHeight h).kf = f.kf ∧
      (f.measureRelativeHeight h).updateFlag = f.updateFlag) := by
  intro info
  have hm : info.gnssMode = f.ins.nav.info.gnssMode := by
    simp only [info]
    unfold Fusion.measureRelativeHeight
    dsimp only
    split_ifs <;> rfl
  by_cases hb : 4 < f.baseHeightIsSet
  · have h1 : ¬ f.baseHeightIsSet = 1 := by intro h1; rw [h1] at hb; exact absurd hb (by decide)
    have es : info.sensors = f.ins.nav.info.sensors ||| 0x80#16 := by
      simp only [info]
      unfold Fusion.measureRelativeHeight
      dsimp only
      rw [if_neg h1, if_pos hb]; rfl
    have eu : (f.measureRelativeHeight h).updateFlag = f.updateFlag ||| Fusion.FLAG_HEIGHT := by
      unfold Fusion.measureRelativeHeight
      dsimp only
      rw [if_neg h1, if_pos hb]; rfl
    refine ⟨⟨fun _ => hb, fun _ => by rw [es]; exact has_or_self _ _ (by decide)⟩, hm, ?_, fun _ => ?_, fun hn => absurd hb hn⟩
    · rw [es]; exact and_not_or _ _ _ (by decide)
    · rw [eu]
      intro h0
      have := congrArg (fun v => v &&& Fusion.FLAG_HEIGHT) h0
      rw [show (f.updateFlag ||| Fusion.FLAG_HEIGHT) &&& Fusion.FLAG_HEIGHT = Fusion.FLAG_HEIGHT by ext i; simp; tauto] at this
      exact absurd this (by decide)
  · have hx : (f.measureRelativeHeight h).ins.nav.info.sensors &&& ~~~0x80#16 = f.ins.nav.info.sensors &&& ~~~0x80#16 ∧
        (¬ has (f.measureRelativeHeight h).ins.nav.info.sensors 0x80#16) ∧
        (f.measureRelativeHeight h).kf = f.kf ∧ (f.measureRelativeHeight h).updateFlag = f.updateFlag := by
      unfold Fusion.measureRelativeHeight
      dsimp only
      by_cases h1 : f.baseHeightIsSet = 1
      · have hb' : ¬ 4 < (({ f with pHeight := h } : Fusion α).clearSensor SENSOR_HEIGHT).baseHeightIsSet := hb
        rw [if_pos h1, if_neg hb']
        refine ⟨?_, has_clear_self _ _, rfl, rfl⟩
        exact (and_not_clear _ _ _ (by decide)).trans (and_not_clear _ _ _ (by decide))
      · rw [if_neg h1, if_neg hb]
        exact ⟨and_not_clear _ _ _ (by decide), has_clear_self _ _, rfl, rfl⟩
    exact ⟨⟨fun hh => absurd hh hx.2.1, fun hh => absurd hh hb⟩, hm, hx.1, fun hn => absurd hn hb, fun _ => hx.2.2⟩

/-- Both cases of each occur: an odometer call with and without the constraint, the fifth and the sixth height. -/
example : ({ (Fusion.zeroOpt : Opt α) with nhcEnable := 1 }).nhcEnable ≠ 0 ∧ (Fusion.zeroOpt : Opt α).nhcEnable = 0 ∧
    4 < ({ (Ex.zFusion : Fusion α) with baseHeightIsSet := 5 }).baseHeightIsSet ∧ ¬ 4 < (Ex.zFusion : Fusion α).baseHeightIsSet := by
  refine ⟨by simp, rfl, by simp, by simp [Ex.zFusion]⟩
end Verif.Props
