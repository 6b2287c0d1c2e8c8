import Verif.Lemmas.Align
import Verif.Spec.Examples
/-! Structural facts about the fusion filter; valid for every scalar type. -/
namespace Verif
variable {α : Type} [Add α] [Sub α] [Mul α] [Neg α] [Div α] [Zero α] [One α] [Fl α]

namespace Fusion
/-- Replace the info field of the navigation state. -/
def withInfo (f : Fusion α) (i : NavInfo) : Fusion α :=
  { f with ins := { f.ins with nav := { f.ins.nav with info := i } } }

/-- Equal except for the info field. -/
def sameButInfo (f f' : Fusion α) : Prop := ∃ i, f' = f.withInfo i

theorem sameButInfo.refl (f : Fusion α) : sameButInfo f f := ⟨f.ins.nav.info, rfl⟩
theorem sameButInfo.trans {a b c : Fusion α} (h1 : sameButInfo a b) (h2 : sameButInfo b c) : sameButInfo a c := by
  obtain ⟨i, rfl⟩ := h1
  obtain ⟨j, rfl⟩ := h2
  exact ⟨j, rfl⟩
theorem sameButInfo.symm {a b : Fusion α} (h1 : sameButInfo a b) : sameButInfo b a := by
  obtain ⟨i, rfl⟩ := h1
  exact ⟨a.ins.nav.info, rfl⟩

theorem setSensor_same (f : Fusion α) (b : BitVec 16) : sameButInfo f (f.setSensor b) := ⟨_, rfl⟩
theorem clearSensor_same (f : Fusion α) (b : BitVec 16) : sameButInfo f (f.clearSensor b) := ⟨_, rfl⟩
theorem setGnssMode_same (f : Fusion α) (m : Int) : sameButInfo f (f.setGnssMode m) := ⟨_, rfl⟩

theorem take_withInfo (f : Fusion α) (i : NavInfo) : (f.withInfo i).takeCorrection = f.takeCorrection.withInfo i := by
  unfold takeCorrection
  by_cases h : 0 < f.updateFlag.toNat
  · rw [if_pos h, if_pos (show 0 < (f.withInfo i).updateFlag.toNat from h)]; rfl
  · rw [if_neg h, if_neg (show ¬ 0 < (f.withInfo i).updateFlag.toNat from h)]
theorem apply_withInfo (f : Fusion α) (i : NavInfo) : (f.withInfo i).applyCorrection = f.applyCorrection.withInfo i := by
  unfold applyCorrection
  by_cases h : 0 < f.updateIter
  · rw [if_pos h, if_pos (show 0 < (f.withInfo i).updateIter from h)]; rfl
  · rw [if_neg h, if_neg (show ¬ 0 < (f.withInfo i).updateIter from h)]
theorem forwardImu_info (g : α) (s : Ins α) (m : Imu α) (i : NavInfo) :
    Ins.forwardImu g { s with nav := { s.nav with info := i } } m =
      ((s.forwardImu g m).1, { (s.forwardImu g m).2 with nav := { (s.forwardImu g m).2.nav with info := i } }) := by
  unfold Ins.forwardImu Ins.forward
  dsimp only
  have h1 : Ins.extrapolate { s with nav := { s.nav with info := i } } =
      (s.extrapolate.1, { s.extrapolate.2 with nav := { s.extrapolate.2.nav with info := i } }) := rfl
  rw [h1]
  generalize s.extrapolate = e
  have h2 : ∀ (g : α) (s : Ins α) (a b : V3 α), Ins.velocityUpdate g { s with nav := { s.nav with info := i } } a b =
      { s.velocityUpdate g a b with nav := { (s.velocityUpdate g a b).nav with info := i } } := fun _ _ _ _ => rfl
  dsimp only
  rw [h2]
  generalize Ins.velocityUpdate e.1 e.2 _ _ = v
  have h3 : ∀ s : Ins α, Ins.positionUpdate { s with nav := { s.nav with info := i } } =
      { s.positionUpdate with nav := { s.positionUpdate.nav with info := i } } := fun _ => rfl
  rw [h3]
  generalize Ins.positionUpdate v = w
  rfl
theorem phi_withInfo (g : α) (f : Fusion α) (i : NavInfo) :
    (f.withInfo i).transferMatrix g = f.transferMatrix g := rfl
theorem stepQ_withInfo (f : Fusion α) (i : NavInfo) (phi : Matrix (Fin 15) (Fin 15) α) :
    (f.withInfo i).stepQ phi = f.stepQ phi := rfl
/-- `propagate` in terms of the mechanization result. -/
def afterIns (f : Fusion α) (m : Imu α) (r : α × Ins α) : α × Fusion α :=
  let f2 := { f with smooth := f.smooth.update m, ins := r.2 }
  (r.1, { f2 with kf := f2.kf.predict (f2.transferMatrix r.1) (f2.stepQ (f2.transferMatrix r.1))
                  timeUpdateIdx := f2.timeUpdateIdx + 1 })
theorem propagate_eq (g : α) (f : Fusion α) (m : Imu α) : f.propagate g m = f.afterIns m (f.ins.forwardImu g m) := rfl
theorem propagate_withInfo (g : α) (f : Fusion α) (m : Imu α) (i : NavInfo) :
    (f.withInfo i).propagate g m = ((f.propagate g m).1, (f.propagate g m).2.withInfo i) := by
  rw [propagate_eq, propagate_eq]
  have h : (f.withInfo i).ins.forwardImu g m = _ := forwardImu_info g f.ins m i
  rw [h]
  generalize f.ins.forwardImu g m = r
  have := phi_withInfo r.1 { f with smooth := f.smooth.update m, ins := r.2 } i
  unfold afterIns
  dsimp only
  have h2 : (withInfo { f with smooth := f.smooth.update m, ins := r.2 } i) = 
    { f.withInfo i with smooth := (f.withInfo i).smooth.update m, ins := { r.2 with nav := { r.2.nav with info := i } } } := rfl
  rw [← h2, phi_withInfo, stepQ_withInfo]
  rfl

theorem zeroVel_withInfo (f : Fusion α) (i : NavInfo) :
    (f.withInfo i).measureZeroVelocity = f.measureZeroVelocity.withInfo i := by
  unfold measureZeroVelocity
  by_cases h : f.opt.zuptaEnable = 0
  · simp only [if_pos h, if_pos (show (f.withInfo i).opt.zuptaEnable = 0 from h)]; rfl
  · simp only [if_neg h, if_neg (show ¬ (f.withInfo i).opt.zuptaEnable = 0 from h)]; rfl
theorem nhc_withInfo (f : Fusion α) (i : NavInfo) : (f.withInfo i).measureNHC = f.measureNHC.withInfo i := rfl

theorem zupt_same (f : Fusion α) (i : NavInfo) : sameButInfo f.zuptStage (f.withInfo i).zuptStage := by
  unfold zuptStage
  by_cases h : f.timeUpdateIdx.toNat % 8 ≠ 0 ∧ f.opt.zuptEnable ≠ 0
  · rw [if_pos h, if_pos (show (f.withInfo i).timeUpdateIdx.toNat % 8 ≠ 0 ∧ (f.withInfo i).opt.zuptEnable ≠ 0 from h)]
    by_cases h2 : f.smooth.isStatic = true
    · rw [if_pos h2, if_pos (show (f.withInfo i).smooth.isStatic = true from h2), zeroVel_withInfo]
      exact ⟨_, rfl⟩
    · rw [if_neg h2, if_neg (show ¬ (f.withInfo i).smooth.isStatic = true from h2)]
      exact ⟨_, rfl⟩
  · rw [if_neg h, if_neg (show ¬ ((f.withInfo i).timeUpdateIdx.toNat % 8 ≠ 0 ∧ (f.withInfo i).opt.zuptEnable ≠ 0) from h)]
    exact ⟨_, rfl⟩
theorem nhcStage_same (f : Fusion α) (i : NavInfo) : sameButInfo f.nhcStage (f.withInfo i).nhcStage := by
  unfold nhcStage
  by_cases h : f.timeUpdateIdx.toNat % 32 = 1 ∧ f.opt.nhcEnable ≠ 0 ∧ f.opt.odoEnable = 0
  · rw [if_pos h, if_pos (show (f.withInfo i).timeUpdateIdx.toNat % 32 = 1 ∧ (f.withInfo i).opt.nhcEnable ≠ 0 ∧
      (f.withInfo i).opt.odoEnable = 0 from h), nhc_withInfo]
    exact ⟨_, rfl⟩
  · rw [if_neg h, if_neg (show ¬ ((f.withInfo i).timeUpdateIdx.toNat % 32 = 1 ∧ (f.withInfo i).opt.nhcEnable ≠ 0 ∧
      (f.withInfo i).opt.odoEnable = 0) from h)]
    exact ⟨_, rfl⟩

theorem timeUpdate_same {f f' : Fusion α} (g : α) (m : Imu α) (h : sameButInfo f f') :
    sameButInfo (f.timeUpdate g m).2 (f'.timeUpdate g m).2 ∧ (f.timeUpdate g m).1 = (f'.timeUpdate g m).1 := by
  obtain ⟨i, rfl⟩ := h
  unfold timeUpdate
  simp only [take_withInfo, apply_withInfo, propagate_withInfo]
  refine ⟨?_, trivial⟩
  generalize (Fusion.propagate g f.takeCorrection.applyCorrection m).2 = f2
  obtain ⟨j, hj⟩ := zupt_same f2 i
  rw [hj]
  obtain ⟨k, hk⟩ := nhcStage_same f2.zuptStage j
  rw [hk]
  exact ⟨k, rfl⟩

theorem measureGnss_same {f f' : Fusion α} (m : Gnss α) (h : sameButInfo f f') :
    sameButInfo (f.measureGnss m) (f'.measureGnss m) := by
  obtain ⟨i, rfl⟩ := h
  unfold measureGnss
  by_cases hc : gnssCheck m = true
  · rw [if_pos hc, if_pos hc]; exact ⟨_, rfl⟩
  · rw [if_neg hc, if_neg hc]; exact ⟨_, rfl⟩

/-- What the correction, propagation and measurement stages leave alone. -/
theorem zuptStage_nav (f : Fusion α) :
    sameButInfo { f with kf := f.zuptStage.kf, updateFlag := f.zuptStage.updateFlag } f.zuptStage := by
  unfold zuptStage measureZeroVelocity
  dsimp only
  split_ifs <;> exact ⟨_, rfl⟩
theorem nhcStage_nav (f : Fusion α) :
    sameButInfo { f with kf := f.nhcStage.kf, updateFlag := f.nhcStage.updateFlag } f.nhcStage := by
  unfold nhcStage
  split_ifs <;> exact ⟨_, rfl⟩

theorem zuptStage_ins (f : Fusion α) : ∃ i, f.zuptStage.ins = { f.ins with nav := { f.ins.nav with info := i } } := by
  obtain ⟨i, hi⟩ := zuptStage_nav f
  exact ⟨i, by rw [hi]; rfl⟩
theorem nhcStage_ins (f : Fusion α) : ∃ i, f.nhcStage.ins = { f.ins with nav := { f.ins.nav with info := i } } := by
  obtain ⟨i, hi⟩ := nhcStage_nav f
  exact ⟨i, by rw [hi]; rfl⟩

/-- A time update moves the navigation state exactly by feedback and mechanization (info aside). -/
theorem timeUpdate_ins (g : α) (f : Fusion α) (m : Imu α) :
    ∃ i, (f.timeUpdate g m).2.ins =
      { (f.takeCorrection.applyCorrection.ins.forwardImu g m).2 with
        nav := { (f.takeCorrection.applyCorrection.ins.forwardImu g m).2.nav with info := i } } := by
  unfold timeUpdate
  dsimp only
  generalize hp : (Fusion.propagate g f.takeCorrection.applyCorrection m) = p
  have h0 : p.2.ins = (f.takeCorrection.applyCorrection.ins.forwardImu g m).2 := by rw [← hp]; rfl
  obtain ⟨i, hi⟩ := zuptStage_ins p.2
  obtain ⟨j, hj⟩ := nhcStage_ins p.2.zuptStage
  refine ⟨j, ?_⟩
  rw [hj, hi, h0]

theorem timeUpdate_gpst (g : α) (f : Fusion α) (m : Imu α) : (f.timeUpdate g m).2.ins.nav.gpst = m.gpst := by
  obtain ⟨i, hi⟩ := timeUpdate_ins g f m
  rw [hi]; rfl
theorem measureGnss_gpst (f : Fusion α) (m : Gnss α) : (f.measureGnss m).ins.nav.gpst = f.ins.nav.gpst := by
  unfold measureGnss; dsimp only; split_ifs <;> rfl
theorem measureVel_gpst (f : Fusion α) (v : V3 α) : (f.measureVel v).ins.nav.gpst = f.ins.nav.gpst := by
  unfold measureVel; dsimp only; split_ifs <;> rfl
theorem relHeight_gpst (f : Fusion α) (h : α) : (f.measureRelativeHeight h).ins.nav.gpst = f.ins.nav.gpst := by
  unfold measureRelativeHeight; dsimp only; split_ifs <;> rfl

theorem take_opt (f : Fusion α) : f.takeCorrection.opt = f.opt := by
  unfold takeCorrection; split_ifs <;> rfl
theorem apply_opt (f : Fusion α) : f.applyCorrection.opt = f.opt := by
  unfold applyCorrection; split_ifs <;> rfl
theorem take_idx (f : Fusion α) : f.takeCorrection.timeUpdateIdx = f.timeUpdateIdx := by
  unfold takeCorrection; split_ifs <;> rfl
theorem apply_idx (f : Fusion α) : f.applyCorrection.timeUpdateIdx = f.timeUpdateIdx := by
  unfold applyCorrection; split_ifs <;> rfl
theorem take_smooth (f : Fusion α) : f.takeCorrection.smooth = f.smooth := by
  unfold takeCorrection; split_ifs <;> rfl
theorem apply_smooth (f : Fusion α) : f.applyCorrection.smooth = f.smooth := by
  unfold applyCorrection; split_ifs <;> rfl
theorem zupt_idx (f : Fusion α) : f.zuptStage.timeUpdateIdx = f.timeUpdateIdx := by
  unfold zuptStage measureZeroVelocity; dsimp only; split_ifs <;> rfl
theorem zupt_opt (f : Fusion α) : f.zuptStage.opt = f.opt := by
  unfold zuptStage measureZeroVelocity; dsimp only; split_ifs <;> rfl
theorem nhc_idx (f : Fusion α) : f.nhcStage.timeUpdateIdx = f.timeUpdateIdx := by
  unfold nhcStage; split_ifs <;> rfl
theorem nhc_opt (f : Fusion α) : f.nhcStage.opt = f.opt := by
  unfold nhcStage; split_ifs <;> rfl
theorem timeUpdate_idx (g : α) (f : Fusion α) (m : Imu α) :
    (f.timeUpdate g m).2.timeUpdateIdx = f.timeUpdateIdx + 1 := by
  have h : (f.timeUpdate g m).2.timeUpdateIdx =
      (Fusion.propagate g f.takeCorrection.applyCorrection m).2.zuptStage.nhcStage.timeUpdateIdx := rfl
  rw [h, nhc_idx, zupt_idx]
  show f.takeCorrection.applyCorrection.timeUpdateIdx + 1 = _
  rw [apply_idx, take_idx]
theorem timeUpdate_opt (g : α) (f : Fusion α) (m : Imu α) : (f.timeUpdate g m).2.opt = f.opt := by
  have h : (f.timeUpdate g m).2.opt =
      (Fusion.propagate g f.takeCorrection.applyCorrection m).2.zuptStage.nhcStage.opt := rfl
  rw [h, nhc_opt, zupt_opt]
  show f.takeCorrection.applyCorrection.opt = _
  rw [apply_opt, take_opt]
theorem timeUpdate_smooth (g : α) (f : Fusion α) (m : Imu α) :
    (Fusion.propagate g f.takeCorrection.applyCorrection m).2.smooth = f.smooth.update m := by
  show f.takeCorrection.applyCorrection.smooth.update m = _
  rw [apply_smooth, take_smooth]
theorem measureGnss_idx (f : Fusion α) (m : Gnss α) : (f.measureGnss m).timeUpdateIdx = f.timeUpdateIdx := by
  unfold measureGnss; dsimp only; split_ifs <;> rfl
end Fusion
end Verif
