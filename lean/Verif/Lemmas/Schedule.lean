import Verif.Lemmas.Fusion
import Verif.Spec.Fusion
/-! Histories of the fusion object: what is known about epoch counter, options, static detector, flags. -/
namespace Verif
open Verif.Spec
variable {α : Type} [Add α] [Sub α] [Mul α] [Neg α] [Div α] [Zero α] [One α] [Fl α]

theorem frun_append (a b : List (FCall α)) (s : α × Fusion α) : frun (a ++ b) s = frun b (frun a s) := by
  simp [frun]
theorem fimus_append (a b : List (FCall α)) : fimus (a ++ b) = fimus a ++ fimus b := by
  induction a with
  | nil => rfl
  | cons c cs ih => cases c <;> simp [fimus, ih]

/-- The threshold of the filter's static detector. -/
def zuptThr : α := Fl.f32 (Fl.lit (5 / 1000000000))

/-- What a measurement leaves alone. -/
structure MeasKeeps (f f' : Fusion α) : Prop where
  opt : f'.opt = f.opt
  idx : f'.timeUpdateIdx = f.timeUpdateIdx
  smooth : f'.smooth = f.smooth
  ins : ∃ i, f'.ins = { f.ins with nav := { f.ins.nav with info := i } }

theorem MeasKeeps.refl (f : Fusion α) : MeasKeeps f f := ⟨rfl, rfl, rfl, ⟨_, rfl⟩⟩
theorem meas_gnss (f : Fusion α) (m : Gnss α) : MeasKeeps f (f.measureGnss m) := by
  unfold Fusion.measureGnss; dsimp only; split_ifs <;> exact ⟨rfl, rfl, rfl, ⟨_, rfl⟩⟩
theorem meas_pos (f : Fusion α) (p : V3 α) (R : M3 α) : MeasKeeps f (f.measurePos p R) :=
  ⟨rfl, rfl, rfl, ⟨_, rfl⟩⟩
theorem meas_vel (f : Fusion α) (v : V3 α) : MeasKeeps f (f.measureVel v) := by
  unfold Fusion.measureVel; dsimp only; split_ifs <;> exact ⟨rfl, rfl, rfl, ⟨_, rfl⟩⟩
theorem meas_height (f : Fusion α) (h : α) : MeasKeeps f (f.measureRelativeHeight h) := by
  unfold Fusion.measureRelativeHeight; dsimp only; split_ifs <;> exact ⟨rfl, rfl, rfl, ⟨_, rfl⟩⟩

theorem exec_meas (c : FCall α) (h : fimus [c] = []) (s : α × Fusion α) : MeasKeeps s.2 (c.exec s).2 := by
  cases c
  · simp [fimus] at h
  · exact meas_gnss _ _
  · exact meas_pos _ _ _
  · exact meas_vel _ _
  · exact meas_vel _ _
  · exact meas_height _ _

theorem tu_smooth (g : α) (f : Fusion α) (m : Imu α) : (f.timeUpdate g m).2.smooth = f.smooth.update m := by
  have h : (f.timeUpdate g m).2.smooth =
      (Fusion.propagate g f.takeCorrection.applyCorrection m).2.zuptStage.nhcStage.smooth := rfl
  rw [h]
  have hz : ∀ f : Fusion α, f.zuptStage.smooth = f.smooth := by
    intro f; unfold Fusion.zuptStage Fusion.measureZeroVelocity; dsimp only; split_ifs <;> rfl
  have hn : ∀ f : Fusion α, f.nhcStage.smooth = f.smooth := by
    intro f; unfold Fusion.nhcStage; split_ifs <;> rfl
  rw [hn, hz, Fusion.timeUpdate_smooth]

/-- The state of a filter after a history. -/
structure HistInv (o : Opt α) (imus : List (Imu α)) (f : Fusion α) : Prop where
  opt : f.opt = o
  idx : f.timeUpdateIdx = BitVec.ofNat 32 imus.length
  smooth : f.smooth = feed zuptThr 2 10 imus
  gpst : ∀ m, imus.getLast? = some m → f.ins.nav.gpst = m.gpst

theorem hist_exec {o : Opt α} {imus : List (Imu α)} {s : α × Fusion α} (hi : HistInv o imus s.2) (c : FCall α) :
    HistInv o (imus ++ fimus [c]) (c.exec s).2 := by
  by_cases h : fimus [c] = []
  · have k := exec_meas c h s
    obtain ⟨i, hk⟩ := k.ins
    rw [h, List.append_nil]
    refine ⟨k.opt.trans hi.opt, k.idx.trans hi.idx, k.smooth.trans hi.smooth, ?_⟩
    intro m hm
    rw [hk]
    exact hi.gpst m hm
  · cases c <;> first | (simp [fimus] at h; done) | skip
    rename_i m
    refine ⟨(Fusion.timeUpdate_opt s.1 s.2 m).trans hi.opt, ?_, ?_, ?_⟩
    · simp only [FCall.exec, Fusion.timeUpdate_idx, hi.idx, fimus, List.length_append, List.length_singleton]
      simp [BitVec.ofNat_add]
    · simp only [FCall.exec, tu_smooth, hi.smooth, fimus, feed_snoc]
    · intro m' hm'
      simp only [fimus, List.getLast?_append, List.getLast?_singleton, Option.some_or, Option.some.injEq] at hm'
      subst hm'
      exact Fusion.timeUpdate_gpst s.1 s.2 m

theorem hist_run {o : Opt α} (cs : List (FCall α)) {imus : List (Imu α)} {s : α × Fusion α} (hi : HistInv o imus s.2) :
    HistInv o (imus ++ fimus cs) (frun cs s).2 := by
  induction cs generalizing imus s with
  | nil => simpa [fimus, frun] using hi
  | cons c cs ih =>
    have := ih (hist_exec hi c)
    rwa [List.append_assoc, ← fimus_append] at this

theorem hist_start (g : α) (junk : Fusion α) (nav : NavEpoch α) (o : Opt α) : HistInv o [] (fstart g junk nav o).2 :=
  ⟨rfl, rfl, rfl, by intro m h; simp at h⟩

theorem hist (g : α) (junk : Fusion α) (nav : NavEpoch α) (o : Opt α) (cs : List (FCall α)) :
    HistInv o (fimus cs) (frun cs (fstart g junk nav o)).2 := by
  simpa using hist_run cs (hist_start g junk nav o)

/-- The filter after feedback and propagation, before the pseudo-measurements. -/
def propagated (s : α × Fusion α) (m : Imu α) : Fusion α := (s.2.takeCorrection.applyCorrection.propagate s.1 m).2

theorem propagated_info (s : α × Fusion α) (m : Imu α) : (propagated s m).ins.nav.info = s.2.ins.nav.info := by
  have h : (propagated s m).ins.nav.info = s.2.takeCorrection.applyCorrection.ins.nav.info := rfl
  rw [h]
  have h1 : ∀ f : Fusion α, f.takeCorrection.ins = f.ins := by
    intro f; unfold Fusion.takeCorrection; split_ifs <;> rfl
  have h2 : ∀ f : Fusion α, f.applyCorrection.ins.nav.info = f.ins.nav.info := by
    intro f; unfold Fusion.applyCorrection; split_ifs <;> rfl
  rw [h2, h1]

theorem propagated_flag (s : α × Fusion α) (m : Imu α) : (propagated s m).updateFlag = 0 := by
  have h : (propagated s m).updateFlag = s.2.takeCorrection.applyCorrection.updateFlag := rfl
  rw [h]
  have h2 : ∀ f : Fusion α, f.applyCorrection.updateFlag = f.updateFlag := by
    intro f; unfold Fusion.applyCorrection; split_ifs <;> rfl
  rw [h2]
  unfold Fusion.takeCorrection
  split_ifs with h
  · rfl
  · exact BitVec.eq_of_toNat_eq (by simpa using h)

theorem propagated_idx (s : α × Fusion α) (m : Imu α) : (propagated s m).timeUpdateIdx = s.2.timeUpdateIdx + 1 := by
  have h : (propagated s m).timeUpdateIdx = s.2.takeCorrection.applyCorrection.timeUpdateIdx + 1 := rfl
  rw [h, Fusion.apply_idx, Fusion.take_idx]

theorem propagated_opt (s : α × Fusion α) (m : Imu α) : (propagated s m).opt = s.2.opt := by
  have h : (propagated s m).opt = s.2.takeCorrection.applyCorrection.opt := rfl
  rw [h, Fusion.apply_opt, Fusion.take_opt]

theorem timeUpdate_stages (s : α × Fusion α) (m : Imu α) :
    (s.2.timeUpdate s.1 m).2 = { (propagated s m).zuptStage.nhcStage with
      monitor := (propagated s m).zuptStage.nhcStage.monitor.onTimeUpdate } := rfl
end Verif
