import Verif.Props.Schedule
/-! C35, relative height updates; for every scalar type. -/
namespace Verif.Props
open Verif Verif.Spec
variable {α : Type} [Add α] [Sub α] [Mul α] [Neg α] [Div α] [Zero α] [One α] [Fl α]

/-- The three members that belong to the height update. -/
structure HBase (cnt : Int) (ref base : α) (f : Fusion α) : Prop where
  cnt : f.baseHeightIsSet = cnt
  ref : f.pHeight = ref
  base : f.gnssHeight = base

theorem hb_time {cnt : Int} {ref base : α} {f : Fusion α} (g : α) (m : Imu α) (h : HBase cnt ref base f) :
    HBase cnt ref base (f.timeUpdate g m).2 := by
  have ht : ∀ f : Fusion α, HBase cnt ref base f → HBase cnt ref base f.takeCorrection := by
    intro f hf; unfold Fusion.takeCorrection; split_ifs <;> exact ⟨hf.cnt, hf.ref, hf.base⟩
  have ha : ∀ f : Fusion α, HBase cnt ref base f → HBase cnt ref base f.applyCorrection := by
    intro f hf; unfold Fusion.applyCorrection; split_ifs <;> exact ⟨hf.cnt, hf.ref, hf.base⟩
  have hz : ∀ f : Fusion α, HBase cnt ref base f → HBase cnt ref base f.zuptStage := by
    intro f hf; unfold Fusion.zuptStage Fusion.measureZeroVelocity; dsimp only
    split_ifs <;> exact ⟨hf.cnt, hf.ref, hf.base⟩
  have hn : ∀ f : Fusion α, HBase cnt ref base f → HBase cnt ref base f.nhcStage := by
    intro f hf; unfold Fusion.nhcStage; split_ifs <;> exact ⟨hf.cnt, hf.ref, hf.base⟩
  have h1 := ha _ (ht _ h)
  have h2 : HBase cnt ref base (propagated (g, f) m) := ⟨h1.cnt, h1.ref, h1.base⟩
  have h3 := hn _ (hz _ h2)
  have e := timeUpdate_stages (g, f) m
  dsimp only at e
  rw [e]
  exact ⟨h3.cnt, h3.ref, h3.base⟩

theorem hb_vel {cnt : Int} {ref base : α} {f : Fusion α} (v : V3 α) (h : HBase cnt ref base f) :
    HBase cnt ref base (f.measureVel v) := by
  unfold Fusion.measureVel; dsimp only; split_ifs <;> exact ⟨h.cnt, h.ref, h.base⟩

/-- The fused relative height measurement: the current height is compared with base + height − reference. -/
def heightFused (f : Fusion α) (target : α) : Kf 15 α :=
  let nav := f.ins.nav
  let z := f.posZ (v3 (nav.pos 0) (nav.pos 1) target)
  f.kf.update (fun (_ : Fin 1) j => f.posH 2 j) (fun _ => z 2) (fun _ _ => Fl.f32 (f.opt.zuptaStd * f.opt.zuptaStd))

theorem hb_height {cnt : Int} {ref base : α} {f : Fusion α} (x : α) (h : HBase cnt ref base f) :
    HBase (cnt + 1) (if cnt = 1 then x else ref) base (f.measureRelativeHeight x) ∧
    (f.measureRelativeHeight x).kf = (if 4 < cnt then heightFused f (base + x - ref) else f.kf) := by
  obtain ⟨h1, h2, h3⟩ := h
  unfold Fusion.measureRelativeHeight
  subst h1 h2 h3
  dsimp only
  by_cases hc : f.baseHeightIsSet = 1
  · have : ¬ 4 < f.baseHeightIsSet := by omega
    rw [if_pos hc, if_neg this, if_pos hc, if_neg (show ¬ 4 < (Fusion.clearSensor { f with pHeight := x } SENSOR_HEIGHT).baseHeightIsSet from this)]
    exact ⟨⟨rfl, rfl, rfl⟩, rfl⟩
  · rw [if_neg hc, if_neg hc]
    by_cases h4 : 4 < f.baseHeightIsSet
    · rw [if_pos h4, if_pos h4]; exact ⟨⟨rfl, rfl, rfl⟩, rfl⟩
    · rw [if_neg h4, if_neg h4]; exact ⟨⟨rfl, rfl, rfl⟩, rfl⟩

theorem hb_exec {cnt : Int} {ref base : α} {s : α × Fusion α} (c : FCall α) (hc : noFix [c]) (h : HBase cnt ref base s.2) :
    HBase (cnt + (fheights [c]).length) (if cnt = 1 then (fheights [c]).headD ref else ref) base (c.exec s).2 := by
  have h0 : HBase (cnt + ((0 : Nat) : Int)) (if cnt = 1 then ref else ref) base s.2 := by
    simpa using h
  cases c with
  | time m => exact hb_time s.1 m h0
  | gnss m =>
    have hm : ¬ usable m.mode := hc m (by simp)
    have hk : ¬ Fusion.gnssCheck m = true := by
      intro hh; apply hm
      unfold Fusion.gnssCheck MODE_SPP MODE_RTK_FIX MODE_RTK_FLOAT MODE_RTK_DGPS at hh
      unfold usable
      simp only [decide_eq_true_eq] at hh; tauto
    have e : s.2.measureGnss m = _ := if_neg hk
    show HBase _ _ _ (s.2.measureGnss m)
    rw [e]
    exact ⟨h0.cnt, h0.ref, h0.base⟩
  | pos p R => exact ⟨h0.cnt, h0.ref, h0.base⟩
  | vel v => exact hb_vel v h0
  | speed v => exact hb_vel _ h0
  | height x => exact (hb_height x h).1

theorem hb_run {cnt : Int} {ref base : α} {s : α × Fusion α} (cs : List (FCall α)) (hc : noFix cs) (hcnt : 1 ≤ cnt)
    (h : HBase cnt ref base s.2) :
    HBase (cnt + (fheights cs).length) (if cnt = 1 then (fheights cs).headD ref else ref) base (frun cs s).2 := by
  induction cs generalizing cnt ref s with
  | nil => simpa [fheights, frun] using h
  | cons c cs ih =>
    have h1 := hb_exec c (fun m hm => hc m (by simp at hm; simp [hm])) h
    have h2 := ih (s := c.exec s) (fun m hm => hc m (by simp [hm])) (by omega) h1
    have hl : fheights (c :: cs) = fheights [c] ++ fheights cs := by cases c <;> rfl
    have hcount : cnt + ((fheights [c]).length : Int) + ((fheights cs).length : Int) =
        cnt + ((fheights (c :: cs)).length : Int) := by rw [hl]; push_cast [List.length_append]; omega
    rw [hcount] at h2
    show HBase _ _ _ (frun cs (c.exec s)).2
    convert h2 using 1
    rw [hl]
    cases hh : fheights [c] with
    | nil => simp
    | cons x xs =>
      have : ¬ cnt + ((xs.length : Int) + 1) = 1 := by omega
      simp [this]

/-- C35, the part that holds. After a usable fix of height `H`, during any further history without another
usable fix, the first relative height only serves as reference `h₁`; while fewer than four relative heights have
arrived a further one changes nothing in the filter; from the fifth on, a relative height `x` is fused as the
absolute height `H + x − h₁`. -/
theorem C35_after_fix_partial (s : α × Fusion α) (m : Gnss α) (hm : usable m.mode) (cs : List (FCall α)) (hc : noFix cs)
    (x : α) :
    let f := (frun cs (FCall.exec (.gnss m) s)).2
    ((fheights cs).length < 4 → (f.measureRelativeHeight x).kf = f.kf) ∧
    (∀ h₁ rest, fheights cs = h₁ :: rest → 3 ≤ rest.length →
      (f.measureRelativeHeight x).kf = heightFused f (m.height + x - h₁)) := by
  intro f
  have h0 : HBase 1 s.2.pHeight m.height (FCall.exec (.gnss m) s).2 := by
    have hk : Fusion.gnssCheck m = true := by
      unfold Fusion.gnssCheck MODE_SPP MODE_RTK_FIX MODE_RTK_FLOAT MODE_RTK_DGPS
      unfold usable at hm
      simp only [decide_eq_true_eq]; tauto
    have e : s.2.measureGnss m = _ := if_pos hk
    show HBase _ _ _ (s.2.measureGnss m)
    rw [e]
    exact ⟨rfl, rfl, rfl⟩
  have h1 := hb_run cs hc (le_refl _) h0
  rw [if_pos rfl] at h1
  have h2 := (hb_height x h1).2
  refine ⟨fun hl => ?_, fun h₁ rest he hr => ?_⟩
  · rw [if_neg (by omega)] at h2; exact h2
  · rw [he] at h2
    rw [if_pos (by simp; omega)] at h2
    exact h2

example : usable (Ex.fix 4 : Gnss α).mode ∧ noFix ([.height 0, .height 1, .gnss (Ex.fix 6), .height 0, .height 0] : List (FCall α)) := by
  refine ⟨Or.inr (Or.inr (Or.inl rfl)), ?_⟩
  intro m hm
  simp at hm
  subst hm
  unfold usable Ex.fix; simp

/-- C35, the violation: without any fix ever, the sixth relative height is fused as an absolute height, with
the initial value INT32_MIN as base: the filter is told that the height is −2147483648 + h₆ − h₂. -/
theorem C35_sixth_height_without_fix (g : α) (junk : Fusion α) (nav : NavEpoch α) (o : Opt α) (h1 h2 h3 h4 h5 h6 : α) :
    let f := (frun [.height h1, .height h2, .height h3, .height h4, .height h5] (fstart g junk nav o)).2
    (f.measureRelativeHeight h6).kf = heightFused f (Fl.lit (-2147483648) + h6 - h2) := by
  intro f
  have h0 : HBase 0 (Fl.lit (-2147483648) : α) (Fl.lit (-2147483648)) (fstart g junk nav o).2 := ⟨rfl, rfl, rfl⟩
  have a1 := (hb_height h1 h0).1
  have a2 := (hb_height h2 a1).1
  have a3 := (hb_height h3 a2).1
  have a4 := (hb_height h4 a3).1
  have a5 := (hb_height h5 a4).1
  have a6 := (hb_height h6 a5).2
  have e : f = (((((fstart g junk nav o).2.measureRelativeHeight h1).measureRelativeHeight h2).measureRelativeHeight
    h3).measureRelativeHeight h4).measureRelativeHeight h5 := rfl
  rw [e, a6, if_pos (by decide)]
  simp
end Verif.Props
