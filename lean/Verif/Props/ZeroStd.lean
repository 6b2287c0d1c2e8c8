import Verif.Props.Repeated
/-! Receivers that report no standard deviation. -/
namespace Verif.Props
open Verif Verif.Spec
variable {α : Type} [Add α] [Sub α] [Mul α] [Neg α] [Div α] [Zero α] [One α] [Fl α]

/-- Waiting, not yet knowing the heading, with a stored fix whose deviation is zero. -/
structure Blind (d : Dev α) : Prop where
  st : d.status = 0 ∨ d.status = 1 ∨ d.status = 2
  mode : d.opt.alignMode ≠ 2
  yaw : d.am.yaw = false
  std : Fl.eq (d.am.gnssPre.posStd 0) 0 = true

/-- If the call hands over a fix, its north deviation is zero. -/
def Call.zeroStd : Call α → Prop
  | .gnss (some f) => Fl.eq (f.posStd 0) 0 = true
  | _ => True

theorem imu_pre (a : Align α) (m : Imu α) : (a.updateImu m).gnssPre = a.gnssPre := by
  unfold Align.updateImu
  dsimp only
  split_ifs <;> rfl

theorem blind_exec (c : Call α) (hc : c.isInit = false) (hz : Call.zeroStd c) (s : α × Dev α) (h : Blind s.2) :
    Blind (c.exec s).1.2 := by
  obtain ⟨g, d⟩ := s
  have hy := h.yaw
  have hstd := h.std
  rcases c with _ | (_ | m) | (_ | m) | _ | _ | _ | _ | _ | _ <;> try exact h
  · simp [Call.isInit] at hc
  · show Blind (rgioeTimeupdate g d (some m)).2.2
    have y : (d.am.updateImu m).yaw = false := by rw [(imu_flags d.am m).1]; exact hy
    have p : Fl.eq ((d.am.updateImu m).gnssPre.posStd 0) 0 = true := by rw [imu_pre]; exact hstd
    rcases h.st with hs | hs | hs
    · have e : (rgioeTimeupdate g d (some m)).2.2 = { d with am := d.am.updateImu m, status := 1 } := by
        have hs' : d.status = 0 := hs
        unfold rgioeTimeupdate
        dsimp only
        rw [if_pos (show d.status = ST_INIT from hs'), if_neg (show ¬ d.opt.alignMode = ALIGN_USE_GIVEN from h.mode)]
        rfl
      rw [e]
      exact ⟨Or.inr (Or.inl rfl), h.mode, y, p⟩
    · rw [align_time g d m hs]
      refine ⟨?_, h.mode, y, p⟩
      show (if _ then (2 : Int) else 1) = 0 ∨ (if _ then (2 : Int) else 1) = 1 ∨ (if _ then (2 : Int) else 1) = 2
      split_ifs <;> simp
    · rw [att_time g d m hs, if_neg (by unfold Align.alignFinished; simp [y])]
      exact ⟨Or.inr (Or.inr hs), h.mode, y, p⟩
  · show Blind (rgioeGnssupdate g d (some m)).2.2
    by_cases hs : d.status = 0
    · have e : (rgioeGnssupdate g d (some m)).2.2 = d := by
        unfold rgioeGnssupdate
        dsimp only
        rw [if_pos (show d.status = ST_INIT from hs)]
      rw [e]; exact h
    · have e : (rgioeGnssupdate g d (some m)).2.2 = { d with am := { d.am with gnssPre := m } } := by
        unfold rgioeGnssupdate Align.updateGnss
        dsimp only
        rw [if_neg (show ¬ d.status = ST_INIT from hs), if_pos (by rcases h.st with k | k | k; exacts [absurd k hs, Or.inl k, Or.inr k]),
          if_pos hstd]
      rw [e]
      exact ⟨h.st, h.mode, hy, hz⟩

theorem blind_run (cs : List (Call α)) (hc : ∀ c ∈ cs, c.isInit = false ∧ Call.zeroStd c) : ∀ s : α × Dev α, Blind s.2 →
    Blind (runCalls cs s).2 := by
  induction cs with
  | nil => intro s h; exact h
  | cons c cs ih =>
    intro s h
    obtain ⟨h1, h2⟩ := hc c List.mem_cons_self
    exact ih (fun c' h' => hc c' (List.mem_cons_of_mem _ h')) _ (blind_exec c h1 h2 s h)

/-- C153 fails, in every arithmetic: a device that has to align itself and whose receiver reports a north deviation of
zero with every fix never starts to navigate, whatever the vehicle does and however long. -/
theorem C153_never_starts (h00 : Fl.eq (0 : α) 0 = true) (junk : Junk α) (d0 d : Dev α) (o : Opt α) (nav : Option (NavOutput α))
    (g : α) (hmode : o.alignMode ≠ 2) (h : rgioeInit junk d0 (some o) nav = some (E_OK, d)) (cs : List (Call α))
    (hc : ∀ c ∈ cs, c.isInit = false ∧ Call.zeroStd c) :
    rgioeGetStatus (runCalls cs (g, d)).2 ≠ 3 := by
  have hb : Blind d := by
    obtain ⟨h, -⟩ := init_ok h
    subst h
    exact ⟨Or.inl rfl, hmode, rfl, h00⟩
  have := (blind_run cs hc (g, d) hb).st
  unfold rgioeGetStatus
  rcases this with k | k | k <;> rw [k] <;> decide

/-- C153, the part that holds: once a fix with a deviation was seen, the next fix is used, also if it has none: it is
compared with the stored one and moves the position. -/
theorem C153_used_partial (g : ℝ) (d : Dev ℝ) (f1 f2 : Gnss ℝ) (m : Imu ℝ) (hs : d.status = 2) (hl : d.am.level = true)
    (hp1 : f1.posStd 0 ≠ 0) (hm : moving d.am.option f1 f2) :
    rgioeGetStatus (runCalls [.gnss (some f1), .gnss (some f2), .time (some m)] (g, d)).2 = 3 := by
  set a1 := (d.am.updateGnss g f1).2 with ha1
  have k : a1.gnssPre = f1 ∧ a1.level = true ∧ a1.option = d.am.option := by
    rw [ha1]
    unfold Align.updateGnss Align.yawStep
    dsimp only
    split_ifs <;> exact ⟨rfl, hl, rfl⟩
  have e1 : rgioeGnssupdate g d (some f1) = (0, (d.am.updateGnss g f1).1, { d with am := a1 }) := att_gnss g d f1 hs
  have e2 := gnss_align (d.am.updateGnss g f1).1 { d with am := a1 } f2 hs (by show a1.gnssPre.posStd 0 ≠ 0; rw [k.1]; exact hp1)
  have y : (a1.yawStep f2).yaw = true ∧ (a1.yawStep f2).level = true := by
    have hm' : moving a1.option a1.gnssPre f2 := by rw [k.1, k.2.2]; exact hm
    unfold Align.yawStep
    dsimp only
    rw [distance_eq, vnorm_len, if_pos]
    · exact ⟨rfl, k.2.1⟩
    · simp only [Bool.and_eq_true, lt_real, f32_real, lit_real]
      exact ⟨hm'.1, by push_cast; exact hm'.2⟩
  have := (align_start (rgioeGnssupdate (d.am.updateGnss g f1).1 { d with am := a1 } (some f2)).2.1
    { d with am := (a1.yawStep f2).fixStep f2 } m hs y.2 y.1).1
  show (rgioeTimeupdate (rgioeGnssupdate (rgioeGnssupdate g d (some f1)).2.1 (rgioeGnssupdate g d (some f1)).2.2 (some f2)).2.1
    (rgioeGnssupdate (rgioeGnssupdate g d (some f1)).2.1 (rgioeGnssupdate g d (some f1)).2.2 (some f2)).2.2 (some m)).2.2.status = 3
  rw [e1]
  dsimp only
  rw [e2]
  exact this

/-- The hypotheses are met: a history with fixes of zero deviation (`Align.zeroGnss`), and one with a deviation first. -/
example : ∃ d : Dev ℝ, rgioeInit (Ex.zJunk : Junk ℝ) Ex.zDev (some (Ex.opt 0)) none = some (E_OK, d) ∧ (Ex.opt 0 : Opt ℝ).alignMode ≠ 2 ∧
    ∀ c ∈ [Call.time (some Ex.zImu), .gnss (some (Align.zeroGnss : Gnss ℝ)), .time (some Ex.zImu)], c.isInit = false ∧ Call.zeroStd c := by
  refine ⟨_, rfl, by decide, ?_⟩
  intro c hc
  simp only [List.mem_cons, List.not_mem_nil, or_false] at hc
  rcases hc with rfl | rfl | rfl <;> simp [Call.isInit, Call.zeroStd, Align.zeroGnss, zero3, v3, eq_real]
end Verif.Props
