import Verif.Lemmas.Schedule
/-! C70: do results depend on memory the constructors leave uninitialised? For every scalar type; the
violation in moving alignment is exhibited in `Verif.Props.JunkReal`. -/
namespace Verif.Props
open Verif Verif.Spec
variable {α : Type} [Add α] [Sub α] [Mul α] [Neg α] [Div α] [Zero α] [One α] [Fl α]

/-- Equal up to the scratch members of the mechanization, which every step overwrites before reading. -/
def scratchEq (f f' : Fusion α) : Prop :=
  ∃ a b c d, f' = { f with ins := { f.ins with omegaEnN := a, omegaIeN := b, vnMid := c, posMid := d } }

theorem scratch_time {f f' : Fusion α} (g : α) (m : Imu α) (h : scratchEq f f') : f'.timeUpdate g m = f.timeUpdate g m := by
  obtain ⟨a, b, c, d, rfl⟩ := h
  have ht : ∀ f : Fusion α, Fusion.takeCorrection { f with ins := { f.ins with omegaEnN := a, omegaIeN := b, vnMid := c, posMid := d } } =
      { f.takeCorrection with ins := { f.takeCorrection.ins with omegaEnN := a, omegaIeN := b, vnMid := c, posMid := d } } := by
    intro f; unfold Fusion.takeCorrection
    by_cases h : 0 < f.updateFlag.toNat
    · simp only [if_pos h]
    · simp only [if_neg h]
  have ha : ∀ f : Fusion α, Fusion.applyCorrection { f with ins := { f.ins with omegaEnN := a, omegaIeN := b, vnMid := c, posMid := d } } =
      { f.applyCorrection with ins := { f.applyCorrection.ins with omegaEnN := a, omegaIeN := b, vnMid := c, posMid := d } } := by
    intro f; unfold Fusion.applyCorrection
    by_cases h : 0 < f.updateIter
    · simp only [if_pos h]; rfl
    · simp only [if_neg h]
  unfold Fusion.timeUpdate
  rw [ht, ha]
  generalize f.takeCorrection.applyCorrection = f1
  have hp : Fusion.propagate g { f1 with ins := { f1.ins with omegaEnN := a, omegaIeN := b, vnMid := c, posMid := d } } m =
      Fusion.propagate g f1 m := by
    rw [Fusion.propagate_eq, Fusion.propagate_eq]
    have hi : Ins.forwardImu g { f1.ins with omegaEnN := a, omegaIeN := b, vnMid := c, posMid := d } m =
        f1.ins.forwardImu g m := by
      unfold Ins.forwardImu Ins.forward
      have he : Ins.extrapolate { f1.ins with omegaEnN := a, omegaIeN := b, vnMid := c, posMid := d } =
          f1.ins.extrapolate := rfl
      rw [he]
    dsimp only
    rw [hi]
    rfl
  dsimp only at hp ⊢
  rw [hp]

theorem scratch_gnss {f f' : Fusion α} (m : Gnss α) (h : scratchEq f f') : scratchEq (f.measureGnss m) (f'.measureGnss m) := by
  obtain ⟨a, b, c, d, rfl⟩ := h
  unfold Fusion.measureGnss
  by_cases hc : Fusion.gnssCheck m = true
  · rw [if_pos hc, if_pos hc]; exact ⟨a, b, c, d, rfl⟩
  · rw [if_neg hc, if_neg hc]; exact ⟨a, b, c, d, rfl⟩

theorem scratch_init (j j' : Fusion α) (g : α) (n : NavEpoch α) (o : Opt α) :
    scratchEq ((Fusion.new j).initFusion g n o).2 ((Fusion.new j').initFusion g n o).2 :=
  ⟨j'.ins.omegaEnN, j'.ins.omegaIeN, j'.ins.vnMid, j'.ins.posMid, rfl⟩

theorem acc_imu (a : Align α) (x : V3 α) (m : Imu α) :
    Align.updateImu { a with accPre := x } m = { a.updateImu m with accPre := x } := by
  unfold Align.updateImu; dsimp only; split_ifs <;> rfl
theorem acc_yaw (a : Align α) (x : V3 α) (m : Gnss α) :
    Align.yawStep { a with accPre := x } m = { a.yawStep m with accPre := x } := by
  unfold Align.yawStep; dsimp only; split_ifs <;> rfl
theorem acc_gnss (a : Align α) (x : V3 α) (g : α) (m : Gnss α) :
    Align.updateGnss g { a with accPre := x } m = ((a.updateGnss g m).1, { (a.updateGnss g m).2 with accPre := x }) := by
  unfold Align.updateGnss
  dsimp only
  split_ifs
  · rfl
  · dsimp only; rw [acc_yaw]; rfl

/-- Two devices that differ in uninitialised memory only. -/
structure JunkRel (d d' : Dev α) : Prop where
  opt : d'.opt = d.opt
  status : d'.status = d.status
  pva : d'.curPva = d.curPva
  ok : okStatus d.status
  given : d.opt.alignMode = ALIGN_USE_GIVEN → d.status = ST_INIT ∨ d.status = ST_NAVIGATION
  am : d.status ≠ ST_NAVIGATION → d.opt.alignMode ≠ ALIGN_USE_GIVEN → ∃ x, d'.am = { d.am with accPre := x }
  fresh : d.status ≠ ST_NAVIGATION → ∃ j j', d.df = Fusion.new j ∧ d'.df = Fusion.new j'
  nav : d.status = ST_NAVIGATION → scratchEq d.df d'.df

/-- The getters that read the filter whatever the status. -/
def readsFilter : Call α → Bool
  | .getAtti | .getPos | .getVel => true
  | _ => false

theorem junk_time {d d' : Dev α} (g : α) (m : Imu α) (h : JunkRel d d') :
    (rgioeTimeupdate g d (some m)).1 = (rgioeTimeupdate g d' (some m)).1 ∧
    (rgioeTimeupdate g d (some m)).2.1 = (rgioeTimeupdate g d' (some m)).2.1 ∧
    JunkRel (rgioeTimeupdate g d (some m)).2.2 (rgioeTimeupdate g d' (some m)).2.2 := by
  obtain ⟨df, am, st, op, pv⟩ := d
  obtain ⟨df', am', st', op', pv'⟩ := d'
  obtain ⟨h1, h2, h3, hok, hg, ham, hfr, hnav⟩ := h
  dsimp only at h1 h2 h3 hok hg ham hfr hnav
  subst h1 h2 h3
  rcases hok with rfl | rfl | rfl | rfl
  · obtain ⟨j, j', rfl, rfl⟩ := hfr (by decide)
    by_cases hm : op'.alignMode = ALIGN_USE_GIVEN
    · unfold rgioeTimeupdate
      simp only [if_true, hm]
      have hs := scratch_init j j' g (makeNavEpoch pv' op') op'
      have hgr : ((Fusion.new j').initFusion g (makeNavEpoch pv' op') op').1 =
        ((Fusion.new j).initFusion g (makeNavEpoch pv' op') op').1 := rfl
      rw [hgr, scratch_time _ m hs]
      exact ⟨trivial, rfl, ⟨rfl, rfl, rfl, Or.inr (Or.inr (Or.inr rfl)), fun _ => Or.inr rfl, fun h => absurd rfl h,
        fun h => absurd rfl h, fun _ => ⟨_, _, _, _, rfl⟩⟩⟩
    · obtain ⟨x, rfl⟩ := ham (by decide) hm
      unfold rgioeTimeupdate
      simp only [if_true, if_neg hm, acc_imu]
      exact ⟨trivial, trivial, ⟨rfl, rfl, rfl, Or.inr (Or.inl rfl), fun h => absurd h hm, fun _ _ => ⟨x, rfl⟩,
        fun _ => ⟨j, j', rfl, rfl⟩, fun h => by simp [ST_ALIGN, ST_NAVIGATION] at h⟩⟩
  · obtain ⟨j, j', rfl, rfl⟩ := hfr (by decide)
    have hm : op'.alignMode ≠ ALIGN_USE_GIVEN := fun h => by
      rcases hg h with h | h <;> simp [ST_ALIGN, ST_INIT, ST_NAVIGATION] at h
    obtain ⟨x, rfl⟩ := ham (by decide) hm
    unfold rgioeTimeupdate
    have ha := acc_imu am x m
    dsimp only at ha ⊢
    rw [ha]
    generalize am.updateImu m = am2
    rw [if_neg (show ¬ ST_ALIGN = ST_INIT by decide), if_neg (show ¬ ST_ALIGN = ST_INIT by decide), if_pos rfl, if_pos rfl]
    dsimp only
    refine ⟨rfl, rfl, ⟨rfl, rfl, rfl, ?_, fun h => absurd h hm, fun _ _ => ⟨x, rfl⟩, fun _ => ⟨j, j', rfl, rfl⟩, fun h => ?_⟩⟩
    · dsimp only; split_ifs
      · exact Or.inr (Or.inr (Or.inl rfl))
      · exact Or.inr (Or.inl rfl)
    · dsimp only at h; split_ifs at h <;> simp [ST_ALIGN, ST_ATTITUDE, ST_NAVIGATION] at h
  · obtain ⟨j, j', rfl, rfl⟩ := hfr (by decide)
    have hm : op'.alignMode ≠ ALIGN_USE_GIVEN := fun h => by
      rcases hg h with h | h <;> simp [ST_ATTITUDE, ST_INIT, ST_NAVIGATION] at h
    obtain ⟨x, rfl⟩ := ham (by decide) hm
    unfold rgioeTimeupdate
    have ha := acc_imu am x m
    dsimp only at ha ⊢
    rw [ha]
    generalize am.updateImu m = am2
    rw [if_neg (show ¬ ST_ATTITUDE = ST_INIT by decide), if_neg (show ¬ ST_ATTITUDE = ST_INIT by decide),
      if_neg (show ¬ ST_ATTITUDE = ST_ALIGN by decide), if_neg (show ¬ ST_ATTITUDE = ST_ALIGN by decide), if_pos rfl, if_pos rfl]
    have hf : Align.alignFinished { am2 with accPre := x } = am2.alignFinished := rfl
    rw [hf]
    by_cases hfin : am2.alignFinished = true
    · rw [if_pos hfin, if_pos hfin]
      exact ⟨rfl, rfl, ⟨rfl, rfl, rfl, Or.inr (Or.inr (Or.inr rfl)), fun _ => Or.inr rfl, fun h => absurd rfl h,
        fun h => absurd rfl h, fun _ => scratch_init j j' g _ op'⟩⟩
    · rw [if_neg hfin, if_neg hfin]
      exact ⟨rfl, rfl, ⟨rfl, rfl, rfl, Or.inr (Or.inr (Or.inl rfl)), fun h => absurd h hm, fun _ _ => ⟨x, rfl⟩,
        fun _ => ⟨j, j', rfl, rfl⟩, fun h => by simp [ST_ATTITUDE, ST_NAVIGATION] at h⟩⟩
  · have hs := hnav rfl
    unfold rgioeTimeupdate
    dsimp only
    rw [if_neg (show ¬ ST_NAVIGATION = ST_INIT by decide), if_neg (show ¬ ST_NAVIGATION = ST_INIT by decide),
      if_neg (show ¬ ST_NAVIGATION = ST_ALIGN by decide), if_neg (show ¬ ST_NAVIGATION = ST_ALIGN by decide),
      if_neg (show ¬ ST_NAVIGATION = ST_ATTITUDE by decide), if_neg (show ¬ ST_NAVIGATION = ST_ATTITUDE by decide),
      if_pos rfl, if_pos rfl, scratch_time g m hs]
    exact ⟨rfl, rfl, ⟨rfl, rfl, rfl, Or.inr (Or.inr (Or.inr rfl)), fun _ => Or.inr rfl, fun h => absurd rfl h,
        fun h => absurd rfl h, fun _ => ⟨_, _, _, _, rfl⟩⟩⟩

theorem junk_gnss {d d' : Dev α} (g : α) (m : Gnss α) (h : JunkRel d d') :
    (rgioeGnssupdate g d (some m)).1 = (rgioeGnssupdate g d' (some m)).1 ∧
    (rgioeGnssupdate g d (some m)).2.1 = (rgioeGnssupdate g d' (some m)).2.1 ∧
    JunkRel (rgioeGnssupdate g d (some m)).2.2 (rgioeGnssupdate g d' (some m)).2.2 := by
  have h0 := h
  obtain ⟨df, am, st, op, pv⟩ := d
  obtain ⟨df', am', st', op', pv'⟩ := d'
  obtain ⟨h1, h2, h3, hok, hg, ham, hfr, hnav⟩ := h
  dsimp only at h1 h2 h3 hok hg ham hfr hnav
  subst h1 h2 h3
  rcases hok with rfl | rfl | rfl | rfl
  · unfold rgioeGnssupdate
    simp only [if_true]
    exact ⟨trivial, trivial, h0⟩
  · have hm : op'.alignMode ≠ ALIGN_USE_GIVEN := fun h => by
      rcases hg h with h | h <;> simp [ST_ALIGN, ST_INIT, ST_NAVIGATION] at h
    obtain ⟨x, rfl⟩ := ham (by decide) hm
    unfold rgioeGnssupdate
    have ha := acc_gnss am x g m
    dsimp only at ha ⊢
    rw [ha]
    generalize am.updateGnss g m = am2
    rw [if_neg (show ¬ ST_ALIGN = ST_INIT by decide), if_neg (show ¬ ST_ALIGN = ST_INIT by decide),
      if_pos (Or.inl rfl), if_pos (Or.inl rfl)]
    dsimp only
    exact ⟨rfl, rfl, ⟨rfl, rfl, rfl, Or.inr (Or.inl rfl), fun h => absurd h hm, fun _ _ => ⟨x, rfl⟩, hfr, hnav⟩⟩
  · have hm : op'.alignMode ≠ ALIGN_USE_GIVEN := fun h => by
      rcases hg h with h | h <;> simp [ST_ATTITUDE, ST_INIT, ST_NAVIGATION] at h
    obtain ⟨x, rfl⟩ := ham (by decide) hm
    unfold rgioeGnssupdate
    have ha := acc_gnss am x g m
    dsimp only at ha ⊢
    rw [ha]
    generalize am.updateGnss g m = am2
    rw [if_neg (show ¬ ST_ATTITUDE = ST_INIT by decide), if_neg (show ¬ ST_ATTITUDE = ST_INIT by decide),
      if_pos (Or.inr rfl), if_pos (Or.inr rfl)]
    dsimp only
    exact ⟨rfl, rfl, ⟨rfl, rfl, rfl, Or.inr (Or.inr (Or.inl rfl)), fun h => absurd h hm, fun _ _ => ⟨x, rfl⟩, hfr, hnav⟩⟩
  · unfold rgioeGnssupdate
    dsimp only
    have hn : ¬ (ST_NAVIGATION = ST_ALIGN ∨ ST_NAVIGATION = ST_ATTITUDE) := by decide
    rw [if_neg (show ¬ ST_NAVIGATION = ST_INIT by decide), if_neg (show ¬ ST_NAVIGATION = ST_INIT by decide),
      if_neg hn, if_neg hn, if_pos rfl, if_pos rfl]
    exact ⟨rfl, rfl, ⟨rfl, rfl, rfl, Or.inr (Or.inr (Or.inr rfl)), fun _ => Or.inr rfl, fun h => absurd rfl h,
        fun h => absurd rfl h, fun _ => scratch_gnss m (hnav rfl)⟩⟩

theorem junk_output {d d' : Dev α} (h : JunkRel d d') (hn : d.status = ST_NAVIGATION) : d'.df.output = d.df.output := by
  obtain ⟨a, b, c, e, h⟩ := h.nav hn
  rw [h]; rfl

theorem junk_exec {d d' : Dev α} (g : α) (c : Call α) (hc : c.isInit = false)
    (hr : d.status ≠ ST_NAVIGATION → readsFilter c = false) (h : JunkRel d d') :
    (c.exec (g, d)).2 = (c.exec (g, d')).2 ∧ (c.exec (g, d)).1.1 = (c.exec (g, d')).1.1 ∧
    JunkRel (c.exec (g, d)).1.2 (c.exec (g, d')).1.2 := by
  have hget : readsFilter c = true → d'.df.output = d.df.output := by
    intro hrf
    by_cases hn : d.status = ST_NAVIGATION
    · exact junk_output h hn
    · rw [hr hn] at hrf; cases hrf
  rcases c with _ | (_ | m) | (_ | m) | _ | _ | _ | _ | p | _
  · simp [Call.isInit] at hc
  · exact ⟨rfl, rfl, h⟩
  · have := junk_time g m h
    exact ⟨congrArg Answer.code this.1, this.2⟩
  · exact ⟨rfl, rfl, h⟩
  · have := junk_gnss g m h
    exact ⟨congrArg Answer.code this.1, this.2⟩
  · refine ⟨?_, rfl, h⟩
    simp only [Call.exec, rgioeGetAtti, hget rfl]
  · refine ⟨?_, rfl, h⟩
    simp only [Call.exec, rgioeGetPos, hget rfl]
  · refine ⟨?_, rfl, h⟩
    simp only [Call.exec, rgioeGetVel, hget rfl]
  · refine ⟨?_, rfl, h⟩
    simp only [Call.exec, rgioeGetStatus, h.status]
  · refine ⟨?_, rfl, h⟩
    simp only [Call.exec, rgioeGetResult, h.status]
    rcases h.ok with hs | hs | hs | hs
    · simp [hs, ST_INIT, ST_ALIGN, ST_ATTITUDE, ST_NAVIGATION]
    · have hm : d.opt.alignMode ≠ ALIGN_USE_GIVEN := fun hh => by
        rcases h.given hh with h' | h' <;> simp [hs, ST_ALIGN, ST_INIT, ST_NAVIGATION] at h'
      obtain ⟨x, hx⟩ := h.am (by rw [hs]; decide) hm
      simp [hs, hx, ST_ALIGN, ST_ATTITUDE, ST_NAVIGATION]
    · have hm : d.opt.alignMode ≠ ALIGN_USE_GIVEN := fun hh => by
        rcases h.given hh with h' | h' <;> simp [hs, ST_ATTITUDE, ST_INIT, ST_NAVIGATION] at h'
      obtain ⟨x, hx⟩ := h.am (by rw [hs]; decide) hm
      simp [hs, hx, ST_ALIGN, ST_ATTITUDE, ST_NAVIGATION]
    · simp [hs, ST_ALIGN, ST_ATTITUDE, ST_NAVIGATION, junk_output h hs]
  · exact ⟨rfl, rfl, h⟩

/-- In a history, attitude/position/velocity getters are only called in NAVIGATION. -/
def getsInNav : List (Call α) → α × Dev α → Prop
  | [], _ => True
  | c :: cs, s => (s.2.status ≠ ST_NAVIGATION → readsFilter c = false) ∧ getsInNav cs (c.exec s).1

theorem junk_trace (cs : List (Call α)) (hc : ∀ c ∈ cs, c.isInit = false) (g : α) {d d' : Dev α}
    (hg : getsInNav cs (g, d)) (h : JunkRel d d') : traceCalls cs (g, d) = traceCalls cs (g, d') := by
  induction cs generalizing g d d' with
  | nil => rfl
  | cons c cs ih =>
    have h1 := junk_exec g c (hc c (by simp)) hg.1 h
    simp only [traceCalls]
    refine congrArg₂ _ h1.1 ?_
    have e : (c.exec (g, d')).1 = ((c.exec (g, d)).1.1, (c.exec (g, d')).1.2) := by rw [h1.2.1]
    rw [e]
    exact ih (fun c' h' => hc c' (by simp [h'])) _ hg.2 h1.2.2

theorem junk_start (junk junk' : Junk α) (d0 d0' d d' : Dev α) (o : Opt α) (nav : Option (NavOutput α))
    (h : rgioeInit junk d0 (some o) nav = some (E_OK, d)) (h' : rgioeInit junk' d0' (some o) nav = some (E_OK, d'))
    (hv : o.alignMode = ALIGN_USE_GIVEN ∨ junk.am.vnPre = junk'.am.vnPre) (hpva : nav = none → d0.curPva = d0'.curPva) :
    JunkRel d d' := by
  unfold rgioeInit at h h'
  dsimp only at h h'
  by_cases hf : o.alignMode = ALIGN_USE_GIVEN ∧ nav.isNone = true
  · rw [if_pos hf] at h
    have := congrArg (fun x : Option (Int × Dev α) => x.map Prod.fst) h
    simp [E_FAULT_CONFIG, E_OK] at this
  · rw [if_neg hf] at h h'
    cases nav with
    | none =>
      simp only [Option.some.injEq, Prod.mk.injEq, true_and] at h h'
      subst h h'
      refine ⟨rfl, rfl, (hpva rfl).symm, Or.inl rfl, fun _ => Or.inl rfl, fun _ hm => ?_, fun _ => ⟨_, _, rfl, rfl⟩, fun h => ?_⟩
      · rcases hv with hv | hv
        · exact absurd hv hm
        · exact ⟨junk'.am.accPre, by simp only [Align.setOption, Align.new, hv]⟩
      · simp [ST_INIT, ST_NAVIGATION] at h
    | some n =>
      simp only [Option.some.injEq, Prod.mk.injEq, true_and] at h h'
      subst h h'
      refine ⟨rfl, rfl, rfl, Or.inl rfl, fun _ => Or.inl rfl, fun _ hm => ?_, fun _ => ⟨_, _, rfl, rfl⟩, fun h => ?_⟩
      · rcases hv with hv | hv
        · exact absurd hv hm
        · exact ⟨junk'.am.accPre, by simp only [Align.setOption, Align.new, hv]⟩
      · simp [ST_INIT, ST_NAVIGATION] at h

/-- C70 for a given initial state: two instances initialised with the same options and initial state, on
buffers with arbitrary different previous contents, answer every history alike, provided the attitude,
position and velocity getters are not called before NAVIGATION. -/
theorem C70_no_junk_use_given (junk junk' : Junk α) (d0 d0' d d' : Dev α) (o : Opt α) (n : NavOutput α) (g : α)
    (hmode : o.alignMode = 2)
    (h : rgioeInit junk d0 (some o) (some n) = some (E_OK, d)) (h' : rgioeInit junk' d0' (some o) (some n) = some (E_OK, d'))
    (cs : List (Call α)) (hc : ∀ c ∈ cs, c.isInit = false) (hg : getsInNav cs (g, d)) :
    traceCalls cs (g, d) = traceCalls cs (g, d') :=
  junk_trace cs hc g hg (junk_start junk junk' d0 d0' d d' o (some n) h h' (Or.inl hmode) (by simp))

/-- C70 for moving alignment, the part that holds: the previous velocity of the alignment object is the
only uninitialised member that can influence an answer. -/
theorem C70_only_previous_velocity_partial (junk junk' : Junk α) (d0 d0' d d' : Dev α) (o : Opt α) (g : α)
    (hvn : junk.am.vnPre = junk'.am.vnPre) (hmode : o.alignMode ≠ 2) (hpva : d0.curPva = d0'.curPva)
    (h : rgioeInit junk d0 (some o) none = some (E_OK, d)) (h' : rgioeInit junk' d0' (some o) none = some (E_OK, d'))
    (cs : List (Call α)) (hc : ∀ c ∈ cs, c.isInit = false) (hg : getsInNav cs (g, d)) :
    traceCalls cs (g, d) = traceCalls cs (g, d') :=
  have _ := hmode
  junk_trace cs hc g hg (junk_start junk junk' d0 d0' d d' o none h h' (Or.inr hvn) (fun _ => hpva))

example (g : α) (m : Imu α) : ∃ d, rgioeInit (Ex.zJunk : Junk α) Ex.zDev (some (Ex.opt 2)) (some zeroPva) = some (E_OK, d) ∧
    getsInNav [.time (some m), .getAtti, .getPos] (g, d) :=
  ⟨_, rfl, fun _ => rfl, fun h => absurd rfl h, fun h => absurd rfl h, trivial⟩
end Verif.Props
