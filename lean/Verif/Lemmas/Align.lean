import Verif.Spec.Api
import Verif.Lemmas.Api
import Mathlib.Data.List.Infix
/-! The static detector and the alignment state machine; valid for every scalar type. -/
namespace Verif
open Verif.Spec
variable {α : Type} [Add α] [Sub α] [Mul α] [Neg α] [Div α] [Zero α] [One α] [Fl α]

theorem feed_snoc (thr : α) (sw win : Int) (xs : List (Imu α)) (x : Imu α) :
    feed thr sw win (xs ++ [x]) = (feed thr sw win xs).update x := by
  simp [feed]

theorem feed_params (thr : α) (sw win : Int) (xs : List (Imu α)) :
    (feed thr sw win xs).threshold = thr ∧ (feed thr sw win xs).staticWidth = sw ∧
    (feed thr sw win xs).width = win := by
  induction xs using List.reverseRecOn with
  | nil => exact ⟨rfl, rfl, rfl⟩
  | append_singleton xs x ih => rw [feed_snoc]; exact ih

theorem smooth_cnt (s : Smooth α) (x : Imu α) :
    (s.update x).staticCnt = if Fl.lt s.threshold (s.update x).getStd then 0 else s.staticCnt + 1 := rfl

theorem smooth_static (s : Smooth α) (x : Imu α) :
    (s.update x).isStatic = decide (s.staticWidth < (s.update x).staticCnt) := rfl

/-- Number of calm samples at the end: what the counter holds. -/
theorem feed_cnt (thr : α) (sw win : Int) (xs : List (Imu α)) :
    ∃ n : Nat, (feed thr sw win xs).staticCnt = n ∧
      (∀ k : Nat, calmLast thr sw win xs k ↔ k ≤ n) ∧
      (xs ≠ [] → (feed thr sw win xs).isStatic = decide (sw < (n : Int))) := by
  induction xs using List.reverseRecOn with
  | nil =>
    refine ⟨0, rfl, ?_, by simp⟩
    intro k; constructor
    · intro h; exact h.1
    · intro h; have : k = 0 := by omega
      subst this; exact ⟨by simp, by intro j hj; omega⟩
  | append_singleton xs x ih =>
    obtain ⟨n, h1, h2, h3⟩ := ih
    have hp := feed_params thr sw win xs
    have hstd : ((feed thr sw win xs).update x).getStd = (feed thr sw win (xs ++ [x])).getStd := by
      rw [feed_snoc]
    have hc : ((feed thr sw win xs).update x).staticCnt =
        if Fl.lt thr (feed thr sw win (xs ++ [x])).getStd then 0 else (feed thr sw win xs).staticCnt + 1 := by
      rw [← hstd]
      have := smooth_cnt (feed thr sw win xs) x
      rw [hp.1] at this
      exact this
    have hs : ((feed thr sw win xs).update x).isStatic =
        decide (sw < ((feed thr sw win xs).update x).staticCnt) := by
      have := smooth_static (feed thr sw win xs) x
      rw [hp.2.1] at this
      exact this
    by_cases hcalm : Fl.lt thr (feed thr sw win (xs ++ [x])).getStd = true
    · refine ⟨0, ?_, ?_, ?_⟩
      · rw [feed_snoc, hc, hcalm]; rfl
      · intro k; constructor
        · intro h
          by_contra hk
          have := h.2 0 (by omega)
          have e : (xs ++ [x]).take ((xs ++ [x]).length - 0) = xs ++ [x] := by simp
          rw [e, calm, hcalm] at this; simp at this
        · intro h; have : k = 0 := by omega
          subst this; exact ⟨by simp, by intro j hj; omega⟩
      · intro _; rw [feed_snoc, hs, hc, hcalm]; rfl
    · have hcalm' : Fl.lt thr (feed thr sw win (xs ++ [x])).getStd = false := by
        simpa using hcalm
      refine ⟨n + 1, ?_, ?_, ?_⟩
      · rw [feed_snoc, hc, hcalm', h1]; simp
      · intro k; constructor
        · intro h
          cases k with
          | zero => omega
          | succ k =>
            have : calmLast thr sw win xs k := by
              refine ⟨by have := h.1; simp at this; omega, fun j hj => ?_⟩
              have := h.2 (j+1) (by omega)
              have e : (xs ++ [x]).length - (j + 1) = xs.length - j := by simp
              rw [e, List.take_append_of_le_length (by omega)] at this
              exact this
            have := (h2 k).1 this
            omega
        · intro h
          cases k with
          | zero => exact ⟨by simp, by intro j hj; omega⟩
          | succ k =>
            have hk := (h2 k).2 (by omega)
            refine ⟨by have := hk.1; simp; omega, fun j hj => ?_⟩
            cases j with
            | zero =>
              have e : (xs ++ [x]).take ((xs ++ [x]).length - 0) = xs ++ [x] := by simp
              rw [e]; exact hcalm'
            | succ j =>
              have e : (xs ++ [x]).length - (j + 1) = xs.length - j := by simp
              rw [e, List.take_append_of_le_length (by omega)]
              exact hk.2 j (by omega)
      · intro _; rw [feed_snoc, hs, hc, hcalm', h1]; simp

theorem imusOf_append (a b : List (Call α)) : imusOf (a ++ b) = imusOf a ++ imusOf b := by
  induction a with
  | nil => rfl
  | cons c cs ih =>
    rcases c with _ | (_ | _) | _ | _ | _ | _ | _ | _ | _ <;> simp [imusOf, ih]

theorem fixesOf_append (a b : List (Call α)) : fixesOf (a ++ b) = fixesOf a ++ fixesOf b := by
  induction a with
  | nil => rfl
  | cons c cs ih =>
    rcases c with _ | _ | (_ | _) | _ | _ | _ | _ | _ | _ <;> simp [fixesOf, ih]

/-- The threshold the alignment uses. -/
def alignThr : α := Fl.f32 (Fl.lit (1 / 1000))

/-- What is known about the alignment object of a device in moving alignment, after a history with the
given IMU samples and fixes. -/
structure AlignInv (o : Opt α) (imus : List (Imu α)) (fixes : List (Gnss α)) (d : Dev α) : Prop where
  opt : d.opt = o
  amopt : d.am.option = o
  mode : o.alignMode ≠ ALIGN_USE_GIVEN
  ok : okStatus d.status
  init : d.status = ST_INIT → imus = [] ∧ d.am.gnssPre = Align.zeroGnss
  smooth : d.status ≠ ST_NAVIGATION → d.am.smooth = feed alignThr 200 30 imus
  level : d.am.level = true → ∃ p, p <+: imus ∧ (feed (alignThr : α) 200 30 p).isStatic = true
  pre : d.am.gnssPre = Align.zeroGnss ∨ ∃ l, fixes = l ++ [d.am.gnssPre] ∨ d.status = ST_NAVIGATION
  yaw : d.am.yaw = true → ∃ g1 g2, [g1, g2] <:+: fixes ∧ moved o.alignVelThreshold g1 g2
  att : d.status = ST_ATTITUDE → d.am.level = true
  nav : d.status = ST_NAVIGATION → d.am.level = true ∧ d.am.yaw = true ∧ 202 ≤ imus.length

theorem align_imu_option (a : Align α) (m : Imu α) : (a.updateImu m).option = a.option := by
  unfold Align.updateImu; simp only; split_ifs <;> rfl
theorem align_imu_smooth (a : Align α) (m : Imu α) : (a.updateImu m).smooth = a.smooth.update m := by
  unfold Align.updateImu; simp only; split_ifs <;> rfl
theorem align_imu_pre (a : Align α) (m : Imu α) : (a.updateImu m).gnssPre = a.gnssPre := by
  unfold Align.updateImu; simp only; split_ifs <;> rfl
theorem align_imu_yaw (a : Align α) (m : Imu α) : (a.updateImu m).yaw = a.yaw := by
  unfold Align.updateImu; simp only; split_ifs <;> rfl
theorem align_imu_level (a : Align α) (m : Imu α) :
    (a.updateImu m).level = (a.level || (a.smooth.update m).isStatic) := by
  unfold Align.updateImu
  simp only
  split_ifs with h1 h2
  · simp [h1]
  · simp_all
  · simp_all

theorem align_gnss_option (g : α) (a : Align α) (m : Gnss α) : (a.updateGnss g m).2.option = a.option := by
  unfold Align.updateGnss; split_ifs
  · rfl
  · simp only [Align.fixStep, Align.yawStep]; split_ifs <;> rfl
theorem align_gnss_smooth (g : α) (a : Align α) (m : Gnss α) : (a.updateGnss g m).2.smooth = a.smooth := by
  unfold Align.updateGnss; split_ifs
  · rfl
  · simp only [Align.fixStep, Align.yawStep]; split_ifs <;> rfl
theorem align_gnss_level (g : α) (a : Align α) (m : Gnss α) : (a.updateGnss g m).2.level = a.level := by
  unfold Align.updateGnss; split_ifs
  · rfl
  · simp only [Align.fixStep, Align.yawStep]; split_ifs <;> rfl
theorem align_gnss_pre (g : α) (a : Align α) (m : Gnss α) : (a.updateGnss g m).2.gnssPre = m := by
  unfold Align.updateGnss; split_ifs
  · rfl
  · simp only [Align.fixStep]
theorem align_gnss_yaw (g : α) (a : Align α) (m : Gnss α) :
    (a.updateGnss g m).2.yaw = true ↔ a.yaw = true ∨
      (Fl.eq (a.gnssPre.posStd 0) 0 = false ∧ moved a.option.alignVelThreshold a.gnssPre m) := by
  unfold Align.updateGnss
  split_ifs with h
  · simp [h]
  · simp only [Align.fixStep, Align.yawStep, moved]
    split_ifs with h2
    · simp only [Bool.and_eq_true] at h2
      simp [h2]
      right; simpa using h
    · simp only [Bool.and_eq_true] at h2
      constructor
      · intro h'; exact Or.inl h'
      · rintro (h' | ⟨_, h'⟩)
        · exact h'
        · exact absurd h' h2

theorem alignInv_new (junk : Junk α) (d0 d : Dev α) (o : Opt α) (nav : Option (NavOutput α))
    (hm : o.alignMode ≠ ALIGN_USE_GIVEN)
    (h : rgioeInit junk d0 (some o) nav = some (E_OK, d)) : AlignInv o [] [] d := by
  obtain ⟨h, _⟩ := init_ok h
  subst h
  exact
    { opt := rfl, amopt := rfl, mode := hm, ok := Or.inl rfl, init := fun _ => ⟨rfl, rfl⟩
      smooth := fun _ => rfl, level := by simp [Align.new], pre := Or.inl rfl, yaw := by simp [Align.new]
      att := by simp [ST_INIT, ST_ATTITUDE], nav := by simp [ST_INIT, ST_NAVIGATION] }

/-- One IMU sample in a moving-alignment device. -/
theorem alignInv_time {o : Opt α} {imus : List (Imu α)} {fixes : List (Gnss α)} {d : Dev α} (g : α)
    (hi : AlignInv o imus fixes d) (m : Imu α) :
    AlignInv o (imus ++ [m]) fixes (rgioeTimeupdate g d (some m)).2.2 := by
  have hst := time_status g d m
  have hok := (exec_status (Call.time (some m)) rfl (g, d) hi.ok).1
  simp only [Call.exec] at hok
  by_cases hnav : d.status = ST_NAVIGATION
  · -- the alignment object is not touched any more
    have ham : (rgioeTimeupdate g d (some m)).2.2.am = d.am := by
      unfold rgioeTimeupdate; simp [hnav, ST_NAVIGATION, ST_INIT, ST_ALIGN, ST_ATTITUDE]
    have hs : (rgioeTimeupdate g d (some m)).2.2.status = ST_NAVIGATION := by
      rw [hst]; simp [hnav, ST_NAVIGATION, ST_INIT, ST_ALIGN, ST_ATTITUDE]
    refine { opt := by rw [time_opt]; exact hi.opt, amopt := by rw [ham]; exact hi.amopt
             mode := hi.mode, ok := hok, init := ?_, smooth := ?_, level := ?_, pre := ?_, yaw := ?_
             att := ?_, nav := ?_ }
    · rw [hs]; simp [ST_NAVIGATION, ST_INIT]
    · intro h; exact absurd hs h
    · rw [ham]; intro h
      obtain ⟨p, hp, hq⟩ := hi.level h
      exact ⟨p, hp.trans (List.prefix_append _ _), hq⟩
    · exact Or.inr ⟨[], Or.inr hs⟩
    · rw [ham]; exact hi.yaw
    · rw [hs]; simp [ST_NAVIGATION, ST_ATTITUDE]
    · intro _; rw [ham]
      obtain ⟨h1, h2, h3⟩ := hi.nav hnav
      exact ⟨h1, h2, by simp; omega⟩
  · have hm' : ¬ d.opt.alignMode = ALIGN_USE_GIVEN := by rw [hi.opt]; exact hi.mode
    have ham : (rgioeTimeupdate g d (some m)).2.2.am = d.am.updateImu m := by
      unfold rgioeTimeupdate
      rcases hi.ok with h | h | h | h
      · simp [h, hm']
      · simp [h, ST_INIT, ST_ALIGN]
      · simp only [h, ST_INIT, ST_ALIGN, ST_ATTITUDE]
        simp
        split_ifs <;> rfl
      · exact absurd h hnav
    have hsm := hi.smooth hnav
    have hlev : (d.am.updateImu m).level = true →
        ∃ p, p <+: imus ++ [m] ∧ (feed (alignThr : α) 200 30 p).isStatic = true := by
      rw [align_imu_level, hsm, ← feed_snoc]
      intro h
      rcases Bool.or_eq_true _ _ |>.mp h with h | h
      · obtain ⟨p, hp, hq⟩ := hi.level h
        exact ⟨p, hp.trans (List.prefix_append _ _), hq⟩
      · exact ⟨_, List.prefix_refl _, h⟩
    refine { opt := by rw [time_opt]; exact hi.opt, amopt := by rw [ham, align_imu_option]; exact hi.amopt
             mode := hi.mode, ok := hok, init := ?_, smooth := ?_, level := ?_, pre := ?_, yaw := ?_
             att := ?_, nav := ?_ }
    · intro h; exfalso
      rw [hst] at h
      have hok' := hi.ok
      unfold okStatus at hok'
      unfold ST_INIT ST_ALIGN ST_ATTITUDE ST_NAVIGATION at *
      split_ifs at h <;> omega
    · intro _; rw [ham, align_imu_smooth, hsm, feed_snoc]
    · rw [ham]; exact hlev
    · rw [ham, align_imu_pre]
      rcases hi.pre with h | ⟨l, h | h⟩
      · exact Or.inl h
      · exact Or.inr ⟨l, Or.inl h⟩
      · exact absurd h hnav
    · rw [ham, align_imu_yaw]; exact hi.yaw
    · rw [hst, ham]; intro h
      rcases hi.ok with h' | h' | h' | h'
      · simp [h', hm', ST_INIT, ST_ALIGN, ST_ATTITUDE, ST_NAVIGATION] at h
      · simp only [h', ST_INIT, ST_ALIGN, ST_ATTITUDE, ST_NAVIGATION] at h
        by_contra hc
        simp [hc] at h
      · rw [align_imu_level, hi.att h']; rfl
      · exact absurd h' hnav
    · rw [hst, ham]; intro h
      rcases hi.ok with h' | h' | h' | h'
      · simp [h', hm', ST_INIT, ST_ALIGN, ST_ATTITUDE, ST_NAVIGATION] at h
      · simp only [h', ST_INIT, ST_ALIGN, ST_ATTITUDE, ST_NAVIGATION] at h
        by_cases hc : (d.am.updateImu m).level = true <;> simp [hc] at h
      · by_cases hc : (d.am.updateImu m).alignFinished = true
        · have hl := hi.level (hi.att h')
          obtain ⟨p, hp, hq⟩ := hl
          obtain ⟨n, _, hn2, hn3⟩ := feed_cnt (alignThr : α) 200 30 p
          have hpne : p ≠ [] := by
            rintro rfl; simp [feed, Smooth.new] at hq
          rw [hn3 hpne] at hq
          have hn : (200 : Int) < n := by simpa using hq
          have hlen := ((hn2 n).2 (le_refl n)).1
          have hpl := hp.length_le
          unfold Align.alignFinished at hc
          simp only [Bool.and_eq_true] at hc
          exact ⟨hc.1, hc.2, by simp; omega⟩
        · simp [h', hc, ST_INIT, ST_ALIGN, ST_ATTITUDE, ST_NAVIGATION] at h
      · exact absurd h' hnav

/-- One fix in a moving-alignment device. -/
theorem alignInv_gnss (h00 : Fl.eq (0 : α) 0 = true)
    {o : Opt α} {imus : List (Imu α)} {fixes : List (Gnss α)} {d : Dev α} (g : α)
    (hi : AlignInv o imus fixes d) (m : Gnss α) :
    AlignInv o imus (fixes ++ [m]) (rgioeGnssupdate g d (some m)).2.2 := by
  have hinf : ∀ {g1 g2 : Gnss α}, [g1, g2] <:+: fixes → [g1, g2] <:+: fixes ++ [m] :=
    fun h => h.trans (List.prefix_append _ _).isInfix
  have hyaw0 : d.am.yaw = true → ∃ g1 g2, [g1, g2] <:+: fixes ++ [m] ∧ moved o.alignVelThreshold g1 g2 := by
    intro h; obtain ⟨g1, g2, h1, h2⟩ := hi.yaw h; exact ⟨g1, g2, hinf h1, h2⟩
  rcases hi.ok with h | h | h | h
  · have e : (rgioeGnssupdate g d (some m)).2.2 = d := by unfold rgioeGnssupdate; simp [h]
    rw [e]
    refine { hi with pre := ?_, yaw := hyaw0 }
    exact Or.inl (hi.init h).2
  all_goals
    first
    | (have hst : d.status = ST_ALIGN ∨ d.status = ST_ATTITUDE := by first | exact Or.inl h | exact Or.inr h
       have hni : ¬ d.status = ST_INIT := by rw [h]; decide
       have hnn : ¬ d.status = ST_NAVIGATION := by rw [h]; decide
       have e : (rgioeGnssupdate g d (some m)).2.2 = { d with am := (d.am.updateGnss g m).2 } := by
         unfold rgioeGnssupdate; simp [hni, hst]
       rw [e]
       refine { opt := hi.opt, amopt := ?_, mode := hi.mode, ok := hi.ok, init := ?_, smooth := ?_
                level := ?_, pre := ?_, yaw := ?_, att := ?_, nav := ?_ }
       · simp only [align_gnss_option]; exact hi.amopt
       · intro h'; exact absurd h' hni
       · intro _; simp only [align_gnss_smooth]; exact hi.smooth hnn
       · simp only [align_gnss_level]; exact hi.level
       · simp only [align_gnss_pre]; exact Or.inr ⟨fixes, Or.inl rfl⟩
       · simp only [align_gnss_yaw]
         rintro (h' | ⟨h1, h2⟩)
         · exact hyaw0 h'
         · rcases hi.pre with hp | ⟨l, hp | hp⟩
           · rw [hp] at h1
             have : Fl.eq (0 : α) 0 = false := h1
             rw [h00] at this; cases this
           · refine ⟨d.am.gnssPre, m, ?_, by rw [← hi.amopt]; exact h2⟩
             rw [hp]
             exact ⟨l, [], by simp⟩
           · exact absurd hp hnn
       · intro h'; simp only [align_gnss_level]; exact hi.att h'
       · intro h'; exact absurd h' hnn)
    | skip
  · have e : (rgioeGnssupdate g d (some m)).2.2 = { d with df := d.df.measureGnss m } := by
      unfold rgioeGnssupdate; simp [h, ST_NAVIGATION, ST_INIT, ST_ALIGN, ST_ATTITUDE]
    rw [e]
    exact { hi with pre := Or.inr ⟨[], Or.inr h⟩, yaw := hyaw0 }

theorem alignInv_exec (h00 : Fl.eq (0 : α) 0 = true)
    {o : Opt α} {imus : List (Imu α)} {fixes : List (Gnss α)} {s : α × Dev α}
    (hi : AlignInv o imus fixes s.2) (c : Call α) (hc : c.isInit = false) :
    AlignInv o (imus ++ imusOf [c]) (fixes ++ fixesOf [c]) (c.exec s).1.2 := by
  rcases c with _ | (_ | m) | (_ | m) | _ | _ | _ | _ | _ | _ <;>
    simp only [imusOf, fixesOf, List.append_nil] <;> first | exact hi | skip
  · simp [Call.isInit] at hc
  · exact alignInv_time s.1 hi m
  · exact alignInv_gnss h00 s.1 hi m

theorem alignInv_run (h00 : Fl.eq (0 : α) 0 = true)
    {o : Opt α} {imus : List (Imu α)} {fixes : List (Gnss α)} (cs : List (Call α)) (s : α × Dev α)
    (hi : AlignInv o imus fixes s.2) (hc : ∀ c ∈ cs, c.isInit = false) :
    AlignInv o (imus ++ imusOf cs) (fixes ++ fixesOf cs) (runCalls cs s).2 := by
  induction cs generalizing s imus fixes with
  | nil => simpa [imusOf, fixesOf, runCalls] using hi
  | cons c cs ih =>
    have h1 := alignInv_exec h00 hi c (hc c (by simp))
    have h2 := ih _ h1 (fun c' h' => hc c' (by simp [h']))
    have e1 : imus ++ imusOf (c :: cs) = imus ++ imusOf [c] ++ imusOf cs := by
      rw [List.append_assoc, ← imusOf_append]; rfl
    have e2 : fixes ++ fixesOf (c :: cs) = fixes ++ fixesOf [c] ++ fixesOf cs := by
      rw [List.append_assoc, ← fixesOf_append]; rfl
    rw [e1, e2]; exact h2
end Verif
