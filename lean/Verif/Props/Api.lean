import Verif.Lemmas.Align
import Verif.Spec.Examples
/-! Properties of the public API, for every scalar type (hence for IEEE arithmetic as well). -/
namespace Verif.Props
open Verif Verif.Spec
variable {α : Type} [Add α] [Sub α] [Mul α] [Neg α] [Div α] [Zero α] [One α] [Fl α]

/-- C11: after a successful `rgioe_init`, whatever calls (except another init) follow, the status is one
of the four life-cycle statuses (so never ERROR = -1), and no continuation of the history ever shows an
earlier status. -/
theorem C11_status_life_cycle (junk : Junk α) (d0 d : Dev α) (o : Opt α) (nav : Option (NavOutput α)) (g : α)
    (h : rgioeInit junk d0 (some o) nav = some (E_OK, d))
    (cs more : List (Call α)) (hc : ∀ c ∈ cs, c.isInit = false) (hm : ∀ c ∈ more, c.isInit = false) :
    let s1 := rgioeGetStatus (runCalls cs (g, d)).2
    let s2 := rgioeGetStatus (runCalls (cs ++ more) (g, d)).2
    (s1 = 0 ∨ s1 = 1 ∨ s1 = 2 ∨ s1 = 3) ∧ s1 ≠ -1 ∧ s1 ≤ s2 := by
  have hd := (init_ok h).1
  have h0 : okStatus d.status := by rw [hd]; exact Or.inl rfl
  have h1 := runCalls_status cs hc (g, d) h0
  have h2 := runCalls_status more hm _ h1.1
  intro s1 s2
  have e : s2 = (runCalls more (runCalls cs (g, d))).2.status := by
    show (runCalls (cs ++ more) (g, d)).2.status = _
    rw [runCalls_append]
  have hs : okStatus s1 := h1.1
  refine ⟨hs, ?_, ?_⟩
  · unfold okStatus ST_INIT ST_ALIGN ST_ATTITUDE ST_NAVIGATION at hs; omega
  · rw [e]; exact h2.2

/-- The hypothesis of `C11_status_life_cycle` is met, e.g. for a zeroed buffer. -/
example : ∃ d, rgioeInit (Ex.zJunk : Junk α) Ex.zDev (some (Ex.opt 0)) none = some (E_OK, d) :=
  ⟨_, rfl⟩
example : ∃ d, rgioeInit (Ex.zJunk : Junk α) Ex.zDev (some (Ex.opt 2)) (some zeroPva) = some (E_OK, d) :=
  ⟨_, rfl⟩

/-- C12: a null sample is answered with NULL_INPUT and can be erased from any history: all other answers
and the final state are the same. -/
theorem C12_null_input_no_effect (cs ds : List (Call α)) (s : α × Dev α) (c : Call α)
    (hc : c = .time none ∨ c = .gnss none) :
    (c.exec (runCalls cs s)).2 = .code 1 ∧
    runCalls (cs ++ c :: ds) s = runCalls (cs ++ ds) s ∧
    traceCalls (c :: ds) s = .code 1 :: traceCalls ds s := by
  rcases hc with rfl | rfl <;>
    exact ⟨rfl, by rw [runCalls_append, runCalls_append]; rfl, rfl⟩

/-- C12, the exception: `rgioe_init` with null options is undefined behaviour. -/
theorem C12_init_null_options_is_ub (junk : Junk α) (d : Dev α) (nav : Option (NavOutput α)) :
    rgioeInit junk d none nav = none := rfl

/-- C12: with non-null arguments every call returns normally with a defined code. -/
theorem C12_init_total (junk : Junk α) (d : Dev α) (o : Opt α) (nav : Option (NavOutput α)) :
    ∃ e d', rgioeInit junk d (some o) nav = some (e, d') ∧ (e = 0 ∨ e = 2) ∧
      (e = 2 ↔ o.alignMode = 2 ∧ nav = none) := by
  cases h : rgioeInit junk d (some o) nav with
  | none =>
    unfold rgioeInit at h; simp only at h; split_ifs at h
  | some r =>
    refine ⟨r.1, r.2, rfl, ?_⟩
    unfold rgioeInit at h
    simp only at h
    split_ifs at h with h1
    · cases h
      exact ⟨Or.inr rfl, by simpa [E_FAULT_CONFIG, ALIGN_USE_GIVEN] using h1⟩
    · cases h
      exact ⟨Or.inl rfl, by simpa [E_OK, ALIGN_USE_GIVEN] using h1⟩

/-- Remove the queries from a history. -/
def dropQueries (cs : List (Call α)) : List (Call α) := cs.filter (fun c => !c.isQuery)

/-- The answers of a history to its non-query calls. -/
def nonQueryAnswers (cs : List (Call α)) (s : α × Dev α) : List (Answer α) :=
  ((cs.zip (traceCalls cs s)).filter (fun p => !p.1.isQuery)).map Prod.snd

/-- C13: queries can be inserted or removed anywhere: the final state, hence every answer to any
continuation, and all answers to the other calls are those of the history without queries. -/
theorem C13_queries_read_only (cs more : List (Call α)) (s : α × Dev α) :
    runCalls cs s = runCalls (dropQueries cs) s ∧
    traceCalls more (runCalls cs s) = traceCalls more (runCalls (dropQueries cs) s) ∧
    nonQueryAnswers cs s = traceCalls (dropQueries cs) s := by
  have hrun : ∀ cs : List (Call α), ∀ s, runCalls cs s = runCalls (dropQueries cs) s := by
    intro cs
    induction cs with
    | nil => intro s; rfl
    | cons c cs ih =>
      intro s
      by_cases hq : c.isQuery = true
      · have : dropQueries (c :: cs) = dropQueries cs := by simp [dropQueries, hq]
        rw [this, ← ih]
        simp only [runCalls, exec_query c hq]
      · have : dropQueries (c :: cs) = c :: dropQueries cs := by simp [dropQueries, hq]
        rw [this]
        exact ih _
  refine ⟨hrun cs s, by rw [hrun cs s], ?_⟩
  induction cs generalizing s with
  | nil => rfl
  | cons c cs ih =>
    by_cases hq : c.isQuery = true
    · have e : dropQueries (c :: cs) = dropQueries cs := by simp [dropQueries, hq]
      rw [e, ← ih]
      simp [nonQueryAnswers, traceCalls, hq, exec_query c hq]
    · have e : dropQueries (c :: cs) = c :: dropQueries cs := by simp [dropQueries, hq]
      rw [e]
      simp only [traceCalls, ← ih]
      simp [nonQueryAnswers, traceCalls, hq]

/-- The calls of an interleaved history that go to handle `h`. -/
def callsOf (h : Nat) (hs : List (Nat × Call α)) : List (Call α) :=
  (hs.filter (fun p => p.1 = h)).map Prod.snd
/-- The answers of an interleaved history given to handle `h`. -/
def answersOf (h : Nat) (tr : List (Nat × Answer α)) : List (Answer α) :=
  (tr.filter (fun p => p.1 = h)).map Prod.snd

/-- C14: in any interleaving of calls to any number of handles, each handle gets exactly the answers it
would get alone — even though all handles share one gravity value, and whatever that value was. -/
theorem C14_instances_isolated (w : World α) (hs : List (Nat × Call α)) (h : Nat) (gAlone : α) :
    answersOf h (World.trace hs w) = traceCalls (callsOf h hs) (gAlone, w.dev h) := by
  induction hs generalizing w gAlone with
  | nil => rfl
  | cons p hs ih =>
    obtain ⟨k, c⟩ := p
    by_cases hk : k = h
    · subst hk
      have e1 : answersOf k (World.trace ((k, c) :: hs) w) =
          (w.exec k c).2 :: answersOf k (World.trace hs (w.exec k c).1) := by
        simp [answersOf, World.trace]
      have e2 : callsOf k ((k, c) :: hs) = c :: callsOf k hs := by simp [callsOf]
      rw [e1, e2]
      simp only [traceCalls]
      have hg := exec_g c w.g gAlone (w.dev k)
      rw [ih _ (c.exec (gAlone, w.dev k)).1.1]
      have e3 : (w.exec k c).1.dev k = (c.exec (gAlone, w.dev k)).1.2 := by
        rw [← hg.2]; simp [World.exec]
      rw [e3, ← hg.1]
      rfl
    · have e1 : answersOf h (World.trace ((k, c) :: hs) w) = answersOf h (World.trace hs (w.exec k c).1) := by
        simp [answersOf, World.trace, hk]
      have e2 : callsOf h ((k, c) :: hs) = callsOf h hs := by simp [callsOf, hk]
      rw [e1, e2, ih _ gAlone]
      have e3 : (w.exec k c).1.dev h = w.dev h := by
        simp [World.exec, Ne.symm hk]
      rw [e3]

/-- C15: in USE_GIVEN mode with an initial state, after any number of GNSS fixes and queries the status is
still INIT and the device is unchanged; the first IMU sample then switches to NAVIGATION, and the result
reported then carries the time stamp of that sample, the same as if no fix had been given. -/
theorem C15_use_given_starts_at_first_imu (junk : Junk α) (d0 d : Dev α) (o : Opt α) (n : NavOutput α) (g : α)
    (hmode : o.alignMode = 2)
    (h : rgioeInit junk d0 (some o) (some n) = some (E_OK, d))
    (cs : List (Call α)) (hc : ∀ c ∈ cs, c.isQuery = true ∨ ∃ m, c = .gnss (some m)) (m : Imu α)
    (pva : NavOutput α) :
    let before := (runCalls cs (g, d)).2
    let after := (runCalls (cs ++ [.time (some m)]) (g, d)).2
    before = d ∧ rgioeGetStatus before = 0 ∧ rgioeGetStatus after = 3 ∧
      (rgioeGetResult after pva).2.gpst = m.gpst ∧
      after = (runCalls [.time (some m)] (g, d)).2 := by
  have hd := (init_ok h).1
  have hst : d.status = ST_INIT := by rw [hd]
  have hkeep : runCalls cs (g, d) = (g, d) := by
    clear h m pva
    induction cs with
    | nil => rfl
    | cons c cs ih =>
      have : (c.exec (g, d)).1 = (g, d) := by
        rcases hc c (by simp) with hq | ⟨m, rfl⟩
        · exact exec_query c hq _
        · simp [Call.exec, rgioeGnssupdate, hst]
      simp only [runCalls, this]
      exact ih (fun c' h' => hc c' (by simp [h']))
  have ho : d.opt.alignMode = ALIGN_USE_GIVEN := by rw [hd]; exact hmode
  intro before after
  have hafter : after = (runCalls [.time (some m)] (g, d)).2 := by
    show (runCalls (cs ++ [.time (some m)]) (g, d)).2 = _
    rw [runCalls_append, hkeep]
  have hb : before = d := by show (runCalls cs (g, d)).2 = d; rw [hkeep]
  have hs : after.status = ST_NAVIGATION := by
    rw [hafter]
    simp only [runCalls, Call.exec, time_status]
    simp [hst, ho]
  refine ⟨hb, by rw [hb]; exact hst, hs, ?_, hafter⟩
  have hout : (rgioeGetResult after pva).2 = after.df.output := by
    simp [rgioeGetResult, hs]
  rw [hout, hafter]
  simp only [runCalls, Call.exec, rgioeTimeupdate, hst, ho, if_true]
  simp only [Fusion.output, Fusion.timeUpdate]
  have hz : ∀ f : Fusion α, f.zuptStage.ins.nav.gpst = f.ins.nav.gpst := by
    intro f
    unfold Fusion.zuptStage Fusion.measureZeroVelocity
    simp only
    split_ifs <;> rfl
  have hn : ∀ f : Fusion α, f.nhcStage.ins.nav.gpst = f.ins.nav.gpst := by
    intro f
    unfold Fusion.nhcStage
    split_ifs <;> rfl
  rw [hn, hz]
  rfl

example : ∃ d, rgioeInit (Ex.zJunk : Junk α) Ex.zDev (some (Ex.opt 2)) (some zeroPva) = some (E_OK, d) ∧
    (Ex.opt 2 : Opt α).alignMode = 2 := ⟨_, rfl, rfl⟩

/-- C16: with any other align mode, a history that ends in NAVIGATION contains at least 202 IMU samples,
among them 201 consecutive ones each of which left the smoothed deviation not above 1e-3, and two
consecutive GNSS fixes whose displacement lies strictly between the velocity threshold and 1000.
(`h00`: zero compares equal to itself, true of IEEE and of real numbers.) -/
theorem C16_moving_alignment_needs_static_and_motion (h00 : Fl.eq (0 : α) 0 = true)
    (junk : Junk α) (d0 d : Dev α) (o : Opt α) (nav : Option (NavOutput α)) (g : α)
    (hmode : o.alignMode ≠ 2)
    (h : rgioeInit junk d0 (some o) nav = some (E_OK, d))
    (cs : List (Call α)) (hc : ∀ c ∈ cs, c.isInit = false)
    (hnav : rgioeGetStatus (runCalls cs (g, d)).2 = 3) :
    202 ≤ (imusOf cs).length ∧
    (∃ seen, seen <+: imusOf cs ∧ calmLast (Fl.f32 (Fl.lit (1 / 1000))) 200 30 seen 201) ∧
    2 ≤ (fixesOf cs).length ∧
    (∃ g1 g2, [g1, g2] <:+: fixesOf cs ∧ moved o.alignVelThreshold g1 g2) := by
  have hi := alignInv_run h00 cs (g, d) (alignInv_new junk d0 d o nav hmode h) hc
  simp only [List.nil_append] at hi
  obtain ⟨h1, h2, h3⟩ := hi.nav hnav
  obtain ⟨p, hp, hq⟩ := hi.level h1
  obtain ⟨n, _, hn2, hn3⟩ := feed_cnt (alignThr : α) 200 30 p
  have hpne : p ≠ [] := by
    rintro rfl; simp [feed, Smooth.new] at hq
  rw [hn3 hpne] at hq
  have hn : (200 : Int) < n := by simpa using hq
  obtain ⟨g1, g2, hg, hmv⟩ := hi.yaw h2
  exact ⟨h3, ⟨p, hp, (hn2 201).2 (by omega)⟩, hg.length_le, g1, g2, hg, hmv⟩

/-- C17: alignment progress is never lost before the next init: level and heading flags stay set through
any history, status ATTITUDE implies a known level, NAVIGATION (without given state) implies both. -/
theorem C17_alignment_progress_kept (cs : List (Call α)) (hc : ∀ c ∈ cs, c.isInit = false) (s : α × Dev α) :
    (s.2.am.levelFinished = true → (runCalls cs s).2.am.levelFinished = true) ∧
    (s.2.am.alignFinished = true → (runCalls cs s).2.am.alignFinished = true) := by
  have hstep : ∀ (c : Call α) (s : α × Dev α), c.isInit = false →
      (s.2.am.level = true → (c.exec s).1.2.am.level = true) ∧
      (s.2.am.yaw = true → (c.exec s).1.2.am.yaw = true) := by
    intro c s hc
    rcases c with _ | (_ | m) | (_ | m) | _ | _ | _ | _ | _ | _ <;> try exact ⟨id, id⟩
    · simp [Call.isInit] at hc
    · have : (rgioeTimeupdate s.1 s.2 (some m)).2.2.am = s.2.am ∨
          (rgioeTimeupdate s.1 s.2 (some m)).2.2.am = s.2.am.updateImu m := by
        unfold rgioeTimeupdate
        dsimp only
        split_ifs <;> first | exact Or.inl rfl | exact Or.inr rfl
      simp only [Call.exec]
      rcases this with e | e <;> rw [e]
      · exact ⟨id, id⟩
      · rw [align_imu_level, align_imu_yaw]
        exact ⟨fun h => by rw [h]; rfl, id⟩
    · have : (rgioeGnssupdate s.1 s.2 (some m)).2.2.am = s.2.am ∨
          (rgioeGnssupdate s.1 s.2 (some m)).2.2.am = (s.2.am.updateGnss s.1 m).2 := by
        unfold rgioeGnssupdate
        dsimp only
        split_ifs <;> first | exact Or.inl rfl | exact Or.inr rfl
      simp only [Call.exec]
      rcases this with e | e <;> rw [e]
      · exact ⟨id, id⟩
      · rw [align_gnss_level]
        exact ⟨id, fun h => (align_gnss_yaw _ _ _).2 (Or.inl h)⟩
  have hrun : ∀ (cs : List (Call α)), (∀ c ∈ cs, c.isInit = false) → ∀ s : α × Dev α,
      (s.2.am.level = true → (runCalls cs s).2.am.level = true) ∧
      (s.2.am.yaw = true → (runCalls cs s).2.am.yaw = true) := by
    intro cs
    induction cs with
    | nil => intro _ s; exact ⟨id, id⟩
    | cons c cs ih =>
      intro hc s
      have h1 := hstep c s (hc c (by simp))
      have h2 := ih (fun c' h' => hc c' (by simp [h'])) (c.exec s).1
      exact ⟨fun h => h2.1 (h1.1 h), fun h => h2.2 (h1.2 h)⟩
  have := hrun cs hc s
  refine ⟨this.1, fun h => ?_⟩
  unfold Align.alignFinished at *
  simp only [Bool.and_eq_true] at *
  exact ⟨this.1 h.1, this.2 h.2⟩

/-- C17, second half: what the status says about the alignment. -/
theorem C17_status_implies_alignment (h00 : Fl.eq (0 : α) 0 = true)
    (junk : Junk α) (d0 d : Dev α) (o : Opt α) (nav : Option (NavOutput α)) (g : α)
    (hmode : o.alignMode ≠ 2)
    (h : rgioeInit junk d0 (some o) nav = some (E_OK, d))
    (cs : List (Call α)) (hc : ∀ c ∈ cs, c.isInit = false) :
    let e := (runCalls cs (g, d)).2
    (rgioeGetStatus e = 2 → e.am.levelFinished = true) ∧
    (rgioeGetStatus e = 3 → e.am.alignFinished = true) := by
  have hi := alignInv_run h00 cs (g, d) (alignInv_new junk d0 d o nav hmode h) hc
  refine ⟨hi.att, fun h' => ?_⟩
  obtain ⟨h1, h2, _⟩ := hi.nav h'
  unfold Align.alignFinished
  rw [h1, h2]; rfl

/-- C18, the part that holds: USE_GIVEN without an initial state is answered with FAULT_CONFIG. -/
theorem C18_fault_config_partial (junk : Junk α) (d : Dev α) (o : Opt α) (hmode : o.alignMode = 2) :
    ∃ d', rgioeInit junk d (some o) none = some (2, d') ∧ d'.status = d.status := by
  refine ⟨{ d with df := Fusion.new junk.df, am := Align.new junk.am o, opt := o, curPva := zeroPva }, ?_, ?_⟩
  · unfold rgioeInit; simp [hmode, ALIGN_USE_GIVEN, E_FAULT_CONFIG]
  · rfl

/-- C18 is violated: a device that was navigating still says NAVIGATION after the rejected init, answers
`rgioe_get_result` with the deviations of a wiped (zero) covariance, and goes on navigating on the wiped
filter at the next IMU sample. -/
theorem C18_rejected_init_keeps_navigating (junk : Junk α) (d : Dev α) (o : Opt α) (hmode : o.alignMode = 2)
    (hnav : d.status = 3) :
    ∃ d', rgioeInit junk d (some o) none = some (2, d') ∧ rgioeGetStatus d' = 3 ∧
      (∀ pva i, (rgioeGetResult d' pva).2.posStd i = Fl.sqrt 0) ∧
      (∀ g m, (rgioeTimeupdate g d' (some m)).2.2.df = ((Fusion.new junk.df).timeUpdate g m).2) := by
  obtain ⟨d', h1, h2⟩ := C18_fault_config_partial junk d o hmode
  have h2' : d'.status = ST_NAVIGATION := by rw [h2]; exact hnav
  have hdf : d'.df = Fusion.new junk.df := by
    unfold rgioeInit at h1; simp [hmode, ALIGN_USE_GIVEN, E_FAULT_CONFIG] at h1
    rw [← h1]
  refine ⟨d', h1, h2', ?_, ?_⟩
  · intro pva i
    have : (rgioeGetResult d' pva).2 = d'.df.output := by simp [rgioeGetResult, h2']
    rw [this, hdf]; rfl
  · intro g m
    simp [rgioeTimeupdate, h2', ST_NAVIGATION, ST_INIT, ST_ALIGN, ST_ATTITUDE, hdf]

example : ({ (Ex.zDev : Dev α) with status := 3 }).status = 3 ∧ (Ex.opt 2 : Opt α).alignMode = 2 := ⟨rfl, rfl⟩

/-- C19: what `rgioe_get_result` writes, by status; in INIT (and any unknown status) nothing; in
NAVIGATION every member comes from the fused state, whatever the record held. -/
theorem C19_get_result_writes (d : Dev α) (pva pva' : NavOutput α) :
    (rgioeGetResult d pva).1 = 0 ∧
    (d.status = 0 → (rgioeGetResult d pva).2 = pva) ∧
    (d.status = 1 → (rgioeGetResult d pva).2 = { pva with gpst := d.am.nav.gpst }) ∧
    (d.status = 2 → (rgioeGetResult d pva).2 = { pva with
        gpst := d.am.nav.gpst, atti := fun i => d.am.nav.atti i / deg, attiStd := d.am.nav.attStd }) ∧
    (d.status = 3 → (rgioeGetResult d pva).2 = (rgioeGetResult d pva').2) := by
  refine ⟨rfl, ?_, ?_, ?_, ?_⟩ <;> intro h <;>
    simp [rgioeGetResult, h, ST_ALIGN, ST_ATTITUDE, ST_NAVIGATION]
  rfl

/-- C22: after a successful init with an initial state, nothing done to the buffer before matters: the
answers to every later history are the same. -/
theorem C22_reinit_forgets (junk : Junk α) (d1 d2 e1 e2 : Dev α) (o : Opt α) (n : NavOutput α) (g1 g2 : α)
    (h1 : rgioeInit junk d1 (some o) (some n) = some (E_OK, e1))
    (h2 : rgioeInit junk d2 (some o) (some n) = some (E_OK, e2)) (cs : List (Call α)) :
    traceCalls cs (g1, e1) = traceCalls cs (g2, e2) := by
  have := (init_ok h1).1
  have := (init_ok h2).1
  subst e1 e2
  exact traceCalls_g cs g1 g2 _

/-- Two devices that differ at most in the stored initial state. -/
def samePast (d1 d2 : Dev α) : Prop := d2 = { d1 with curPva := d2.curPva }

/-- C22 in moving alignment without an initial state: the stored initial state of an earlier session
survives but is never read (until the next init). -/
theorem C22_reinit_forgets_moving (junk : Junk α) (d1 d2 e1 e2 : Dev α) (o : Opt α) (g1 g2 : α)
    (hmode : o.alignMode ≠ 2)
    (h1 : rgioeInit junk d1 (some o) none = some (E_OK, e1))
    (h2 : rgioeInit junk d2 (some o) none = some (E_OK, e2)) (cs : List (Call α))
    (hc : ∀ c ∈ cs, c.isInit = false) :
    traceCalls cs (g1, e1) = traceCalls cs (g2, e2) := by
  have hs : samePast e1 e2 ∧ e1.opt.alignMode ≠ ALIGN_USE_GIVEN := by
    rw [(init_ok h1).1, (init_ok h2).1]; exact ⟨rfl, hmode⟩
  clear h1 h2
  rw [traceCalls_g cs g2 g1]
  generalize g1 = g
  induction cs generalizing g e1 e2 with
  | nil => rfl
  | cons c cs ih =>
    obtain ⟨hs, hm⟩ := hs
    have hcc := hc c (by simp)
    have key : (c.exec (g, e1)).2 = (c.exec (g, e2)).2 ∧ samePast (c.exec (g, e1)).1.2 (c.exec (g, e2)).1.2 ∧
        (c.exec (g, e1)).1.1 = (c.exec (g, e2)).1.1 := by
      unfold samePast at hs
      generalize e2.curPva = q at hs
      subst hs
      rcases c with _ | (_ | m) | (_ | m) | _ | _ | _ | _ | _ | _ <;> try exact ⟨rfl, rfl, rfl⟩
      · simp [Call.isInit] at hcc
      · have h := time_curPva g e1 q m hm
        refine ⟨?_, ?_, ?_⟩
        · show Answer.code _ = Answer.code _; rw [h]
        · show rgioeTimeupdate g { e1 with curPva := q } (some m) |>.2.2 |> fun x => x = _
          simp only [Call.exec]; rw [h]
        · simp only [Call.exec]; rw [h]
      · have h := gnss_curPva g e1 q m
        refine ⟨?_, ?_, ?_⟩
        · show Answer.code _ = Answer.code _; rw [h]
        · show rgioeGnssupdate g { e1 with curPva := q } (some m) |>.2.2 |> fun x => x = _
          simp only [Call.exec]; rw [h]
        · simp only [Call.exec]; rw [h]
    simp only [traceCalls]
    rw [key.1]
    congr 1
    have e1' : (c.exec (g, e1)).1 = ((c.exec (g, e1)).1.1, (c.exec (g, e1)).1.2) := rfl
    have e2' : (c.exec (g, e2)).1 = ((c.exec (g, e1)).1.1, (c.exec (g, e2)).1.2) := by rw [key.2.2]
    rw [e1', e2']
    exact ih _ _ (fun c' h' => hc c' (by simp [h'])) ⟨key.2.1, by rw [exec_opt c hcc]; exact hm⟩ _

/-- C33: the detector says "static" exactly if, at more than `sw` most recent consecutive samples, the
smoothed deviation was not above the threshold; in particular it needs more than `sw` samples. -/
theorem C33_static_criterion (thr : α) (sw win : Int) (xs : List (Imu α)) (hx : xs ≠ [] ∨ 0 ≤ sw) :
    ((feed thr sw win xs).isStatic = true ↔ ∃ k : Nat, sw < k ∧ calmLast thr sw win xs k) ∧
    ((feed thr sw win xs).isStatic = true → sw < xs.length) := by
  obtain ⟨n, h1, h2, h3⟩ := feed_cnt thr sw win xs
  have key : (feed thr sw win xs).isStatic = true ↔ ∃ k : Nat, sw < k ∧ calmLast thr sw win xs k := by
    by_cases hne : xs = []
    · subst hne
      have hsw : 0 ≤ sw := by rcases hx with h | h; exact absurd rfl h; exact h
      constructor
      · intro h; simp [feed, Smooth.new] at h
      · rintro ⟨k, hk, hl⟩
        have := hl.1
        simp at this
        omega
    · rw [h3 hne]
      constructor
      · intro h; exact ⟨n, by simpa using h, (h2 n).2 (le_refl n)⟩
      · rintro ⟨k, hk, hl⟩
        have := (h2 k).1 hl
        simp; omega
  refine ⟨key, fun h => ?_⟩
  obtain ⟨k, hk, hl⟩ := key.1 h
  have := hl.1
  omega
end Verif.Props
