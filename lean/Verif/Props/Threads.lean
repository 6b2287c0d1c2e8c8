import Verif.Model.Threads
import Verif.Lemmas.Real
import Verif.Spec.Examples
import Verif.Props.Gravity
import Mathlib.Tactic.SplitIfs
import Mathlib.Tactic.Ring
import Mathlib.Tactic.NormNum
import Mathlib.Tactic.Linarith
import Mathlib.Algebra.BigOperators.Fin
/-! C133: separate handles used by separate threads. -/
namespace Verif.Props
open Verif Verif.Spec
section
variable {α : Type} [Add α] [Sub α] [Mul α] [Neg α] [Div α] [Zero α] [One α] [Fl α]

/-- What one call does for a program that runs alone: the new object and the results given so far. -/
def soloCall (s : Fusion α × List (NavOutput α)) : TCall α → Fusion α × List (NavOutput α)
  | .call c => ((c.exec (0, s.1)).2, s.2)
  | .result => (s.1, s.2 ++ [s.1.output])

/-- What a list of calls does for a program that runs alone. -/
def solo (cs : List (TCall α)) (s : Fusion α × List (NavOutput α)) : Fusion α × List (NavOutput α) := cs.foldl soloCall s

/-- The calls that use memory shared by all handles. -/
def usesShared : TCall α → Prop
  | .call (.time _) => True
  | .call _ => False
  | .result => True

variable {ι : Type} [DecidableEq ι]

/-- The callers exclude each other: a time update or a request for a result starts only when no other thread is within one. -/
def Excluded : List ι → Process ι α → Prop
  | [], _ => True
  | i :: s, p => ((p.thr i).phase = .idle → (∃ c ∈ (p.thr i).todo.head?, usesShared c) → ∀ j, j ≠ i → (p.thr j).phase = .idle) ∧
      Excluded s (p.step i)

/-- The three pieces of a time update make the whole. -/
theorem pieces_make_whole (g : α) (f : Fusion α) (m : Imu α) :
    (let r := Process.begin' f m
     let f1 := Process.move r.1 r.2.1 m r.2.2.1 r.2.2.2
     Process.finish (f1.transferMatrix r.1) f1) = (f.timeUpdate g m).2 := by
  simp only [Process.begin', Process.move, Process.finish, Fusion.timeUpdate, Fusion.propagate, Ins.forwardImu, Ins.forward]

/-- A thread's object and results if it finished its call now, undisturbed. -/
def finished (p : Process ι α) (i : ι) : Fusion α × List (NavOutput α) :=
  let t := p.thr i
  match t.phase with
  | .idle => (t.f, t.got)
  | .wrote m a w => let f1 := Process.move p.g t.f m a w; (Process.finish (f1.transferMatrix p.g) f1, t.got)
  | .moved => (Process.finish (t.f.transferMatrix p.g) t.f, t.got)
  | .filled => (Process.finish p.phi t.f, t.got)
  | .asked => (t.f, t.got ++ [p.out])

theorem finished_idle (p : Process ι α) (i : ι) (h : (p.thr i).phase = .idle) : finished p i = ((p.thr i).f, (p.thr i).got) := by
  simp only [finished, h]

theorem step_other (p : Process ι α) (i j : ι) (h : j ≠ i) : (p.step i).thr j = p.thr j := by
  unfold Process.step
  dsimp only
  split
  · split <;> simp [h]
  all_goals simp [h]

/-- The invariant: every thread is as far as its own calls alone would bring it, and at most one is within a call. -/
def Apart (p0 p : Process ι α) : Prop :=
  (∀ i, ∃ past, (p0.thr i).todo = past ++ (p.thr i).todo ∧ finished p i = solo past ((p0.thr i).f, (p0.thr i).got)) ∧
  ∀ i j, (p.thr i).phase ≠ .idle → (p.thr j).phase ≠ .idle → i = j

theorem solo_snoc (past : List (TCall α)) (c : TCall α) (s) : solo (past ++ [c]) s = soloCall (solo past s) c := by
  simp [solo]

/-- A step in the middle of a call changes neither what the thread will have nor what it has to do. -/
theorem step_inside (p : Process ι α) (i : ι) (h : (p.thr i).phase ≠ .idle) :
    finished (p.step i) i = finished p i ∧ ((p.step i).thr i).todo = (p.thr i).todo := by
  unfold Process.step finished
  dsimp only
  cases hp : (p.thr i).phase with
  | idle => exact absurd hp h
  | wrote m a w => simp
  | moved => simp
  | filled => simp
  | asked => simp

/-- A step between calls adds one call to what the thread will have. -/
theorem step_start (p : Process ι α) (i : ι) (h : (p.thr i).phase = .idle) (c : TCall α) (rest : List (TCall α))
    (hc : (p.thr i).todo = c :: rest) :
    finished (p.step i) i = soloCall ((p.thr i).f, (p.thr i).got) c ∧ ((p.step i).thr i).todo = rest ∧
    (¬ usesShared c → ((p.step i).thr i).phase = .idle ∧ (p.step i).g = p.g ∧ (p.step i).phi = p.phi ∧ (p.step i).out = p.out) := by
  cases c with
  | result => unfold Process.step finished; simp [h, hc, soloCall, usesShared]
  | call c =>
    cases c with
    | time m =>
      refine ⟨?_, ?_, fun hn => absurd trivial hn⟩
      · unfold Process.step finished
        simp only [h, hc, if_true, soloCall, FCall.exec]
        exact congrArg (·, (p.thr i).got) (pieces_make_whole 0 (p.thr i).f m)
      · unfold Process.step; simp [h, hc]
    | _ => unfold Process.step finished; simp [h, hc, soloCall, usesShared, FCall.exec]

theorem finished_congr (p q : Process ι α) (j : ι) (ht : q.thr j = p.thr j)
    (hs : (p.thr j).phase = .idle ∨ q.g = p.g ∧ q.phi = p.phi ∧ q.out = p.out) : finished q j = finished p j := by
  rcases hs with h | ⟨h1, h2, h3⟩
  · simp only [finished, ht, h]
  · simp only [finished, ht, h1, h2, h3]

theorem apart_step (p0 p : Process ι α) (i : ι) (hA : Apart p0 p)
    (hx : (p.thr i).phase = .idle → (∃ c ∈ (p.thr i).todo.head?, usesShared c) → ∀ j, j ≠ i → (p.thr j).phase = .idle) :
    Apart p0 (p.step i) := by
  obtain ⟨h1, h2⟩ := hA
  by_cases hi : (p.thr i).phase = .idle
  · cases hc : (p.thr i).todo with
    | nil =>
      have : p.step i = p := by unfold Process.step; simp [hi, hc]
      rw [this]; exact ⟨h1, h2⟩
    | cons c rest =>
      obtain ⟨e1, e2, e3⟩ := step_start p i hi c rest hc
      obtain ⟨past, b1, b2⟩ := h1 i
      have own : ∃ past, (p0.thr i).todo = past ++ ((p.step i).thr i).todo ∧
          finished (p.step i) i = solo past ((p0.thr i).f, (p0.thr i).got) :=
        ⟨past ++ [c], by rw [b1, hc, e2]; simp, by rw [solo_snoc, ← b2, finished_idle p i hi, e1]⟩
      by_cases hu : usesShared c
      · have hall := hx hi ⟨c, by rw [hc]; rfl, hu⟩
        refine ⟨fun j => ?_, fun j k hj hk => ?_⟩
        · by_cases hji : j = i
          · exact hji ▸ own
          · rw [step_other p i j hji, finished_congr p (p.step i) j (step_other p i j hji) (Or.inl (hall j hji))]; exact h1 j
        · have a : j = i := by
            by_contra hne; rw [step_other p i j hne] at hj; exact hj (hall j hne)
          have b : k = i := by
            by_contra hne; rw [step_other p i k hne] at hk; exact hk (hall k hne)
          rw [a, b]
      · obtain ⟨q1, q2⟩ := e3 hu
        refine ⟨fun j => ?_, fun j k hj hk => ?_⟩
        · by_cases hji : j = i
          · exact hji ▸ own
          · rw [step_other p i j hji, finished_congr p (p.step i) j (step_other p i j hji) (Or.inr q2)]; exact h1 j
        · have a : j ≠ i := fun e => hj (e ▸ q1)
          have b : k ≠ i := fun e => hk (e ▸ q1)
          rw [step_other p i j a] at hj; rw [step_other p i k b] at hk
          exact h2 j k hj hk
  · obtain ⟨e1, e2⟩ := step_inside p i hi
    have hall : ∀ j, j ≠ i → (p.thr j).phase = .idle := fun j hj => by
      by_contra hne; exact hj (h2 j i hne hi)
    refine ⟨fun j => ?_, fun j k hj hk => ?_⟩
    · by_cases hji : j = i
      · subst hji; rw [e1, e2]; exact h1 j
      · rw [step_other p i j hji, finished_congr p (p.step i) j (step_other p i j hji) (Or.inl (hall j hji))]; exact h1 j
    · have a : j = i := by
        by_contra hne; rw [step_other p i j hne] at hj; exact hj (hall j hne)
      have b : k = i := by
        by_contra hne; rw [step_other p i k hne] at hk; exact hk (hall k hne)
      rw [a, b]

theorem apart_run (p0 : Process ι α) (sched : List ι) : ∀ p, Apart p0 p → Excluded sched p → Apart p0 (p.run sched) := by
  induction sched with
  | nil => exact fun p h _ => h
  | cons i s ih =>
    intro p h hx
    exact ih (p.step i) (apart_step p0 p i h hx.1) hx.2

/-- **C133 (partial: callers exclude each other).** Whatever the number of threads and whatever the schedule, if no time update or request
for a result starts while another thread is within one, then every thread that is between calls has exactly the object and the results that
its own calls give when it runs alone. Measurements may overlap with anything. -/
theorem C133_excluded_partial (p : Process ι α) (sched : List ι) (h0 : ∀ i, (p.thr i).phase = .idle) (hx : Excluded sched p)
    (i : ι) (hi : ((p.run sched).thr i).phase = .idle) :
    ∃ past, (p.thr i).todo = past ++ ((p.run sched).thr i).todo ∧
      (((p.run sched).thr i).f, ((p.run sched).thr i).got) = solo past ((p.thr i).f, (p.thr i).got) := by
  have hA : Apart p p := ⟨fun i => ⟨[], rfl, by rw [finished_idle p i (h0 i)]; rfl⟩, fun i _ h _ => absurd (h0 i) h⟩
  obtain ⟨past, h1, h2⟩ := (apart_run p sched p hA hx).1 i
  exact ⟨past, h1, by rw [← h2, finished_idle _ i hi]⟩

/-- Two threads, `false` and `true`, about to run their programs. -/
def twoThreads (g : α) (phi : Matrix (Fin 15) (Fin 15) α) (out : NavOutput α) (fa fb : Fusion α) (ca cb : List (TCall α)) : Process Bool α :=
  { g := g, phi := phi, out := out, thr := fun i => if i then ⟨fb, cb, .idle, []⟩ else ⟨fa, ca, .idle, []⟩ }

/-- Non-vacuity: one thread updates while the other feeds a fix in the middle, then the second asks for a result. -/
example (g : α) (phi) (out : NavOutput α) (f : Fusion α) (m : Imu α) (x : Gnss α) :
    Excluded [false, true, false, false, false, true, true] (twoThreads g phi out f f [.call (.time m)] [.call (.gnss x), .result]) ∧
    ∀ i, (((twoThreads g phi out f f [.call (.time m)] [.call (.gnss x), .result]).run [false, true, false, false, false, true, true]).thr i).phase = .idle := by
  refine ⟨?_, ?_⟩
  · simp [Excluded, twoThreads, Process.step, usesShared]
  · intro i; cases i <;> rfl

/-- **C133 fails: results.** Two threads that ask for a result at the same time: the first is given the second one's result, whatever the
two objects hold. -/
theorem C133_result_race (g : α) (phi) (out : NavOutput α) (fa fb : Fusion α) :
    (((twoThreads g phi out fa fb [.result] [.result]).run [false, true, false, true]).thr false).got = [fb.output] ∧
    solo [.result] (fa, ([] : List (NavOutput α))) = (fa, [fa.output]) := ⟨rfl, rfl⟩

/-- **C133 fails: mechanization.** Thread one is interrupted between setting gravity and using it; its time update then runs with the gravity
at the other thread's position. -/
theorem C133_gravity_race (g : α) (phi) (out : NavOutput α) (fa fb : Fusion α) (ma mb : Imu α) :
    (((twoThreads g phi out fa fb [.call (.time ma)] [.call (.time mb)]).run [false, true, false]).thr false).f =
      Process.move (Process.begin' fb mb).1 (Process.begin' fa ma).2.1 ma (Process.begin' fa ma).2.2.1 (Process.begin' fa ma).2.2.2 := rfl

theorem gravity_race_whole (g : α) (phi) (out : NavOutput α) (fa fb : Fusion α) (ma mb : Imu α) :
    (((twoThreads g phi out fa fb [.call (.time ma)] [.call (.time mb)]).run [false, true, false, false, false]).thr false).f =
      Process.finish ((Process.move (Process.begin' fb mb).1 (Process.begin' fa ma).2.1 ma (Process.begin' fa ma).2.2.1
        (Process.begin' fa ma).2.2.2).transferMatrix (Process.begin' fb mb).1)
      (Process.move (Process.begin' fb mb).1 (Process.begin' fa ma).2.1 ma (Process.begin' fa ma).2.2.1 (Process.begin' fa ma).2.2.2) := by
  simp [twoThreads, Process.run, Process.step]

/-- **C133 fails: covariance.** Thread one is interrupted between filling its transition matrix and copying it; its covariance is then
predicted with the other thread's matrix. -/
theorem C133_matrix_race (g : α) (phi) (out : NavOutput α) (fa fb : Fusion α) (ma mb : Imu α) :
    ∃ fa' fb' gb, (((twoThreads g phi out fa fb [.call (.time ma)] [.call (.time mb)]).run [false, false, false]).thr false).f = fa' ∧
      (((twoThreads g phi out fa fb [.call (.time ma)] [.call (.time mb)]).run [false, false, false, true, true, true]).thr true).f = fb' ∧
      (((twoThreads g phi out fa fb [.call (.time ma)] [.call (.time mb)]).run [false, false, false, true, true, true, false]).thr false).f =
        Process.finish (fb'.transferMatrix gb) fa' ∧ gb = (Process.begin' fb mb).1 :=
  ⟨_, _, _, rfl, rfl, rfl, rfl⟩
end

theorem finish_vn (phi : Matrix (Fin 15) (Fin 15) ℝ) (f : Fusion ℝ) : (Process.finish phi f).ins.nav.vn = f.ins.nav.vn := by
  unfold Process.finish Fusion.nhcStage Fusion.zuptStage Fusion.measureZeroVelocity
  dsimp only
  split_ifs <;> rfl

theorem move_vn (g : ℝ) (f : Fusion ℝ) (m : Imu ℝ) (a w : V3 ℝ) :
    (Process.move g f m a w).ins.nav.vn 2 = (Process.move 0 f m a w).ins.nav.vn 2 + g * f.ins.dt := by
  simp only [Process.move, Ins.attiUpdate, Ins.positionUpdate, Ins.velocityUpdate, v3, vs, Pi.add_apply, Pi.sub_apply, Matrix.cons_val]
  ring

theorem begin_dt (f : Fusion ℝ) (m : Imu ℝ) : (Process.begin' f m).2.1.ins.dt = f.ins.dt := by
  unfold Process.begin' Ins.extrapolate Fusion.applyCorrection Fusion.takeCorrection Fusion.feedBack
  dsimp only
  split_ifs <;> rfl

/-- **C133 fails, what it costs.** For every two objects and samples, the interrupted thread's down velocity comes out wrong by the difference of
the two gravities times the step. -/
theorem C133_velocity_race (g : ℝ) (phi) (out : NavOutput ℝ) (fa fb : Fusion ℝ) (ma mb : Imu ℝ) :
    let p := (twoThreads g phi out fa fb [.call (.time ma)] [.call (.time mb)]).run [false, true, false, false, false]
    (p.thr false).phase = .idle ∧ (p.thr false).todo = [] ∧
    (p.thr false).f.ins.nav.vn 2 = (solo [.call (.time ma)] (fa, [])).1.ins.nav.vn 2 +
      ((Process.begin' fb mb).1 - (Process.begin' fa ma).1) * fa.ins.dt := by
  refine ⟨rfl, rfl, ?_⟩
  have e1 : (solo [.call (.time ma)] (fa, ([] : List (NavOutput ℝ)))).1 = (fa.timeUpdate 0 ma).2 := by
    simp only [solo, List.foldl, soloCall, FCall.exec]
  rw [e1, ← pieces_make_whole 0 fa ma]
  dsimp only
  rw [finish_vn, move_vn, begin_dt]
  rw [gravity_race_whole, finish_vn, move_vn, begin_dt]
  ring

/-- A filter started at rest at the given height. -/
noncomputable def parked (h : ℝ) : Fusion ℝ := (fstart 0 Ex.zFusion { Ex.zNav with pos := v3 0 0 h } (Ex.opt 1)).2

theorem parked_gravity (h : ℝ) (m : Imu ℝ) :
    (Process.begin' (parked h) m).1 = Earth.gravity ((parked 0).ins.extrapolate.2.posMid 0) h := by
  have e : (Process.begin' (parked h) m).1 = (parked h).ins.extrapolate.1 := by
    simp [Process.begin', parked, fstart, Fusion.new, Fusion.initFusion, Fusion.takeCorrection, Fusion.applyCorrection]
  rw [e]
  have en : ∀ h, Earth.omegaEnN (parked h).ins.nav.vn (parked h).ins.nav.pos = v3 0 0 0 := by
    intro h
    simp [Earth.omegaEnN, parked, fstart, Fusion.new, Fusion.initFusion, Ins.initializePva, Ex.zNav, zero3, v3]
  have hp : (parked h).ins.nav.pos = v3 0 0 h := rfl
  have h0 : (parked 0).ins.nav.pos = v3 0 0 0 := rfl
  have hv : (parked h).ins.nav.vn = zero3 := rfl
  have hd : (parked h).ins.dt = (parked 0).ins.dt := rfl
  have hq : (parked h).ins.nav.Qne = (parked 0).ins.nav.Qne := rfl
  unfold Ins.extrapolate
  rw [en h, en 0, hp, h0, hv, hd, hq]
  simp [v3, zero3]

/-- Non-vacuity: a vehicle parked at sea level, interrupted by one parked a kilometre higher, gets less than its gravity and so a wrong velocity. -/
example (phi) (out : NavOutput ℝ) :
    let p := (twoThreads 0 phi out (parked 0) (parked 1000) [.call (.time Ex.zImu)] [.call (.time Ex.zImu)]).run [false, true, false, false, false]
    (p.thr false).f.ins.nav.vn 2 < (solo [.call (.time Ex.zImu)] (parked 0, [])).1.ins.nav.vn 2 := by
  have h := (C133_velocity_race 0 phi out (parked 0) (parked 1000) Ex.zImu Ex.zImu).2.2
  dsimp only at h ⊢
  rw [h, parked_gravity, parked_gravity]
  have hg := (C92_gravity ((parked 0).ins.extrapolate.2.posMid 0) 0).2.2.2.2 1000 (by norm_num) (by norm_num)
  have hd : (parked 0).ins.dt = 1 / 100 := by
    have : (parked 0).ins.dt = 1 / ofI 100 := rfl
    rw [this]; simp [ofI]
  rw [hd]; linarith

theorem matrix_race_whole {α : Type} [Add α] [Sub α] [Mul α] [Neg α] [Div α] [Zero α] [One α] [Fl α] (g : α) (phi) (out : NavOutput α)
    (fa fb : Fusion α) (ma mb : Imu α) :
    (((twoThreads g phi out fa fb [.call (.time ma)] [.call (.time mb)]).run [false, false, false, true, true, true, false]).thr false).f =
      Process.finish ((Process.move (Process.begin' fb mb).1 (Process.begin' fb mb).2.1 mb (Process.begin' fb mb).2.2.1
        (Process.begin' fb mb).2.2.2).transferMatrix (Process.begin' fb mb).1)
      (Process.move (Process.begin' fa ma).1 (Process.begin' fa ma).2.1 ma (Process.begin' fa ma).2.2.1 (Process.begin' fa ma).2.2.2) := by
  simp [twoThreads, Process.run, Process.step]

theorem phi_dt (g : ℝ) (f : Fusion ℝ) : f.transferMatrix g 0 3 = f.ins.dt := by
  simp [Fusion.transferMatrix, setBlock, ms, eyeM, Convert.skew]

theorem begin_kf (f : Fusion ℝ) (m : Imu ℝ) (hf : f.updateFlag = 0) (hi : f.updateIter ≤ 0) :
    (Process.begin' f m).2.1.kf = f.kf ∧ (Process.begin' f m).2.1.Q0 = f.Q0 ∧ (Process.begin' f m).2.1.opt = f.opt := by
  have h1 : f.takeCorrection = f := by unfold Fusion.takeCorrection; rw [hf]; rfl
  have h2 : f.applyCorrection = f := by unfold Fusion.applyCorrection; rw [if_neg (by omega)]
  simp only [Process.begin', h1, h2, and_self]

/-- **C133 fails, what it costs (2).** With no correction pending and no pseudo-measurement due, the interrupted thread's covariance is
predicted with a matrix `Φ` whose step is the other thread's: the coupling of position to velocity is that of the other's sample rate. -/
theorem C133_covariance_race (g : ℝ) (phi) (out : NavOutput ℝ) (fa fb : Fusion ℝ) (ma mb : Imu ℝ) (hf : fa.updateFlag = 0)
    (hi : fa.updateIter ≤ 0) (hz : fa.opt.zuptEnable = 0) (hn : fa.opt.nhcEnable = 0) :
    ∃ Φ : Matrix (Fin 15) (Fin 15) ℝ, Φ 0 3 = fb.ins.dt ∧
    (((twoThreads g phi out fa fb [.call (.time ma)] [.call (.time mb)]).run
        [false, false, false, true, true, true, false]).thr false).f.kf.P =
      Φ * fa.kf.P * Φ.transpose + (fa.ins.dt / 2) • (Φ * fa.Q0 + fa.Q0 * Φ.transpose) := by
  refine ⟨(Process.move (Process.begin' fb mb).1 (Process.begin' fb mb).2.1 mb (Process.begin' fb mb).2.2.1
        (Process.begin' fb mb).2.2.2).transferMatrix (Process.begin' fb mb).1, ?_, ?_⟩
  · rw [phi_dt]; exact begin_dt fb mb
  rw [matrix_race_whole]
  generalize (Process.move (Process.begin' fb mb).1 (Process.begin' fb mb).2.1 mb (Process.begin' fb mb).2.2.1
        (Process.begin' fb mb).2.2.2).transferMatrix (Process.begin' fb mb).1 = Φ
  obtain ⟨k1, k2, k3⟩ := begin_kf fa ma hf hi
  have hd := begin_dt fa ma
  generalize Process.begin' fa ma = r at *
  obtain ⟨f', hf'⟩ : ∃ f', f' = Process.move r.1 r.2.1 ma r.2.2.1 r.2.2.2 := ⟨_, rfl⟩
  have a1 : f'.kf = fa.kf := by rw [hf', ← k1]; rfl
  have a2 : f'.Q0 = fa.Q0 := by rw [hf', ← k2]; rfl
  have a3 : f'.opt = fa.opt := by rw [hf', ← k3]; rfl
  have a4 : f'.ins.dt = fa.ins.dt := by rw [hf', ← hd]; rfl
  rw [← hf']
  have e : (Process.finish Φ f').kf.P = (f'.kf.predict Φ (f'.stepQ Φ)).P := by
    unfold Process.finish Fusion.nhcStage Fusion.zuptStage
    dsimp only
    rw [a3, hz]
    simp [Fusion.clearSensor, hn]
  rw [e, (predict_P _ _ _).1, a1]
  congr 1
  unfold Fusion.stepQ
  rw [a2, a4]
  simp only [mmul_real, ms_real, sm_real, smul_smul, lit_real]
  congr 1
  push_cast; ring

/-- Non-vacuity: two filters just started. -/
example : (parked 0).updateFlag = 0 ∧ (parked 0).updateIter ≤ 0 ∧ (parked 0).opt.zuptEnable = 0 ∧ (parked 0).opt.nhcEnable = 0 :=
  ⟨rfl, le_refl _, rfl, rfl⟩
end Verif.Props
