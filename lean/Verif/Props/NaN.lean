import Verif.Spec.NaN
import Verif.Spec.Api
import Verif.Props.Api
import Verif.Props.AttitudePhase
import Verif.Lemmas.Fusion
import Verif.Lemmas.Align
import Verif.Spec.Examples
import Mathlib.Tactic.FinCases
/-! What one not-a-number in the input does to the rest of a history (C124). Everything holds for every arithmetic with
a not-a-number. -/
namespace Verif.Props
open Verif Verif.Spec Verif.Convert
variable {α : Type} [Add α] [Sub α] [Mul α] [Neg α] [Div α] [Zero α] [One α] [Fl α] {bad : α → Prop}

theorem foldl_bad (A : Absorbing bad) (l : List α) : ∀ x : α, (bad x ∨ ∃ y ∈ l, bad y) → bad (l.foldl (· + ·) x) := by
  induction l with
  | nil => rintro x (h | ⟨y, hy, -⟩); · exact h
           · cases hy
  | cons a l ih =>
    rintro x (h | ⟨y, hy, hb⟩)
    · exact ih _ (Or.inl (A.add_l _ _ h))
    · rcases List.mem_cons.1 hy with rfl | hy
      · exact ih _ (Or.inl (A.add_r _ _ hb))
      · exact ih _ (Or.inr ⟨y, hy, hb⟩)

theorem sumF_bad (A : Absorbing bad) {n : Nat} (f : Fin n → α) (i : Fin n) (h : bad (f i)) : bad (sumF f) :=
  foldl_bad A _ _ (Or.inr ⟨f i, List.mem_ofFn.2 ⟨i, rfl⟩, h⟩)

theorem mvec_bad (A : Absorbing bad) {m n : Nat} (M : Matrix (Fin m) (Fin n) α) (v : Fin n → α) (i : Fin n) (h : bad (v i)) (j : Fin m) :
    bad (mvec M v j) := sumF_bad A _ i (A.mul_r _ _ h)
theorem mvec_bad_m (A : Absorbing bad) {m n : Nat} (M : Matrix (Fin m) (Fin n) α) (v : Fin n → α) (j : Fin m) (i : Fin n) (h : bad (M j i)) :
    bad (mvec M v j) := sumF_bad A _ i (A.mul_l _ _ h)
theorem mmul_bad_l (A : Absorbing bad) {m k n : Nat} (M : Matrix (Fin m) (Fin k) α) (N : Matrix (Fin k) (Fin n) α) (i : Fin m) (l : Fin k)
    (h : bad (M i l)) (j : Fin n) : bad (mmul M N i j) := sumF_bad A _ l (A.mul_l _ _ h)
theorem mmul_bad_r (A : Absorbing bad) {m k n : Nat} (M : Matrix (Fin m) (Fin k) α) (N : Matrix (Fin k) (Fin n) α) (j : Fin n) (l : Fin k)
    (h : bad (N l j)) (i : Fin m) : bad (mmul M N i j) := sumF_bad A _ l (A.mul_r _ _ h)

/-- All three components. -/
def badV (bad : α → Prop) (v : V3 α) : Prop := ∀ i, bad (v i)
/-- All entries. -/
def badM (bad : α → Prop) (m : M3 α) : Prop := ∀ i j, bad (m i j)
/-- All components. -/
def badQ (bad : α → Prop) (q : Quat α) : Prop := bad q.w ∧ bad q.x ∧ bad q.y ∧ bad q.z

theorem compensate_bad (A : Absorbing bad) (dt : α) (x b s : V3 α) (i : Fin 3) (h : bad (x i)) : badV bad (Ins.compensate dt x b s) :=
  fun j => mvec_bad A _ _ i (A.sub_l _ _ h) j

theorem cross_bad_l (A : Absorbing bad) (a b : V3 α) (h : badV bad a) : badV bad (cross a b) := by
  intro i
  fin_cases i <;> exact A.sub_l _ _ (A.mul_l _ _ (h _))
theorem cross_bad_r (A : Absorbing bad) (a b : V3 α) (h : badV bad b) : badV bad (cross a b) := by
  intro i
  fin_cases i <;> exact A.sub_l _ _ (A.mul_r _ _ (h _))

theorem qmul_bad_l (A : Absorbing bad) (a b : Quat α) (h : badQ bad a) : badQ bad (a.mul b) := by
  obtain ⟨h1, h2, h3, h4⟩ := h
  exact ⟨A.sub_r _ _ (A.mul_l _ _ h4), A.sub_r _ _ (A.mul_l _ _ h4), A.sub_r _ _ (A.mul_l _ _ h2), A.sub_r _ _ (A.mul_l _ _ h3)⟩
theorem qmul_bad_r (A : Absorbing bad) (a b : Quat α) (h : badQ bad b) : badQ bad (a.mul b) := by
  obtain ⟨h1, h2, h3, h4⟩ := h
  exact ⟨A.sub_r _ _ (A.mul_r _ _ h4), A.sub_r _ _ (A.mul_r _ _ h3), A.sub_r _ _ (A.mul_r _ _ h4), A.sub_r _ _ (A.mul_r _ _ h2)⟩
theorem qnorm_bad (A : Absorbing bad) (a : Quat α) (h : badQ bad a) : badQ bad a.normalized := by
  unfold Quat.normalized
  have : Fl.lt 0 a.nsq = false := A.lt_r _ _ (A.add_r _ _ (A.mul_l _ _ h.1))
  rw [this]
  exact h
theorem toRot_bad (A : Absorbing bad) (q : Quat α) (h : badQ bad q) : badM bad (quatToDcm q) := by
  obtain ⟨h1, h2, h3, h4⟩ := h
  intro i j
  fin_cases i <;> fin_cases j
  · exact A.sub_r _ _ (A.add_r _ _ (A.mul_r _ _ h4))
  · exact A.sub_r _ _ (A.mul_r _ _ h1)
  · exact A.add_r _ _ (A.mul_r _ _ h1)
  · exact A.add_r _ _ (A.mul_r _ _ h1)
  · exact A.sub_r _ _ (A.add_r _ _ (A.mul_r _ _ h4))
  · exact A.sub_r _ _ (A.mul_r _ _ h1)
  · exact A.sub_r _ _ (A.mul_r _ _ h1)
  · exact A.add_r _ _ (A.mul_r _ _ h1)
  · exact A.sub_r _ _ (A.add_r _ _ (A.mul_r _ _ h3))
theorem euler_bad (A : Absorbing bad) (c : M3 α) (h : badM bad c) : badV bad (dcmToEuler c) := by
  unfold dcmToEuler
  dsimp only
  rw [if_neg (by rw [A.le_l _ _ (h 2 0)]; decide), if_neg (by rw [A.le_r _ _ (h 2 0)]; decide)]
  intro i
  fin_cases i
  · exact A.atan2_l _ _ (h 2 1)
  · exact A.atan _ (A.div_l _ _ (A.neg _ (h 2 0)))
  · exact A.atan2_l _ _ (h 1 0)
theorem dcm_bad (A : Absorbing bad) (e : V3 α) (h0 : bad (e 0)) (h1 : bad (e 1)) : badM bad (eulerToDcm e) := by
  intro i j
  fin_cases i <;> fin_cases j
  · exact A.mul_l _ _ (A.cos _ h1)
  · exact A.add_r _ _ (A.mul_l _ _ (A.mul_l _ _ (A.sin _ h0)))
  · exact A.add_r _ _ (A.mul_l _ _ (A.mul_l _ _ (A.cos _ h0)))
  · exact A.mul_l _ _ (A.cos _ h1)
  · exact A.add_l _ _ (A.mul_l _ _ (A.cos _ h0))
  · exact A.add_r _ _ (A.mul_l _ _ (A.mul_l _ _ (A.cos _ h0)))
  · exact A.neg _ (A.sin _ h1)
  · exact A.mul_l _ _ (A.sin _ h0)
  · exact A.mul_l _ _ (A.cos _ h0)
theorem quat_bad (A : Absorbing bad) (e : V3 α) (h0 : bad (e 0)) : badQ bad (eulerToQuat e) := by
  have hc := A.cos _ (A.div_l _ (Fl.lit 2) h0)
  have hs := A.sin _ (A.div_l _ (Fl.lit 2) h0)
  exact ⟨A.add_l _ _ (A.mul_l _ _ (A.mul_l _ _ hc)), A.sub_l _ _ (A.mul_l _ _ (A.mul_l _ _ hs)),
    A.add_l _ _ (A.mul_l _ _ (A.mul_l _ _ hc)), A.sub_l _ _ (A.mul_l _ _ (A.mul_l _ _ hc))⟩

/-! ## The velocity -/

/-- The velocity after a sample. -/
theorem forward_vn (g : α) (s : Ins α) (m : Imu α) :
    ∃ (M : M3 α) (c : V3 α), (s.forwardImu g m).2.nav.vn = s.nav.vn + (mvec (mmul M s.nav.Cbn)
      (Ins.compensate s.dt m.acce s.nav.ab s.nav.as + sv (Fl.lit (1 / 2)) (cross (Ins.compensate s.dt m.gyro s.nav.gb s.nav.gs) (Ins.compensate s.dt m.acce s.nav.ab s.nav.as)) +
        vd (cross s.gyroPre (Ins.compensate s.dt m.acce s.nav.ab s.nav.as) + cross s.accePre (Ins.compensate s.dt m.gyro s.nav.gb s.nav.gs)) (Fl.lit 12)) + c) :=
  ⟨_, _, rfl⟩

theorem take_ins (f : Fusion α) : f.takeCorrection.ins = f.ins := by
  unfold Fusion.takeCorrection; split_ifs <;> rfl

theorem apply_vn (A : Absorbing bad) (f : Fusion α) (h : badV bad f.ins.nav.vn) : badV bad f.applyCorrection.ins.nav.vn := by
  unfold Fusion.applyCorrection
  dsimp only
  split_ifs
  · exact fun i => mvec_bad A _ _ 0 (A.sub_l _ _ (h 0)) i
  · exact h

theorem tu_vn (g : α) (f : Fusion α) (m : Imu α) :
    (f.timeUpdate g m).2.ins.nav.vn = (f.takeCorrection.applyCorrection.ins.forwardImu g m).2.nav.vn := by
  obtain ⟨i, hi⟩ := Fusion.timeUpdate_ins g f m
  rw [hi]

theorem tu_keeps_bad (A : Absorbing bad) (g : α) (f : Fusion α) (m : Imu α) (h : badV bad f.ins.nav.vn) :
    badV bad (f.timeUpdate g m).2.ins.nav.vn := by
  have h1 := apply_vn A f.takeCorrection (by rw [take_ins]; exact h)
  obtain ⟨M, c, e⟩ := forward_vn g f.takeCorrection.applyCorrection.ins m
  rw [tu_vn, e]
  exact fun i => A.add_l _ _ (h1 i)

theorem tu_bad_sample (A : Absorbing bad) (g : α) (f : Fusion α) (m : Imu α) (i : Fin 3) (h : bad (m.acce i) ∨ bad (m.gyro i)) :
    badV bad (f.timeUpdate g m).2.ins.nav.vn := by
  obtain ⟨M, c, e⟩ := forward_vn g f.takeCorrection.applyCorrection.ins m
  rw [tu_vn, e]
  intro j
  refine A.add_r _ _ (A.add_l _ _ (mvec_bad A _ _ 0 ?_ j))
  rcases h with h | h
  · exact A.add_l _ _ (A.add_l _ _ (compensate_bad A _ _ _ _ i h 0))
  · exact A.add_l _ _ (A.add_r _ _ (A.mul_r _ _ (cross_bad_l A _ _ (compensate_bad A _ _ _ _ i h) 0)))

theorem gnss_ins_vn (f : Fusion α) (m : Gnss α) : (f.measureGnss m).ins.nav.vn = f.ins.nav.vn := by
  unfold Fusion.measureGnss; dsimp only; split_ifs <;> rfl

/-- Navigating with a velocity that is not a number. -/
structure Lost (bad : α → Prop) (d : Dev α) : Prop where
  st : d.status = 3
  vn : badV bad d.df.ins.nav.vn

theorem lost_time (g : α) (d : Dev α) (m : Imu α) (hs : d.status = 3) :
    rgioeTimeupdate g d (some m) = (0, (d.df.timeUpdate g m).1, { d with df := (d.df.timeUpdate g m).2 }) := by
  unfold rgioeTimeupdate
  dsimp only
  rw [if_neg (by rw [hs]; decide), if_neg (by rw [hs]; decide), if_neg (by rw [hs]; decide), if_pos (show d.status = ST_NAVIGATION from hs)]
  rfl

theorem nav_gnss (g : α) (d : Dev α) (m : Gnss α) (hs : d.status = 3) :
    rgioeGnssupdate g d (some m) = (0, g, { d with df := d.df.measureGnss m }) := by
  unfold rgioeGnssupdate
  dsimp only
  rw [if_neg (by rw [hs]; decide), if_neg (by rw [hs]; decide), if_pos (show d.status = ST_NAVIGATION from hs)]
  rfl

theorem lost_exec (A : Absorbing bad) (c : Call α) (hc : c.isInit = false) (g : α) (d : Dev α) (h : Lost bad d) :
    Lost bad (c.exec (g, d)).1.2 := by
  rcases c with _ | (_ | m) | (_ | m) | _ | _ | _ | _ | _ | _ <;> try exact h
  · simp [Call.isInit] at hc
  · simp only [Call.exec]
    rw [lost_time g d m h.st]
    exact ⟨h.st, tu_keeps_bad A g d.df m h.vn⟩
  · simp only [Call.exec]
    rw [nav_gnss g d m h.st]
    exact ⟨h.st, by intro i; show bad ((d.df.measureGnss m).ins.nav.vn i); rw [gnss_ins_vn]; exact h.vn i⟩

theorem lost_run (A : Absorbing bad) (cs : List (Call α)) (hc : ∀ c ∈ cs, c.isInit = false) : ∀ (s : α × Dev α), Lost bad s.2 →
    Lost bad (runCalls cs s).2 := by
  induction cs with
  | nil => intro s h; exact h
  | cons c cs ih =>
    intro s h
    exact ih (fun c' h' => hc c' (List.mem_cons_of_mem _ h')) _ (lost_exec A c (hc c List.mem_cons_self) s.1 s.2 h)

theorem lost_output (A : Absorbing bad) {d : Dev α} (h : Lost bad d) (p : NavOutput α) (i : Fin 3) :
    bad ((rgioeGetVel d).1 i) ∧ bad ((rgioeGetResult d p).2.vn i) := by
  refine ⟨A.f32 _ (h.vn i), ?_⟩
  unfold rgioeGetResult
  dsimp only
  rw [if_pos (show d.status = ST_NAVIGATION from h.st)]
  exact h.vn i

/-- C124, violated: one component of one sample that is not a number makes all reported velocities not a number,
whatever is called afterwards short of a new initialisation. -/
theorem C124_one_bad_sample (A : Absorbing bad) (g : α) (d : Dev α) (hs : d.status = 3) (m : Imu α) (k : Fin 3)
    (hm : bad (m.acce k) ∨ bad (m.gyro k)) (cs : List (Call α)) (hc : ∀ c ∈ cs, c.isInit = false) (p : NavOutput α) (i : Fin 3) :
    let s := runCalls (.time (some m) :: cs) (g, d)
    bad ((rgioeGetVel s.2).1 i) ∧ bad ((rgioeGetResult s.2 p).2.vn i) := by
  refine lost_output A (lost_run A cs hc _ ?_) p i
  simp only [Call.exec]
  rw [lost_time g d m hs]
  exact ⟨hs, tu_bad_sample A g d.df m k hm⟩

/-- C124, violated: the same for one accepted fix whose latitude, longitude or height is not a number, from the next
sample on. -/
theorem C124_one_bad_fix (A : Absorbing bad) (g : α) (d : Dev α) (hs : d.status = 3) (f : Gnss α)
    (hmode : f.mode = 1 ∨ f.mode = 2 ∨ f.mode = 4 ∨ f.mode = 5) (hf : bad f.lat ∨ bad f.lon ∨ bad f.height) (m : Imu α)
    (cs : List (Call α)) (hc : ∀ c ∈ cs, c.isInit = false) (p : NavOutput α) (i : Fin 3) :
    let s := runCalls (.gnss (some f) :: .time (some m) :: cs) (g, d)
    bad ((rgioeGetVel s.2).1 i) ∧ bad ((rgioeGetResult s.2 p).2.vn i) := by
  refine lost_output A (lost_run A cs hc _ ?_) p i
  have hchk : Fusion.gnssCheck f = true := by
    unfold Fusion.gnssCheck
    rcases hmode with h | h | h | h <;> rw [h] <;> decide
  obtain ⟨f', hf'⟩ : ∃ f', f' = d.df.measureGnss f := ⟨_, rfl⟩
  have hX : ∀ j, bad (f'.kf.Xd j) := by
    rw [hf']
    unfold Fusion.measureGnss
    rw [if_pos hchk]
    intro j
    refine mvec_bad A _ _ 0 ?_ j
    refine A.add_l _ _ (mvec_bad A _ _ 0 ?_ 0)
    refine A.sub_r _ _ ?_
    rcases hf with hf | hf | hf
    · exact A.mul_l _ _ (A.mul_r _ _ (A.cos _ (A.mul_l _ _ hf)))
    · exact A.mul_r _ _ (A.cos _ (A.mul_l _ _ hf))
    · exact A.mul_l _ _ (A.mul_l _ _ (A.add_r _ _ hf))
  have hfl : 0 < f'.updateFlag.toNat := by
    rw [hf']
    unfold Fusion.measureGnss
    rw [if_pos hchk]
    show 0 < (d.df.updateFlag ||| Fusion.FLAG_POSITION).toNat
    rw [BitVec.toNat_or]
    exact lt_of_lt_of_le (by decide : 0 < Fusion.FLAG_POSITION.toNat) Nat.right_le_or
  have hv : badV bad (f'.timeUpdate g m).2.ins.nav.vn := by
    have h1 : badV bad f'.takeCorrection.applyCorrection.ins.nav.vn := by
      have ht : f'.takeCorrection = { f' with kfXd := f'.kf.Xd, updateIter := f'.monitor.maxIter, kf := f'.kf.reset, updateFlag := 0 } := by
        unfold Fusion.takeCorrection; rw [if_pos hfl]
      have hi : 0 < f'.takeCorrection.updateIter := by
        rw [ht]
        show (0 : Int) < (f'.monitor.maxIter : Int)
        unfold Monitor.maxIter
        split_ifs <;> decide
      unfold Fusion.applyCorrection
      dsimp only
      rw [if_pos hi, ht]
      refine fun i => mvec_bad A _ _ 0 (A.sub_r _ _ ?_) i
      exact A.div_l _ _ (hX 3)
    obtain ⟨M, c, e⟩ := forward_vn g f'.takeCorrection.applyCorrection.ins m
    rw [tu_vn, e]
    exact fun i => A.add_l _ _ (h1 i)
  simp only [Call.exec, runCalls]
  rw [nav_gnss g d f hs]
  dsimp only
  rw [lost_time _ _ _ (show ({ d with df := d.df.measureGnss f } : Dev α).status = 3 from hs)]
  exact ⟨hs, by rw [← hf']; exact hv⟩

/-! ## Alignment -/

/-- The smoothed statistics of the detector are not numbers. -/
def deaf (bad : α → Prop) (s : Smooth α) : Prop := ∃ k, bad (s.ave.acce k) ∧ bad (s.var.acce k)

theorem deaf_std (A : Absorbing bad) (s : Smooth α) (h : deaf bad s) : bad s.getStd := by
  obtain ⟨k, -, h⟩ := h
  refine A.f32 _ (A.sqrt _ (A.f32 _ ?_))
  fin_cases k
  · exact A.add_l _ _ (A.add_l _ _ h)
  · exact A.add_l _ _ (A.add_r _ _ h)
  · exact A.add_r _ _ h

theorem deaf_sample (A : Absorbing bad) (s : Smooth α) (m : Imu α) (k : Fin 3) (h : bad (m.acce k)) : deaf bad (s.update m) := by
  refine ⟨k, A.div_l _ _ (A.add_r _ _ h), A.div_l _ _ (A.add_r _ _ (A.mul_l _ _ (A.sub_l _ _ h)))⟩

theorem deaf_keeps (A : Absorbing bad) (s : Smooth α) (m : Imu α) (h : deaf bad s) : deaf bad (s.update m) := by
  obtain ⟨k, h1, h2⟩ := h
  exact ⟨k, A.div_l _ _ (A.add_l _ _ (A.mul_l _ _ h1)), A.div_l _ _ (A.add_l _ _ (A.mul_l _ _ h2))⟩

theorem deaf_cnt (A : Absorbing bad) (s : Smooth α) (m : Imu α) (h : deaf bad (s.update m)) : (s.update m).staticCnt = s.staticCnt + 1 := by
  rw [smooth_cnt, if_neg]
  rw [A.lt_r _ _ (deaf_std A _ h)]; decide

/-- The attitude is not a number. -/
structure Dizzy (bad : α → Prop) (n : NavEpoch α) : Prop where
  roll : bad (n.atti 0)
  pitch : bad (n.atti 1)
  cbn : badM bad n.Cbn
  qbn : badQ bad n.Qbn

theorem level_bad (A : Absorbing bad) (v : V3 α) (h : badV bad v) : bad (Align.levelAngles v).1 ∧ bad (Align.levelAngles v).2 := by
  have hn : vnormalized v = v := by
    unfold vnormalized
    rw [if_neg]
    have hb : bad (sqNorm v) := sumF_bad A (fun i => v i * v i) 0 (A.mul_l _ _ (h 0))
    rw [A.lt_r _ _ hb]; decide
  unfold Align.levelAngles
  rw [hn]
  exact ⟨A.mul_l _ _ (A.asin _ (h 1)), A.mul_l _ _ (A.neg _ (A.asin _ (h 0)))⟩

/-- What one bad sample leaves behind in the alignment: either not levelled yet, with `n` more samples to be waited
for, or levelled with an attitude that is not a number. -/
def Spoilt (bad : α → Prop) (n : Int) (a : Align α) : Prop :=
  a.smooth.staticWidth = 200 ∧
    ((a.level = false ∧ deaf bad a.smooth ∧ n ≤ a.smooth.staticCnt) ∨ (a.level = true ∧ Dizzy bad a.nav))

theorem spoilt_imu (A : Absorbing bad) (a : Align α) (m : Imu α) (n : Int) (h : Spoilt bad n a) :
    Spoilt bad (n + 1) (a.updateImu m) ∧ (200 ≤ n → (a.updateImu m).level = true) := by
  obtain ⟨hw, h | h⟩ := h
  · obtain ⟨hl, hd, hn⟩ := h
    have d1 := deaf_keeps A a.smooth m hd
    have c1 := deaf_cnt A a.smooth m d1
    have w1 : (a.smooth.update m).staticWidth = 200 := hw
    unfold Align.updateImu
    dsimp only
    rw [if_neg (by rw [hl]; decide)]
    by_cases hst : (a.smooth.update m).isStatic = true
    · rw [if_neg (by rw [hst]; decide)]
      obtain ⟨k, hk, -⟩ := d1
      obtain ⟨l1, l2⟩ := level_bad A _ (compensate_bad A (1 / ofI a.option.dRate) (a.smooth.update m).ave.acce a.option.imuPara.abIni a.option.imuPara.asIni k hk)
      exact ⟨⟨w1, Or.inr ⟨rfl, l1, l2, dcm_bad A _ l1 l2, quat_bad A _ l1⟩⟩, fun _ => rfl⟩
    · rw [if_pos (by simpa using hst)]
      refine ⟨⟨w1, Or.inl ⟨hl, d1, by rw [c1]; omega⟩⟩, fun hn' => ?_⟩
      exfalso
      apply hst
      rw [smooth_static, c1, decide_eq_true_eq, hw]
      omega
  · obtain ⟨hl, hz⟩ := h
    unfold Align.updateImu
    dsimp only
    rw [if_pos hl]
    exact ⟨⟨hw, Or.inr ⟨hl, hz.roll, hz.pitch, hz.cbn, hz.qbn⟩⟩, fun _ => hl⟩

theorem spoilt_sample (A : Absorbing bad) (a : Align α) (m : Imu α) (k : Fin 3) (hm : bad (m.acce k)) (hw : a.smooth.staticWidth = 200)
    (hl : a.level = false) (hc : 0 ≤ a.smooth.staticCnt) : Spoilt bad 1 (a.updateImu m) := by
  have d1 := deaf_sample A a.smooth m k hm
  have c1 := deaf_cnt A a.smooth m d1
  unfold Align.updateImu
  dsimp only
  rw [if_neg (by rw [hl]; decide)]
  by_cases hst : (a.smooth.update m).isStatic = true
  · rw [if_neg (by rw [hst]; decide)]
    obtain ⟨k, hk, -⟩ := d1
    obtain ⟨l1, l2⟩ := level_bad A _ (compensate_bad A (1 / ofI a.option.dRate) (a.smooth.update m).ave.acce a.option.imuPara.abIni a.option.imuPara.asIni k hk)
    exact ⟨hw, Or.inr ⟨rfl, l1, l2, dcm_bad A _ l1 l2, quat_bad A _ l1⟩⟩
  · rw [if_pos (by simpa using hst)]
    exact ⟨hw, Or.inl ⟨hl, d1, by rw [c1]; omega⟩⟩

theorem spoilt_gnss (A : Absorbing bad) (g : α) (a : Align α) (f : Gnss α) (n : Int) (h : Spoilt bad n a) :
    Spoilt bad n (a.updateGnss g f).2 := by
  refine ⟨by rw [align_gnss_smooth]; exact h.1, ?_⟩
  rw [align_gnss_smooth, align_gnss_level]
  rcases h.2 with h | ⟨hl, hz⟩
  · exact Or.inl h
  · refine Or.inr ⟨hl, ?_⟩
    unfold Align.updateGnss
    split_ifs
    · exact hz
    · have hy : Dizzy bad (a.yawStep f).nav := by
        unfold Align.yawStep
        dsimp only
        split_ifs
        · exact ⟨hz.roll, hz.pitch, dcm_bad A _ hz.roll hz.pitch, quat_bad A _ hz.roll⟩
        · exact hz
      have hc : badM bad (mmul (a.yawStep f).nav.Cbn (eulerToDcm (v3 0 0 ((a.yawStep f).option.angleBv 2)))) :=
        fun i j => mmul_bad_l A _ _ i 0 (hy.cbn i 0) j
      have he := euler_bad A _ hc
      exact ⟨he 0, he 1, hc, quat_bad A _ (he 0)⟩

/-! ## The attitude while navigating -/

theorem dizzy_feedBack (A : Absorbing bad) (f : Fusion α) (x : Fin 15 → α) (h : Dizzy bad f.ins.nav) : Dizzy bad (f.feedBack x).ins.nav := by
  have hq := qnorm_bad A _ (qmul_bad_r A (rvToQuat (v3 (x 6) (x 7) (x 8) + v3 (x 1 / (Earth.RN (f.ins.nav.pos 0) + f.ins.nav.pos 2))
    (-(x 0) / (Earth.RM (f.ins.nav.pos 0) + f.ins.nav.pos 2)) (-(x 1) * Fl.tan (f.ins.nav.pos 0) / (Earth.RN (f.ins.nav.pos 0) + f.ins.nav.pos 2)))) _ h.qbn)
  have hc := toRot_bad A _ hq
  have he := euler_bad A _ hc
  exact ⟨he 0, he 1, hc, hq⟩

theorem dizzy_tu (A : Absorbing bad) (g : α) (f : Fusion α) (m : Imu α) (h : Dizzy bad f.ins.nav) : Dizzy bad (f.timeUpdate g m).2.ins.nav := by
  have h1 : Dizzy bad f.takeCorrection.applyCorrection.ins.nav := by
    unfold Fusion.applyCorrection
    dsimp only
    split_ifs
    · exact dizzy_feedBack A _ _ (by rw [take_ins]; exact h)
    · rw [take_ins]; exact h
  obtain ⟨i, hi⟩ := Fusion.timeUpdate_ins g f m
  have h2 : Dizzy bad (f.takeCorrection.applyCorrection.ins.forwardImu g m).2.nav := by
    obtain ⟨s, hs⟩ : ∃ s, s = f.takeCorrection.applyCorrection.ins := ⟨_, rfl⟩
    rw [← hs] at h1 ⊢
    obtain ⟨q1, q2, e1, e2, e3⟩ : ∃ q1 q2 : Quat α, (s.forwardImu g m).2.nav.Qbn = ((q1.mul s.nav.Qbn).mul q2).normalized ∧
        (s.forwardImu g m).2.nav.Cbn = quatToDcm (s.forwardImu g m).2.nav.Qbn ∧
        (s.forwardImu g m).2.nav.atti = dcmToEuler (s.forwardImu g m).2.nav.Cbn := ⟨_, _, rfl, rfl, rfl⟩
    have hq : badQ bad (s.forwardImu g m).2.nav.Qbn := by
      rw [e1]; exact qnorm_bad A _ (qmul_bad_l A _ _ (qmul_bad_r A _ _ h1.qbn))
    have hc : badM bad (s.forwardImu g m).2.nav.Cbn := by rw [e2]; exact toRot_bad A _ hq
    have he := euler_bad A _ hc
    rw [← e3] at he
    exact ⟨he 0, he 1, hc, hq⟩
  rw [hi]
  exact ⟨h2.roll, h2.pitch, h2.cbn, h2.qbn⟩

theorem gnss_dizzy (f : Fusion α) (m : Gnss α) (h : Dizzy bad f.ins.nav) : Dizzy bad (f.measureGnss m).ins.nav := by
  unfold Fusion.measureGnss; dsimp only; split_ifs <;> exact ⟨h.roll, h.pitch, h.cbn, h.qbn⟩

/-- After a bad sample in alignment. -/
structure Ruined (bad : α → Prop) (n : Int) (d : Dev α) : Prop where
  st : (d.status = 1 ∧ d.am.level = false ∧ n ≤ 200) ∨ (d.status = 2 ∧ d.am.level = true) ∨ d.status = 3
  al : d.status ≠ 3 → Spoilt bad n d.am
  nav : d.status = 3 → Dizzy bad d.df.ins.nav

theorem ruined_of_spoilt (A : Absorbing bad) (d : Dev α) (a : Align α) (n : Int) (h : Spoilt bad n a) (hn : a.level = false → n ≤ 200) :
    Ruined bad n { d with am := a, status := if a.level = true then 2 else 1 } := by
  by_cases hl : a.level = true
  · rw [if_pos hl]
    exact ⟨Or.inr (Or.inl ⟨rfl, hl⟩), fun _ => h, fun h3 => absurd (show (2 : Int) = 3 from h3) (by decide)⟩
  · rw [if_neg hl]
    have hf : a.level = false := by simpa using hl
    exact ⟨Or.inl ⟨rfl, hf, hn hf⟩, fun _ => h, fun h3 => absurd (show (1 : Int) = 3 from h3) (by decide)⟩

theorem align_time (g : α) (d : Dev α) (m : Imu α) (hs : d.status = 1) :
    (rgioeTimeupdate g d (some m)).2.2 = { d with am := d.am.updateImu m, status := if (d.am.updateImu m).level = true then 2 else 1 } := by
  unfold rgioeTimeupdate
  dsimp only
  rw [if_neg (by rw [hs]; decide), if_pos (show d.status = ST_ALIGN from hs)]
  simp only [hs]
  rfl

theorem ruined_imu (A : Absorbing bad) (g : α) (d : Dev α) (m : Imu α) (n : Int) (h : Ruined bad n d) :
    Ruined bad (n + 1) (rgioeTimeupdate g d (some m)).2.2 := by
  rcases h.st with ⟨hs, hl, -⟩ | ⟨hs, hl⟩ | hs
  · obtain ⟨s1, s2⟩ := spoilt_imu A d.am m n (h.al (by rw [hs]; decide))
    rw [align_time g d m hs]
    refine ruined_of_spoilt A d _ _ s1 (fun hf => ?_)
    by_contra hn
    have := s2 (by omega)
    rw [hf] at this; cases this
  · obtain ⟨s1, s2⟩ := spoilt_imu A d.am m n (h.al (by rw [hs]; decide))
    have hl1 : (d.am.updateImu m).level = true := by
      rw [align_imu_level, hl]; rfl
    have hz : Dizzy bad (d.am.updateImu m).nav := by
      rcases s1.2 with ⟨hf, -⟩ | ⟨-, hz⟩
      · rw [hl1] at hf; cases hf
      · exact hz
    rw [att_time g d m hs]
    split_ifs
    · exact ⟨Or.inr (Or.inr rfl), fun h3 => absurd rfl h3, fun _ => ⟨hz.roll, hz.pitch, hz.cbn, hz.qbn⟩⟩
    · exact ⟨Or.inr (Or.inl ⟨hs, hl1⟩), fun _ => s1, fun h3 => absurd (hs.symm.trans h3) (by decide)⟩
  · rw [lost_time g d m hs]
    exact ⟨Or.inr (Or.inr hs), fun h3 => absurd hs h3, fun _ => dizzy_tu A g d.df m (h.nav hs)⟩

theorem ruined_gnss (A : Absorbing bad) (g : α) (d : Dev α) (f : Gnss α) (n : Int) (h : Ruined bad n d) :
    Ruined bad n (rgioeGnssupdate g d (some f)).2.2 := by
  have ha : d.status = 1 ∨ d.status = 2 → (rgioeGnssupdate g d (some f)).2.2 = { d with am := (d.am.updateGnss g f).2 } := by
    intro hs
    unfold rgioeGnssupdate
    dsimp only
    rw [if_neg (by rcases hs with hs | hs <;> rw [hs] <;> decide), if_pos (show d.status = ST_ALIGN ∨ d.status = ST_ATTITUDE from hs)]
  rcases h.st with ⟨hs, hl, hn⟩ | ⟨hs, hl⟩ | hs
  · rw [ha (Or.inl hs)]
    exact ⟨Or.inl ⟨hs, by rw [← hl]; exact align_gnss_level g d.am f, hn⟩, fun h3 => spoilt_gnss A g d.am f n (h.al h3),
      fun h3 => absurd (hs.symm.trans h3) (by decide)⟩
  · rw [ha (Or.inr hs)]
    exact ⟨Or.inr (Or.inl ⟨hs, by rw [← hl]; exact align_gnss_level g d.am f⟩), fun h3 => spoilt_gnss A g d.am f n (h.al h3),
      fun h3 => absurd (hs.symm.trans h3) (by decide)⟩
  · rw [nav_gnss g d f hs]
    exact ⟨Or.inr (Or.inr hs), fun h3 => absurd hs h3, fun _ => gnss_dizzy d.df f (h.nav hs)⟩

theorem ruined_run (A : Absorbing bad) (cs : List (Call α)) (hc : ∀ c ∈ cs, c.isInit = false) : ∀ (n : Int) (s : α × Dev α), Ruined bad n s.2 →
    Ruined bad (n + (imusOf cs).length) (runCalls cs s).2 := by
  induction cs with
  | nil => intro n s h; simpa [imusOf, runCalls] using h
  | cons c cs ih =>
    intro n s h
    have ih := ih (fun c' h' => hc c' (List.mem_cons_of_mem _ h'))
    have hi := hc c List.mem_cons_self
    rcases c with _ | (_ | m) | (_ | m) | _ | _ | _ | _ | _ | _ <;> try exact ih n s h
    · simp [Call.isInit] at hi
    · have := ih (n + 1) _ (ruined_imu A s.1 s.2 m n h)
      simp only [imusOf, List.length_cons]
      rw [show n + ((imusOf cs).length + 1 : ℕ) = n + 1 + (imusOf cs).length by push_cast; ring]
      exact this
    · exact ih n _ (ruined_gnss A s.1 s.2 m n h)

/-- Before levelling. -/
structure Unlevelled (d : Dev α) : Prop where
  ok : okStatus d.status
  mode : d.opt.alignMode ≠ 2
  width : d.status ≤ 1 → d.am.smooth.staticWidth = 200 ∧ d.am.level = false ∧ 0 ≤ d.am.smooth.staticCnt
  zero : d.status = 0 → d.am.smooth.staticCnt = 0

theorem unlevelled_exec (c : Call α) (hc : c.isInit = false) (s : α × Dev α) (h : Unlevelled s.2) : Unlevelled (c.exec s).1.2 := by
  obtain ⟨e1, e2⟩ := exec_status c hc s h.ok
  have e3 : (c.exec s).1.2.opt.alignMode ≠ 2 := by rw [exec_opt c hc s]; exact h.mode
  by_cases hq : s.2.status ≤ 1
  swap
  · exact ⟨e1, e3, fun h' => absurd (e2.trans h') hq, fun h' => absurd (e2.trans (h'.le.trans (by decide))) hq⟩
  obtain ⟨w1, w2, w3⟩ := h.width hq
  rcases c with _ | (_ | m) | (_ | m) | _ | _ | _ | _ | _ | _ <;> try exact h
  · simp [Call.isInit] at hc
  · have hcnt : 0 ≤ (s.2.am.updateImu m).smooth.staticCnt := by
      rw [align_imu_smooth, smooth_cnt]; split_ifs <;> omega
    have hwid : (s.2.am.updateImu m).smooth.staticWidth = 200 := by rw [align_imu_smooth]; exact w1
    rcases h.ok with hs | hs | hs | hs
    · have ec : (Call.exec (.time (some m)) s).1.2 = { s.2 with am := s.2.am.updateImu m, status := 1 } := by
        simp only [Call.exec]
        unfold rgioeTimeupdate
        dsimp only
        rw [if_pos hs, if_neg (show ¬ s.2.opt.alignMode = ALIGN_USE_GIVEN from h.mode)]
        rfl
      refine ⟨e1, e3, fun _ => ?_, fun h' => ?_⟩
      · rw [ec]
        refine ⟨hwid, ?_, hcnt⟩
        show (s.2.am.updateImu m).level = false
        rw [align_imu_level, w2, Bool.false_or, smooth_static, w1, smooth_cnt, h.zero hs]
        split_ifs <;> rfl
      · rw [ec] at h'; exact absurd (show (1 : Int) = 0 from h') (by decide)
    · have ec : (Call.exec (.time (some m)) s).1.2 = { s.2 with am := s.2.am.updateImu m, status := if (s.2.am.updateImu m).level = true then 2 else 1 } :=
        align_time s.1 s.2 m hs
      refine ⟨e1, e3, fun h' => ?_, fun h' => ?_⟩
      · rw [ec] at h' ⊢
        refine ⟨hwid, ?_, hcnt⟩
        by_contra hl
        have hl : (s.2.am.updateImu m).level = true := by simpa using hl
        have : (if (s.2.am.updateImu m).level = true then (2 : Int) else 1) ≤ 1 := h'
        rw [if_pos hl] at this
        omega
      · rw [ec] at h'
        have : (if (s.2.am.updateImu m).level = true then (2 : Int) else 1) = 0 := h'
        split_ifs at this <;> omega
    · exact absurd (hs ▸ hq) (by decide)
    · exact absurd (hs ▸ hq) (by decide)
  · rcases h.ok with hs | hs | hs | hs
    · have ec : (Call.exec (.gnss (some m)) s).1.2 = s.2 := by
        simp only [Call.exec]
        unfold rgioeGnssupdate
        dsimp only
        rw [if_pos hs]
      rw [ec]; exact h
    · have ec : (Call.exec (.gnss (some m)) s).1.2 = { s.2 with am := (s.2.am.updateGnss s.1 m).2 } := by
        simp only [Call.exec]
        unfold rgioeGnssupdate
        dsimp only
        rw [if_neg (by rw [hs]; decide), if_pos (Or.inl hs)]
      rw [ec]
      refine ⟨h.ok, h.mode, fun _ => ?_, fun h' => absurd (hs.symm.trans h') (by decide)⟩
      show (s.2.am.updateGnss s.1 m).2.smooth.staticWidth = 200 ∧ (s.2.am.updateGnss s.1 m).2.level = false ∧ 0 ≤ (s.2.am.updateGnss s.1 m).2.smooth.staticCnt
      rw [align_gnss_smooth, align_gnss_level]
      exact ⟨w1, w2, w3⟩
    · exact absurd (hs ▸ hq) (by decide)
    · exact absurd (hs ▸ hq) (by decide)

theorem unlevelled_run (cs : List (Call α)) (hc : ∀ c ∈ cs, c.isInit = false) : ∀ s : α × Dev α, Unlevelled s.2 → Unlevelled (runCalls cs s).2 := by
  induction cs with
  | nil => intro s h; exact h
  | cons c cs ih =>
    intro s h
    exact ih (fun c' h' => hc c' (List.mem_cons_of_mem _ h')) _ (unlevelled_exec c (hc c List.mem_cons_self) s h)

theorem unlevelled_init (junk : Junk α) (d0 d : Dev α) (o : Opt α) (nav : Option (NavOutput α)) (hmode : o.alignMode ≠ 2)
    (h : rgioeInit junk d0 (some o) nav = some (E_OK, d)) : Unlevelled d := by
  obtain ⟨h, -⟩ := init_ok h
  subst h
  exact ⟨Or.inl rfl, hmode, fun _ => ⟨rfl, rfl, le_refl _⟩, fun _ => rfl⟩

/-- C124, violated: one sample with an acceleration that is not a number while the alignment waits for rest. After at most
200 more samples, *whatever the vehicle does*, the alignment declares itself levelled, and from then on (through
alignment and navigation) the reported roll and pitch are not numbers. -/
theorem C124_bad_alignment (A : Absorbing bad) (junk : Junk α) (d0 d : Dev α) (o : Opt α) (nav : Option (NavOutput α)) (g : α)
    (hmode : o.alignMode ≠ 2) (h : rgioeInit junk d0 (some o) nav = some (E_OK, d)) (before cs : List (Call α))
    (hb : ∀ c ∈ before, c.isInit = false) (hc : ∀ c ∈ cs, c.isInit = false)
    (hs : rgioeGetStatus (runCalls before (g, d)).2 = 1) (m : Imu α) (k : Fin 3) (hm : bad (m.acce k))
    (hlen : 200 ≤ (imusOf cs).length) (p : NavOutput α) :
    let e := (runCalls (before ++ .time (some m) :: cs) (g, d)).2
    (rgioeGetStatus e = 2 ∨ rgioeGetStatus e = 3) ∧ bad ((rgioeGetResult e p).2.atti 0) ∧ bad ((rgioeGetResult e p).2.atti 1) := by
  intro e
  have hu := unlevelled_run before hb (g, d) (unlevelled_init junk d0 d o nav hmode h)
  obtain ⟨s, hS⟩ : ∃ s, s = runCalls before (g, d) := ⟨_, rfl⟩
  rw [← hS] at hs hu
  have hs : s.2.status = 1 := hs
  obtain ⟨w1, w2, w3⟩ := hu.width (by rw [hs])
  have hr0 : Ruined bad 1 (rgioeTimeupdate s.1 s.2 (some m)).2.2 := by
    rw [align_time s.1 s.2 m hs]
    exact ruined_of_spoilt A _ _ _ (spoilt_sample A s.2.am m k hm w1 w2 w3) (fun _ => by decide)
  have hr : Ruined bad (1 + (imusOf cs).length) e := by
    have he : e = (runCalls cs (Call.exec (.time (some m)) s).1).2 := by
      rw [hS]; show (runCalls _ _).2 = _; rw [runCalls_append]; rfl
    rw [he]
    exact ruined_run A cs hc 1 _ hr0
  rcases hr.st with ⟨-, -, hn⟩ | ⟨h2, hl⟩ | h3
  · exfalso; omega
  · have hz : Dizzy bad e.am.nav := by
      rcases (hr.al (by rw [h2]; decide)).2 with ⟨hf, -⟩ | ⟨-, hz⟩
      · rw [hl] at hf; cases hf
      · exact hz
    refine ⟨Or.inl h2, ?_⟩
    unfold rgioeGetResult
    dsimp only
    rw [if_neg (show ¬ e.status = ST_NAVIGATION by rw [h2]; decide), if_pos (show e.status = ST_ATTITUDE from h2)]
    exact ⟨A.div_l _ _ hz.roll, A.div_l _ _ hz.pitch⟩
  · have hz := hr.nav h3
    refine ⟨Or.inr h3, ?_⟩
    unfold rgioeGetResult
    dsimp only
    rw [if_pos (show e.status = ST_NAVIGATION from h3)]
    unfold Fusion.output
    dsimp only
    have hp := euler_bad A (mmul e.df.ins.nav.Cbn (eulerToDcm e.df.opt.attiProject)) (fun i j => mmul_bad_l A _ _ i 0 (hz.cbn i 0) j)
    split_ifs
    · exact ⟨A.div_l _ _ (hp 0), A.div_l _ _ (hp 1)⟩
    · exact ⟨A.div_l _ _ hz.roll, A.div_l _ _ hz.pitch⟩

/-- C124, the part that holds: a fix whose quality is not one of the usable ones may contain anything; neither this fix
nor any value in it has an effect on position, velocity, attitude and their deviations. -/
theorem C124_unusable_fix_partial (g : α) (d : Dev α) (hs : d.status = 3) (f : Gnss α) (hmode : ¬ (f.mode = 1 ∨ f.mode = 2 ∨ f.mode = 4 ∨ f.mode = 5))
    (p : NavOutput α) :
    let e := (runCalls [.gnss (some f)] (g, d)).2
    rgioeGetVel e = rgioeGetVel d ∧ rgioeGetPos e = rgioeGetPos d ∧ rgioeGetAtti e = rgioeGetAtti d ∧
    (rgioeGetResult e p).2.vn = (rgioeGetResult d p).2.vn := by
  have hchk : Fusion.gnssCheck f = false := by
    unfold Fusion.gnssCheck
    rw [decide_eq_false_iff_not]
    intro h
    apply hmode
    rcases h with h | h | h | h
    · exact Or.inl h
    · exact Or.inr (Or.inr (Or.inl h))
    · exact Or.inr (Or.inr (Or.inr h))
    · exact Or.inr (Or.inl h)
  have e : d.df.measureGnss f = (d.df.clearSensor SENSOR_GNSS).setGnssMode MODE_INVALID := by
    unfold Fusion.measureGnss
    rw [if_neg (by rw [hchk]; decide)]
  simp only [runCalls, Call.exec]
  rw [nav_gnss g d f hs, e]
  refine ⟨rfl, rfl, rfl, ?_⟩
  unfold rgioeGetResult
  dsimp only
  have e1 : ∀ a b : NavOutput α, (if d.status = ST_NAVIGATION then a else b) = a := fun a b => if_pos hs
  rw [e1, e1]
  rfl

/-- The hypotheses are met in the arithmetic of the reals with a not-a-number: a navigating device, a bad sample and a
bad fix; the bad sample is not the reported velocity before. -/
example : ∃ (d : Dev NReal) (m : Imu NReal) (f : Gnss NReal), d.status = 3 ∧ m.acce 0 = none ∧ m.acce 1 = some 0 ∧
    f.mode = 4 ∧ f.height = none ∧ (rgioeGetVel d).1 0 ≠ none := by
  refine ⟨{ (Ex.zDev : Dev NReal) with status := 3 }, ⟨0, zero3, v3 none 0 0⟩, { (Ex.fix 4 : Gnss NReal) with height := none },
    rfl, rfl, rfl, rfl, rfl, ?_⟩
  exact Option.some_ne_none _

/-- A device in moving alignment after one good sample meets the hypotheses of the alignment claim. -/
example : ∃ d : Dev NReal, rgioeInit (Ex.zJunk : Junk NReal) Ex.zDev (some (Ex.opt 0)) none = some (E_OK, d) ∧
    rgioeGetStatus (runCalls [.time (some Ex.zImu)] (0, d)).2 = 1 := ⟨_, rfl, rfl⟩
end Verif.Props
