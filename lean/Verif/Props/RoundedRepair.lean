import Verif.Props.RoundedGood
/-! One sample with rounding: near the truth again, and the rounding errors do not pile up within the state. -/
namespace Verif.Props
open Verif Verif.Spec Verif.Convert Matrix
open scoped Quaternion

section
variable {ι : Type} [Sit ι]
/-- One constant for finitely many quantities. -/
theorem stepUniform {κ : Type} [Finite κ] [Nonempty κ] (X : κ → ι → ℝ) (Y : κ → (i : ι) → RR (Sit.R i)) (h : ∀ a, Ap (X a) (Y a)) :
    ∃ c r : ℝ, 0 ≤ c ∧ 0 < r ∧ ∀ a i, Sit.u i ≤ r → |(Y a i).v - X a i| ≤ c * Sit.u i := by
  have h' : ∀ a, ∃ M c r : ℝ, 0 ≤ M ∧ 0 ≤ c ∧ 0 < r ∧ ∀ i, |X a i| ≤ M ∧ (Sit.u i ≤ r → |(Y a i).v - X a i| ≤ c * Sit.u i) := h
  choose M c r hM hc hr hh using h'
  obtain ⟨a0, h0⟩ := Finite.exists_max c
  obtain ⟨a1, h1⟩ := Finite.exists_min r
  refine ⟨c a0, r a1, hc a0, hr a1, fun a i hu => ?_⟩
  exact ((hh a i).2 (hu.trans (h1 a))).trans (mul_le_mul_of_nonneg_right (h0 a) (u_nonneg i))

theorem Apr.small {x y : ι → ℝ} (h : Apr x y) (d : ℝ) (hd : 0 < d) : ∃ r, 0 < r ∧ ∀ i, Sit.u i ≤ r → |y i - x i| ≤ d := by
  obtain ⟨M, c, r, _, hc, hr, h⟩ := h
  refine ⟨min r (d / (c + 1)), lt_min hr (div_pos hd (by linarith)), fun i hu => ?_⟩
  have h1 := (h i).2 (hu.trans (min_le_left _ _))
  have h2 := hu.trans (min_le_right _ _)
  rw [le_div_iff₀ (by linarith)] at h2
  have := u_nonneg i
  linarith
end

/-- A computed quaternion as real numbers. -/
def valQ {R : Rounding} (q : Quat (RR R)) : Quat ℝ := ⟨q.w.v, q.x.v, q.y.v, q.z.v⟩

theorem normalized_w (q : Quat ℝ) (h : 0 < q.nsq) : q.normalized.w = q.w / Real.sqrt q.nsq := by
  unfold Quat.normalized
  rw [if_pos (by rw [lt_real]; exact h)]; rfl

/-- The values of a quaternion before normalisation, against the exact one. -/
theorem pre_near {ι : Type} [Sit ι] {P : ι → Quat ℝ} {p : (i : ι) → Quat (RR (Sit.R i))} (h : ApQ P p) (h1 : ∀ i, 1 / 2 ≤ qsq (P i)) (h2 : ∀ i, qsq (P i) ≤ 2) :
    (∃ r, 0 < r ∧ ∀ i, Sit.u i ≤ r → 1 / 4 ≤ qsq (valQ (p i)) ∧ qsq (valQ (p i)) ≤ 4) ∧
    (∀ m, 0 < m → (∀ i, m ≤ (P i).normalized.w) → ∃ r, 0 < r ∧ ∀ i, Sit.u i ≤ r → m / 2 ≤ (valQ (p i)).normalized.w) := by
  have hn : Apr (fun i => (P i).nsq) (fun i => (valQ (p i)).nsq) := Apr.add (Apr.add (Apr.add (Apr.mul h.x h.x) (Apr.mul h.y h.y)) (Apr.mul h.z h.z)) (Apr.mul h.w h.w)
  have k1 : ∀ i, 1 / 2 ≤ (P i).nsq := fun i => by rw [nsq_eq]; exact h1 i
  obtain ⟨r, hr, hh⟩ := Apr.small hn (1 / 4) (by norm_num)
  have q1 : ∀ i, Sit.u i ≤ r → 1 / 4 ≤ (valQ (p i)).nsq ∧ (valQ (p i)).nsq ≤ 4 := by
    intro i hu
    have := abs_le.1 (hh i hu)
    have a := k1 i
    have b := h2 i
    rw [← nsq_eq] at b
    constructor <;> linarith [this.1, this.2]
  refine ⟨⟨r, hr, fun i hu => by have := q1 i hu; rwa [nsq_eq] at this⟩, ?_⟩
  intro m hm hw
  have hs : Apr (fun i => Real.sqrt (P i).nsq) (fun i => Real.sqrt (valQ (p i)).nsq) := Apr.sqrt hn (1 / 2) (by norm_num) k1
  have hd := Apr.div h.w hs (Real.sqrt (1 / 2)) (Real.sqrt_pos.2 (by norm_num)) (fun i => (Real.sqrt_le_sqrt (k1 i)).trans (le_abs_self _))
  obtain ⟨r', hr', hh'⟩ := Apr.small hd (m / 2) (by linarith)
  refine ⟨min r r', lt_min hr hr', fun i hu => ?_⟩
  have a := abs_le.1 (hh' i (hu.trans (min_le_right _ _)))
  have b := hw i
  rw [normalized_w _ (by linarith [k1 i])] at b
  rw [normalized_w _ (by linarith [(q1 i (hu.trans (min_le_left _ _))).1])]
  have c : (valQ (p i)).w = (p i).w.v := rfl
  rw [c]
  linarith [a.1]

/-- Quaternions to be normalised. -/
structure SitQ where
  R : Rounding
  u : ℝ
  acc : AccurateLib R u
  p : Quat (RR R)
  le : qsq (valQ p) ≤ 4
  ge : 1 / 4 ≤ qsq (valQ p)
instance : Sit SitQ := ⟨fun i => i.R, fun i => i.u, fun i => i.acc⟩

theorem part_le (q : Quat ℝ) (x : ℝ) (h0 : 0 ≤ x) (h : qsq q ≤ x ^ 2) (j : Fin 4) : |partQ q j| ≤ x := by
  unfold qsq at h
  apply abs_le_of_sq_le_sq _ h0
  fin_cases j <;> simp only [partQ] <;> nlinarith [sq_nonneg q.w, sq_nonneg q.x, sq_nonneg q.y, sq_nonneg q.z]

theorem sitq_ap : ApQ (fun i : SitQ => valQ i.p) (fun i => i.p) := by
  have hb : ∀ (i : SitQ) j, |partQ (valQ i.p) j| ≤ 2 := fun i j => part_le _ 2 (by norm_num) (by have := i.le; linarith) j
  exact ⟨Apr.exact _ 2 (fun i => hb i 0), Apr.exact _ 2 (fun i => hb i 1), Apr.exact _ 2 (fun i => hb i 2), Apr.exact _ 2 (fun i => hb i 3)⟩

theorem repair_att : ∃ c r : ℝ, 0 ≤ c ∧ 0 < r ∧ ∀ (R : Rounding) (u : ℝ) (_ : AccurateLib R u) (p : Quat (RR R)), qsq (valQ p) ≤ 4 → 1 / 4 ≤ qsq (valQ p) → u ≤ r →
    (∀ j, |(partQ p.normalized j).v - partQ (valQ p).normalized j| ≤ c * u) ∧ ∀ j k, |(p.normalized.toRot j k).v - (valQ p).normalized.toRot j k| ≤ c * u := by
  have hn := sitq_ap.normalized (1 / 4) (by norm_num) (fun i => by rw [nsq_eq]; exact i.ge)
  have hr := ApM.toRot hn
  obtain ⟨c, r, hc, hr, hh⟩ := stepUniform (κ := Fin 4 ⊕ (Fin 3 × Fin 3)) (fun a (i : SitQ) => a.elim (fun j => partQ (valQ i.p).normalized j) (fun b => (valQ i.p).normalized.toRot b.1 b.2))
    (fun a i => a.elim (fun j => partQ i.p.normalized j) (fun b => i.p.normalized.toRot b.1 b.2)) (by
      rintro (j | ⟨j, k⟩)
      · fin_cases j
        · exact hn.w
        · exact hn.x
        · exact hn.y
        · exact hn.z
      · exact hr j k)
  refine ⟨c, r, hc, hr, ?_⟩
  intro R u acc p h1 h2 hu
  exact ⟨fun j => hh (.inl j) ⟨R, u, acc, p, h1, h2⟩ hu, fun j k => hh (.inr (j, k)) ⟨R, u, acc, p, h1, h2⟩ hu⟩

/-- Position quaternions to be normalised. -/
structure SitP (m : ℝ) extends SitQ where
  front : m ≤ (valQ p).normalized.w
instance (m : ℝ) : Sit (SitP m) := ⟨fun i => i.R, fun i => i.u, fun i => i.acc⟩

theorem repair_place (m : ℝ) (hm : 0 < m) : ∃ c r : ℝ, 0 ≤ c ∧ 0 < r ∧ ∀ (R : Rounding) (u : ℝ) (_ : AccurateLib R u) (p : Quat (RR R)), qsq (valQ p) ≤ 4 → 1 / 4 ≤ qsq (valQ p) →
    m ≤ (valQ p).normalized.w → u ≤ r →
    |(qneToLla p.normalized).lat.v - (qneToLla (valQ p).normalized).lat| ≤ c * u ∧ |(qneToLla p.normalized).lon.v - (qneToLla (valQ p).normalized).lon| ≤ c * u := by
  have hb : ∀ (i : SitP m) j, |partQ (valQ i.p) j| ≤ 2 := fun i j => part_le _ 2 (by norm_num) (by have := i.le; linarith) j
  have h0 : ApQ (fun i : SitP m => valQ i.p) (fun i => i.p) := ⟨Apr.exact _ 2 (fun i => hb i 0), Apr.exact _ 2 (fun i => hb i 1), Apr.exact _ 2 (fun i => hb i 2), Apr.exact _ 2 (fun i => hb i 3)⟩
  have hn := h0.normalized (1 / 4) (by norm_num) (fun i => by rw [nsq_eq]; exact i.ge)
  obtain ⟨l1, l2⟩ := Ap.lla m hm (fun i : SitP m => i.front) hn
  obtain ⟨c, r, hc, hr, hh⟩ := stepUniform (κ := Bool) (fun a (i : SitP m) => if a then (qneToLla (valQ i.p).normalized).lat else (qneToLla (valQ i.p).normalized).lon)
    (fun a i => if a then (qneToLla i.p.normalized).lat else (qneToLla i.p.normalized).lon) (by
      intro a
      cases a
      · exact l2
      · exact l1)
  refine ⟨c, r, hc, hr, ?_⟩
  intro R u acc p h1 h2 h3 hu
  exact ⟨hh true ⟨⟨R, u, acc, p, h1, h2⟩, h3⟩ hu, hh false ⟨⟨R, u, acc, p, h1, h2⟩, h3⟩ hu⟩

/-- Steps. -/
structure SitS (m b c : ℝ) where
  R : Rounding
  u : ℝ
  acc : AccurateLib R u
  S : Ins ℝ
  s : Ins (RR R)
  mm : Imu (RR R)
  good : Good m S (valsImu mm)
  unit : qsq S.nav.Qbn = 1
  unitP : qsq S.nav.Qne = 1
  bd : ∀ a : Slot, |a.of S| ≤ b
  bdM : ∀ j, |(mm.gyro j).v| ≤ b ∧ |(mm.acce j).v| ≤ b
  close : Within (c * u) S s
instance (m b c : ℝ) : Sit (SitS m b c) := ⟨fun i => i.R, fun i => i.u, fun i => i.acc⟩

/-- The quaternions of a step before normalisation. -/
def stepQne {α : Type} [Add α] [Sub α] [Mul α] [Neg α] [Div α] [Zero α] [One α] [Fl α] (s : Ins α) (m : Imu α) : Quat α := preQne (afterVel s m)
@[inherit_doc stepQne]
def stepQbn {α : Type} [Add α] [Sub α] [Mul α] [Neg α] [Div α] [Zero α] [One α] [Fl α] (s : Ins α) (m : Imu α) : Quat α :=
  preQbn (afterVel s m).positionUpdate (Ins.compensate s.dt m.gyro s.nav.gb s.nav.gs)

theorem one_step (m b c : ℝ) (hm : 0 < m) (hc : 0 ≤ c) (hb : 0 ≤ b) : ∃ c1 r : ℝ, 0 ≤ c1 ∧ 0 < r ∧ ∀ (i : SitS m b c), i.u ≤ r →
    (∀ a : Slot, |(a.of (i.s.forwardImu 0 i.mm).2).v - a.of (i.S.forwardImu 0 (valsImu i.mm)).2| ≤ c1 * i.u) ∧
    (1 / 4 ≤ qsq (valQ (stepQne i.s i.mm)) ∧ qsq (valQ (stepQne i.s i.mm)) ≤ 4) ∧ (1 / 4 ≤ qsq (valQ (stepQbn i.s i.mm)) ∧ qsq (valQ (stepQbn i.s i.mm)) ≤ 4) ∧
    m / 2 ≤ (valQ (stepQne i.s i.mm)).normalized.w := by
  have hs : ∀ a : Slot, Ap (fun i : SitS m b c => a.of i.S) (fun i => a.of i.s) := fun a => ⟨b, c, 1, hb, hc, one_pos, fun i => ⟨i.bd a, fun _ => i.close a⟩⟩
  have h1 : ApV (fun i : SitS m b c => (valsImu i.mm).gyro) (fun i => i.mm.gyro) := fun j => Apr.exact _ b (fun i => (i.bdM j).1)
  have h2 : ApV (fun i : SitS m b c => (valsImu i.mm).acce) (fun i => i.mm.acce) := fun j => Apr.exact _ b (fun i => (i.bdM j).2)
  obtain ⟨k1, k2, k3⟩ := ap_step (fun _ => 0) (fun _ => 0) m hm (fun i : SitS m b c => i.good) hs h1 h2
  haveI : Nonempty Slot := ⟨.dt⟩
  obtain ⟨c1, r1, hc1, hr1, hh⟩ := stepUniform _ _ k1
  obtain ⟨⟨r2, hr2, q2⟩, q2'⟩ := pre_near k2 (fun i => (turned_sq _ _ _ i.unitP).1) (fun i => (turned_sq _ _ _ i.unitP).2)
  obtain ⟨⟨r3, hr3, q3⟩, _⟩ := pre_near k3 (fun i => (turned_sq _ _ _ i.unit).1) (fun i => (turned_sq _ _ _ i.unit).2)
  obtain ⟨r4, hr4, q4⟩ := q2' m hm (fun i => i.good.pos.front)
  refine ⟨c1, min (min r1 r2) (min r3 r4), hc1, lt_min (lt_min hr1 hr2) (lt_min hr3 hr4), fun i hu => ⟨fun a => hh a i ?_, q2 i ?_, q3 i ?_, q4 i ?_⟩⟩
  · exact hu.trans ((min_le_left _ _).trans (min_le_left _ _))
  · exact hu.trans ((min_le_left _ _).trans (min_le_right _ _))
  · exact hu.trans ((min_le_right _ _).trans (min_le_left _ _))
  · exact hu.trans ((min_le_right _ _).trans (min_le_right _ _))

/-- The state after a sample with its quaternions exactly normalised, and matrix and position exactly computed from them. -/
noncomputable def repaired {R : Rounding} (S : Ins ℝ) (s : Ins (RR R)) (mm : Imu (RR R)) : Ins ℝ :=
  { S with
    nav := { S.nav with
      pos := v3 (qneToLla (valQ (stepQne s mm)).normalized).lat (qneToLla (valQ (stepQne s mm)).normalized).lon ((s.forwardImu 0 mm).2.nav.pos 2).v
      vn := fun j => ((s.forwardImu 0 mm).2.nav.vn j).v
      dvn := fun j => ((s.forwardImu 0 mm).2.nav.dvn j).v
      Cbn := quatToDcm (valQ (stepQbn s mm)).normalized
      Qbn := (valQ (stepQbn s mm)).normalized
      Qne := (valQ (stepQne s mm)).normalized }
    gyroPre := fun j => ((s.forwardImu 0 mm).2.gyroPre j).v
    accePre := fun j => ((s.forwardImu 0 mm).2.accePre j).v }

theorem repaired_within {R : Rounding} (x : ℝ) (hx : 0 ≤ x) (S : Ins ℝ) (s : Ins (RR R)) (mm : Imu (RR R)) (h : Within x S s)
    (h1 : ∀ j, |(partQ (stepQbn s mm).normalized j).v - partQ (valQ (stepQbn s mm)).normalized j| ≤ x)
    (h2 : ∀ j k, |((stepQbn s mm).normalized.toRot j k).v - (valQ (stepQbn s mm)).normalized.toRot j k| ≤ x)
    (h3 : ∀ j, |(partQ (stepQne s mm).normalized j).v - partQ (valQ (stepQne s mm)).normalized j| ≤ x)
    (h4 : |(qneToLla (stepQne s mm).normalized).lat.v - (qneToLla (valQ (stepQne s mm)).normalized).lat| ≤ x)
    (h5 : |(qneToLla (stepQne s mm).normalized).lon.v - (qneToLla (valQ (stepQne s mm)).normalized).lon| ≤ x) :
    Within x (repaired S s mm) (s.forwardImu 0 mm).2 := by
  have z : ∀ a : ℝ, |a - a| ≤ x := fun a => by rw [sub_self, abs_zero]; exact hx
  intro a
  cases a with
  | pos j =>
    fin_cases j
    · exact h4
    · exact h5
    · exact z _
  | vn j => exact z _
  | dvn j => exact z _
  | cbn j k => exact h2 j k
  | qbn j => exact h1 j
  | qne j => exact h3 j
  | dt => exact h .dt
  | gyroPre j => exact z _
  | accePre j => exact z _
  | gb j => exact h (.gb j)
  | ab j => exact h (.ab j)
  | gs j => exact h (.gs j)
  | as j => exact h (.as j)

theorem len_small (v : V3 ℝ) (d : ℝ) (hd : 0 ≤ d) (h : ∀ j, |v j| ≤ d) : len v ≤ 2 * d := by
  refine abs_le_of_sq_le_sq' ?_ (by linarith) |>.2
  rw [len_sq]
  have k : ∀ j, v j ^ 2 ≤ d ^ 2 := fun j => sq_le_sq' (by linarith [abs_le.1 (h j)]) (by linarith [abs_le.1 (h j)])
  have := k 0; have := k 1; have := k 2
  nlinarith [sq_nonneg d]

theorem toH_small (p q : Quat ℝ) (d : ℝ) (hd : 0 ≤ d) (h : ∀ j, |partQ p j - partQ q j| ≤ d) : ‖toH p - toH q‖ ≤ 2 * d := by
  refine abs_le_of_sq_le_sq' ?_ (by linarith) |>.2
  rw [sq ‖_‖, ← Quaternion.normSq_eq_norm_mul_self, Quaternion.normSq_def', Quaternion.re_sub, Quaternion.imI_sub, Quaternion.imJ_sub, Quaternion.imK_sub]
  have k : ∀ j, (partQ p j - partQ q j) ^ 2 ≤ d ^ 2 := fun j => sq_le_sq' (by linarith [abs_le.1 (h j)]) (by linarith [abs_le.1 (h j)])
  have := k 0; have := k 1; have := k 2; have := k 3
  simp only [partQ] at *
  simp only [toH]
  linarith

theorem mat_small (A : M3 ℝ) (d : ℝ) (hd : 0 ≤ d) (h : ∀ j k, |A j k| ≤ d) (x : V3 ℝ) : len (A *ᵥ x) ≤ 6 * d * len x := by
  have q := len_small (A *ᵥ x) (3 * d * len x) (mul_nonneg (by linarith) (len_nonneg x)) (by
    intro j
    rw [Matrix.mulVec, dotProduct, Fin.sum_univ_three]
    have k : ∀ i, |A j i * x i| ≤ d * len x := fun i => by rw [abs_mul]; exact mul_le_mul (h j i) (comp_le_len x i) (abs_nonneg _) hd
    refine (abs_add_le _ _).trans ?_
    have := abs_add_le (A j 0 * x 0) (A j 1 * x 1)
    have := k 0; have := k 1; have := k 2
    linarith)
  linarith

variable {B : Limits} {K ρ e dt t T : ℝ} {lat lon h : ℝ → ℝ} {v : ℝ → V3 ℝ} {C : ℝ → M3 ℝ} {w θ f α : ℝ → V3 ℝ}

theorem near_moved {E S : Ins ℝ} {d : ℝ} (hd : 0 ≤ d) (n : Near K e dt t E lat lon h v C) (hK : 1 ≤ K) (h1 : len E.nav.dvn ≤ 7 / 2 * K * dt) (h2 : len E.gyroPre ≤ K * dt - dt / 2)
    (h3 : len E.accePre ≤ K * dt - dt / 2) (h4 : 4 * d ≤ dt) (hc : ∀ a : Slot, |a.of S - a.of E| ≤ d)
    (u1 : qsq S.nav.Qbn = 1) (u2 : S.nav.Cbn = quatToDcm S.nav.Qbn) (u3 : qsq S.nav.Qne = 1) (u4 : S.nav.pos 0 = (qneToLla S.nav.Qne).lat) (u5 : S.nav.pos 1 = (qneToLla S.nav.Qne).lon) (u6 : S.dt = dt) :
    Near K (e + 6 * d) dt t S lat lon h v C := by
  have vec : ∀ a b c : V3 ℝ, (∀ j, |a j - b j| ≤ d) → len (a - c) ≤ len (b - c) + 2 * d := by
    intro a b c hab
    have e1 : a - c = (b - c) + (a - b) := by abel
    rw [e1]
    have := len_add_le (b - c) (a - b)
    have := len_small (a - b) d hd hab
    linarith
  have vec0 : ∀ a b : V3 ℝ, (∀ j, |a j - b j| ≤ d) → len a ≤ len b + 2 * d := by
    intro a b hab; have := vec a b 0 hab; rwa [sub_zero, sub_zero] at this
  have hKd : 1 * dt ≤ K * dt := mul_le_mul_of_nonneg_right hK (by linarith)
  refine ⟨u1, u2, u3, u4, u5, u6, ?_, ?_, ?_, ?_, ?_, ?_, ?_⟩
  · have := vec0 S.nav.dvn E.nav.dvn (fun j => hc (.dvn j)); linarith
  · have := vec0 S.gyroPre E.gyroPre (fun j => hc (.gyroPre j)); linarith
  · have := vec0 S.accePre E.accePre (fun j => hc (.accePre j)); linarith
  · have := toH_small S.nav.Qne E.nav.Qne d hd (fun j => hc (.qne j))
    have := norm_sub_le_norm_sub_add_norm_sub (toH S.nav.Qne) (toH E.nav.Qne) (placeH lat lon t)
    linarith [n.place]
  · have := vec S.nav.vn E.nav.vn (v t) (fun j => hc (.vn j)); linarith [n.vel]
  · have := abs_sub_le (S.nav.pos 2) (E.nav.pos 2) (h t)
    have : |S.nav.pos 2 - E.nav.pos 2| ≤ d := hc (.pos 2)
    linarith [n.height]
  · intro x
    have e1 : S.nav.Cbn *ᵥ x - C t *ᵥ x = (E.nav.Cbn *ᵥ x - C t *ᵥ x) + (S.nav.Cbn - E.nav.Cbn) *ᵥ x := by rw [sub_mulVec]; abel
    rw [e1]
    have := len_add_le (E.nav.Cbn *ᵥ x - C t *ᵥ x) ((S.nav.Cbn - E.nav.Cbn) *ᵥ x)
    have := mat_small (S.nav.Cbn - E.nav.Cbn) d hd (fun j k => hc (.cbn j k)) x
    have := n.att x
    linarith

/-- A state near the truth has bounded numbers. -/
theorem near_bounded (k : Kit B K ρ) (F : TrueFlight B T lat lon h v C w θ f α) {S : Ins ℝ} (n : Near K e dt t S lat lon h v C) (sm : Small K ρ e dt) (ht : 0 ≤ t) (hT : t ≤ T) (b : ℝ)
    (hb : ∀ j, |S.nav.gb j| ≤ b ∧ |S.nav.ab j| ≤ b ∧ |S.nav.gs j| ≤ b ∧ |S.nav.as j| ≤ b) (a : Slot) : |a.of S| ≤ |b| + |B.height| + |B.speed| + 10 := by
  obtain ⟨b1, b2, b3, b4⟩ := near_box k F n sm ht hT
  obtain ⟨f1, f2, f3, f4, f5, f6, f7⟩ := small_facts k sm
  have hK := k.bounds.one
  have hd := sm.dt0
  have he := sm.e0
  have p0 := abs_nonneg b; have p1 := abs_nonneg B.height; have p2 := abs_nonneg B.speed
  have q0 := le_abs_self b; have q1 := le_abs_self B.height; have q2 := le_abs_self B.speed
  have hpi : Real.pi ≤ 4 := Real.pi_le_four
  have hl := k.sane.lat; have hlo := k.sane.lon
  have Ke : 0 ≤ K * e := mul_nonneg (by linarith) he
  have Kd : 0 ≤ K * dt := mul_nonneg (by linarith) hd.le
  have Kc : 10 * K * (e + dt) = 10 * (K * e) + 10 * (K * dt) := by ring
  cases a with
  | pos j =>
    fin_cases j
    · show |S.nav.pos 0| ≤ _; linarith
    · show |S.nav.pos 1| ≤ _
      have he' : e ≤ ρ := by nlinarith
      have l1 := (k.lla (lat t) (lon t) S.nav.Qne (F.lat_le t ht hT) (F.lon_le t ht hT) (n.place.trans he')).2
      rw [← n.pos1] at l1
      have l2 := l1.trans (mul_le_mul_of_nonneg_left n.place (by linarith))
      have := abs_sub_abs_le_abs_sub (S.nav.pos 1) (lon t)
      have := F.lon_le t ht hT
      linarith
    · show |S.nav.pos 2| ≤ _; linarith
  | vn j => show |S.nav.vn j| ≤ _; have := comp_le_len S.nav.vn j; linarith
  | dvn j => show |S.nav.dvn j| ≤ _; have := comp_le_len S.nav.dvn j; have := n.dvn; linarith
  | cbn j l =>
    show |S.nav.Cbn j l| ≤ _
    have h1 := near_rot n (Pi.single l 1)
    have h2 := comp_le_len (S.nav.Cbn *ᵥ Pi.single l 1) j
    rw [h1] at h2
    have h3 : (S.nav.Cbn *ᵥ Pi.single l 1) j = S.nav.Cbn j l := by simp
    rw [h3] at h2
    have h4 := len_small (Pi.single l (1 : ℝ)) 1 (by norm_num) (by
      intro i
      rcases eq_or_ne i l with rfl | hi
      · simp
      · simp [hi])
    linarith
  | qbn j => show |partQ S.nav.Qbn j| ≤ _; have := part_le S.nav.Qbn 1 (by norm_num) (by rw [n.unit]; norm_num) j; linarith
  | qne j => show |partQ S.nav.Qne j| ≤ _; have := part_le S.nav.Qne 1 (by norm_num) (by rw [n.unitP]; norm_num) j; linarith
  | dt => show |S.dt| ≤ _; rw [n.dt_eq, abs_of_pos hd]; linarith
  | gyroPre j => show |S.gyroPre j| ≤ _; have := comp_le_len S.gyroPre j; have := n.gyro; linarith
  | accePre j => show |S.accePre j| ≤ _; have := comp_le_len S.accePre j; have := n.acce; linarith
  | gb j => show |S.nav.gb j| ≤ _; have := (hb j).1; linarith
  | ab j => show |S.nav.ab j| ≤ _; have := (hb j).2.1; linarith
  | gs j => show |S.nav.gs j| ≤ _; have := (hb j).2.2.1; linarith
  | as j => show |S.nav.as j| ≤ _; have := (hb j).2.2.2; linarith

/-- One sample with rounding. -/
theorem rounded_near {m : ℝ} (c : Clear B m ρ) (k : Kit B K ρ) (b : ℝ) (hb : 0 ≤ b) : ∃ c0 c1 r : ℝ, b ≤ c0 ∧ 0 ≤ c1 ∧ 0 < r ∧
    ∀ (T : ℝ) (lat lon h : ℝ → ℝ) (v : ℝ → V3 ℝ) (C : ℝ → M3 ℝ) (w θ f α : ℝ → V3 ℝ), TrueFlight B T lat lon h v C w θ f α →
    ∀ (R : Rounding) (u : ℝ), AccurateLib R u → ∀ (G : RR R) (S : Ins ℝ) (s : Ins (RR R)) (mm : Imu (RR R)) (e dt t : ℝ), Near K e dt t S lat lon h v C → Within (c0 * u) S s →
    (∀ j, |S.nav.gb j| ≤ b ∧ |S.nav.ab j| ≤ b ∧ |S.nav.gs j| ≤ b ∧ |S.nav.as j| ≤ b) → (∀ j, |(mm.gyro j).v| ≤ b ∧ |(mm.acce j).v| ≤ b) →
    Small K ρ e dt → 0 ≤ t → t + dt ≤ T → len (increment S.nav S.dt (valsImu mm).gyro - (θ (t + dt) - θ t)) ≤ dt * e →
    len (forceIncrement S.nav S.dt (valsImu mm).acce - (α (t + dt) - α t)) ≤ dt * e → u ≤ r → c1 * u ≤ dt →
    ∃ S' : Ins ℝ, Near K (e + 50 * K ^ 3 * dt * (e + dt) + c1 * u) dt (t + dt) S' lat lon h v C ∧ Within (c0 * u) S' (s.forwardImu G mm).2 ∧
      S'.nav.gb = S.nav.gb ∧ S'.nav.ab = S.nav.ab ∧ S'.nav.gs = S.nav.gs ∧ S'.nav.as = S.nav.as := by
  obtain ⟨ca, ra, ha0, hra, fa⟩ := repair_att
  obtain ⟨cp, rp, hp0, hrp, fp⟩ := repair_place (m / 2) (by linarith [c.pos])
  obtain ⟨c0, hc0⟩ : ∃ c0, c0 = b + ca + cp := ⟨_, rfl⟩
  obtain ⟨cs, rs, hs0, hrs, fs⟩ := one_step m (|b| + |B.height| + |B.speed| + 10) c0 c.pos (by rw [hc0]; linarith) (by positivity)
  refine ⟨c0, 6 * (c0 + cs), min (min ra rp) rs, by linarith, by linarith, lt_min (lt_min hra hrp) hrs, ?_⟩
  intro T lat lon h v C w θ f α F R u acc G S s mm e dt t n wi hbi hbm sm ht hT hg ha hu hcu
  have u0 := acc.pos
  have hT' : t ≤ T := by linarith [sm.dt0]
  obtain ⟨s1, ⟨s2, s3⟩, ⟨s4, s5⟩, s6⟩ := fs ⟨R, u, acc, S, s, mm, good_near c k F n sm ht hT _ hg ha, n.unit, n.unitP, near_bounded k F n sm ht hT' b hbi, fun j => by
    have := hbm j; have := le_abs_self b; have := abs_nonneg B.height; have := abs_nonneg B.speed; constructor <;> linarith, wi⟩ (hu.trans (min_le_right _ _))
  dsimp only at s1 s2 s3 s4 s5 s6
  obtain ⟨a1, a2⟩ := fa R u acc (stepQbn s mm) s5 s4 (hu.trans ((min_le_left _ _).trans (min_le_left _ _)))
  obtain ⟨a3, _⟩ := fa R u acc (stepQne s mm) s3 s2 (hu.trans ((min_le_left _ _).trans (min_le_left _ _)))
  obtain ⟨p1, p2⟩ := fp R u acc (stepQne s mm) s3 s2 s6 (hu.trans ((min_le_left _ _).trans (min_le_right _ _)))
  have m1 : ca * u ≤ c0 * u := mul_le_mul_of_nonneg_right (by rw [hc0]; linarith) u0
  have m2 : cp * u ≤ c0 * u := mul_le_mul_of_nonneg_right (by rw [hc0]; linarith) u0
  have c00 : 0 ≤ c0 := by rw [hc0]; linarith
  have W := repaired_within (c0 * u) (mul_nonneg c00 u0) S s mm wi (fun j => (a1 j).trans m1) (fun j l => (a2 j l).trans m1) (fun j => (a3 j).trans m1) (p1.trans m2) (p2.trans m2)
  refine ⟨repaired S s mm, ?_, W, rfl, rfl, rfl, rfl⟩
  have N := near_step k F n sm ht hT 0 (valsImu mm) hg ha
  obtain ⟨_, v2⟩ := step_vel k F n sm ht hT 0 (valsImu mm) hg ha
  obtain ⟨r1, r2⟩ := read_room k F sm ht hT _ _ hg ha
  have d0 : 0 ≤ (c0 + cs) * u := mul_nonneg (by linarith) u0
  rw [show 6 * (c0 + cs) * u = 6 * ((c0 + cs) * u) by ring]
  refine near_moved d0 N k.bounds.one ?_ ?_ ?_ (by linarith) ?_ (qsq_normalized _ (by linarith)) rfl (qsq_normalized _ (by linarith)) rfl rfl n.dt_eq
  · have e1 : (S.forwardImu 0 (valsImu mm)).2.nav.dvn = (S.forwardImu 0 (valsImu mm)).2.nav.vn - S.nav.vn := by
      have : (S.forwardImu 0 (valsImu mm)).2.nav.vn = S.nav.vn + (S.forwardImu 0 (valsImu mm)).2.nav.dvn := rfl
      rw [this]; abel
    rw [e1]; exact v2
  · show len (Ins.compensate S.dt (valsImu mm).gyro S.nav.gb S.nav.gs) ≤ _
    rw [turn_compensated]; exact r1
  · show len (Ins.compensate S.dt (valsImu mm).acce S.nav.ab S.nav.as) ≤ _
    rw [force_compensated]; exact r2
  · intro a
    have := abs_sub_le (a.of (repaired S s mm)) (a.of (s.forwardImu 0 mm).2).v (a.of (S.forwardImu 0 (valsImu mm)).2)
    have w1 := W a
    rw [abs_sub_comm] at w1
    have w2 := s1 a
    have : (c0 + cs) * u = c0 * u + cs * u := by ring
    linarith
end Verif.Props
