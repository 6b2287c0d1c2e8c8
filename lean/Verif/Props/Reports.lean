import Verif.Model.Reports
import Verif.Lemmas.Real
import Verif.Spec.Examples
import Mathlib.Tactic.FieldSimp
import Mathlib.Analysis.SpecialFunctions.Trigonometric.Basic
/-! # C162, C163: the matrix of results and the report of the IMU parameters -/
namespace Verif.Props
open Verif

/-- The value in row `i`, column `j` of a file of doubles with 21 columns, eight bytes each. -/
def entry {α : Type} (dec : List (BitVec 8) → α) (file : List (BitVec 8)) (i j : Nat) : α :=
  dec ((file.drop ((21 * i + j) * 8)).take 8)

/-- What the columns of a row stand for: time, latitude, longitude, height, (east and north displacement are columns 4
and 5), velocity, attitude, and the deviations of position, velocity and attitude. -/
def column {α : Type} (r : NavOutput α) : Nat → Option α
  | 0 => some r.gpst
  | 1 => some r.lat
  | 2 => some r.lon
  | 3 => some r.height
  | 6 => some (r.vn 0)
  | 7 => some (r.vn 1)
  | 8 => some (r.vn 2)
  | 9 => some (r.atti 0)
  | 10 => some (r.atti 1)
  | 11 => some (r.atti 2)
  | 12 => some (r.posStd 0)
  | 13 => some (r.posStd 1)
  | 14 => some (r.posStd 2)
  | 15 => some (r.vnStd 0)
  | 16 => some (r.vnStd 1)
  | 17 => some (r.vnStd 2)
  | 18 => some (r.attiStd 0)
  | 19 => some (r.attiStd 1)
  | 20 => some (r.attiStd 2)
  | _ => none

section anyScalar
variable {α : Type} [Add α] [Sub α] [Mul α] [Neg α] [Div α] [Zero α] [One α] [Fl α]

theorem flat_length {β γ : Type} (enc : β → List γ) (n : Nat) (h : ∀ x, (enc x).length = n) (l : List β) :
    (l.flatMap enc).length = n * l.length := by
  induction l with
  | nil => rfl
  | cons x xs ih => rw [List.flatMap_cons, List.length_append, h, ih, List.length_cons, Nat.mul_add, Nat.mul_one, Nat.add_comm]

theorem flat_pick {β γ : Type} (enc : β → List γ) (n : Nat) (h : ∀ x, (enc x).length = n) (l : List β) (i : Nat) (x : β)
    (hi : l[i]? = some x) : ((l.flatMap enc).drop (i * n)).take n = enc x := by
  induction l generalizing i with
  | nil => simp at hi
  | cons y ys ih =>
    cases i with
    | zero =>
      simp only [List.getElem?_cons_zero, Option.some.injEq] at hi
      subst hi
      rw [Nat.zero_mul, List.drop_zero, List.flatMap_cons, List.take_append_of_le_length (by rw [h]), List.take_of_length_le (by rw [h])]
    | succ i =>
      rw [List.getElem?_cons_succ] at hi
      rw [List.flatMap_cons, Nat.add_mul, Nat.one_mul, Nat.add_comm, ← List.drop_drop, List.drop_left' (h y)]
      exact ih i hi

theorem matrix_values (enc : α → List (BitVec 8)) (rs : List (NavOutput α)) :
    matrixFile enc rs = (rs.flatMap fun r => (navToDouble r).values).flatMap enc := by
  unfold matrixFile NavRow.bytes
  rw [List.flatMap_assoc]

/-- Row `i` of the matrix holds the values of result `i`. -/
theorem matrix_entry (enc : α → List (BitVec 8)) (dec : List (BitVec 8) → α) (h8 : ∀ x, (enc x).length = 8)
    (hd : ∀ x, dec (enc x) = x) (rs : List (NavOutput α)) (i j : Nat) (r : NavOutput α) (hr : rs[i]? = some r) (x : α)
    (hx : (navToDouble r).values[j]? = some x) (hj : j < 21) : entry dec (matrixFile enc rs) i j = x := by
  have hl : ∀ r : NavOutput α, (navToDouble r).values.length = 21 := fun _ => rfl
  have hv : (rs.flatMap fun r => (navToDouble r).values)[21 * i + j]? = some x := by
    have := flat_pick (fun r : NavOutput α => (navToDouble r).values) 21 hl rs i r hr
    have h2 : (((rs.flatMap fun r => (navToDouble r).values).drop (i * 21)).take 21)[j]? = some x := by rw [this]; exact hx
    rw [List.getElem?_take_of_lt hj, List.getElem?_drop, Nat.mul_comm] at h2
    exact h2
  unfold entry
  rw [matrix_values, flat_pick enc 8 h8 _ _ x hv, hd]

/-- **C162**, the part that holds: for every list of results the file has exactly 168 bytes for each, and reading it as
rows of 21 doubles gives the time, position, velocity, attitude and deviations of every result, in order. What is
missing: the columns of the horizontal displacement, see `C162_horizontal_wrong`. -/
theorem C162_rows_partial (enc : α → List (BitVec 8)) (dec : List (BitVec 8) → α) (h8 : ∀ x, (enc x).length = 8)
    (hd : ∀ x, dec (enc x) = x) (rs : List (NavOutput α)) :
    (matrixFile enc rs).length = 168 * rs.length ∧
    ∀ i r, rs[i]? = some r → ∀ j x, column r j = some x → entry dec (matrixFile enc rs) i j = x := by
  constructor
  · have : ∀ r : NavOutput α, ((navToDouble r).bytes enc).length = 168 := by
      intro r
      unfold NavRow.bytes
      rw [flat_length enc 8 h8]
      rfl
    exact flat_length (fun r : NavOutput α => (navToDouble r).bytes enc) 168 this rs
  · intro i r hr j x hx
    have hj : j < 21 := by
      by_contra h
      have : column r j = none := by
        unfold column
        split <;> first | omega | rfl
      rw [this] at hx
      cases hx
    refine matrix_entry enc dec h8 hd rs i j r hr x ?_ hj
    interval_cases j <;> first | exact hx | (simp [column] at hx)
end anyScalar

/-- The equatorial radius, in metres. -/
noncomputable def equator : ℝ := 6378137

theorem horizontal (r : NavOutput ℝ) :
    (navToDouble r).horiz 0 = equator * ((r.lat - r.lon) * (Real.pi / 180)) ∧
    (navToDouble r).horiz 1 = r.lat * (Real.pi / 180) * Earth.RM (r.lat * (Real.pi / 180)) := by
  constructor
  · show Earth.RN (0 * deg) * Real.cos (0 * deg) * (r.lat * deg - r.lon * deg) = _
    have hd : (deg : ℝ) = Real.pi / 180 := by simp [deg]
    have : Earth.RN (0 : ℝ) = equator := by
      simp [Earth.RN, Earth.a, equator]
    rw [zero_mul, this, Real.cos_zero, hd]
    ring
  · show (r.lat * deg - 0 * deg) * Earth.RM (r.lat * deg) = _
    have hd : (deg : ℝ) = Real.pi / 180 := by simp [deg]
    rw [hd]
    ring

/-- **C162**, the violation: the displacement columns are not the displacement of the vehicle. Column 4 (east) is the
equatorial radius times latitude minus longitude: of two results that differ in longitude only the eastern one has the
smaller east column, by the equatorial radius times the difference, and of two that differ in latitude only the
northern one has the larger. Column 5 (north) is counted from the equator, not from the start of the run. -/
theorem C162_horizontal_wrong (enc : ℝ → List (BitVec 8)) (dec : List (BitVec 8) → ℝ) (h8 : ∀ x, (enc x).length = 8)
    (hd : ∀ x, dec (enc x) = x) (rs : List (NavOutput ℝ)) (i k : Nat) (r q : NavOutput ℝ) (hr : rs[i]? = some r) (hq : rs[k]? = some q) :
    (r.lat = q.lat → r.lon < q.lon → entry dec (matrixFile enc rs) k 4 < entry dec (matrixFile enc rs) i 4 ∧
      entry dec (matrixFile enc rs) k 4 = entry dec (matrixFile enc rs) i 4 - equator * ((q.lon - r.lon) * (Real.pi / 180))) ∧
    (r.lon = q.lon → r.lat < q.lat → entry dec (matrixFile enc rs) i 4 < entry dec (matrixFile enc rs) k 4) ∧
    entry dec (matrixFile enc rs) i 5 = r.lat * (Real.pi / 180) * Earth.RM (r.lat * (Real.pi / 180)) := by
  have e4 : ∀ i r, rs[i]? = some r → entry dec (matrixFile enc rs) i 4 = equator * ((r.lat - r.lon) * (Real.pi / 180)) := by
    intro i r hr
    rw [matrix_entry enc dec h8 hd rs i 4 r hr ((navToDouble r).horiz 0) rfl (by norm_num)]
    exact (horizontal r).1
  have ha : (0 : ℝ) < equator := by norm_num [equator]
  have hp := Real.pi_pos
  refine ⟨fun h1 h2 => ?_, fun h1 h2 => ?_, ?_⟩
  · rw [e4 i r hr, e4 k q hq, h1]
    constructor
    · refine mul_lt_mul_of_pos_left (mul_lt_mul_of_pos_right (by linarith) (by positivity)) ha
    · ring
  · rw [e4 i r hr, e4 k q hq, h1]
    exact mul_lt_mul_of_pos_left (mul_lt_mul_of_pos_right (by linarith) (by positivity)) ha
  · rw [matrix_entry enc dec h8 hd rs i 5 r hr ((navToDouble r).horiz 1) rfl (by norm_num)]
    exact (horizontal r).2

/-- There are encodings as required (here: of a type with two values). -/
example : ∃ (enc : Bool → List (BitVec 8)) (dec : List (BitVec 8) → Bool), (∀ x, (enc x).length = 8) ∧ ∀ x, dec (enc x) = x :=
  ⟨fun b => List.replicate 8 (if b then 1 else 0), fun l => l.head? == some 1, fun x => by simp, fun x => by cases x <;> decide⟩

/-- Two results a degree of longitude apart on the same parallel. -/
example : ∃ r q : NavOutput ℝ, r.lat = q.lat ∧ r.lon < q.lon := ⟨{ zeroPva with lon := 114 }, { zeroPva with lon := 115 }, rfl, by norm_num⟩

theorem three {f : Fin 3 → Option ℝ} {v : V3 ℝ} (h : Config.opt3 f = some v) : f 0 = some (v 0) ∧ f 1 = some (v 1) ∧ f 2 = some (v 2) := by
  unfold Config.opt3 at h
  obtain ⟨a, h0, h⟩ := Option.bind_eq_some_iff.1 h
  obtain ⟨b, h1, h⟩ := Option.bind_eq_some_iff.1 h
  obtain ⟨c, h2, h⟩ := Option.bind_eq_some_iff.1 h
  injection h with h
  subst h
  exact ⟨h0, h1, h2⟩

/-- The numbers of a complete parameter file, in the units of the file, in the order of the report. -/
def fileNumbers (p : Config.ParaFile ℝ) : List (Option ℝ) :=
  [p.arw, p.vrw, p.gbStd 0, p.gbStd 1, p.gbStd 2, p.abStd 0, p.abStd 1, p.abStd 2, p.gsStd 0, p.gsStd 1, p.gsStd 2,
   p.asStd 0, p.asStd 1, p.asStd 2, p.gbIni 0, p.gbIni 1, p.gbIni 2, p.abIni 0, p.abIni 1, p.abIni 2, p.atCorr, p.gtCorr]

/-- **C163.** After the parameter file of a configuration has been loaded, the report of the parameters shows the
numbers of the file, each in the unit and at the place given by its label (exact arithmetic; rounding of the printed
digits apart). -/
theorem C163_report_shows_the_file (files : String → Option (Config.ParaFile ℝ)) (c c' : Config ℝ) (p : Config.ParaFile ℝ)
    (hp : files c.imu.parameterPath = some p) (h : Config.loadImuPara files c = (true, c')) :
    (paraReport c'.imu.para).map some = fileNumbers p := by
  unfold Config.loadImuPara at h
  rw [hp] at h
  dsimp only at h
  cases hr : Config.readPara p with
  | none => rw [hr] at h; simp at h
  | some q =>
    rw [hr] at h
    simp only [Prod.mk.injEq, true_and] at h
    subst h
    unfold Config.readPara at hr
    obtain ⟨arw, h1, hr⟩ := Option.bind_eq_some_iff.1 hr
    obtain ⟨vrw, h2, hr⟩ := Option.bind_eq_some_iff.1 hr
    obtain ⟨gb, gx, hr⟩ := Option.bind_eq_some_iff.1 hr
    obtain ⟨gs, sx, hr⟩ := Option.bind_eq_some_iff.1 hr
    obtain ⟨as, ax, hr⟩ := Option.bind_eq_some_iff.1 hr
    obtain ⟨ab, bx, hr⟩ := Option.bind_eq_some_iff.1 hr
    obtain ⟨gi, ix, hr⟩ := Option.bind_eq_some_iff.1 hr
    obtain ⟨si, jx, hr⟩ := Option.bind_eq_some_iff.1 hr
    obtain ⟨ai, kx, hr⟩ := Option.bind_eq_some_iff.1 hr
    obtain ⟨li, lx, hr⟩ := Option.bind_eq_some_iff.1 hr
    obtain ⟨gt, t1, hr⟩ := Option.bind_eq_some_iff.1 hr
    obtain ⟨at_, t2, hr⟩ := Option.bind_eq_some_iff.1 hr
    injection hr with hr
    subst hr
    obtain ⟨g0, g1, g2⟩ := three gx
    obtain ⟨s0, s1, s2⟩ := three sx
    obtain ⟨a0, a1, a2⟩ := three ax
    obtain ⟨b0, b1, b2⟩ := three bx
    obtain ⟨i0, i1, i2⟩ := three ix
    obtain ⟨j0, j1, j2⟩ := three jx
    obtain ⟨k0, k1, k2⟩ := three kx
    obtain ⟨l0, l1, l2⟩ := three lx
    have hpi := Real.pi_ne_zero
    have d1 : ∀ x : ℝ, x * deg / 60 / deg * 60 = x := by intro x; simp only [deg, pi_real, lit_real]; push_cast; field_simp
    have d2 : ∀ x : ℝ, x * deg / hour / deg * hour = x := by intro x; simp only [deg, hour, pi_real, lit_real]; push_cast; field_simp
    have d3 : ∀ x : ℝ, x * mGal / mGal = x := by intro x; simp only [mGal, lit_real]; push_cast; field_simp
    have d4 : ∀ x : ℝ, x * ppm / ppm = x := by intro x; simp only [ppm, lit_real]; push_cast; field_simp
    have d5 : ∀ x : ℝ, x * hour / hour = x := by intro x; simp only [hour, lit_real]; push_cast; field_simp
    have d6 : ∀ x : ℝ, x / 60 * 60 = x := by intro x; field_simp
    have l60 : (Fl.lit 60 : ℝ) = 60 := by norm_num
    unfold fileNumbers
    rw [h1, h2, g0, g1, g2, s0, s1, s2, a0, a1, a2, b0, b1, b2, i0, i1, i2, k0, k1, k2, t1, t2]
    show [some (arw * deg / Fl.lit 60 / deg * Fl.lit 60), some (vrw / Fl.lit 60 * Fl.lit 60),
      some (gb 0 * deg / hour / deg * hour), some (gb 1 * deg / hour / deg * hour), some (gb 2 * deg / hour / deg * hour),
      some (ab 0 * mGal / mGal), some (ab 1 * mGal / mGal), some (ab 2 * mGal / mGal),
      some (gs 0 * ppm / ppm), some (gs 1 * ppm / ppm), some (gs 2 * ppm / ppm),
      some (as 0 * ppm / ppm), some (as 1 * ppm / ppm), some (as 2 * ppm / ppm),
      some (gi 0 * deg / hour / deg * hour), some (gi 1 * deg / hour / deg * hour), some (gi 2 * deg / hour / deg * hour),
      some (ai 0 * mGal / mGal), some (ai 1 * mGal / mGal), some (ai 2 * mGal / mGal),
      some (at_ * hour / hour), some (gt * hour / hour)] = _
    rw [l60]
    simp only [d1, d2, d3, d4, d5, d6]

/-- A complete parameter file loads. -/
example (c : Config ℝ) : ∃ c', Config.loadImuPara (fun _ => some ⟨some 1, some 2, fun _ => some 3, fun _ => some 4, fun _ => some 5,
    fun _ => some 6, fun _ => some 7, fun _ => some 8, fun _ => some 9, fun _ => some 10, some 11, some 12⟩) c = (true, c') := ⟨_, rfl⟩
end Verif.Props
