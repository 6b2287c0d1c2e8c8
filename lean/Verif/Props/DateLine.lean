import Verif.Props.AlignOut
/-! C144: alignment and the date line. -/
namespace Verif.Props
open Verif Verif.Spec Verif.Convert Matrix

/-- The same place, its longitude written `x` degrees higher (the same place when `x` is a multiple of 360). -/
def turned (x : ℝ) (a : Gnss ℝ) : Gnss ℝ := { a with lon := a.lon + x }
/-- The device as it would be had its last fix been written that way. -/
def turnedDev (x : ℝ) (d : Dev ℝ) : Dev ℝ := { d with am := { d.am with gnssPre := turned x d.am.gnssPre } }

/-- The radius of the parallel between two fixes. -/
noncomputable def parallelRadius (a b : Gnss ℝ) : ℝ :=
  (rN ((rad b.lat + rad a.lat) / 2) + (b.height + a.height) / 2) * Real.cos ((rad b.lat + rad a.lat) / 2)

theorem displacement_turned (x : ℝ) (a b : Gnss ℝ) : displacement (turned x a) b = displacement a b - ![0, rad x * parallelRadius a b, 0] := by
  ext i; fin_cases i <;> simp [displacement, turned, parallelRadius, rad]
  ring
theorem displacement_both (x : ℝ) (a b : Gnss ℝ) : displacement (turned x a) (turned x b) = displacement a b := by
  ext i; fin_cases i <;> simp [displacement, turned, rad]
  ring_nf
  tauto

/-- The velocity navigation starts with after the fixes `f1`, `f2` and a sample. -/
noncomputable def startVel (g g1 g2 : ℝ) (d : Dev ℝ) (f1 f2 : Gnss ℝ) (m : Imu ℝ) : V3 ℝ :=
  (rgioeTimeupdate g2 (rgioeGnssupdate g1 (rgioeGnssupdate g d (some f1)).2.2 (some f2)).2.2 (some m)).2.2.df.ins.nav.vn

theorem startVel_eq (g g1 g2 : ℝ) (d : Dev ℝ) (f1 f2 : Gnss ℝ) (m : Imu ℝ) (hs : d.status = 2) (hl : d.am.level = true)
    (hp : d.am.gnssPre.posStd 0 ≠ 0) (hp1 : f1.posStd 0 ≠ 0) (hm : moving d.am.option f1 f2) (hdt : f2.gpst ≠ f1.gpst) :
    startVel g g1 g2 d f1 f2 m = (3 / 2 : ℝ) • displacement f1 f2 - (1 / 2 : ℝ) • displacement d.am.gnssPre f1 := by
  obtain ⟨r1, r2, r3, r4, r5⟩ := C89_remembers g d f1 hs hp _ rfl
  obtain ⟨v1, -⟩ := C89_velocity g1 g2 (rgioeGnssupdate g d (some f1)).2.2 f2 m r3 (by rw [r4, hl]) (by rw [r2]; exact hp1)
    (by rw [r2, r5]; exact hm) (by rw [r2]; exact hdt) _ rfl
  rw [r1, r2] at v1
  exact v1

/-- C144 fails: writing the longitude of the first of three fixes 360 degrees lower, which is the same place and what a receiver does
when the date line is crossed eastward, changes the east velocity navigation starts with by half the length of the whole parallel
per second. -/
theorem C144_date_line (g g1 g2 : ℝ) (d : Dev ℝ) (f1 f2 : Gnss ℝ) (m : Imu ℝ) (hs : d.status = 2) (hl : d.am.level = true)
    (hp : d.am.gnssPre.posStd 0 ≠ 0) (hp1 : f1.posStd 0 ≠ 0) (hm : moving d.am.option f1 f2) (hdt : f2.gpst ≠ f1.gpst) :
    startVel g g1 g2 (turnedDev (-360) d) f1 f2 m =
      startVel g g1 g2 d f1 f2 m - ![0, Real.pi * parallelRadius d.am.gnssPre f1, 0] := by
  rw [startVel_eq g g1 g2 d f1 f2 m hs hl hp hp1 hm hdt, startVel_eq g g1 g2 (turnedDev (-360) d) f1 f2 m hs hl hp hp1 hm hdt]
  have e : displacement (turnedDev (-360) d).am.gnssPre f1 = displacement d.am.gnssPre f1 - ![0, rad (-360) * parallelRadius d.am.gnssPre f1, 0] :=
    displacement_turned _ _ _
  rw [e]
  funext i
  simp only [Pi.sub_apply, Pi.smul_apply, smul_eq_mul]
  fin_cases i
  · simp
  · simp only [rad, Fin.mk_one, Matrix.cons_val_one, Matrix.cons_val_zero]; ring
  · simp

/-- C144: between 60 degrees south and north, at heights above the ellipsoid, that is more than ten million metres per second. -/
theorem C144_date_line_size (a b : Gnss ℝ) (ha : |a.lat| ≤ 60) (hb : |b.lat| ≤ 60) (h0 : 0 ≤ a.height) (h1 : 0 ≤ b.height) :
    10000000 < Real.pi * parallelRadius a b := by
  unfold parallelRadius
  set l := (rad b.lat + rad a.lat) / 2 with hl
  have hpi := Real.pi_gt_d2
  have hb' : |l| ≤ Real.pi / 3 := by
    rw [hl, abs_le]
    unfold rad
    obtain ⟨a1, a2⟩ := abs_le.1 ha
    obtain ⟨b1, b2⟩ := abs_le.1 hb
    constructor <;> nlinarith
  have hc : 1 / 2 ≤ Real.cos l := by
    rw [← Real.cos_pi_div_three, ← Real.cos_abs l]
    exact Real.cos_le_cos_of_nonneg_of_le_pi (abs_nonneg _) (by linarith [Real.pi_pos]) hb'
  have hN : 6378137 ≤ rN l := by
    unfold rN
    rw [le_div_iff₀ (Real.sqrt_pos.2 (e2sq_pos l))]
    have : Real.sqrt (1 - 0.00669437999013 * Real.sin l ^ 2) ≤ 1 := by
      exact Real.sqrt_le_one.mpr (by nlinarith [sq_nonneg (Real.sin l)])
    linarith
  have h2 : 6378137 ≤ rN l + (b.height + a.height) / 2 := by linarith
  have h3 : 6378137 * (1 / 2) ≤ (rN l + (b.height + a.height) / 2) * Real.cos l := by
    apply mul_le_mul h2 hc (by norm_num) (by linarith)
  nlinarith

/-- C144, what holds: when all the longitudes are written in the same way, it does not matter which. -/
theorem C144_same_convention_partial (x g g1 g2 : ℝ) (d : Dev ℝ) (f1 f2 : Gnss ℝ) (m : Imu ℝ) (hs : d.status = 2) (hl : d.am.level = true)
    (hp : d.am.gnssPre.posStd 0 ≠ 0) (hp1 : f1.posStd 0 ≠ 0) (hm : moving d.am.option f1 f2) (hdt : f2.gpst ≠ f1.gpst) :
    startVel g g1 g2 (turnedDev x d) (turned x f1) (turned x f2) m = startVel g g1 g2 d f1 f2 m := by
  have hm' : moving (turnedDev x d).am.option (turned x f1) (turned x f2) := by
    show _ ∧ _
    rw [displacement_both]; exact hm
  rw [startVel_eq g g1 g2 d f1 f2 m hs hl hp hp1 hm hdt, startVel_eq g g1 g2 (turnedDev x d) (turned x f1) (turned x f2) m hs hl hp hp1 hm' hdt,
    displacement_both]
  have : displacement (turnedDev x d).am.gnssPre (turned x f1) = displacement d.am.gnssPre f1 := displacement_both x d.am.gnssPre f1
  rw [this]

/-- The hypotheses of C144 are met by a vehicle that drives east along the equator and has just crossed the date line. -/
example : ∃ (d : Dev ℝ) (f1 f2 : Gnss ℝ), d.status = 2 ∧ d.am.level = true ∧ d.am.gnssPre = eqFix 180 0 ∧ d.am.gnssPre.posStd 0 ≠ 0 ∧
    f1.posStd 0 ≠ 0 ∧ f1 = eqFix (-179.999) 1 ∧ moving d.am.option f1 f2 ∧ f2.gpst ≠ f1.gpst := by
  have h3 := Real.pi_gt_three
  have h4 := Real.pi_lt_four
  refine ⟨{ leveled with am := { leveled.am with gnssPre := eqFix 180 0 } }, eqFix (-179.999) 1, eqFix (-179.998) 2, rfl, rfl, rfl, ?_, ?_, rfl, ?_, ?_⟩
  · simp [eqFix]
  · simp [eqFix]
  · have hd : displacement (eqFix (-179.999) 1) (eqFix (-179.998) 2) = ![0, rad 0.001 * 6378137, 0] := by
      rw [eq_displacement]; congr 1; ext i; fin_cases i <;> simp [rad]; ring
    have hlen : len ![0, rad 0.001 * 6378137, 0] = rad 0.001 * 6378137 := by
      simp only [len, Matrix.cons_val_zero, Matrix.cons_val_one, Matrix.cons_val]
      rw [show (0 : ℝ) ^ 2 + (rad 0.001 * 6378137) ^ 2 + 0 ^ 2 = (rad 0.001 * 6378137) ^ 2 by ring, Real.sqrt_sq]
      unfold rad; positivity
    unfold moving
    rw [hd, hlen]
    constructor
    · show (0 : ℝ) < _
      unfold rad; linarith
    · unfold rad; linarith
  · simp [eqFix]
end Verif.Props
