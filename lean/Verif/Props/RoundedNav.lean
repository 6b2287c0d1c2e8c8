import Verif.Lemmas.Approx
import Verif.Props.Converges
/-! The functions of the mechanization computed with rounding, against the exact ones. -/
namespace Verif.Props
open Verif Verif.Spec Verif.Convert Matrix
variable {ι : Type} [Sit ι]

theorem Ap.e2 : Ap (fun _ : ι => (Earth.e2 : ℝ)) (fun _ => Earth.e2) := Ap.lit _
theorem Ap.omegaE : Ap (fun _ : ι => (Earth.omegaE : ℝ)) (fun _ => Earth.omegaE) := Ap.lit _
theorem Ap.g0 : Ap (fun _ : ι => (Earth.g0 : ℝ)) (fun _ => Earth.g0) := Ap.lit _
theorem Ap.earthA : Ap (fun _ : ι => (Earth.a : ℝ)) (fun _ => Earth.a) := Ap.lit _
theorem Ap.omegaIeE : ApV (fun _ : ι => (Earth.omegaIeE : V3 ℝ)) (fun _ => Earth.omegaIeE) := ApV.v3 Ap.zero Ap.zero Ap.omegaE

theorem Ap.squeeze {lat : ι → ℝ} {LAT : (i : ι) → RR (Sit.R i)} (h : Ap lat LAT) : Ap (fun i => (1 - Earth.e2 * Fl.sin (lat i) * Fl.sin (lat i) : ℝ))
    (fun i => 1 - Earth.e2 * Fl.sin (LAT i) * Fl.sin (LAT i)) := Ap.one.sub ((Ap.e2.mul h.sin).mul h.sin)
theorem squeeze_ge (l : ℝ) : 1 / 2 ≤ (1 - Earth.e2 * Fl.sin l * Fl.sin l : ℝ) := by
  have h1 : (Earth.e2 : ℝ) = 0.00669437999013 := by simp only [Earth.e2, lit_real]; norm_num
  rw [h1, sin_real]
  have := Real.sin_sq_le_one l
  rw [mul_assoc, ← sq]; linarith

theorem Ap.RM {lat : ι → ℝ} {LAT : (i : ι) → RR (Sit.R i)} (h : Ap lat LAT) : Ap (fun i => (Earth.RM (lat i) : ℝ)) (fun i => Earth.RM (LAT i)) := by
  refine Ap.div ((1 / 2 : ℝ) ^ (3 / 2 : ℝ)) (by positivity) (fun i => ?_) (Ap.earthA.mul (Ap.one.sub Ap.e2)) (Ap.pow (fun i => squeeze_ge _) (Ap.squeeze h) (Ap.lit (3 / 2)))
  have e : (Fl.lit (3 / 2) : ℝ) = 3 / 2 := by rw [lit_real]; norm_num
  rw [e]
  exact (Real.rpow_le_rpow (by norm_num) (squeeze_ge (lat i)) (by norm_num)).trans (le_abs_self _)
theorem Ap.RN {lat : ι → ℝ} {LAT : (i : ι) → RR (Sit.R i)} (h : Ap lat LAT) : Ap (fun i => (Earth.RN (lat i) : ℝ)) (fun i => Earth.RN (LAT i)) :=
  Ap.div (Real.sqrt (1 / 2)) (Real.sqrt_pos.2 (by norm_num)) (fun i => (Real.sqrt_le_sqrt (squeeze_ge (lat i))).trans (le_abs_self _)) Ap.earthA
    (Ap.sqrt (1 / 2) (by norm_num) (fun i => squeeze_ge _) (Ap.squeeze h))

theorem radii_ge (l h : ℝ) (hh : -1000001 ≤ h) : 1 ≤ |Earth.RM l + h| ∧ 1 ≤ |Earth.RN l + h| := by
  have := (C44_radii l).2.2.2.2.2.2 (-5999999) (by norm_num)
  exact ⟨le_trans (by linarith [this.1]) (le_abs_self _), le_trans (by linarith [this.2]) (le_abs_self _)⟩

theorem Ap.omegaEnN {v p : ι → V3 ℝ} {V P : (i : ι) → V3 (RR (Sit.R i))} (m : ℝ) (hm : 0 < m) (hc : ∀ i, m ≤ |Real.cos (p i 0)|) (hh : ∀ i, -1000001 ≤ p i 2)
    (hv : ApV v V) (hp : ApV p P) : ApV (fun i => (Earth.omegaEnN (v i) (p i) : V3 ℝ)) (fun i => Earth.omegaEnN (V i) (P i)) := by
  have hN := (Ap.RN (hp 0)).add (hp 2)
  have hM := (Ap.RM (hp 0)).add (hp 2)
  refine ApV.v3 ?_ ?_ ?_
  · exact Ap.div 1 one_pos (fun i => (radii_ge _ _ (hh i)).2) (hv 1) hN
  · exact Ap.div 1 one_pos (fun i => (radii_ge _ _ (hh i)).1) (hv 0).neg hM
  · exact Ap.div 1 one_pos (fun i => (radii_ge _ _ (hh i)).2) ((hv 1).neg.mul (Ap.tan m hm hc (hp 0))) hN
theorem Ap.omegaIeN {l : ι → ℝ} {L : (i : ι) → RR (Sit.R i)} (h : Ap l L) : ApV (fun i => (Earth.omegaIeN (l i) : V3 ℝ)) (fun i => Earth.omegaIeN (L i)) :=
  ApV.v3 (Ap.omegaE.mul h.cos) Ap.zero (Ap.omegaE.neg.mul h.sin)
theorem Ap.gravity {l z : ι → ℝ} {L Z : (i : ι) → RR (Sit.R i)} (h : Ap l L) (h' : Ap z Z) : Ap (fun i => (Earth.gravity (l i) (z i) : ℝ)) (fun i => Earth.gravity (L i) (Z i)) := by
  have s2 := h.sin.mul h.sin
  exact ((Ap.g0.mul ((Ap.one.add ((Ap.lit _).mul s2)).add (((Ap.lit _).mul s2).mul s2))).add (h'.mul (((Ap.lit _).mul s2).sub (Ap.lit _)))).add (((Ap.lit _).mul h').mul h')

/-- The series branch of `rvToQuat`. -/
def rvPoly {α : Type} [Add α] [Sub α] [Mul α] [Div α] [One α] [Fl α] (v : V3 α) : Quat α :=
  let m := (v 0 * v 0 + v 1 * v 1 + v 2 * v 2) * Fl.lit (1 / 4)
  let cs := 1 - m / Fl.lit 2 * (1 - m / Fl.lit 12 * (1 - m / Fl.lit 30))
  let sn := 1 - m / Fl.lit 6 * (1 - m / Fl.lit 20 * (1 - m / Fl.lit 42))
  ⟨cs, Fl.lit (1 / 2) * sn * v 0, Fl.lit (1 / 2) * sn * v 1, Fl.lit (1 / 2) * sn * v 2⟩

theorem rv_poly {α : Type} [Add α] [Sub α] [Mul α] [Neg α] [Div α] [Zero α] [One α] [Fl α] (v : V3 α) (h : Fl.lt (v 0 * v 0 + v 1 * v 1 + v 2 * v 2) (Fl.pi * Fl.pi) = true) :
    Convert.rvToQuat v = rvPoly v := by
  unfold Convert.rvToQuat; dsimp only; rw [if_pos h]; rfl

theorem ApQ.rv {v : ι → V3 ℝ} {V : (i : ι) → V3 (RR (Sit.R i))} (hs : ∀ i, v i 0 * v i 0 + v i 1 * v i 1 + v i 2 * v i 2 ≤ 1) (h : ApV v V) :
    ApQ (fun i => (Convert.rvToQuat (v i) : Quat ℝ)) (fun i => Convert.rvToQuat (V i)) := by
  have hg := (((h 0).mul (h 0)).add ((h 1).mul (h 1))).add ((h 2).mul (h 2))
  have pp := (Ap.pi (ι := ι)).mul Ap.pi
  have hmm := hg.mul (Ap.lit (1 / 4))
  have o := Ap.one (ι := ι)
  have hc := o.sub ((hmm.divLit 2 (by norm_num)).mul (o.sub ((hmm.divLit 12 (by norm_num)).mul (o.sub (hmm.divLit 30 (by norm_num))))))
  have hn := o.sub ((hmm.divLit 6 (by norm_num)).mul (o.sub ((hmm.divLit 20 (by norm_num)).mul (o.sub (hmm.divLit 42 (by norm_num))))))
  have hx := fun j => ((Ap.lit (1 / 2)).mul hn).mul (h j)
  have p3 := Real.pi_gt_three
  have e : ∀ i, (Convert.rvToQuat (v i) : Quat ℝ) = rvPoly (v i) := by
    intro i
    refine rv_poly _ (decide_eq_true ?_)
    show v i 0 * v i 0 + v i 1 * v i 1 + v i 2 * v i 2 < Real.pi * Real.pi
    nlinarith [hs i]
  have hd := Apr.sub pp hg
  have e' : ∀ i, |((Fl.pi * Fl.pi : RR (Sit.R i)).v - (V i 0 * V i 0 + V i 1 * V i 1 + V i 2 * V i 2).v) - (Real.pi * Real.pi - (v i 0 * v i 0 + v i 1 * v i 1 + v i 2 * v i 2))| ≤ 1 →
      Convert.rvToQuat (V i) = rvPoly (V i) := by
    intro i hi
    refine rv_poly _ (decide_eq_true ?_)
    show (V i 0 * V i 0 + V i 1 * V i 1 + V i 2 * V i 2).v < (Fl.pi * Fl.pi : RR (Sit.R i)).v
    have := abs_le.1 hi
    nlinarith [hs i]
  refine ⟨?_, ?_, ?_, ?_⟩ <;> simp only [e]
  · exact Apr.when hc hd 1 one_pos _ (fun i hi => by dsimp only; rw [e' i hi]; rfl)
  · exact Apr.when (hx 0) hd 1 one_pos _ (fun i hi => by dsimp only; rw [e' i hi]; rfl)
  · exact Apr.when (hx 1) hd 1 one_pos _ (fun i hi => by dsimp only; rw [e' i hi]; rfl)
  · exact Apr.when (hx 2) hd 1 one_pos _ (fun i hi => by dsimp only; rw [e' i hi]; rfl)

theorem Ap.gyroToRv {v w : ι → V3 ℝ} {V W : (i : ι) → V3 (RR (Sit.R i))} (h : ApV v V) (h' : ApV w W) : ApV (fun i => (Convert.gyroToRv (v i) (w i) : V3 ℝ)) (fun i => Convert.gyroToRv (V i) (W i)) :=
  h.add ((h'.cross h).vd 12 (by norm_num))

theorem Ap.lla {q : ι → Quat ℝ} {Q : (i : ι) → Quat (RR (Sit.R i))} (m : ℝ) (hm : 0 < m) (hw : ∀ i, m ≤ (q i).w) (h : ApQ q Q) :
    Ap (fun i => (qneToLla (q i) : LatLon ℝ).lat) (fun i => (qneToLla (Q i)).lat) ∧ Ap (fun i => (qneToLla (q i) : LatLon ℝ).lon) (fun i => (qneToLla (Q i)).lon) :=
  ⟨((Ap.lit (1 / 2)).neg.mul Ap.pi).sub ((Ap.lit 2).mul (Ap.div m hm (fun i => (hw i).trans (le_abs_self _)) h.y h.w).atan), (Ap.lit 2).mul (Ap.atan2 m hm hw h.w h.z)⟩

theorem Ap.compensate {d : ι → ℝ} {D : (i : ι) → RR (Sit.R i)} {a b s : ι → V3 ℝ} {A B S : (i : ι) → V3 (RR (Sit.R i))} (hd : Ap d D) (ha : ApV a A) (hb : ApV b B) (hs : ApV s S) :
    ApV (fun i => (Ins.compensate (d i) (a i) (b i) (s i) : V3 ℝ)) (fun i => Ins.compensate (D i) (A i) (B i) (S i)) :=
  ApV.mvec ((ApM.eye 3).sub (ApM.diag hs)) (ha.sub (hb.vs hd))
end Verif.Props
