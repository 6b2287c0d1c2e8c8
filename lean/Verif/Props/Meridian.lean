import Verif.Props.Range
import Verif.Props.Rigid
import Verif.Props.RotVec
import Verif.Spec.Meridian
import Verif.Spec.Examples
import Mathlib.Analysis.Calculus.MeanValue
import Mathlib.Analysis.SpecialFunctions.Trigonometric.ArctanDeriv
import Mathlib.Tactic.FieldSimp
import Mathlib.Tactic.LinearCombination
/-! # C176: places are read off the position quaternion equally well at every longitude

Violated: the latitude is read as a quotient whose divisor vanishes on the antimeridian. -/
namespace Verif.Props
open Verif Verif.Convert Verif.Spec Matrix

/-- The position quaternion of a place, followed by a turn about the vertical (the navigation axes have turned by `α`
against north; the position is the same). -/
noncomputable def turnedPlace (lat lon α : ℝ) : Quat ℝ := (llaToQne ⟨lat, lon⟩).mul (qz α)

theorem turnedPlace_eq (lat lon α : ℝ) : turnedPlace lat lon α =
    ⟨Real.cos (Real.pi / 4 + lat / 2) * Real.cos ((lon + α) / 2), Real.sin (Real.pi / 4 + lat / 2) * Real.sin ((lon - α) / 2),
     -Real.sin (Real.pi / 4 + lat / 2) * Real.cos ((lon - α) / 2), Real.cos (Real.pi / 4 + lat / 2) * Real.sin ((lon + α) / 2)⟩ := by
  have e : -(1 / 4) * Real.pi - 1 / 2 * lat = -(Real.pi / 4 + lat / 2) := by ring
  have e1 : (lon + α) / 2 = 1 / 2 * lon + α / 2 := by ring
  have e2 : (lon - α) / 2 = 1 / 2 * lon - α / 2 := by ring
  simp only [turnedPlace, llaToQne, qz, Quat.mul, lit_real, pi_real, sin_real, cos_real, Quat.mk.injEq]
  push_cast
  rw [e, e1, e2, Real.cos_neg, Real.sin_neg, Real.cos_add (1 / 2 * lon), Real.sin_add (1 / 2 * lon), Real.cos_sub, Real.sin_sub]
  refine ⟨?_, ?_, ?_, ?_⟩ <;> ring

/-- The unit quaternions that stand for a place are those of `turnedPlace`, whatever the turn. -/
theorem standsFor_iff (q : Quat ℝ) (lat lon : ℝ) : standsFor q lat lon ↔ ∃ α, q = turnedPlace lat lon α := by
  obtain ⟨h1, h2, -⟩ := C41_position_quaternion ⟨lat, lon⟩
  set p := llaToQne (⟨lat, lon⟩ : LatLon ℝ) with hp
  have hpr : rotH p = llaToCne ⟨lat, lon⟩ := by rw [← toRot_eq p h1]; exact h2
  have hcol : ∀ i, llaToCne (⟨lat, lon⟩ : LatLon ℝ) i 2 = -(upward lat lon i) := by
    intro i
    fin_cases i <;> simp [llaToCne, upward]
  have hz : ∀ α, ∀ A : M3 ℝ, ∀ i, (A * rotH (qz α)) i 2 = A i 2 := by
    intro α A i
    rw [rotH_qz, Matrix.mul_apply, Fin.sum_univ_three]
    simp [Rz]
  constructor
  · rintro ⟨hu, hq⟩
    -- the quotient leaves the third axis in place
    set r := p.conj.mul q with hr
    have hru : qsq r = 1 := by rw [hr, qsq_mul, qsq_conj, h1, hu, one_mul]
    have hpq : q = p.mul r := by
      have hp1 : p.w ^ 2 + p.x ^ 2 + p.y ^ 2 + p.z ^ 2 = 1 := h1
      obtain ⟨w, x, y, z⟩ := q
      simp only [hr, Quat.mul, Quat.conj, Quat.mk.injEq]
      refine ⟨?_, ?_, ?_, ?_⟩
      · linear_combination (-w) * hp1
      · linear_combination (-x) * hp1
      · linear_combination (-y) * hp1
      · linear_combination (-z) * hp1
    have hR : rotH q = rotH p * rotH r := by rw [← rotH_mul, ← hpq]
    have ht : rotH r = (rotH p)ᵀ * rotH q := by
      rw [hR, ← Matrix.mul_assoc, rotH_orth', h1]; simp
    have h33 : rotH r 2 2 = 1 := by
      have hs := Real.sin_sq_add_cos_sq lat
      have ho := Real.sin_sq_add_cos_sq lon
      have g : ∀ i, rotH q i 2 = -(upward lat lon i) := by intro i; rw [← toRot_eq q hu]; exact hq i
      rw [ht, Matrix.mul_apply, Fin.sum_univ_three]
      simp only [Matrix.transpose_apply, hpr, hcol, g]
      simp only [upward, Matrix.cons_val_zero, Matrix.cons_val_one, Matrix.cons_val]
      linear_combination (Real.cos lat) ^ 2 * ho + hs
    have hxy : r.x = 0 ∧ r.y = 0 := by
      have e : rotH r 2 2 = r.w ^ 2 - r.x ^ 2 - r.y ^ 2 + r.z ^ 2 := by simp [rotH]
      rw [e] at h33
      have hru' : r.w ^ 2 + r.x ^ 2 + r.y ^ 2 + r.z ^ 2 = 1 := hru
      constructor <;> nlinarith [sq_nonneg r.x, sq_nonneg r.y]
    have hwz : r.w ^ 2 + r.z ^ 2 = 1 := by
      have hru' : r.w ^ 2 + r.x ^ 2 + r.y ^ 2 + r.z ^ 2 = 1 := hru
      rw [hxy.1, hxy.2] at hru'; linarith
    refine ⟨2 * Complex.arg ⟨r.w, r.z⟩, ?_⟩
    have hn : ‖(⟨r.w, r.z⟩ : ℂ)‖ = 1 := by
      rw [Complex.norm_def, Complex.normSq_mk]
      rw [show r.w * r.w + r.z * r.z = 1 by linarith [hwz], Real.sqrt_one]
    have hne : (⟨r.w, r.z⟩ : ℂ) ≠ 0 := by
      intro h; rw [h] at hn; simp at hn
    have hc := Complex.cos_arg hne
    have hs := Complex.sin_arg (⟨r.w, r.z⟩ : ℂ)
    rw [hn, div_one] at hc hs
    rw [hpq]
    unfold turnedPlace
    rw [← hp]
    congr 1
    simp only [qz, mul_div_cancel_left₀ _ (two_ne_zero (α := ℝ)), hc, hs]
    obtain ⟨a, b, c, d⟩ := r
    simp only at hxy
    simp [hxy.1, hxy.2]
  · rintro ⟨α, rfl⟩
    have hu : qsq (turnedPlace lat lon α) = 1 := by unfold turnedPlace; rw [qsq_mul, h1, (qsq_q α).2.2, one_mul]
    refine ⟨hu, fun i => ?_⟩
    rw [toRot_eq _ hu]
    unfold turnedPlace
    rw [rotH_mul, hz, hpr, hcol]

theorem arctan_lip (x y : ℝ) : |Real.arctan x - Real.arctan y| ≤ |x - y| := by
  have h := Convex.norm_image_sub_le_of_norm_deriv_le (f := Real.arctan) (C := 1) (s := Set.univ) (x := y) (y := x)
    (fun z _ => Real.differentiableAt_arctan z) (fun z _ => by
      rw [Real.deriv_arctan, Real.norm_eq_abs, abs_of_nonneg (by positivity), div_le_one (by positivity)]
      nlinarith [sq_nonneg z]) convex_univ (Set.mem_univ _) (Set.mem_univ _)
  simpa [Real.norm_eq_abs] using h

/-- What is read off a quaternion that stands for a place: the latitude through the quotient of two cosines, the
longitude with the turn added. -/
theorem read_off (lat lon α : ℝ) (hlat : lat ∈ Set.Ioo (-(Real.pi / 2)) (Real.pi / 2)) :
    (qneToLla (turnedPlace lat lon α)).lat = -(Real.pi / 2) +
      2 * Real.arctan (Real.tan (Real.pi / 4 + lat / 2) * (Real.cos ((lon - α) / 2) / Real.cos ((lon + α) / 2))) ∧
    (lon + α ∈ Set.Ioc (-2 * Real.pi) (2 * Real.pi) → (qneToLla (turnedPlace lat lon α)).lon = lon + α) := by
  obtain ⟨a1, a2⟩ := hlat
  have hpi := Real.pi_pos
  have hc : 0 < Real.cos (Real.pi / 4 + lat / 2) := Real.cos_pos_of_mem_Ioo ⟨by linarith, by linarith⟩
  rw [turnedPlace_eq]
  simp only [qneToLla, lit_real, pi_real, atan_real, atan2_real]
  push_cast
  constructor
  · have e : -Real.sin (Real.pi / 4 + lat / 2) * Real.cos ((lon - α) / 2) /
        (Real.cos (Real.pi / 4 + lat / 2) * Real.cos ((lon + α) / 2)) =
        -(Real.tan (Real.pi / 4 + lat / 2) * (Real.cos ((lon - α) / 2) / Real.cos ((lon + α) / 2))) := by
      rw [Real.tan_eq_sin_div_cos, neg_mul, neg_div, mul_div_mul_comm]
    rw [e, Real.arctan_neg]
    ring
  · rintro ⟨b1, b2⟩
    have e : (⟨Real.cos (Real.pi / 4 + lat / 2) * Real.cos ((lon + α) / 2), Real.cos (Real.pi / 4 + lat / 2) * Real.sin ((lon + α) / 2)⟩ : ℂ)
        = ((Real.cos (Real.pi / 4 + lat / 2) : ℝ) : ℂ) * (Complex.cos (((lon + α) / 2 : ℝ) : ℂ) + Complex.sin (((lon + α) / 2 : ℝ) : ℂ) * Complex.I) := by
      rw [← Complex.ofReal_cos, ← Complex.ofReal_sin]
      generalize Real.cos (Real.pi / 4 + lat / 2) = A
      generalize Real.cos ((lon + α) / 2) = B
      generalize Real.sin ((lon + α) / 2) = C
      apply Complex.ext <;> simp
    rw [e, Complex.arg_mul_cos_add_sin_mul_I hc ⟨by linarith, by linarith⟩]
    ring

/-- **C176, what holds.** A place is read off its quaternion with a latitude error of at most `2 tan(45° + lat/2)` times the
turn `α` of the navigation axes against north, divided by the cosine of half the longitude reported; the longitude error
is the turn. Without a turn both are exact at every longitude off the antimeridian. -/
theorem C176_error_partial (q : Quat ℝ) (lat lon : ℝ) (hlat : lat ∈ Set.Ioo (-(Real.pi / 2)) (Real.pi / 2)) (hq : standsFor q lat lon) :
    ∃ α, q = turnedPlace lat lon α ∧ (lon + α ∈ Set.Ioc (-2 * Real.pi) (2 * Real.pi) → (qneToLla q).lon = lon + α) ∧
      (Real.cos ((lon + α) / 2) ≠ 0 →
        |(qneToLla q).lat - lat| ≤ 2 * Real.tan (Real.pi / 4 + lat / 2) * (|α| / |Real.cos ((lon + α) / 2)|)) := by
  obtain ⟨α, rfl⟩ := (standsFor_iff q lat lon).1 hq
  obtain ⟨h1, h2⟩ := read_off lat lon α hlat
  refine ⟨α, rfl, h2, fun hc => ?_⟩
  obtain ⟨a1, a2⟩ := hlat
  have hpi := Real.pi_pos
  have ht : 0 < Real.tan (Real.pi / 4 + lat / 2) := Real.tan_pos_of_pos_of_lt_pi_div_two (by linarith) (by linarith)
  have hl : lat = -(Real.pi / 2) + 2 * Real.arctan (Real.tan (Real.pi / 4 + lat / 2)) := by
    rw [Real.arctan_tan (by linarith) (by linarith)]; ring
  rw [h1]
  nth_rewrite 2 [hl]
  have hd : Real.cos ((lon - α) / 2) = Real.cos ((lon + α) / 2) + 2 * Real.sin (lon / 2) * Real.sin (α / 2) := by
    rw [show (lon - α) / 2 = lon / 2 - α / 2 by ring, show (lon + α) / 2 = lon / 2 + α / 2 by ring, Real.cos_sub, Real.cos_add]; ring
  generalize Real.cos ((lon + α) / 2) = c at *
  generalize Real.tan (Real.pi / 4 + lat / 2) = t at *
  have hlip := arctan_lip (t * (Real.cos ((lon - α) / 2) / c)) t
  have he : t * (Real.cos ((lon - α) / 2) / c) - t = t * (2 * Real.sin (lon / 2) * Real.sin (α / 2) / c) := by
    rw [hd]; field_simp; ring
  have hs : |2 * Real.sin (lon / 2) * Real.sin (α / 2)| ≤ |α| := by
    rw [abs_mul, abs_mul]
    have s1 := Real.abs_sin_le_one (lon / 2)
    have s2 : |Real.sin (α / 2)| ≤ |α / 2| := Real.abs_sin_le_abs
    rw [abs_div, abs_two] at s2
    rw [abs_two]
    nlinarith [abs_nonneg (Real.sin (α / 2)), abs_nonneg (Real.sin (lon / 2)), abs_nonneg α]
  rw [he, abs_mul, abs_div, abs_of_pos ht] at hlip
  have hk : |2 * Real.sin (lon / 2) * Real.sin (α / 2)| / |c| ≤ |α| / |c| := by gcongr
  have h3 : ∀ A B : ℝ, -(Real.pi / 2) + 2 * A - (-(Real.pi / 2) + 2 * B) = 2 * (A - B) := by intros; ring
  rw [h3, abs_mul, abs_two]
  nlinarith

/-- **C176 fails.** At every latitude and however small the turn allowed, there are quaternions that stand for a place of that
latitude and are read as any other latitude between -270° and 90°. -/
theorem C176_any_latitude (lat L ε : ℝ) (hlat : lat ∈ Set.Ioo (-(Real.pi / 2)) (Real.pi / 2))
    (hL : L ∈ Set.Ioo (-(3 / 2) * Real.pi) (Real.pi / 2)) (hε : 0 < ε) :
    ∃ lon α, lon ∈ Set.Icc (-Real.pi) Real.pi ∧ |α| < ε ∧ standsFor (turnedPlace lat lon α) lat lon ∧
      (qneToLla (turnedPlace lat lon α)).lat = L := by
  have hpi := Real.pi_pos
  set t := Real.tan (Real.pi / 4 + lat / 2) with htd
  have ht : 0 < t := Real.tan_pos_of_pos_of_lt_pi_div_two (by linarith [hlat.1]) (by linarith [hlat.2])
  set s := Real.tan ((L + Real.pi / 2) / 2) with hs
  have has : -(Real.pi / 2) + 2 * Real.arctan s = L := by
    rw [hs, Real.arctan_tan (by linarith [hL.1]) (by linarith [hL.2])]; ring
  set α := min (ε / 2) 1 with hα
  have hα0 : 0 < α := lt_min (by linarith) one_pos
  have hα1 : α ≤ 1 := min_le_right _ _
  have hαε : |α| < ε := by rw [abs_of_pos hα0]; exact lt_of_le_of_lt (min_le_left _ _) (by linarith)
  have hpi3 := Real.pi_gt_three
  have hsα : 0 < Real.sin (α / 2) := Real.sin_pos_of_pos_of_lt_pi (by linarith) (by linarith)
  have hcα : 0 < Real.cos (α / 2) := Real.cos_pos_of_mem_Ioo ⟨by linarith, by linarith⟩
  -- it is enough to hit the quotient
  suffices h : ∃ lon, lon ∈ Set.Icc (-Real.pi) Real.pi ∧ Real.cos ((lon + α) / 2) ≠ 0 ∧
      t * Real.cos ((lon - α) / 2) = s * Real.cos ((lon + α) / 2) by
    obtain ⟨lon, h1, h2, h3⟩ := h
    refine ⟨lon, α, h1, hαε, (standsFor_iff _ _ _).2 ⟨α, rfl⟩, ?_⟩
    rw [(read_off lat lon α hlat).1, ← htd, ← mul_div_assoc, h3, mul_div_cancel_right₀ _ h2, has]
  have e1 : ∀ lon, Real.cos ((lon - α) / 2) = Real.cos (lon / 2) * Real.cos (α / 2) + Real.sin (lon / 2) * Real.sin (α / 2) := by
    intro lon; rw [← Real.cos_sub]; congr 1; ring
  have e2 : ∀ lon, Real.cos ((lon + α) / 2) = Real.cos (lon / 2) * Real.cos (α / 2) - Real.sin (lon / 2) * Real.sin (α / 2) := by
    intro lon; rw [← Real.cos_add]; congr 1; ring
  by_cases hk : s + t = 0
  · refine ⟨Real.pi, ⟨by linarith, le_refl _⟩, ?_, ?_⟩
    · rw [e2, Real.cos_pi_div_two, Real.sin_pi_div_two]; nlinarith
    · rw [e1, e2, Real.cos_pi_div_two, Real.sin_pi_div_two]; linear_combination Real.sin (α / 2) * hk
  · set T := (s - t) * Real.cos (α / 2) / ((s + t) * Real.sin (α / 2)) with hT
    refine ⟨2 * Real.arctan T, ⟨by linarith [Real.neg_pi_div_two_lt_arctan T], by linarith [Real.arctan_lt_pi_div_two T]⟩, ?_, ?_⟩
    all_goals
      have hl : 2 * Real.arctan T / 2 = Real.arctan T := by ring
      have hc := Real.cos_arctan_pos T
      have hsn : Real.sin (Real.arctan T) = T * Real.cos (Real.arctan T) := by
        have := Real.tan_arctan T
        rw [Real.tan_eq_sin_div_cos, div_eq_iff (ne_of_gt hc)] at this
        exact this
    · rw [e2, hl, hsn]
      intro h0
      have h1 : Real.cos (α / 2) - T * Real.sin (α / 2) = 0 := by
        have : Real.cos (Real.arctan T) * (Real.cos (α / 2) - T * Real.sin (α / 2)) = 0 := by linear_combination h0
        exact (mul_eq_zero.1 this).resolve_left (ne_of_gt hc)
      have h2 : T * Real.sin (α / 2) = (s - t) * Real.cos (α / 2) / (s + t) := by
        rw [hT]; field_simp
      rw [h2] at h1
      field_simp at h1
      nlinarith
    · rw [e1, e2, hl, hsn]
      have h2 : T * Real.sin (α / 2) * (s + t) = (s - t) * Real.cos (α / 2) := by
        rw [hT]; field_simp
      linear_combination Real.cos (Real.arctan T) * h2

/-- A filter placed on the equator at longitude `lon` and height `h`. -/
noncomputable def onEquator (f : Fusion ℝ) (lon h : ℝ) : Fusion ℝ :=
  { f with ins := { f.ins with nav := { f.ins.nav with Qne := llaToQne ⟨0, lon⟩, pos := v3 0 lon h } } }

theorem normalized_ratio (q : Quat ℝ) : q.normalized.y / q.normalized.w = q.y / q.w := by
  unfold Quat.normalized
  split_ifs with h
  · rw [lt_real] at h
    have : Real.sqrt q.nsq ≠ 0 := ne_of_gt (Real.sqrt_pos.2 h)
    simp only [sqrt_real]
    rw [div_div_div_cancel_right₀ this]
  · rfl

/-- A rotation vector without third component that is shorter than one half: its quaternion. -/
theorem rv_flat (u v : ℝ) (hu : |u| ≤ 1 / 4) (hv : |v| ≤ 1 / 4) :
    ∃ c k, 1 / 2 < c ∧ 0 < k ∧ k ≤ 1 / 2 ∧ rvToQuat (v3 u v 0 : V3 ℝ) = ⟨c, k * u, k * v, 0⟩ := by
  have e0 : (v3 u v 0 : V3 ℝ) 0 = u := rfl
  have e1 : (v3 u v 0 : V3 ℝ) 1 = v := rfl
  have e2 : (v3 u v 0 : V3 ℝ) 2 = 0 := rfl
  have hl := len_sq (v3 u v 0)
  rw [e0, e1, e2] at hl
  have h0 := len_nonneg (v3 u v 0)
  have hu2 : u ^ 2 ≤ 1 / 16 := by rw [← sq_abs]; nlinarith [abs_nonneg u]
  have hv2 : v ^ 2 ≤ 1 / 16 := by rw [← sq_abs]; nlinarith [abs_nonneg v]
  have hlen : len (v3 u v 0) ≤ 1 / 2 := by nlinarith
  have hpi := Real.pi_gt_three
  set m := len (v3 u v 0) / 2 with hm
  have m0 : 0 ≤ m ^ 2 := sq_nonneg m
  have m1 : m ^ 2 ≤ 1 / 16 := by rw [hm]; nlinarith
  refine ⟨csP m, 1 / 2 * snP m, ?_, ?_, ?_, ?_⟩
  · unfold csP
    have : m ^ 6 = m ^ 2 * m ^ 2 * m ^ 2 := by ring
    have : m ^ 4 = m ^ 2 * m ^ 2 := by ring
    nlinarith [mul_nonneg m0 m0, mul_nonneg (mul_nonneg m0 m0) m0, mul_nonneg (mul_nonneg m0 m0) (sub_nonneg.2 m1)]
  · unfold snP
    have : m ^ 6 = m ^ 2 * m ^ 2 * m ^ 2 := by ring
    have : m ^ 4 = m ^ 2 * m ^ 2 := by ring
    nlinarith [mul_nonneg m0 m0, mul_nonneg (mul_nonneg m0 m0) m0, mul_nonneg (mul_nonneg m0 m0) (sub_nonneg.2 m1)]
  · unfold snP
    have : m ^ 6 = m ^ 2 * m ^ 2 * m ^ 2 := by ring
    have : m ^ 4 = m ^ 2 * m ^ 2 := by ring
    nlinarith [mul_nonneg m0 m0, mul_nonneg (mul_nonneg m0 m0) m0, mul_nonneg m0 (sub_nonneg.2 m1)]
  · rw [rv_small _ (by linarith), e0, e1, e2]
    simp only [Quat.mk.injEq]
    refine ⟨rfl, rfl, rfl, by ring⟩

theorem equator_quat (lon : ℝ) : llaToQne (⟨0, lon⟩ : LatLon ℝ) =
    ⟨Real.sqrt 2 / 2 * Real.cos (lon / 2), Real.sqrt 2 / 2 * Real.sin (lon / 2), -(Real.sqrt 2 / 2) * Real.cos (lon / 2),
      Real.sqrt 2 / 2 * Real.sin (lon / 2)⟩ := by
  have e : -(1 / 4) * Real.pi - 1 / 2 * 0 = -(Real.pi / 4) := by ring
  have e1 : 1 / 2 * lon = lon / 2 := by ring
  simp only [llaToQne, lit_real, pi_real, sin_real, cos_real, Quat.mk.injEq]
  push_cast
  rw [e, e1, Real.cos_neg, Real.sin_neg, Real.cos_pi_div_four, Real.sin_pi_div_four]
  refine ⟨?_, ?_, ?_, ?_⟩ <;> ring

/-- **C176 fails for a running filter.** Take any filter on the equator and any correction that moves the position up to 1000 km
north or south and east or west, by however little. Then for every latitude but the equator there is a longitude at which the
corrected filter holds that latitude. The rotation it keeps for the position is off the equator by no more than the
correction all the same. -/
theorem C176_after_correction (f : Fusion ℝ) (h L : ℝ) (hh : 0 ≤ h) (hL : L ∈ Set.Ioo (-(3 / 2) * Real.pi) (Real.pi / 2)) (hL0 : L ≠ 0)
    (xd : Fin 15 → ℝ) (hn : xd 0 ≠ 0) (he : xd 1 ≠ 0) (hn1 : |xd 0| ≤ 1000000) (he1 : |xd 1| ≤ 1000000) :
    ∃ lon, lon ∈ Set.Ioo (-Real.pi) Real.pi ∧ ((onEquator f lon h).feedBack xd).ins.nav.pos 0 = L ∧
      |rotH ((onEquator f lon h).feedBack xd).ins.nav.Qne 2 2| ≤ 2 * |xd 0| / 6000000 := by
  have hpi := Real.pi_pos
  obtain ⟨-, -, r1, -, r2, -, r3⟩ := C44_radii 0
  have hM : 6000000 ≤ Earth.RM (0 : ℝ) + h := by unfold wgsA wgsE2 at r1; norm_num at r1; linarith
  have hN : 6000000 ≤ Earth.RN (0 : ℝ) + h := by unfold wgsA at r2; norm_num at r2; linarith
  generalize hRM : Earth.RM (0 : ℝ) + h = M at *
  generalize hRN : Earth.RN (0 : ℝ) + h = N at *
  have hu : |-(xd 1 / N)| ≤ 1 / 4 := by
    rw [abs_neg, abs_div, abs_of_pos (by linarith : (0 : ℝ) < N), div_le_iff₀ (by linarith)]; linarith
  have hv : |xd 0 / M| ≤ 1 / 4 := by
    rw [abs_div, abs_of_pos (by linarith : (0 : ℝ) < M), div_le_iff₀ (by linarith)]; linarith
  obtain ⟨c, k, hc, hk, hk2, hrv⟩ := rv_flat _ _ hu hv
  have hq : ∀ lon, ((onEquator f lon h).feedBack xd).ins.nav.Qne =
      ((llaToQne (⟨0, lon⟩ : LatLon ℝ)).mul ⟨c, k * -(xd 1 / N), k * (xd 0 / M), 0⟩).normalized := by
    intro lon
    rw [← hrv]
    show ((llaToQne (⟨0, lon⟩ : LatLon ℝ)).mul (rvToQuat (-(v3 (xd 1 / (Earth.RN (0 : ℝ) + h)) (-(xd 0) / (Earth.RM (0 : ℝ) + h))
      (-(xd 1) * Fl.tan (0 : ℝ) / (Earth.RN (0 : ℝ) + h)))))).normalized = _
    rw [hRM, hRN]
    congr 3
    funext i
    fin_cases i
    · rfl
    · show -(-(xd 0) / M) = xd 0 / M
      ring
    · show -(-(xd 1) * Real.tan 0 / N) = 0
      simp
  have hp : ∀ lon, ((onEquator f lon h).feedBack xd).ins.nav.pos 0 = (qneToLla ((onEquator f lon h).feedBack xd).ins.nav.Qne).lat := fun _ => rfl
  set a := k * -(xd 1 / N) with ha
  set b := k * (xd 0 / M) with hb
  have ha0 : a ≠ 0 := by
    rw [ha]; exact mul_ne_zero (ne_of_gt hk) (neg_ne_zero.2 (div_ne_zero he (by linarith)))
  have hb0 : b ≠ 0 := by
    rw [hb]; exact mul_ne_zero (ne_of_gt hk) (div_ne_zero hn (by linarith))
  have hb1 : |b| ≤ |xd 0| / 12000000 := by
    rw [hb, abs_mul, abs_of_pos hk, abs_div, abs_of_pos (by linarith : (0 : ℝ) < M)]
    have : |xd 0| / M ≤ |xd 0| / 6000000 := by gcongr
    have h0 : 0 ≤ |xd 0| / M := by positivity
    nlinarith
  set r := Real.tan ((L + Real.pi / 2) / 2) with hr
  have har : -(Real.pi / 2) + 2 * Real.arctan r = L := by
    rw [hr, Real.arctan_tan (by linarith [hL.1]) (by linarith [hL.2])]; ring
  have hr1 : r ≠ 1 := by
    intro h1
    rw [h1, Real.arctan_one] at har
    apply hL0; linarith
  set T := ((c - b) - r * (c + b)) / (a * (1 - r)) with hT
  have h1r : 1 - r ≠ 0 := sub_ne_zero.2 (Ne.symm hr1)
  refine ⟨2 * Real.arctan T, ⟨by linarith [Real.neg_pi_div_two_lt_arctan T], by linarith [Real.arctan_lt_pi_div_two T]⟩, ?_, ?_⟩
  · have hcp := Real.cos_arctan_pos T
    have hsn : Real.sin (Real.arctan T) = T * Real.cos (Real.arctan T) := by
      have := Real.tan_arctan T
      rw [Real.tan_eq_sin_div_cos, div_eq_iff (ne_of_gt hcp)] at this
      exact this
    have s2 : (0 : ℝ) < Real.sqrt 2 / 2 := by positivity
    have hratio : ((llaToQne (⟨0, 2 * Real.arctan T⟩ : LatLon ℝ)).mul ⟨c, a, b, 0⟩).y /
        ((llaToQne (⟨0, 2 * Real.arctan T⟩ : LatLon ℝ)).mul ⟨c, a, b, 0⟩).w = -r := by
      rw [equator_quat, show 2 * Real.arctan T / 2 = Real.arctan T by ring, hsn]
      simp only [Quat.mul]
      have hTa : T * a * (1 - r) = (c - b) - r * (c + b) := by
        rw [hT]; field_simp
      have hw : Real.sqrt 2 / 2 * Real.cos (Real.arctan T) * c - Real.sqrt 2 / 2 * (T * Real.cos (Real.arctan T)) * a -
          -(Real.sqrt 2 / 2) * Real.cos (Real.arctan T) * b - Real.sqrt 2 / 2 * (T * Real.cos (Real.arctan T)) * 0 ≠ 0 := by
        have e : Real.sqrt 2 / 2 * Real.cos (Real.arctan T) * c - Real.sqrt 2 / 2 * (T * Real.cos (Real.arctan T)) * a -
          -(Real.sqrt 2 / 2) * Real.cos (Real.arctan T) * b - Real.sqrt 2 / 2 * (T * Real.cos (Real.arctan T)) * 0 =
          Real.sqrt 2 / 2 * Real.cos (Real.arctan T) * (c + b - T * a) := by ring
        rw [e]
        refine mul_ne_zero (mul_ne_zero (ne_of_gt s2) (ne_of_gt hcp)) ?_
        intro h0
        apply hb0
        have : (c + b - T * a) * (1 - r) = 2 * b := by linear_combination -hTa
        rw [h0] at this; linarith
      rw [div_eq_iff hw]
      linear_combination (Real.sqrt 2 / 2 * Real.cos (Real.arctan T)) * hTa
    rw [hp, hq]
    simp only [qneToLla, lit_real, pi_real, atan_real, atan2_real]
    rw [normalized_ratio, hratio, Real.arctan_neg]
    push_cast
    linarith
  · rw [hq]
    generalize hlo : 2 * Real.arctan T = lon
    have hu1 : qsq (llaToQne (⟨0, lon⟩ : LatLon ℝ)) = 1 := (C41_position_quaternion ⟨0, lon⟩).1
    set p : Quat ℝ := (llaToQne (⟨0, lon⟩ : LatLon ℝ)).mul ⟨c, a, b, 0⟩ with hpd
    have hps : qsq p = c ^ 2 + a ^ 2 + b ^ 2 := by rw [hpd, qsq_mul, hu1]; simp [qsq]
    have hc0 : 0 < c := by linarith
    have hpos : 0 < c ^ 2 + a ^ 2 + b ^ 2 := by positivity
    have hpp : 0 < qsq p := by rw [hps]; exact hpos
    have hr22 : rotH p.normalized 2 2 = rotH p 2 2 / qsq p := by
      have hn : p.normalized = ⟨p.w / Real.sqrt (qsq p), p.x / Real.sqrt (qsq p), p.y / Real.sqrt (qsq p), p.z / Real.sqrt (qsq p)⟩ := by
        unfold Quat.normalized
        rw [if_pos (by rw [lt_real, nsq_eq]; exact hpp), nsq_eq]
        rfl
      have hs := Real.sq_sqrt (le_of_lt hpp)
      have hs0 : Real.sqrt (qsq p) ≠ 0 := ne_of_gt (Real.sqrt_pos.2 hpp)
      rw [hn]
      simp only [rotH, Matrix.cons_val, Matrix.of_apply]
      simp only [div_pow, hs]
      ring
    have hr : rotH p 2 2 = 2 * c * b := by
      have hpr : rotH (llaToQne (⟨0, lon⟩ : LatLon ℝ)) = llaToCne ⟨0, lon⟩ := by
        rw [← toRot_eq _ hu1]; exact (C41_position_quaternion ⟨0, lon⟩).2.1
      rw [hpd, rotH_mul, hpr, Matrix.mul_apply, Fin.sum_univ_three]
      simp [llaToCne, rotH]
      ring
    rw [hr22, hr, hps, abs_div, abs_of_pos hpos, div_le_iff₀ hpos]
    rw [abs_mul, abs_mul, abs_two, abs_of_pos hc0]
    have hx := abs_nonneg (xd 0)
    have h1 : 2 * c * |b| ≤ 2 * c * (|xd 0| / 12000000) := by
      exact mul_le_mul_of_nonneg_left hb1 (by positivity)
    have h2 : 2 * c * (|xd 0| / 12000000) ≤ 2 * |xd 0| / 6000000 * c ^ 2 := by
      have : 0 ≤ |xd 0| / 6000000 * c * (2 * c - 1) := by
        apply mul_nonneg; · positivity
        · linarith
      have e : 2 * |xd 0| / 6000000 * c ^ 2 - 2 * c * (|xd 0| / 12000000) = |xd 0| / 6000000 * c * (2 * c - 1) := by ring
      linarith
    have h3 : 2 * |xd 0| / 6000000 * c ^ 2 ≤ 2 * |xd 0| / 6000000 * (c ^ 2 + a ^ 2 + b ^ 2) := by
      apply mul_le_mul_of_nonneg_left _ (by positivity)
      have := sq_nonneg a; have := sq_nonneg b; linarith
    linarith

/-- A correction of one metre north and one metre east of a filter on the equator can make it hold 45° north. -/
example : ∃ lon, lon ∈ Set.Ioo (-Real.pi) Real.pi ∧
    ((onEquator Ex.zFusion lon 0).feedBack (fun i => if i = 0 then 1 else if i = 1 then 1 else 0)).ins.nav.pos 0 = Real.pi / 4 := by
  have hpi := Real.pi_pos
  obtain ⟨lon, h1, h2, -⟩ := C176_after_correction Ex.zFusion 0 (Real.pi / 4) le_rfl ⟨by linarith, by linarith⟩ (by positivity)
    (fun i => if i = 0 then 1 else if i = 1 then 1 else 0) (by simp) (by simp) (by simp) (by simp)
  exact ⟨lon, h1, h2⟩

/-- A quaternion that stands for 45° north, 90° east, turned by one thousandth: C176_error_partial applies. -/
example : standsFor (turnedPlace (Real.pi / 4) (Real.pi / 2) (1 / 1000)) (Real.pi / 4) (Real.pi / 2) :=
  (standsFor_iff _ _ _).2 ⟨_, rfl⟩
end Verif.Props
