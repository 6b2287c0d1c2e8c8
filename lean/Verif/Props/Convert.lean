import Verif.Lemmas.Rotation
import Mathlib.Tactic.Positivity
import Mathlib.Analysis.Real.Pi.Bounds
import Mathlib.LinearAlgebra.Matrix.Adjugate
/-! Properties of the coordinate and attitude conversions, in exact arithmetic. -/
namespace Verif.Props
open Verif Verif.Spec Verif.Convert Matrix

/-- C38: the matrix of roll `e 0`, pitch `e 1`, heading `e 2` is the product of the three elementary rotations
and a rotation. -/
theorem C38_euler_matrix_is_rotation (e : V3 ℝ) :
    eulerToDcm e = Rz (e 2) * Ry (e 1) * Rx (e 0) ∧ isRot (eulerToDcm e) := by
  refine ⟨eulerToDcm_eq e, ?_⟩
  rw [eulerToDcm_eq]
  exact isRot_mul (isRot_mul (isRot_Rz _) (isRot_Ry _)) (isRot_Rx _)

/-- C39: the quaternion of the same angles has unit length and the same rotation matrix. -/
theorem C39_euler_quaternion_agrees (e : V3 ℝ) :
    qsq (eulerToQuat e) = 1 ∧ quatToDcm (eulerToQuat e) = eulerToDcm e := by
  refine ⟨qsq_euler e, ?_⟩
  rw [quatToDcm, toRot_eq _ (qsq_euler e), eulerToQuat_eq, rotH_mul, rotH_mul, rotH_qx, rotH_qy, rotH_qz, eulerToDcm_eq]

/-- The matrix of a unit quaternion turns vectors the way the quaternion does: `q v q*`. -/
theorem C39_matrix_acts_as_quaternion (q : Quat ℝ) (h : qsq q = 1) (v : V3 ℝ) :
    (qact q v).w = 0 ∧ (qact q v).x = (quatToDcm q *ᵥ v) 0 ∧ (qact q v).y = (quatToDcm q *ᵥ v) 1 ∧
      (qact q v).z = (quatToDcm q *ᵥ v) 2 := by
  rw [quatToDcm, toRot_eq q h]
  refine ⟨?_, ?_, ?_, ?_⟩ <;> simp [qact, Quat.mul, Quat.conj, rotH, mulVec, dotProduct, Fin.sum_univ_three] <;> ring

theorem arg_polar (r t : ℝ) (hr : 0 < r) (ht : t ∈ Set.Ioc (-Real.pi) Real.pi) :
    Complex.arg ⟨r * Real.cos t, r * Real.sin t⟩ = t := by
  have h := Complex.arg_mul_cos_add_sin_mul_I hr ht
  have e : (⟨r * Real.cos t, r * Real.sin t⟩ : ℂ) = r * (Complex.cos t + Complex.sin t * Complex.I) := by
    apply Complex.ext <;> simp [Complex.cos_ofReal_re, Complex.sin_ofReal_re, Complex.cos_ofReal_im, Complex.sin_ofReal_im]
  rw [e, h]

/-- C40: angles survive the round trip through the matrix, away from gimbal lock. -/
theorem C40_euler_round_trip (e : V3 ℝ) (hroll : e 0 ∈ Set.Ioc (-Real.pi) Real.pi)
    (hyaw : e 2 ∈ Set.Ioc (-Real.pi) Real.pi) (hpitch : e 1 ∈ Set.Ioo (-(Real.pi / 2)) (Real.pi / 2))
    (hlock : |Real.sin (e 1)| < 999 / 1000) : dcmToEuler (eulerToDcm e) = e := by
  have hc : 0 < Real.cos (e 1) := Real.cos_pos_of_mem_Ioo hpitch
  obtain ⟨h1, h2⟩ := abs_lt.1 hlock
  have c20 : eulerToDcm e 2 0 = -Real.sin (e 1) := by simp [eulerToDcm]
  have c21 : eulerToDcm e 2 1 = Real.cos (e 1) * Real.sin (e 0) := by simp [eulerToDcm]; ring
  have c22 : eulerToDcm e 2 2 = Real.cos (e 1) * Real.cos (e 0) := by simp [eulerToDcm]; ring
  have c10 : eulerToDcm e 1 0 = Real.cos (e 1) * Real.sin (e 2) := by simp [eulerToDcm]
  have c00 : eulerToDcm e 0 0 = Real.cos (e 1) * Real.cos (e 2) := by simp [eulerToDcm]
  unfold dcmToEuler
  simp only [c20, c21, c22, c10, c00, le_real, lit_real, atan2_real]
  rw [if_neg (by push_cast; linarith), if_neg (by push_cast; linarith)]
  have hs : Real.sqrt (Real.cos (e 1) * Real.sin (e 0) * (Real.cos (e 1) * Real.sin (e 0)) +
      Real.cos (e 1) * Real.cos (e 0) * (Real.cos (e 1) * Real.cos (e 0))) = Real.cos (e 1) := by
    have : Real.cos (e 1) * Real.sin (e 0) * (Real.cos (e 1) * Real.sin (e 0)) +
      Real.cos (e 1) * Real.cos (e 0) * (Real.cos (e 1) * Real.cos (e 0)) = Real.cos (e 1) ^ 2 := by
      linear_combination Real.cos (e 1) ^ 2 * Real.sin_sq_add_cos_sq (e 0)
    rw [this, Real.sqrt_sq hc.le]
  have hp : (Fl.atan (- -Real.sin (e 1) / Fl.sqrt (Real.cos (e 1) * Real.sin (e 0) * (Real.cos (e 1) * Real.sin (e 0)) +
      Real.cos (e 1) * Real.cos (e 0) * (Real.cos (e 1) * Real.cos (e 0)))) : ℝ) = e 1 := by
    rw [sqrt_real, hs, atan_real, neg_neg, ← Real.tan_eq_sin_div_cos]
    exact Real.arctan_tan hpitch.1 hpitch.2
  rw [hp, arg_polar _ _ hc hroll, arg_polar _ _ hc hyaw]
  ext i; fin_cases i <;> rfl

/-- The hypotheses of `C40_euler_round_trip` are met by a level vehicle heading east. -/
example : ∃ e : V3 ℝ, e 2 ≠ 0 ∧ e 0 ∈ Set.Ioc (-Real.pi) Real.pi ∧ e 2 ∈ Set.Ioc (-Real.pi) Real.pi ∧
    e 1 ∈ Set.Ioo (-(Real.pi / 2)) (Real.pi / 2) ∧ |Real.sin (e 1)| < 999 / 1000 := by
  have := Real.pi_pos
  refine ⟨v3 0 0 (Real.pi / 2), ?_, ?_, ?_, ?_, ?_⟩ <;> simp [v3] <;> first | constructor <;> linarith | linarith | norm_num

/-- C40: at and beyond the lock threshold roll is reported as NaN, whatever the arithmetic. -/
theorem C40_lock_reports_nan {α : Type} [Add α] [Sub α] [Mul α] [Neg α] [Div α] [Zero α] [One α] [Fl α] (c : M3 α)
    (h : Fl.le (c 2 0) (Fl.lit (-999 / 1000)) = true ∨ Fl.le (Fl.lit (999 / 1000)) (c 2 0) = true) :
    dcmToEuler c 0 = Fl.nan := by
  unfold dcmToEuler
  split_ifs with h1 h2
  · rfl
  · rfl
  · rcases h with h | h <;> contradiction

theorem polar_arg (x y c : ℝ) (hc : 0 < c) (h : x ^ 2 + y ^ 2 = c ^ 2) :
    Real.cos (Complex.arg ⟨x, y⟩) = x / c ∧ Real.sin (Complex.arg ⟨x, y⟩) = y / c := by
  have hn : ‖(⟨x, y⟩ : ℂ)‖ = c := by
    rw [Complex.norm_def, Complex.normSq_mk, ← sq, ← sq, h, Real.sqrt_sq hc.le]
  have h0 : (⟨x, y⟩ : ℂ) ≠ 0 := by rw [← norm_pos_iff, hn]; exact hc
  exact ⟨by rw [Complex.cos_arg h0, hn], by rw [Complex.sin_arg, hn]⟩

/-- C40, the other direction: every rotation matrix away from gimbal lock is recovered from its angles. -/
theorem C40_matrix_round_trip (C : M3 ℝ) (hC : isRot C) (hlock : |C 2 0| < 999 / 1000) :
    eulerToDcm (dcmToEuler C) = C := by
  obtain ⟨h1, h2, h3⟩ := hC
  obtain ⟨hl, hu⟩ := abs_lt.1 hlock
  have hadj : C.adjugate = Cᵀ := by
    have : C.adjugate * (C * Cᵀ) = Cᵀ := by rw [← Matrix.mul_assoc, adjugate_mul, h3, one_smul, Matrix.one_mul]
    rwa [h1, Matrix.mul_one] at this
  have row : C 2 0 ^ 2 + C 2 1 ^ 2 + C 2 2 ^ 2 = 1 := by
    have := congrFun (congrFun h1 2) 2
    simp [Matrix.mul_apply, Fin.sum_univ_three] at this; linarith
  have col : C 0 0 ^ 2 + C 1 0 ^ 2 + C 2 0 ^ 2 = 1 := by
    have := congrFun (congrFun h2 0) 0
    simp [Matrix.mul_apply, Fin.sum_univ_three] at this; linarith
  have a01 : C 0 1 = -(C 1 0 * C 2 2) + C 1 2 * C 2 0 := by
    have := congrFun (congrFun hadj 1) 0
    simp [adjugate_fin_three] at this; linarith
  have a11 : C 1 1 = C 0 0 * C 2 2 - C 0 2 * C 2 0 := by
    have := congrFun (congrFun hadj 1) 1
    simp [adjugate_fin_three] at this; linarith
  have a02 : C 0 2 = C 1 0 * C 2 1 - C 1 1 * C 2 0 := by
    have := congrFun (congrFun hadj 2) 0
    simp [adjugate_fin_three] at this; linarith
  have a12 : C 1 2 = -(C 0 0 * C 2 1) + C 0 1 * C 2 0 := by
    have := congrFun (congrFun hadj 2) 1
    simp [adjugate_fin_three] at this; linarith
  have hd : C 2 0 ^ 2 < 1 := by nlinarith
  set c := Real.sqrt (1 - C 2 0 ^ 2) with hcdef
  have hc : 0 < c := Real.sqrt_pos.2 (by linarith)
  have hc2 : c ^ 2 = 1 - C 2 0 ^ 2 := Real.sq_sqrt (by linarith)
  obtain ⟨r1, r2⟩ := polar_arg (C 2 2) (C 2 1) c hc (by rw [hc2]; linarith)
  obtain ⟨y1, y2⟩ := polar_arg (C 0 0) (C 1 0) c hc (by rw [hc2]; linarith)
  have hsq : Real.sqrt (C 2 1 * C 2 1 + C 2 2 * C 2 2) = c := by rw [hcdef]; congr 1; linarith
  have p1 : Real.cos (Real.arctan (-(C 2 0) / c)) = c := by
    rw [Real.cos_arctan]
    have : 1 + (-(C 2 0) / c) ^ 2 = (1 / c) ^ 2 := by field_simp; linarith
    rw [this, Real.sqrt_sq (by positivity)]; field_simp
  have p2 : Real.sin (Real.arctan (-(C 2 0) / c)) = -(C 2 0) := by
    rw [← Real.tan_mul_cos (Real.cos_arctan_pos _).ne', Real.tan_arctan, p1]; field_simp
  have he : dcmToEuler C = v3 (Complex.arg ⟨C 2 2, C 2 1⟩) (Real.arctan (-(C 2 0) / c)) (Complex.arg ⟨C 0 0, C 1 0⟩) := by
    unfold dcmToEuler
    simp only [le_real, lit_real, atan2_real, sqrt_real, hsq, atan_real]
    rw [if_neg (by push_cast; linarith), if_neg (by push_cast; linarith)]
  have e01 : C 0 1 * c ^ 2 = -(C 0 0 * C 2 0 * C 2 1) - C 1 0 * C 2 2 := by
    rw [hc2]; linear_combination a01 + C 2 0 * a12
  have e12 : C 1 2 * c ^ 2 = -(C 0 0 * C 2 1) - C 1 0 * C 2 2 * C 2 0 := by
    rw [hc2]; linear_combination a12 + C 2 0 * a01
  have e11 : C 1 1 * c ^ 2 = C 0 0 * C 2 2 - C 1 0 * C 2 1 * C 2 0 := by
    rw [hc2]; linear_combination a11 - C 2 0 * a02
  have e02 : C 0 2 * c ^ 2 = C 1 0 * C 2 1 - C 0 0 * C 2 2 * C 2 0 := by
    rw [hc2]; linear_combination a02 - C 2 0 * a11
  rw [he]
  ext i j
  fin_cases i <;> fin_cases j <;> simp [eulerToDcm, v3, p1, p2, r1, r2, y1, y2] <;> field_simp <;> linarith

/-- The hypotheses of `C40_matrix_round_trip` are met by a quarter turn about the vertical. -/
example : isRot (Rz (Real.pi / 2)) ∧ |Rz (Real.pi / 2) 2 0| < 999 / 1000 ∧ Rz (Real.pi / 2) ≠ 1 := by
  refine ⟨isRot_Rz _, by simp [Rz], fun h => ?_⟩
  have := congrFun (congrFun h 1) 0
  simp [Rz] at this

/-- C41: latitude and longitude survive the round trip through the position quaternion, off the poles and the
date line. -/
theorem C41_lat_lon_round_trip (ll : LatLon ℝ) (hlat : ll.lat ∈ Set.Ioo (-(Real.pi / 2)) (Real.pi / 2))
    (hlon : ll.lon ∈ Set.Ioo (-Real.pi) Real.pi) : qneToLla (llaToQne ll) = ll := by
  obtain ⟨lat, lon⟩ := ll
  obtain ⟨a1, a2⟩ := hlat
  obtain ⟨b1, b2⟩ := hlon
  dsimp only at *
  have hp := Real.pi_pos
  set phi := -(1 / 4) * Real.pi - 1 / 2 * lat with hphi
  set lam := 1 / 2 * lon with hlam
  have cphi : 0 < Real.cos phi := Real.cos_pos_of_mem_Ioo ⟨by rw [hphi]; linarith, by rw [hphi]; linarith⟩
  have clam : 0 < Real.cos lam := Real.cos_pos_of_mem_Ioo ⟨by rw [hlam]; linarith, by rw [hlam]; linarith⟩
  have h1 : Real.sin phi * Real.cos lam / (Real.cos phi * Real.cos lam) = Real.tan phi := by
    rw [Real.tan_eq_sin_div_cos]; field_simp
  have h2 := Real.arctan_tan (x := phi) (by rw [hphi]; linarith) (by rw [hphi]; linarith)
  have h3 := arg_polar (Real.cos phi) lam cphi ⟨by rw [hlam]; linarith, by rw [hlam]; linarith⟩
  simp only [qneToLla, llaToQne, lit_real, pi_real, sin_real, cos_real, atan_real, atan2_real]
  push_cast
  rw [← hphi, ← hlam, h1, h2, h3, hphi, hlam]
  simp only [LatLon.mk.injEq]
  constructor <;> ring

example : ∃ ll : LatLon ℝ, ll.lat ∈ Set.Ioo (-(Real.pi / 2)) (Real.pi / 2) ∧ ll.lon ∈ Set.Ioo (-Real.pi) Real.pi ∧
    ll.lat ≠ 0 ∧ ll.lon ≠ 0 := by
  have := Real.pi_gt_three
  exact ⟨⟨1 / 2, 2⟩, ⟨by linarith, by linarith⟩, ⟨by linarith, by linarith⟩, by norm_num, by norm_num⟩

/-- C41: for every latitude and longitude the position quaternion has unit length, its matrix is the
navigation-to-earth matrix, and that is a rotation whose columns point north, east and down. -/
theorem C41_position_quaternion (ll : LatLon ℝ) :
    qsq (llaToQne ll) = 1 ∧ quatToDcm (llaToQne ll) = llaToCne ll ∧ isRot (llaToCne ll) := by
  obtain ⟨lat, lon⟩ := ll
  set phi := -(1 / 4) * Real.pi - 1 / 2 * lat with hphi
  set lam := 1 / 2 * lon with hlam
  have hq : llaToQne (⟨lat, lon⟩ : LatLon ℝ) = (qz (2 * lam)).mul (qy (2 * phi)) := by
    simp only [llaToQne, lit_real, pi_real, sin_real, cos_real, qz, qy, Quat.mul]
    push_cast
    rw [← hphi, ← hlam, show 2 * lam / 2 = lam by ring, show 2 * phi / 2 = phi by ring]
    simp only [Quat.mk.injEq]
    refine ⟨?_, ?_, ?_, ?_⟩ <;> ring
  have h1 : qsq (llaToQne (⟨lat, lon⟩ : LatLon ℝ)) = 1 := by
    rw [hq, qsq_mul, (qsq_q _).2.1, (qsq_q _).2.2, one_mul]
  have h2 : quatToDcm (llaToQne (⟨lat, lon⟩ : LatLon ℝ)) = llaToCne ⟨lat, lon⟩ := by
    rw [quatToDcm, toRot_eq _ h1, hq, rotH_mul, rotH_qz, rotH_qy]
    have e1 : Real.cos (2 * phi) = -Real.sin lat := by
      rw [show 2 * phi = -(lat + Real.pi / 2) by rw [hphi]; ring, Real.cos_neg, Real.cos_add_pi_div_two]
    have e2 : Real.sin (2 * phi) = -Real.cos lat := by
      rw [show 2 * phi = -(lat + Real.pi / 2) by rw [hphi]; ring, Real.sin_neg, Real.sin_add_pi_div_two]
    have e3 : 2 * lam = lon := by rw [hlam]; ring
    ext i j
    fin_cases i <;> fin_cases j <;>
      simp [Rz, Ry, llaToCne, Matrix.mul_apply, Fin.sum_univ_three, e1, e2, e3] <;> ring
  refine ⟨h1, h2, ?_⟩
  rw [← h2]
  exact toRot_isRot _ h1

/-- C42: the skew matrix is the cross product; the two-sample rotation vector of a constant rate is the plain
increment. -/
theorem C42_skew_is_cross (v w : V3 ℝ) :
    mvec (skew v) w = v3 (v 1 * w 2 - v 2 * w 1) (v 2 * w 0 - v 0 * w 2) (v 0 * w 1 - v 1 * w 0) ∧
    cross v w = mvec (skew v) w ∧ (skew v)ᵀ = -skew v ∧ gyroToRv v v = v := by
  refine ⟨?_, ?_, ?_, ?_⟩
  · rw [mvec_real]; ext i; fin_cases i <;> simp [skew, v3, mulVec, dotProduct, Fin.sum_univ_three] <;> ring
  · rw [mvec_real]; ext i; fin_cases i <;> simp [cross, skew, v3, mulVec, dotProduct, Fin.sum_univ_three] <;> ring
  · ext i j; fin_cases i <;> fin_cases j <;> simp [skew]
  · ext i; fin_cases i <;> simp [gyroToRv, cross, v3, vd] <;> ring

/-- WGS84 numbers, independently of the model. -/
noncomputable def wgsA : ℝ := 6378137
@[inherit_doc wgsA] noncomputable def wgsE2 : ℝ := 0.00669437999013

theorem e2_val : (Earth.e2 : ℝ) = wgsE2 := by simp [Earth.e2, wgsE2]; norm_num
theorem a_val : (Earth.a : ℝ) = wgsA := by simp [Earth.a, wgsA]

theorem den_bounds (lat : ℝ) : 1 - wgsE2 ≤ 1 - wgsE2 * Real.sin lat * Real.sin lat ∧
    1 - wgsE2 * Real.sin lat * Real.sin lat ≤ 1 ∧ 0 < 1 - wgsE2 := by
  have h1 := Real.sin_sq_add_cos_sq lat
  have h2 := sq_nonneg (Real.sin lat)
  have h3 := sq_nonneg (Real.cos lat)
  unfold wgsE2
  refine ⟨by nlinarith, by nlinarith, by norm_num⟩

theorem RN_val (lat : ℝ) : Earth.RN lat = wgsA / Real.sqrt (1 - wgsE2 * Real.sin lat * Real.sin lat) := by
  simp [Earth.RN, e2_val, a_val]
theorem RM_val (lat : ℝ) : Earth.RM lat = wgsA * (1 - wgsE2) /
    ((1 - wgsE2 * Real.sin lat * Real.sin lat) * Real.sqrt (1 - wgsE2 * Real.sin lat * Real.sin lat)) := by
  obtain ⟨h1, h2, h3⟩ := den_bounds lat
  have h4 : (0 : ℝ) < 1 - wgsE2 * Real.sin lat * Real.sin lat := by linarith
  simp only [Earth.RM, e2_val, a_val, sin_real, pow_real, lit_real]
  congr 1
  rw [show (((3 / 2 : ℚ)) : ℝ) = 1 + 1 / 2 by push_cast; norm_num, Real.rpow_add h4, Real.rpow_one, ← Real.sqrt_eq_rpow]

/-- C44: both radii of curvature are even in latitude, positive, ordered and bounded by the polar and equatorial
values, so `R + h` never vanishes above 6000 km below the surface. -/
theorem C44_radii (lat : ℝ) :
    Earth.RM (-lat) = Earth.RM lat ∧ Earth.RN (-lat) = Earth.RN lat ∧
    wgsA * (1 - wgsE2) ≤ Earth.RM lat ∧ Earth.RM lat ≤ Earth.RN lat ∧
    wgsA ≤ Earth.RN lat ∧ Earth.RN lat ≤ wgsA / Real.sqrt (1 - wgsE2) ∧
    (∀ h : ℝ, -6000000 < h → 0 < Earth.RM lat + h ∧ 0 < Earth.RN lat + h) := by
  obtain ⟨h1, h2, h3⟩ := den_bounds lat
  have ev1 : Earth.RM (-lat) = Earth.RM lat := by rw [RM_val, RM_val]; simp
  have ev2 : Earth.RN (-lat) = Earth.RN lat := by rw [RN_val, RN_val]; simp
  rw [ev1, ev2, RM_val, RN_val]
  set d := 1 - wgsE2 * Real.sin lat * Real.sin lat with hd
  have d0 : 0 < d := by linarith
  have hA : 0 < wgsA := by unfold wgsA; norm_num
  have s0 : 0 < Real.sqrt d := Real.sqrt_pos.2 d0
  have s1 : Real.sqrt d ≤ 1 := by rw [← Real.sqrt_one]; exact Real.sqrt_le_sqrt h2
  have m1 : wgsA * (1 - wgsE2) ≤ wgsA * (1 - wgsE2) / (d * Real.sqrt d) := by
    rw [le_div_iff₀ (by positivity)]
    have : d * Real.sqrt d ≤ 1 := by nlinarith
    nlinarith [mul_pos hA h3]
  have m2 : wgsA * (1 - wgsE2) / (d * Real.sqrt d) ≤ wgsA / Real.sqrt d := by
    rw [div_le_div_iff₀ (by positivity) s0]
    nlinarith [mul_pos hA s0]
  have m3 : wgsA ≤ wgsA / Real.sqrt d := by
    rw [le_div_iff₀ s0]; nlinarith
  have m4 : wgsA / Real.sqrt d ≤ wgsA / Real.sqrt (1 - wgsE2) :=
    div_le_div_of_nonneg_left hA.le (Real.sqrt_pos.2 h3) (Real.sqrt_le_sqrt h1)
  refine ⟨rfl, rfl, m1, m2, m3, m4, fun h hh => ?_⟩
  have : (6000000 : ℝ) ≤ wgsA * (1 - wgsE2) := by unfold wgsA wgsE2; norm_num
  constructor <;> linarith

/-- C45: with heights, coinciding points are at distance zero in every component, and the down component is the
height difference. -/
theorem C45_distance_with_heights (lat1 lon1 lat2 lon2 h1 h2 : ℝ) :
    Earth.distance6 lat1 lon1 lat1 lon1 h1 h1 = v3 0 0 0 ∧
    Earth.distance6 lat1 lon1 lat2 lon2 h1 h2 2 = h1 - h2 ∧
    Earth.distance6 lat1 lon1 lat2 lon2 h1 h2 1 = -Earth.distance6 lat2 lon2 lat1 lon1 h2 h1 1 := by
  refine ⟨?_, ?_, ?_⟩
  · ext i; fin_cases i <;> simp [Earth.distance6, Earth.dN3, Earth.dE4, v3]
  · simp [Earth.distance6, v3]
  · simp only [Earth.distance6, Earth.dE4, v3, Matrix.cons_val_one, Matrix.cons_val_zero, lit_real]
    rw [add_comm (lat1 / _), add_comm (h1 / _)]
    ring

/-- C45, the violation: without heights a point that is not on the line `lat = lon` (or with `cos lon = 0`) has a
non-zero distance to itself. -/
theorem C45_distance_without_heights_wrong (lat lon : ℝ) (h : lat ≠ lon) (hc : Real.cos lon ≠ 0) :
    Earth.distance4 lat lon lat lon ≠ v3 0 0 0 := by
  intro e
  have e1 := congrFun e 1
  simp only [Earth.distance4, Earth.dE3, v3, Matrix.cons_val_one, Matrix.cons_val_zero, cos_real] at e1
  have hr : 0 < Earth.RN lon := by
    have := (C44_radii lon).2.2.2.2.1
    have h0 : (0 : ℝ) < wgsA := by unfold wgsA; norm_num
    linarith
  rcases mul_eq_zero.1 e1 with h1 | h1
  · rcases mul_eq_zero.1 h1 with h1 | h1
    · exact hr.ne' h1
    · exact hc h1
  · exact h (sub_eq_zero.1 h1)

/-- For instance one radian north on the zero meridian. -/
example : Earth.distance4 (1 : ℝ) 0 1 0 ≠ v3 0 0 0 :=
  C45_distance_without_heights_wrong 1 0 one_ne_zero (by simp)

/-- C46: at height zero the point satisfies the equation of the ellipsoid, and a height displaces it by exactly
that length against the local down direction. -/
theorem C46_ecef (lat lon h : ℝ) :
    (llaToXyz (v3 lat lon 0) 0 ^ 2 + llaToXyz (v3 lat lon 0) 1 ^ 2) / wgsA ^ 2 +
      llaToXyz (v3 lat lon 0) 2 ^ 2 / (wgsA ^ 2 * (1 - wgsE2)) = 1 ∧
    llaToXyz (v3 lat lon h) = llaToXyz (v3 lat lon 0) + mvec (llaToCne ⟨lat, lon⟩) (v3 0 0 (-h)) := by
  constructor
  · obtain ⟨h1, h2, h3⟩ := den_bounds lat
    simp only [llaToXyz, v3, Matrix.cons_val_zero, Matrix.cons_val_one, Matrix.cons_val_two, Matrix.tail_cons, Matrix.head_cons,
      cos_real, sin_real, e2_val, Matrix.cons_val, add_zero]
    rw [RN_val]
    set d := 1 - wgsE2 * Real.sin lat * Real.sin lat with hd
    have d0 : 0 < d := by linarith
    have s0 : Real.sqrt d ≠ 0 := (Real.sqrt_pos.2 d0).ne'
    have s2 : Real.sqrt d ^ 2 = d := Real.sq_sqrt d0.le
    have hA : wgsA ≠ 0 := by unfold wgsA; norm_num
    have t1 := Real.sin_sq_add_cos_sq lat
    have t2 := Real.sin_sq_add_cos_sq lon
    field_simp
    rw [s2, hd]
    linear_combination (Real.cos lat) ^ 2 * t2 + t1
  · rw [mvec_real]
    ext i
    fin_cases i <;>
      simp [llaToXyz, llaToCne, v3, mulVec, dotProduct, Fin.sum_univ_three] <;> ring
end Verif.Props
