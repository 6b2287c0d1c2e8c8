import Verif.Props.Convert
import Verif.Props.Fusion
/-! C120: the ranges of reported latitude and longitude, and longitudes given modulo 360 degrees. -/
namespace Verif.Props
open Verif Verif.Convert Verif.Spec

/-- C120, what always holds: a reported latitude lies in (-270°, 90°), a longitude in (-360°, 360°]. -/
theorem C120_ranges_partial (q : Quat ℝ) :
    (qneToLla q).lat ∈ Set.Ioo (-(3 / 2) * Real.pi) (Real.pi / 2) ∧
    (qneToLla q).lon ∈ Set.Ioc (-2 * Real.pi) (2 * Real.pi) := by
  simp only [qneToLla, lit_real, pi_real, atan_real, atan2_real]
  push_cast
  have a1 := Real.neg_pi_div_two_lt_arctan (q.y / q.w)
  have a2 := Real.arctan_lt_pi_div_two (q.y / q.w)
  have b := Complex.arg_mem_Ioc (⟨q.w, q.z⟩ : ℂ)
  refine ⟨⟨by linarith, by linarith⟩, ⟨by linarith [b.1], by linarith [b.2]⟩⟩

/-- C120, the latitude is a geodetic one exactly when the `y` component has the sign opposite to `w`'s. -/
theorem C120_latitude_valid_iff (q : Quat ℝ) : -(Real.pi / 2) < (qneToLla q).lat ↔ q.y / q.w < 0 := by
  simp only [qneToLla, lit_real, pi_real, atan_real, atan2_real]
  push_cast
  rw [← Real.arctan_lt_zero]
  constructor <;> intro h <;> linarith

/-- C120 fails for longitudes: the position quaternion of a place between 180° and 360° east is reported with that
longitude, not with the equivalent one in (-180°, 180°]. -/
theorem C120_longitude_beyond_180 (lat lon : ℝ) (hlat : lat ∈ Set.Ioo (-(Real.pi / 2)) (Real.pi / 2))
    (hlon : lon ∈ Set.Ioo Real.pi (2 * Real.pi)) :
    qneToLla (llaToQne (⟨lat, lon⟩ : LatLon ℝ)) = ⟨lat, lon⟩ := by
  obtain ⟨a1, a2⟩ := hlat
  obtain ⟨b1, b2⟩ := hlon
  have hp := Real.pi_pos
  set phi := -(1 / 4) * Real.pi - 1 / 2 * lat with hphi
  set lam := 1 / 2 * lon with hlam
  have cphi : 0 < Real.cos phi := Real.cos_pos_of_mem_Ioo ⟨by rw [hphi]; linarith, by rw [hphi]; linarith⟩
  have clam : Real.cos lam < 0 := Real.cos_neg_of_pi_div_two_lt_of_lt (by rw [hlam]; linarith) (by rw [hlam]; linarith)
  have h1 : Real.sin phi * Real.cos lam / (Real.cos phi * Real.cos lam) = Real.tan phi := by
    rw [Real.tan_eq_sin_div_cos, mul_div_mul_right _ _ (ne_of_lt clam)]
  have h2 := Real.arctan_tan (x := phi) (by rw [hphi]; linarith) (by rw [hphi]; linarith)
  have h3 := arg_polar (Real.cos phi) lam cphi ⟨by rw [hlam]; linarith, by rw [hlam]; linarith⟩
  simp only [qneToLla, llaToQne, lit_real, pi_real, sin_real, cos_real, atan_real, atan2_real]
  push_cast
  rw [← hphi, ← hlam, h1, h2, h3, hphi, hlam]
  simp only [LatLon.mk.injEq]
  constructor <;> ring

/-- C120 fails for latitudes: a position that has passed the north pole by `d` is reported at latitude -270° + d. -/
theorem C120_latitude_over_the_pole (d lon : ℝ) (hd : d ∈ Set.Ioo 0 Real.pi) (hlon : lon ∈ Set.Ioo (-Real.pi) Real.pi) :
    (qneToLla (llaToQne (⟨Real.pi / 2 + d, lon⟩ : LatLon ℝ))).lat = -(3 / 2) * Real.pi + d := by
  obtain ⟨a1, a2⟩ := hd
  obtain ⟨b1, b2⟩ := hlon
  have hp := Real.pi_pos
  set phi := -(1 / 4) * Real.pi - 1 / 2 * (Real.pi / 2 + d) with hphi
  set lam := 1 / 2 * lon with hlam
  have clam : 0 < Real.cos lam := Real.cos_pos_of_mem_Ioo ⟨by rw [hlam]; linarith, by rw [hlam]; linarith⟩
  have h1 : Real.sin phi * Real.cos lam / (Real.cos phi * Real.cos lam) = Real.tan phi := by
    rw [Real.tan_eq_sin_div_cos, mul_div_mul_right _ _ (ne_of_gt clam)]
  have h2 := Real.arctan_tan (x := phi + Real.pi) (by rw [hphi]; linarith) (by rw [hphi]; linarith)
  rw [Real.tan_add_pi] at h2
  simp only [qneToLla, llaToQne, lit_real, pi_real, sin_real, cos_real, atan_real, atan2_real]
  push_cast
  rw [← hphi, ← hlam, h1, h2, hphi]
  ring

/-- The hypotheses are met: 10° past the date line at latitude 30°, 0.1 past the pole. -/
example : (Real.pi / 6) ∈ Set.Ioo (-(Real.pi / 2)) (Real.pi / 2) ∧ (190 / 180 * Real.pi) ∈ Set.Ioo Real.pi (2 * Real.pi) ∧
    (1 / 10 : ℝ) ∈ Set.Ioo 0 Real.pi := by
  have := Real.pi_gt_three
  refine ⟨⟨by linarith, by linarith⟩, ⟨by linarith, by linarith⟩, ⟨by norm_num, by linarith⟩⟩

/-- C120: the filter takes fixes with longitudes in either convention: adding 360° to the longitude of a fix changes
nothing. -/
theorem C120_fix_longitude_mod_360 (f : Fusion ℝ) (m : Gnss ℝ) :
    f.measureGnss { m with lon := m.lon + 360 } = f.measureGnss m := by
  have h : ∀ lat h : ℝ, llaToXyz (v3 lat ((m.lon + 360) * deg) h) = llaToXyz (v3 lat (m.lon * deg) h) := by
    intro lat h
    have e : (m.lon + 360) * (deg : ℝ) = m.lon * deg + 2 * Real.pi := by
      simp only [deg, pi_real, lit_real]; push_cast; ring
    simp only [llaToXyz, v3, cos_real, sin_real, Matrix.cons_val_zero, Matrix.cons_val_one, e,
      Real.cos_add_two_pi, Real.sin_add_two_pi]
    rfl
  have hz : ∀ (f : Fusion ℝ) (lat h : ℝ), f.posZ (v3 lat ((m.lon + 360) * deg) h) = f.posZ (v3 lat (m.lon * deg) h) := by
    intro f lat hh
    unfold Fusion.posZ
    rw [h]
  unfold Fusion.measureGnss Fusion.measurePos
  dsimp only
  rw [hz]
  rfl

end Verif.Props
