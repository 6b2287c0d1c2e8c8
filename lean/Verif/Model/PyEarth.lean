import Verif.Num
import Verif.Types
import Verif.Model.Convert
import Verif.Lemmas.Real
import Mathlib.Analysis.SpecialFunctions.Trigonometric.Arctan
import Mathlib.Analysis.SpecialFunctions.Complex.Arg
/-! Model of the geodetic conversions of Tools/Earth.py (class `WGS84`, the same text as in Tools/InsCore.py:40-145) and of the
lever-arm compensation of Tools/ErrorAnalyser.py, over the real numbers: rounding is not modelled, and `numpy`'s quiet division by zero is
avoided by the hypotheses of the theorems (points off the axis of the earth). -/
namespace Verif.PyEarth
open Verif

/-- `self.r`, Earth.py:17. -/
noncomputable def r : ℝ := 6378137
/-- `self.e2`, Earth.py:21. -/
noncomputable def e2 : ℝ := 669437999013 / 100000000000000

/-- `RN`, Earth.py:32-33. -/
noncomputable def RN (phi : ℝ) : ℝ := r / Real.sqrt (1 - e2 * Real.sin phi * Real.sin phi)

/-- `lla_to_ecef`, Earth.py:63-76. -/
noncomputable def llaToEcef (lat lon h : ℝ) : ℝ × ℝ × ℝ :=
  ((RN lat + h) * Real.cos lat * Real.cos lon, (RN lat + h) * Real.cos lat * Real.sin lon, (RN lat * (1 - e2) + h) * Real.sin lat)

/-- The loop of `ecef_to_lla`, Earth.py:48-61: latitude and height when it ends and whether it ended with the message; `left`
rounds may follow this one (`circle` is 10 less `left` at its start). -/
noncomputable def rounds (p z : ℝ) : Nat → ℝ → ℝ → ℝ × ℝ × Bool
  | left, lat, hPre =>
    let rn := RN lat
    let h := p / Real.cos lat - rn
    let lat' := Complex.arg ⟨p * (1 - e2 * rn / (rn + h)), z⟩
    if @decide (|h - hPre| < 1 / 100000000) (Classical.propDecidable _) then (lat', h, false)
    else match left with
      | 0 => (lat', h, true)
      | k + 1 => rounds p z k lat' h

/-- `ecef_to_lla`, Earth.py:42-61: latitude, longitude, height, and whether the message was printed. -/
noncomputable def ecefToLla (x y z : ℝ) : ℝ × ℝ × ℝ × Bool :=
  let p := Real.sqrt (x ^ 2 + y ^ 2)
  let lon := 2 * Complex.arg ⟨x + p, y⟩
  let lat := Real.arctan (z / (p * (1 - e2)))
  let res := rounds p z 10 lat 0
  (res.1, lon, res.2.1, res.2.2)

/-- `compensate`, ErrorAnalyser.py:22-32: degrees in, degrees out. -/
noncomputable def compensate (lat lon h : ℝ) (atti offset : V3 ℝ) : ℝ × ℝ × ℝ :=
  let d := Real.pi / 180
  let cbn : M3 ℝ := Convert.eulerToDcm (v3 (atti 0 * d) (atti 1 * d) (atti 2 * d))
  let cne : M3 ℝ := Convert.llaToCne ⟨lat * d, lon * d⟩
  let arm := (cne * cbn).mulVec offset
  let e := llaToEcef (lat * d) (lon * d) h
  let res := ecefToLla (e.1 + arm 0) (e.2.1 + arm 1) (e.2.2 + arm 2)
  (res.1 / d, res.2.1 / d, res.2.2.1)
end Verif.PyEarth
