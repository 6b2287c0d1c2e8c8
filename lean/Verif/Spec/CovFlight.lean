import Verif.Spec.FilterFlight
import Verif.Model.Fusion
/-! Vocabulary: bounds on what the options of a filter say about its uncertainties. -/
namespace Verif.Spec
open Verif Matrix

/-- The deviations a configuration gives the filter are at most `s`, its random walks at most `q`, and its correlation times at least `τ`. -/
structure SpreadsWithin (s q τ : ℝ) (o : Opt ℝ) : Prop where
  pos : ∀ i, |o.posStd i| ≤ s
  vel : ∀ i, |o.velStd i| ≤ s
  atti : ∀ i, |o.attiStd i| ≤ s
  gb : ∀ i, |o.imuPara.gbStd i| ≤ s
  ab : ∀ i, |o.imuPara.abStd i| ≤ s
  vrw : |o.imuPara.vrw| ≤ q
  arw : |o.imuPara.arw| ≤ q
  gt : τ ≤ o.imuPara.gtCorr
  at' : τ ≤ o.imuPara.atCorr

/-- A fix within `ε` of the antenna `a`, whose variances, scaled as configured, are at least `σ²`. -/
structure FixWithin (σ ε scale : ℝ) (m : Gnss ℝ) (a : V3 ℝ) : Prop where
  near : len (a - fixPlace m) ≤ ε
  dev : ∀ i, σ ^ 2 ≤ m.posStd i ^ 2 * scale
end Verif.Spec
