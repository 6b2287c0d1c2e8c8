import Verif.Model.ErrAnalysis
/-! How often an error is small. -/
namespace Verif.Spec
open Classical in
/-- How many of the values are below `t`. -/
noncomputable def below (xs : List ℝ) (t : ℝ) : Nat := xs.countP fun x => decide (x < t)

/-- The same direction. -/
def sameAngle (a b : ℝ) : Prop := ∃ k : Int, a - b = 360 * k
end Verif.Spec
