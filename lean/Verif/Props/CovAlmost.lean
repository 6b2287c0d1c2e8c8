import Verif.Props.CovFlight
/-! C26: what the code's prediction lacks to a valid covariance. -/
namespace Verif.Props
open Verif Verif.Spec Verif.Convert Matrix

theorem stepQ_real (f : Fusion ℝ) (phi : Matrix (Fin 15) (Fin 15) ℝ) : f.stepQ phi = (f.ins.dt / 2) • (phi * f.Q0 + f.Q0 * phiᵀ) := by
  unfold Fusion.stepQ
  rw [mmul_real, mmul_real]
  ext i j
  simp only [ms, sm, Matrix.smul_apply, Matrix.add_apply, smul_eq_mul, Fl.lit]
  push_cast
  ring

/-- C26: for every valid covariance, every valid noise and every transition matrix, what the code predicts is valid once half the interval times the noise, seen through the difference of the
transition matrix from the identity, is added: the code's symmetrised noise is the mean of the noise at both ends of the interval less exactly that. -/
theorem C26_lack_of_validity_partial (f : Fusion ℝ) (phi : Matrix (Fin 15) (Fin 15) ℝ) (hP : validCov f.kf.P) (hQ : validCov f.Q0) (hdt : 0 ≤ f.ins.dt) :
    validCov ((f.kf.predict phi (f.stepQ phi)).P + (f.ins.dt / 2) • ((phi - 1) * f.Q0 * (phi - 1)ᵀ)) := by
  rw [validCov_iff] at *
  rw [(predict_P f.kf phi _).1, stepQ_real]
  have e : phi * f.kf.P * phiᵀ + (f.ins.dt / 2) • (phi * f.Q0 + f.Q0 * phiᵀ) + (f.ins.dt / 2) • ((phi - 1) * f.Q0 * (phi - 1)ᵀ) =
      phi * f.kf.P * phiᵀ + (f.ins.dt / 2) • (f.Q0 + phi * f.Q0 * phiᵀ) := by
    rw [add_assoc, ← smul_add]
    congr 2
    rw [transpose_sub, transpose_one]
    noncomm_ring
  rw [e]
  have h1 := hP.mul_mul_conjTranspose_same phi
  have h2 := hQ.mul_mul_conjTranspose_same phi
  rw [conjTranspose_eq_transpose_of_trivial] at h1 h2
  exact h1.add ((hQ.add h2).smul (by positivity))

/-- A filter with unit covariance, unit noise and an interval of one second meets the hypotheses. -/
example : ∃ f : Fusion ℝ, validCov f.kf.P ∧ validCov f.Q0 ∧ f.Q0 ≠ 0 ∧ 0 ≤ f.ins.dt := by
  obtain ⟨f, hf⟩ : ∃ f : Fusion ℝ, f = { (Fusion.new (Ex.zJunk : Junk ℝ).df) with Q0 := 1, kf := Kf.ofState (fun _ => 0) 1, ins := { (Fusion.new (Ex.zJunk : Junk ℝ).df).ins with dt := 1 } } := ⟨_, rfl⟩
  refine ⟨f, ?_, ?_, ?_, ?_⟩
  · rw [hf, validCov_iff]; exact PosSemidef.one
  · rw [hf, validCov_iff]; exact PosSemidef.one
  · rw [hf]; exact one_ne_zero
  · rw [hf]; exact zero_le_one
end Verif.Props
