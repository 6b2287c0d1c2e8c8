import Verif.Model.DcmEst
import Verif.Lemmas.Real
import Verif.Spec.Rotation
import Mathlib.LinearAlgebra.Matrix.Trace
import Mathlib.Tactic.LinearCombination
import Mathlib.Tactic.FieldSimp
import Mathlib.Tactic.Positivity
/-! C49, C80: the installation-angle estimator. -/
namespace Verif.Spec
open Verif Matrix
/-- Eigen's contract for a full singular value decomposition. -/
structure isSvd (W : M3 ℝ) (r : Svd ℝ) : Prop where
  u : r.Uᵀ * r.U = 1
  v : r.Vᵀ * r.V = 1
  eq : W = r.U * diagonal r.s * r.Vᵀ
  nonneg : ∀ i, 0 ≤ r.s i
  s01 : r.s 1 ≤ r.s 0
  s12 : r.s 2 ≤ r.s 1

/-- The weighted sum of the body velocities of a series of calls: every velocity times the forward speed, which is
the odometer reading if there is one and the first body component otherwise. -/
noncomputable def wsum (cs : List (DcmCall ℝ)) : V3 ℝ :=
  (cs.map fun c => (c.vf.getD (c.vb 0)) • c.vb).sum
/-- The sum of the squared odometer readings. -/
noncomputable def odoSq (cs : List (DcmCall ℝ)) : ℝ := (cs.map fun c => (c.vf.getD 0) ^ 2).sum
/-- Every decomposition made in a series of calls met the contract. -/
def allSvd : List (DcmCall ℝ) → Prop
  | cs => ∀ pre c, pre ++ [c] <+: cs → isSvd ((DcmEst.run pre).acc c).W c.svd
end Verif.Spec

namespace Verif.Props
open Verif Matrix Verif.Spec

theorem dcm_run_snoc (cs : List (DcmCall ℝ)) (c : DcmCall ℝ) : DcmEst.run (cs ++ [c]) = (DcmEst.run cs).update c := by
  simp [DcmEst.run, List.foldl_append]

/-- The accumulated matrix has the weighted sum as its first column and nothing else. -/
theorem dcm_W (cs : List (DcmCall ℝ)) : (DcmEst.run cs).W = (fun i j => if j = 0 then wsum cs i else 0) ∧
    (DcmEst.run cs).sumVf = odoSq cs := by
  induction cs using List.reverseRecOn with
  | nil => exact ⟨by ext i j; simp [DcmEst.run, DcmEst.mk0, wsum], by simp [DcmEst.run, DcmEst.mk0, odoSq]⟩
  | append_singleton cs c ih =>
    rw [dcm_run_snoc]
    have hw : wsum (cs ++ [c]) = wsum cs + (c.vf.getD (c.vb 0)) • c.vb := by simp [wsum]
    have ho : odoSq (cs ++ [c]) = odoSq cs + (c.vf.getD 0) ^ 2 := by simp [odoSq]
    rw [hw, ho]
    obtain ⟨h1, h2⟩ := ih
    unfold DcmEst.update DcmEst.acc DcmEst.calc
    cases hv : c.vf with
    | none =>
      refine ⟨?_, by simp [DcmEst.accNoOdo, h2]⟩
      ext i j
      simp only [DcmEst.accNoOdo, addCol0, h1]
      by_cases hj : j = 0 <;> simp [hj]
    | some vf =>
      refine ⟨?_, by simp [DcmEst.accOdo, h2]; ring⟩
      ext i j
      simp only [DcmEst.accOdo, addCol0, h1]
      by_cases hj : j = 0 <;> simp [hj]

/-- Everything about one decomposition of a matrix with only a first column. -/
theorem svd_col0 (w : V3 ℝ) (r : Svd ℝ) (h : isSvd (fun i j => if j = 0 then w i else 0) r) :
    let D := r.V * r.Uᵀ
    Dᵀ * D = 1 ∧ D * Dᵀ = 1 ∧ D *ᵥ w = len w • ![1, 0, 0] ∧ r.s 0 = len w := by
  intro D
  have hu' : r.U * r.Uᵀ = 1 := mul_eq_one_comm.mp h.u
  have hv' : r.V * r.Vᵀ = 1 := mul_eq_one_comm.mp h.v
  have hDD : Dᵀ * D = 1 := by
    show (r.V * r.Uᵀ)ᵀ * (r.V * r.Uᵀ) = 1
    rw [transpose_mul, transpose_transpose, Matrix.mul_assoc, ← Matrix.mul_assoc r.Vᵀ, h.v, Matrix.one_mul, hu']
  set W : M3 ℝ := fun i j => if j = 0 then w i else 0 with hW
  set S := D * W with hS
  have hSV : S = r.V * diagonal r.s * r.Vᵀ := by
    rw [hS, h.eq]
    show r.V * r.Uᵀ * (r.U * diagonal r.s * r.Vᵀ) = _
    rw [Matrix.mul_assoc r.V, ← Matrix.mul_assoc r.Uᵀ, ← Matrix.mul_assoc r.Uᵀ, h.u, Matrix.one_mul, ← Matrix.mul_assoc]
  have hsym : Sᵀ = S := by
    rw [hSV]; simp [transpose_mul, Matrix.mul_assoc]
  have hSS : S * S = Wᵀ * W := by
    calc S * S = Sᵀ * S := by rw [hsym]
      _ = Wᵀ * (Dᵀ * D) * W := by rw [hS, transpose_mul]; simp only [Matrix.mul_assoc]
      _ = Wᵀ * W := by rw [hDD, Matrix.mul_one]
  -- columns one and two of `S` are those of `D * W`, which vanish
  have hS1 : ∀ i j, j ≠ 0 → S i j = 0 := by
    intro i j hj
    rw [hS, Matrix.mul_apply]
    simp [hW, hj]
  have hS2 : ∀ i j, i ≠ 0 → S i j = 0 := by
    intro i j hi
    have := congrFun (congrFun hsym i) j
    rw [transpose_apply] at this
    rw [← this]; exact hS1 j i hi
  have hlen : len w ^ 2 = w 0 ^ 2 + w 1 ^ 2 + w 2 ^ 2 := Real.sq_sqrt (by positivity)
  have h00sq : S 0 0 ^ 2 = len w ^ 2 := by
    have := congrFun (congrFun hSS 0) 0
    simp only [Matrix.mul_apply, Fin.sum_univ_three, hS1 0 1 (by decide), hS1 0 2 (by decide), transpose_apply] at this
    simp only [hW, if_true] at this
    rw [hlen]; linarith
  have htr : S 0 0 = r.s 0 + r.s 1 + r.s 2 := by
    have h1 : S.trace = S 0 0 := by
      simp [Matrix.trace, Fin.sum_univ_three, hS1 1 1 (by decide), hS1 2 2 (by decide)]
    have h2 : S.trace = (diagonal r.s).trace := by
      rw [hSV, Matrix.trace_mul_comm, ← Matrix.mul_assoc, h.v, Matrix.one_mul]
    rw [← h1, h2]; simp [Matrix.trace, Fin.sum_univ_three]
  have h00 : S 0 0 = len w := by
    have hn : 0 ≤ S 0 0 := by rw [htr]; linarith [h.nonneg 0, h.nonneg 1, h.nonneg 2]
    have hl : 0 ≤ len w := Real.sqrt_nonneg _
    nlinarith
  have htr2 : r.s 0 ^ 2 + r.s 1 ^ 2 + r.s 2 ^ 2 = len w ^ 2 := by
    have h1 : (S * S).trace = len w ^ 2 := by
      rw [← h00sq]
      simp [Matrix.trace, Matrix.mul_apply, Fin.sum_univ_three, hS1 0 1 (by decide), hS1 0 2 (by decide),
        hS1 1 1 (by decide), hS1 1 2 (by decide), hS1 2 1 (by decide), hS1 2 2 (by decide), hS2 1 0 (by decide),
        hS2 2 0 (by decide)]
      ring
    have h2 : (S * S).trace = (diagonal r.s * diagonal r.s).trace := by
      rw [hSV]
      have : r.V * diagonal r.s * r.Vᵀ * (r.V * diagonal r.s * r.Vᵀ) = r.V * (diagonal r.s * diagonal r.s) * r.Vᵀ := by
        calc _ = r.V * diagonal r.s * (r.Vᵀ * r.V) * diagonal r.s * r.Vᵀ := by simp only [Matrix.mul_assoc]
          _ = _ := by rw [h.v, Matrix.mul_one]; simp only [Matrix.mul_assoc]
      rw [this, Matrix.trace_mul_comm, ← Matrix.mul_assoc, h.v, Matrix.one_mul]
    rw [← h1, h2]; simp [Matrix.trace, Fin.sum_univ_three]; ring
  refine ⟨hDD, mul_eq_one_comm.mp hDD, ?_, ?_⟩
  · have hc : D *ᵥ w = fun i => S i 0 := by
      ext i; rw [hS, Matrix.mul_apply]; simp [Matrix.mulVec, dotProduct, hW]
    rw [hc]
    ext i; fin_cases i
    · simp [h00]
    · simp [hS2 1 0 (by decide)]
    · simp [hS2 2 0 (by decide)]
  · rw [h00] at htr
    have ha := h.nonneg 0; have hb := h.nonneg 1; have hc := h.nonneg 2
    have hab : r.s 0 * r.s 1 = 0 := by
      rw [htr] at htr2
      have h1 := mul_nonneg ha hb; have h2 := mul_nonneg ha hc; have h3 := mul_nonneg hb hc
      nlinarith
    have h1 : r.s 1 = 0 := by
      rcases mul_eq_zero.mp hab with h0 | h0
      · linarith [h.s01]
      · exact h0
    have h2 : r.s 2 = 0 := le_antisymm (by linarith [h.s12]) hc
    rw [htr, h1, h2]; ring

/-- The last call decides what the estimator reports; before any call it reports the identity. -/
theorem dcm_last (cs : List (DcmCall ℝ)) (c : DcmCall ℝ) (h : allSvd (cs ++ [c])) :
    (DcmEst.run (cs ++ [c])).DCM = c.svd.V * c.svd.Uᵀ ∧
    (DcmEst.run (cs ++ [c])).scale = c.svd.s 0 / (odoSq (cs ++ [c]) + 1 / 10 ^ 30) ∧
    isSvd (fun i j => if j = 0 then wsum (cs ++ [c]) i else 0) c.svd := by
  have hw := dcm_W (cs ++ [c])
  have hs := h cs c List.prefix_rfl
  have e1 : ((DcmEst.run cs).acc c).W = (DcmEst.run (cs ++ [c])).W := by rw [dcm_run_snoc]; rfl
  have e2 : ((DcmEst.run cs).acc c).sumVf = (DcmEst.run (cs ++ [c])).sumVf := by rw [dcm_run_snoc]; rfl
  rw [e1, hw.1] at hs
  refine ⟨?_, ?_, hs⟩
  · rw [dcm_run_snoc]; simp only [DcmEst.update, DcmEst.calc, mmul_real]
  · rw [dcm_run_snoc]
    simp only [DcmEst.update, DcmEst.calc, e2, hw.2, lit_real]
    push_cast; rfl

/-- C49: after every series of updates the reported matrix is orthogonal, and it turns the accumulated body
velocity onto the forward axis without changing its length. -/
theorem C49_dcm_orthogonal (cs : List (DcmCall ℝ)) (h : allSvd cs) :
    let D := (DcmEst.run cs).DCM
    Dᵀ * D = 1 ∧ D * Dᵀ = 1 ∧ D *ᵥ wsum cs = len (wsum cs) • ![1, 0, 0] := by
  rcases List.eq_nil_or_concat cs with rfl | ⟨cs, c, rfl⟩
  · have : (DcmEst.run ([] : List (DcmCall ℝ))).DCM = 1 := by simp [DcmEst.run, DcmEst.mk0, eyeM_real]
    rw [this]
    refine ⟨by simp, by simp, ?_⟩
    simp only [wsum, List.map_nil, List.sum_nil, Matrix.mulVec_zero]
    have : len 0 = 0 := by simp [len]
    rw [this]; simp
  · simp only [List.concat_eq_append] at *
    obtain ⟨h1, _, h3⟩ := dcm_last cs c h
    obtain ⟨a, b, d, _⟩ := svd_col0 _ _ h3
    simp only [h1]
    exact ⟨a, b, d⟩

/-- C49: the reported matrix is the best one: no orthogonal matrix aligns the body velocities with the forward
direction better. -/
theorem C49_dcm_optimal (cs : List (DcmCall ℝ)) (h : allSvd cs) (Q : M3 ℝ) (hQ : Qᵀ * Q = 1) :
    (Q *ᵥ wsum cs) 0 ≤ ((DcmEst.run cs).DCM *ᵥ wsum cs) 0 := by
  rw [(C49_dcm_orthogonal cs h).2.2]
  set w := wsum cs
  have hn : (Q *ᵥ w) ⬝ᵥ (Q *ᵥ w) = w ⬝ᵥ w := by
    rw [Matrix.dotProduct_mulVec, Matrix.vecMul_mulVec, ← Matrix.dotProduct_mulVec, hQ, Matrix.one_mulVec]
  have hl : len w ^ 2 = w 0 ^ 2 + w 1 ^ 2 + w 2 ^ 2 := Real.sq_sqrt (by positivity)
  simp only [dotProduct, Fin.sum_univ_three] at hn
  have hp : 0 ≤ len w := Real.sqrt_nonneg _
  simp only [Pi.smul_apply, smul_eq_mul, Matrix.cons_val_zero, mul_one]
  apply abs_le_of_sq_le_sq' _ hp |>.2
  nlinarith [sq_nonneg ((Q *ᵥ w) 1), sq_nonneg ((Q *ᵥ w) 2)]

/-- The decomposition of one forward motion seen by a sensor that is mounted 90 degrees off: a proper rotation. -/
def demoSvd : Svd ℝ := ⟨!![0, -1, 0; 1, 0, 0; 0, 0, 1], ![6, 0, 0], 1⟩
/-- The same motion, an equally valid decomposition that is a reflection. -/
def demoSvd' : Svd ℝ := ⟨!![0, 1, 0; 1, 0, 0; 0, 0, 1], ![6, 0, 0], 1⟩

theorem demoSvd_ok : isSvd (fun i j => if j = 0 then (![0, 6, 0] : V3 ℝ) i else 0) demoSvd ∧
    isSvd (fun i j => if j = 0 then (![0, 6, 0] : V3 ℝ) i else 0) demoSvd' := by
  constructor <;> constructor
  all_goals first
    | (ext i j; fin_cases i <;> fin_cases j <;>
        simp only [demoSvd, demoSvd', Matrix.mul_apply, Fin.sum_univ_three, Matrix.diagonal_apply, Matrix.transpose_apply, Matrix.one_apply] <;> simp)
    | (intro i; fin_cases i <;> simp [demoSvd, demoSvd'])
    | simp [demoSvd, demoSvd']

theorem allSvd_one (c : DcmCall ℝ) (h : isSvd (fun i j => if j = 0 then wsum [c] i else 0) c.svd) : allSvd [c] := by
  intro pre c' hp
  obtain ⟨rfl, rfl⟩ : pre = [] ∧ c' = c := by
    obtain ⟨t, ht⟩ := hp
    cases pre with
    | nil => simp at ht; exact ⟨rfl, ht.1⟩
    | cons a l => simp at ht
  have e : ((DcmEst.run []).acc c').W = (DcmEst.run [c']).W := rfl
  rw [e, (dcm_W [c']).1]; exact h

/-- C49, the violation of "rotation": the decomposition is free to return a reflection, and the estimator passes
it on. Two runs on the same data, both within Eigen's contract, report matrices of opposite handedness. -/
theorem C49_can_be_reflection : ∃ cs : List (DcmCall ℝ), allSvd cs ∧ (DcmEst.run cs).DCM.det = -1 ∧
    ∃ cs', allSvd cs' ∧ cs'.map (fun c => (c.vb, c.vf)) = cs.map (fun c => (c.vb, c.vf)) ∧
      (DcmEst.run cs').DCM.det = 1 := by
  have hw : ∀ s, wsum [(⟨![0, 3, 0], some 2, s⟩ : DcmCall ℝ)] = ![0, 6, 0] := by
    intro s; ext i; fin_cases i <;> norm_num [wsum]
  refine ⟨[⟨![0, 3, 0], some 2, demoSvd'⟩], allSvd_one _ (by rw [hw]; exact demoSvd_ok.2), ?_,
    [⟨![0, 3, 0], some 2, demoSvd⟩], allSvd_one _ (by rw [hw]; exact demoSvd_ok.1), rfl, ?_⟩
  · simp only [DcmEst.run, List.foldl, DcmEst.update, DcmEst.calc, mmul_real, demoSvd']
    simp [Matrix.det_fin_three]
  · simp only [DcmEst.run, List.foldl, DcmEst.update, DcmEst.calc, mmul_real, demoSvd]
    simp [Matrix.det_fin_three]

/-- C80: with an odometer that reads a true speed and body velocities that are `k` times it along one fixed
direction, the reported scale is `k`, up to the guard against division by zero. -/
theorem C80_scale_factor (cs : List (DcmCall ℝ)) (hne : cs ≠ []) (h : allSvd cs) (k : ℝ) (hk : 0 ≤ k) (u : V3 ℝ)
    (hu : len u = 1) (hc : ∀ c ∈ cs, ∃ f, c.vf = some f ∧ c.vb = (k * f) • u) :
    (DcmEst.run cs).scale * (odoSq cs + 1 / 10 ^ 30) = k * odoSq cs := by
  have hpos : 0 ≤ odoSq cs := by
    apply List.sum_nonneg; intro x hx
    obtain ⟨c, _, rfl⟩ := List.mem_map.mp hx; positivity
  have hw : wsum cs = (k * odoSq cs) • u := by
    clear hne h hpos
    induction cs with
    | nil => simp [wsum, odoSq]
    | cons c cs ih =>
      obtain ⟨f, hf, hb⟩ := hc c (by simp)
      have ih' := ih fun c' hc' => hc c' (by simp [hc'])
      simp only [wsum, odoSq, List.map_cons, List.sum_cons] at ih' ⊢
      rw [ih', hf, hb]
      ext i; simp; ring
  obtain ⟨cs', c, rfl⟩ := (List.eq_nil_or_concat cs).resolve_left hne
  simp only [List.concat_eq_append] at *
  obtain ⟨_, h2, h3⟩ := dcm_last cs' c h
  rw [h2, (svd_col0 _ _ h3).2.2.2, hw]
  have hl : len ((k * odoSq (cs' ++ [c])) • u) = k * odoSq (cs' ++ [c]) := by
    have hku : 0 ≤ k * odoSq (cs' ++ [c]) := mul_nonneg hk hpos
    have h1 : u 0 ^ 2 + u 1 ^ 2 + u 2 ^ 2 = 1 := by
      have := Real.sq_sqrt (show 0 ≤ u 0 ^ 2 + u 1 ^ 2 + u 2 ^ 2 by positivity)
      rw [← this]; show len u ^ 2 = 1; rw [hu]; norm_num
    simp only [len, Pi.smul_apply, smul_eq_mul]
    rw [show ∀ a : ℝ, (a * u 0) ^ 2 + (a * u 1) ^ 2 + (a * u 2) ^ 2 = a ^ 2 * (u 0 ^ 2 + u 1 ^ 2 + u 2 ^ 2) by intro a; ring, h1,
      mul_one, Real.sqrt_sq hku]
  rw [hl]
  have : odoSq (cs' ++ [c]) + 1 / 10 ^ 30 ≠ 0 := by positivity
  field_simp

/-- C80, the violation: without an odometer the reported scale is the guard's reciprocal times the accumulated
velocity, so any motion with a squared forward speed of one or more reports a scale of at least 10^30. -/
theorem C80_no_odometer (cs : List (DcmCall ℝ)) (hne : cs ≠ []) (h : allSvd cs) (hn : ∀ c ∈ cs, c.vf = none) :
    (DcmEst.run cs).scale = len (wsum cs) * 10 ^ 30 := by
  have ho : odoSq cs = 0 := by
    apply List.sum_eq_zero; intro x hx
    obtain ⟨c, hc, rfl⟩ := List.mem_map.mp hx
    simp [hn c hc]
  obtain ⟨cs', c, rfl⟩ := (List.eq_nil_or_concat cs).resolve_left hne
  simp only [List.concat_eq_append] at *
  obtain ⟨_, h2, h3⟩ := dcm_last cs' c h
  rw [h2, (svd_col0 _ _ h3).2.2.2, ho]; field_simp; ring

/-- A concrete run for C80: the sensor reads three when the vehicle does two. -/
example : ∃ cs : List (DcmCall ℝ), cs ≠ [] ∧ allSvd cs ∧
    ∀ c ∈ cs, ∃ f, c.vf = some f ∧ c.vb = ((3/2 : ℝ) * f) • (![0, 1, 0] : V3 ℝ) := by
  have hw : ∀ s, wsum [(⟨![0, 3, 0], some 2, s⟩ : DcmCall ℝ)] = ![0, 6, 0] := by
    intro s; ext i; fin_cases i <;> norm_num [wsum]
  refine ⟨[⟨![0, 3, 0], some 2, demoSvd⟩], by simp, allSvd_one _ (by rw [hw]; exact demoSvd_ok.1), ?_⟩
  simp only [List.mem_singleton, forall_eq]
  exact ⟨2, rfl, by ext i; fin_cases i <;> norm_num⟩
/-- The direction of that run has length one. -/
example : len (![0, 1, 0] : V3 ℝ) = 1 := by simp [len]
/-- A run without odometer: driving along the sensor's first axis. -/
example : ∃ cs : List (DcmCall ℝ), cs ≠ [] ∧ allSvd cs ∧ ∀ c ∈ cs, c.vf = none := by
  have hw : ∀ s, wsum [(⟨![2, 0, 0], none, s⟩ : DcmCall ℝ)] = ![4, 0, 0] := by
    intro s; ext i; fin_cases i <;> norm_num [wsum]
  refine ⟨[⟨![2, 0, 0], none, ⟨1, ![4, 0, 0], 1⟩⟩], by simp, allSvd_one _ ?_, by simp⟩
  rw [hw]
  constructor
  all_goals first
    | (ext i j; fin_cases i <;> fin_cases j <;>
        simp only [Matrix.mul_apply, Fin.sum_univ_three, Matrix.diagonal_apply, Matrix.transpose_apply, Matrix.one_apply] <;> simp)
    | (intro i; fin_cases i <;> simp)
    | simp
end Verif.Props
