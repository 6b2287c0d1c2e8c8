import Verif.Model.InstallAngle
import Verif.Spec.InstallAngle
import Verif.Props.Information
import Verif.Spec.Examples
import Mathlib.Tactic.LinearCombination
import Mathlib.Tactic.NoncommRing
/-! # C177: the installation angles are the least squares solution -/
namespace Verif.Props
open Verif Verif.Convert Verif.Spec Matrix InstallAngle

/-- The records' velocities in the axes of the IMU, by the textbook rotation matrix of roll, pitch and heading in degrees. -/
noncomputable def inImuAxes (n : NavOutput ℝ) : V3 ℝ :=
  (Rz (n.atti 2 * (Real.pi / 180)) * Ry (n.atti 1 * (Real.pi / 180)) * Rx (n.atti 0 * (Real.pi / 180)))ᵀ *ᵥ n.vn

theorem bodyVel_eq (n : NavOutput ℝ) : bodyVel n = inImuAxes n := by
  unfold bodyVel inImuAxes
  rw [mvec_real, eulerToDcm_eq]
  have e : (deg : ℝ) = Real.pi / 180 := by simp only [deg, pi_real, lit_real]; push_cast; ring
  have ev : (v3 (n.vn 0) (n.vn 1) (n.vn 2) : V3 ℝ) = n.vn := by funext i; fin_cases i <;> rfl
  rw [e, ev]
  rfl

theorem noise_eq : (noise : Matrix (Fin 2) (Fin 2) ℝ) = (100 : ℝ) • 1 := by
  unfold noise
  rw [sm_real, eyeM_real, lit_real]
  norm_num
theorem noise_pos : positive (noise : Matrix (Fin 2) (Fin 2) ℝ) := by
  rw [positive_iff, noise_eq]
  exact PosDef.one.smul (by norm_num)

theorem misfit (θ v : V3 ℝ) : offTrack θ v = (hOf v *ᵥ θ - yOf v) ⬝ᵥ (hOf v *ᵥ θ - yOf v) := by
  simp only [dotProduct, Fin.sum_univ_two, Pi.sub_apply, mulVec, Fin.sum_univ_three, hOf, yOf, skew, offTrack, turnBy]
  simp
  ring

theorem step_P (s : St ℝ) (v : V3 ℝ) (z : Fin 2 → ℝ) : (step s v).P = ((Kf.ofState s.theta s.P).update (hOf v) z noise).P := rfl
theorem step_theta (s : St ℝ) (v : V3 ℝ) : (step s v).theta =
    s.theta + (s.P * (hOf v)ᵀ * (hOf v * s.P * (hOf v)ᵀ + noise)⁻¹) *ᵥ (yOf v - hOf v *ᵥ s.theta) := by
  show s.theta + mvec (mmul (mmul s.P (hOf v).transpose) (Fl.minv (mmul (mmul (hOf v) s.P) (hOf v).transpose + noise))) (yOf v - mvec (hOf v) s.theta) = _
  simp only [mvec_real, mmul_real, minv_real]

/-- Completing the square. -/
theorem square {M P : Matrix (Fin 3) (Fin 3) ℝ} (hM : Mᵀ = M) (b u : V3 ℝ) (hP : M * P = 1) :
    u ⬝ᵥ (M *ᵥ u) - 2 * (u ⬝ᵥ b) = (u - P *ᵥ b) ⬝ᵥ (M *ᵥ (u - P *ᵥ b)) - b ⬝ᵥ (P *ᵥ b) := by
  have e1 : M *ᵥ (P *ᵥ b) = b := by rw [mulVec_mulVec, hP, one_mulVec]
  have e2 : (P *ᵥ b) ⬝ᵥ (M *ᵥ u) = u ⬝ᵥ b := by
    rw [dotProduct_mulVec, ← mulVec_transpose, hM, e1, dotProduct_comm]
  rw [mulVec_sub, sub_dotProduct, dotProduct_sub, dotProduct_sub, e1, e2, dotProduct_comm (P *ᵥ b) b]
  ring

/-- What the loop keeps: a valid covariance whose inverse is the curvature of the cost, whose minimum is at `theta`. -/
structure Fits (vs : List (V3 ℝ)) (s : St ℝ) : Prop where
  valid : validCov s.P
  best : ∃ (M : M3 ℝ) (c : ℝ), M * s.P = 1 ∧ positive M ∧ ∀ θ, straightCost vs θ = c + (θ - s.theta) ⬝ᵥ (M *ᵥ (θ - s.theta))

theorem fits0 : Fits [] (st0 : St ℝ) := by
  have eP : (st0 : St ℝ).P = (2 / 5 : ℝ) • 1 := by
    show sm (Fl.lit (2 / 5)) (eyeM 3) = _
    rw [sm_real, eyeM_real, lit_real]
    norm_num
  have et : (st0 : St ℝ).theta = 0 := by
    funext i; fin_cases i <;> rfl
  constructor
  · rw [eP]
    exact positive_valid ((positive_iff _).2 (PosDef.one.smul (by norm_num)))
  · refine ⟨(5 / 2 : ℝ) • 1, 0, ?_, (positive_iff _).2 (PosDef.one.smul (by norm_num)), fun θ => ?_⟩
    · rw [eP, smul_mul_smul_comm, Matrix.one_mul]; norm_num
    · rw [et, sub_zero, smul_mulVec, one_mulVec, dotProduct_smul]
      simp only [straightCost, List.map_nil, List.sum_nil, dotProduct, Fin.sum_univ_three, smul_eq_mul]
      ring

theorem straightCost_append (vs : List (V3 ℝ)) (v θ : V3 ℝ) :
    straightCost (vs ++ [v]) θ = straightCost vs θ + offTrack θ v / 100 := by
  simp only [straightCost, List.map_append, List.sum_append, List.map_cons, List.map_nil, List.sum_cons, List.sum_nil]
  ring

theorem fits_step {vs : List (V3 ℝ)} {s : St ℝ} (h : Fits vs s) (v : V3 ℝ) : Fits (vs ++ [v]) (step s v) := by
  obtain ⟨hv, M, c, hMP, hMpos, hJ⟩ := h
  have hRi : (noise : Matrix (Fin 2) (Fin 2) ℝ)⁻¹ = (1 / 100 : ℝ) • 1 := by
    apply inv_eq_right_inv
    rw [noise_eq, smul_mul_smul_comm, Matrix.one_mul]; norm_num
  obtain ⟨p1, p2, p3⟩ := update_push (Kf.ofState s.theta s.P) (hOf v) 0 noise hv noise_pos
  have hP0 : (Kf.ofState s.theta s.P).P = s.P := rfl
  rw [hP0, ← step_P] at p1
  rw [← step_P] at p3
  obtain ⟨H, hH⟩ : ∃ H, H = hOf v := ⟨_, rfl⟩
  rw [← hH] at p1
  have hM' : (M + Hᵀ * (noise : Matrix (Fin 2) (Fin 2) ℝ)⁻¹ * H) * (step s v).P = 1 := by
    have := congrArg (M * ·) p1
    simp only [← Matrix.mul_assoc, hMP, Matrix.mul_add, Matrix.mul_one, Matrix.one_mul] at this
    rw [← this]
  have hS : IsUnit (H * s.P * Hᵀ + noise).det := by
    apply unit_sum _ noise_pos
    rw [validCov_iff] at hv ⊢
    have := hv.mul_mul_conjTranspose_same H
    rwa [conjTranspose_eq_transpose_of_trivial] at this
  -- the gain
  have hK : (M + Hᵀ * (noise : Matrix (Fin 2) (Fin 2) ℝ)⁻¹ * H) * (s.P * Hᵀ * (H * s.P * Hᵀ + noise)⁻¹) = Hᵀ * (noise : Matrix (Fin 2) (Fin 2) ℝ)⁻¹ := by
    have hR : (noise : Matrix (Fin 2) (Fin 2) ℝ)⁻¹ * noise = 1 :=
      nonsing_inv_mul _ ((Matrix.isUnit_iff_isUnit_det _).1 ((positive_iff _).1 noise_pos).isUnit)
    have e : (M + Hᵀ * (noise : Matrix (Fin 2) (Fin 2) ℝ)⁻¹ * H) * (s.P * Hᵀ) = Hᵀ * (noise : Matrix (Fin 2) (Fin 2) ℝ)⁻¹ * (H * s.P * Hᵀ + noise) := by
      rw [Matrix.add_mul, ← Matrix.mul_assoc M, hMP, Matrix.one_mul, Matrix.mul_add, Matrix.mul_assoc Hᵀ _ noise, hR, Matrix.mul_one]
      simp only [Matrix.mul_assoc]
      exact add_comm _ _
    rw [← Matrix.mul_assoc, e, Matrix.mul_assoc, mul_nonsing_inv _ hS, Matrix.mul_one]
  have hPM : (step s v).P * (M + Hᵀ * (noise : Matrix (Fin 2) (Fin 2) ℝ)⁻¹ * H) = 1 := mul_eq_one_comm.1 hM'
  have hKP : s.P * Hᵀ * (H * s.P * Hᵀ + noise)⁻¹ = (step s v).P * (Hᵀ * (noise : Matrix (Fin 2) (Fin 2) ℝ)⁻¹) := by
    rw [← hK, ← Matrix.mul_assoc, hPM, Matrix.one_mul]
  have hMs : Mᵀ = M := by ext i j; exact hMpos.1 j i
  have hpos' : positive (M + Hᵀ * (noise : Matrix (Fin 2) (Fin 2) ℝ)⁻¹ * H) := by
    rw [positive_iff] at hMpos ⊢
    refine hMpos.add_posSemidef ?_
    have := (((positive_iff _).1 noise_pos).inv.posSemidef).conjTranspose_mul_mul_same H
    rwa [conjTranspose_eq_transpose_of_trivial] at this
  have hMs' : (M + Hᵀ * (noise : Matrix (Fin 2) (Fin 2) ℝ)⁻¹ * H)ᵀ = M + Hᵀ * (noise : Matrix (Fin 2) (Fin 2) ℝ)⁻¹ * H := by
    ext i j; exact hpos'.1 j i
  refine ⟨p3, M + Hᵀ * (noise : Matrix (Fin 2) (Fin 2) ℝ)⁻¹ * H, ?_⟩
  obtain ⟨e, he⟩ : ∃ e, e = yOf v - H *ᵥ s.theta := ⟨_, rfl⟩
  obtain ⟨b, hb⟩ : ∃ b, b = (Hᵀ * (noise : Matrix (Fin 2) (Fin 2) ℝ)⁻¹) *ᵥ e := ⟨_, rfl⟩
  have hth : (step s v).theta = s.theta + (step s v).P *ᵥ b := by
    rw [step_theta, ← hH, hKP, ← he, hb, mulVec_mulVec]
  refine ⟨c + e ⬝ᵥ e / 100 - b ⬝ᵥ ((step s v).P *ᵥ b), hM', hpos', fun θ => ?_⟩
  have hsq := square hMs' b (θ - s.theta) hM'
  rw [straightCost_append, hJ θ, misfit, ← hH, hth]
  have e1 : H *ᵥ θ - yOf v = H *ᵥ (θ - s.theta) - e := by rw [he, mulVec_sub]; abel
  have e2 : θ - (s.theta + (step s v).P *ᵥ b) = (θ - s.theta) - (step s v).P *ᵥ b := by abel
  rw [e1, e2]
  obtain ⟨u, hu⟩ : ∃ u, u = θ - s.theta := ⟨_, rfl⟩
  rw [← hu] at hsq ⊢
  have e3 : u ⬝ᵥ ((M + Hᵀ * (noise : Matrix (Fin 2) (Fin 2) ℝ)⁻¹ * H) *ᵥ u) = u ⬝ᵥ (M *ᵥ u) + (H *ᵥ u) ⬝ᵥ (H *ᵥ u) / 100 := by
    rw [add_mulVec, dotProduct_add, hRi, Matrix.mul_smul, Matrix.mul_one, Matrix.smul_mul, smul_mulVec, dotProduct_smul, ← mulVec_mulVec,
      dotProduct_mulVec u Hᵀ, vecMul_transpose, smul_eq_mul]
    ring
  have e4 : u ⬝ᵥ b = (H *ᵥ u) ⬝ᵥ e / 100 := by
    rw [hb, hRi, Matrix.mul_smul, Matrix.mul_one, smul_mulVec, dotProduct_smul, dotProduct_mulVec, vecMul_transpose, smul_eq_mul]
    ring
  have e5 : (H *ᵥ u - e) ⬝ᵥ (H *ᵥ u - e) = (H *ᵥ u) ⬝ᵥ (H *ᵥ u) - 2 * ((H *ᵥ u) ⬝ᵥ e) + e ⬝ᵥ e := by
    rw [sub_dotProduct, dotProduct_sub, dotProduct_sub, dotProduct_comm e (H *ᵥ u)]; ring
  rw [e3, e4] at hsq
  rw [e5]
  linarith

theorem fits_run (ns : List (NavOutput ℝ)) : Fits (ns.map inImuAxes) (run ns) := by
  have key : ∀ (ns : List (NavOutput ℝ)) (vs : List (V3 ℝ)) (s : St ℝ), Fits vs s →
      Fits (vs ++ ns.map inImuAxes) (ns.foldl (fun s n => step s (bodyVel n)) s) := by
    intro ns
    induction ns with
    | nil => intro vs s h; simpa using h
    | cons n ns ih =>
      intro vs s h
      have := ih (vs ++ [inImuAxes n]) (step s (bodyVel n)) (by rw [bodyVel_eq]; exact fits_step h _)
      simpa using this
  have := key ns [] st0 fits0
  rw [List.nil_append] at this
  exact this

/-- **C177.** Whatever the records, the small rotation printed has a smaller cost than every other: it is the one that
best makes the vehicle move straight ahead (deviations of 10 m/s for the velocities, √0.4 for the angles). -/
theorem C177_least_squares (ns : List (NavOutput ℝ)) (θ : V3 ℝ) (h : θ ≠ (run ns).theta) :
    straightCost (ns.map inImuAxes) (run ns).theta < straightCost (ns.map inImuAxes) θ := by
  obtain ⟨-, M, c, -, hM, hJ⟩ := fits_run ns
  rw [hJ, hJ, sub_self, mulVec_zero, dotProduct_zero, ← varOf_eq]
  have := hM.2 (θ - (run ns).theta) (sub_ne_zero.2 h)
  linarith

/-- **C177, exact data.** If some small rotation `θ₀` makes the vehicle move straight ahead in every record, then over all the
records the velocities turned by the printed rotation miss the straight direction by no more than `250 |θ₀|²` in total (in
m²/s²), however many records there are. -/
theorem C177_consistent (ns : List (NavOutput ℝ)) (θ₀ : V3 ℝ) (h : ∀ n ∈ ns, offTrack θ₀ (inImuAxes n) = 0) :
    (ns.map fun n => offTrack (run ns).theta (inImuAxes n)).sum ≤ 250 * (θ₀ 0 ^ 2 + θ₀ 1 ^ 2 + θ₀ 2 ^ 2) := by
  have hle : straightCost (ns.map inImuAxes) (run ns).theta ≤ straightCost (ns.map inImuAxes) θ₀ := by
    by_cases e : θ₀ = (run ns).theta
    · rw [e]
    · exact le_of_lt (C177_least_squares ns θ₀ e)
  have h0 : ((ns.map inImuAxes).map fun v => offTrack θ₀ v / 100).sum = 0 := by
    apply List.sum_eq_zero
    intro x hx
    simp only [List.map_map, List.mem_map, Function.comp] at hx
    obtain ⟨n, hn, rfl⟩ := hx
    rw [h n hn, zero_div]
  have h1 : ((ns.map inImuAxes).map fun v => offTrack (run ns).theta v / 100).sum = (ns.map fun n => offTrack (run ns).theta (inImuAxes n)).sum / 100 := by
    rw [List.map_map]
    generalize (run ns).theta = t
    clear hle h0 h
    induction ns with
    | nil => simp
    | cons n ns ih => simp only [List.map_cons, List.sum_cons, Function.comp_apply, add_div]; rw [← ih]
  unfold straightCost at hle
  rw [h0, h1] at hle
  nlinarith [sq_nonneg ((run ns).theta 0), sq_nonneg ((run ns).theta 1), sq_nonneg ((run ns).theta 2)]

/-- A level vehicle heading north at 10 m/s whose velocity is seen one m/s to the side: a rotation by -0.1 puts it right,
so C177_consistent applies to any number of such records. -/
example (k : ℕ) : ∀ n ∈ List.replicate k { (zeroPva : NavOutput ℝ) with vn := ![10, 1, 0] },
    offTrack ![0, 0, -(1 / 10)] (inImuAxes n) = 0 := by
  intro n hn
  rw [(List.mem_replicate.1 hn).2]
  have e : inImuAxes { (zeroPva : NavOutput ℝ) with vn := ![10, 1, 0] } = ![10, 1, 0] := by
    have h0 : ∀ i, (zeroPva : NavOutput ℝ).atti i = 0 := by intro i; fin_cases i <;> rfl
    unfold inImuAxes
    simp only [h0, zero_mul]
    have r : Rz 0 * Ry 0 * Rx 0 = 1 := by
      ext i j
      fin_cases i <;> fin_cases j <;> simp [Rz, Ry, Rx, Matrix.mul_apply, Fin.sum_univ_three]
    rw [r, transpose_one, one_mulVec]
  rw [e]
  simp [offTrack, turnBy]
/-- One such record: a rotation by -0.02 has a smaller cost than none, so the one printed is not zero. -/
example : straightCost [![10, 1, 0]] ![0, 0, -(1 / 50)] < straightCost [![10, 1, 0]] 0 := by
  simp [straightCost, offTrack, turnBy]
  norm_num
end Verif.Props
