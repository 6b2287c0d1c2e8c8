import Verif.Props.CovForm
import Verif.Props.FilterFollow
/-! The transition matrix along a true flight differs from the identity by no more than a constant times the sampling interval. -/
namespace Verif.Props
open Verif Verif.Spec Verif.Convert Matrix

theorem skew_le (x : V3 ℝ) (i j : Fin 3) : |(skew x : M3 ℝ) i j| ≤ len x := by
  have := comp_le_len x 0; have := comp_le_len x 1; have := comp_le_len x 2; have := len_nonneg x
  fin_cases i <;> fin_cases j <;> simp [skew] <;> assumption

theorem rot_entry_le {R : M3 ℝ} (h : ∀ x, len (R *ᵥ x) = len x) (i j : Fin 3) : |R i j| ≤ 1 := by
  have e : (R *ᵥ Pi.single j 1) i = R i j := by simp
  have l : len (Pi.single j 1 : V3 ℝ) = 1 := by
    have q : len (Pi.single j 1 : V3 ℝ) ^ 2 = 1 := by rw [len_sq]; fin_cases j <;> simp [Pi.single_apply]
    have q0 := len_nonneg (Pi.single j 1 : V3 ℝ)
    nlinarith
  have := comp_le_len (R *ᵥ Pi.single j 1) i
  rwa [e, h, l] at this

theorem setBlock_ind {m n p q : ℕ} (P : ℝ → Prop) (M : Matrix (Fin m) (Fin n) ℝ) (r c : ℕ) (X : Matrix (Fin p) (Fin q) ℝ) (i : Fin m) (j : Fin n)
    (h1 : ∀ h : r ≤ i.val ∧ i.val < r + p ∧ c ≤ j.val ∧ j.val < c + q, P (X ⟨i.val - r, by omega⟩ ⟨j.val - c, by omega⟩))
    (h2 : ¬ (r ≤ i.val ∧ i.val < r + p ∧ c ≤ j.val ∧ j.val < c + q) → P (M i j)) : P (setBlock M r c X i j) := by
  unfold setBlock
  split_ifs with a
  · exact h1 a
  · exact h2 a

/-- Block by block. -/
theorem phi_entry (f : Fusion ℝ) (g c : ℝ) (hd : 0 ≤ f.ins.dt) (h0 : 1 ≤ c) (h1 : len f.ins.omegaEnN ≤ c) (h2 : len (f.ins.omegaEnN + (2 : ℝ) • f.ins.omegaIeN) ≤ c)
    (h3 : len (f.ins.omegaEnN + f.ins.omegaIeN) ≤ c) (h4 : len f.ins.nav.vfKb ≤ c) (h5 : ∀ i j, |f.ins.nav.Cbn i j| ≤ c)
    (h6 : |g / (Earth.RM (f.ins.nav.pos 0) + f.ins.nav.pos 2)| ≤ c) (h7 : |g / (Earth.RN (f.ins.nav.pos 0) + f.ins.nav.pos 2)| ≤ c)
    (h8 : |2 * g / (Real.sqrt (Earth.RM (f.ins.nav.pos 0) * Earth.RN (f.ins.nav.pos 0)) + f.ins.nav.pos 2)| ≤ c)
    (h9 : 1 / |f.opt.imuPara.gtCorr| ≤ c) (h10 : 1 / |f.opt.imuPara.atCorr| ≤ c) (i j : Fin 15) :
    |f.transferMatrix g i j - (1 : Matrix (Fin 15) (Fin 15) ℝ) i j| ≤ c * f.ins.dt := by
  have c0 : 0 ≤ c := by linarith
  have cd : 0 ≤ c * f.ins.dt := mul_nonneg c0 hd
  have diag : ∀ (X : M3 ℝ) (r : ℕ) (hi : r ≤ i.val ∧ i.val < r + 3 ∧ r ≤ j.val ∧ j.val < r + 3), (∀ a b, |X a b| ≤ c) →
      |(eyeM 3 - ms X f.ins.dt : M3 ℝ) ⟨i.val - r, by omega⟩ ⟨j.val - r, by omega⟩ - (1 : Matrix (Fin 15) (Fin 15) ℝ) i j| ≤ c * f.ins.dt := by
    intro X r hi hX
    have e : (eyeM 3 : M3 ℝ) ⟨i.val - r, by omega⟩ ⟨j.val - r, by omega⟩ = (1 : Matrix (Fin 15) (Fin 15) ℝ) i j := by
      rw [Matrix.one_apply]
      simp only [eyeM, Fin.mk.injEq, Fin.ext_iff]
      split_ifs <;> first | rfl | omega
    rw [Matrix.sub_apply, e, sub_sub_cancel_left, abs_neg]
    show |X _ _ * f.ins.dt| ≤ _
    rw [abs_mul, abs_of_nonneg hd]
    exact mul_le_mul_of_nonneg_right (hX _ _) hd
  have off : ∀ (X : M3 ℝ) (r k : ℕ) (hi : r ≤ i.val ∧ i.val < r + 3 ∧ k ≤ j.val ∧ j.val < k + 3), (r + 3 ≤ k ∨ k + 3 ≤ r) → (∀ a b, |X a b| ≤ c) →
      |(ms X f.ins.dt : M3 ℝ) ⟨i.val - r, by omega⟩ ⟨j.val - k, by omega⟩ - (1 : Matrix (Fin 15) (Fin 15) ℝ) i j| ≤ c * f.ins.dt := by
    intro X r k hi hrk hX
    rw [Matrix.one_apply_ne (by rintro rfl; omega), sub_zero]
    show |X _ _ * f.ins.dt| ≤ _
    rw [abs_mul, abs_of_nonneg hd]
    exact mul_le_mul_of_nonneg_right (hX _ _) hd
  have eye1 : ∀ a b, |(eyeM 3 : M3 ℝ) a b| ≤ c := by
    intro a b; simp only [eyeM]; split_ifs <;> simp <;> linarith
  have corr : ∀ (τ : ℝ), 1 / |τ| ≤ c → ∀ (r : ℕ) (hi : r ≤ i.val ∧ i.val < r + 3 ∧ r ≤ j.val ∧ j.val < r + 3),
      |(eyeM 3 - md (ms (eyeM 3) f.ins.dt) τ : M3 ℝ) ⟨i.val - r, by omega⟩ ⟨j.val - r, by omega⟩ - (1 : Matrix (Fin 15) (Fin 15) ℝ) i j| ≤ c * f.ins.dt := by
    intro τ hτ r hi
    have e : (md (ms (eyeM 3) f.ins.dt) τ : M3 ℝ) = ms (fun a b => (eyeM 3 : M3 ℝ) a b * (1 / τ)) f.ins.dt := by
      ext a b; simp only [md, ms]; ring
    rw [e]
    refine diag _ r hi fun a b => ?_
    rw [abs_mul, abs_div, abs_one]
    have q0 : 0 ≤ 1 / |τ| := by positivity
    simp only [eyeM]; split_ifs
    · rw [abs_one, one_mul]; exact hτ
    · rw [abs_zero, zero_mul]; exact c0
  unfold Fusion.transferMatrix
  refine setBlock_ind (fun x => |x - (1 : Matrix (Fin 15) (Fin 15) ℝ) i j| ≤ c * f.ins.dt) _ 12 12 _ i j (fun a => corr _ h10 12 a) fun b1 => ?_
  refine setBlock_ind (fun x => |x - (1 : Matrix (Fin 15) (Fin 15) ℝ) i j| ≤ c * f.ins.dt) _ 9 9 _ i j (fun a => corr _ h9 9 a) fun b2 => ?_
  refine setBlock_ind (fun x => |x - (1 : Matrix (Fin 15) (Fin 15) ℝ) i j| ≤ c * f.ins.dt) _ 6 9 _ i j (fun a => off _ 6 9 a (by omega) fun a b => ?_) fun b3 => ?_
  · rw [Matrix.neg_apply, abs_neg]; exact h5 a b
  refine setBlock_ind (fun x => |x - (1 : Matrix (Fin 15) (Fin 15) ℝ) i j| ≤ c * f.ins.dt) _ 3 12 _ i j (fun a => off _ 3 12 a (by omega) h5) fun b4 => ?_
  refine setBlock_ind (fun x => |x - (1 : Matrix (Fin 15) (Fin 15) ℝ) i j| ≤ c * f.ins.dt) _ 6 6 _ i j (fun a => diag _ 6 a fun a b => (skew_le _ a b).trans h3) fun b5 => ?_
  refine setBlock_ind (fun x => |x - (1 : Matrix (Fin 15) (Fin 15) ℝ) i j| ≤ c * f.ins.dt) _ 3 6 _ i j (fun a => off _ 3 6 a (by omega) fun a b => (skew_le _ a b).trans h4) fun b6 => ?_
  refine setBlock_ind (fun x => |x - (1 : Matrix (Fin 15) (Fin 15) ℝ) i j| ≤ c * f.ins.dt) _ 3 3 _ i j (fun a => diag _ 3 a fun a b => (skew_le _ a b).trans ?_) fun b7 => ?_
  · have e : f.ins.omegaEnN + sv (Fl.lit 2) f.ins.omegaIeN = f.ins.omegaEnN + (2 : ℝ) • f.ins.omegaIeN := by
      ext l; simp [sv]
    rw [e]; exact h2
  refine setBlock_ind (fun x => |x - (1 : Matrix (Fin 15) (Fin 15) ℝ) i j| ≤ c * f.ins.dt) _ 3 0 _ i j (fun a => off _ 3 0 a (by omega) fun a b => ?_) fun b8 => ?_
  · simp only [diagM]
    split_ifs
    · fin_cases a
      · show |-g / _| ≤ c
        rw [neg_div, abs_neg]; exact h6
      · show |-g / _| ≤ c
        rw [neg_div, abs_neg]; exact h7
      · simpa [v3] using h8
    · rw [abs_zero]; exact c0
  refine setBlock_ind (fun x => |x - (1 : Matrix (Fin 15) (Fin 15) ℝ) i j| ≤ c * f.ins.dt) _ 0 3 _ i j (fun a => off _ 0 3 a (by omega) eye1) fun b9 => ?_
  refine setBlock_ind (fun x => |x - (1 : Matrix (Fin 15) (Fin 15) ℝ) i j| ≤ c * f.ins.dt) _ 0 0 _ i j (fun a => diag _ 0 a fun a b => (skew_le _ a b).trans h1) fun b10 => ?_
  have ne : i ≠ j := by rintro rfl; omega
  rw [Matrix.one_apply_ne ne, sub_zero, abs_zero]; exact cd

variable {B : Limits} {K ρ e dt t T : ℝ} {s : Ins ℝ} {lat lon h : ℝ → ℝ} {v : ℝ → V3 ℝ} {C : ℝ → M3 ℝ} {w θ f α : ℝ → V3 ℝ}

theorem gravity_ahead (k : Kit B K ρ) (hV : 0 ≤ B.speed) (F : TrueFlight B T lat lon h v C w θ f α) (n : Near K e dt t s lat lon h v C) (sm : Small K ρ e dt) (ht : 0 ≤ t) (hT : t ≤ T) (g : ℝ) (m : Imu ℝ) :
    |(s.forwardImu g m).1| ≤ K := by
  have A := ahead k F n sm ht hT
  have e1 : (s.forwardImu g m).1 = normalGravity (s.extrapolate.2.posMid 0) (s.extrapolate.2.posMid 2) := by
    rw [← gravity_eq]; rfl
  have q := k.bounds.lip.fall_le _ 0 _ 0 A.lat_in (by rw [len_zero']; linarith) A.height_in (by rw [len_zero']; linarith)
  have e2 : fallRate (s.extrapolate.2.posMid 0) 0 (s.extrapolate.2.posMid 2) 0 = ![0, 0, normalGravity (s.extrapolate.2.posMid 0) (s.extrapolate.2.posMid 2)] := by
    unfold fallRate; ext i; fin_cases i <;> simp [xp]
  rw [e2] at q
  have := comp_le_len ![0, 0, normalGravity (s.extrapolate.2.posMid 0) (s.extrapolate.2.posMid 2)] 2
  rw [e1]
  exact this.trans q

theorem far_below (l z : ℝ) (hz : -1000001 ≤ z) : 1 ≤ Earth.RM l + z ∧ 1 ≤ Earth.RN l + z ∧ 1 ≤ Real.sqrt (Earth.RM l * Earth.RN l) + z := by
  obtain ⟨-, -, h1, h2, -, -, -⟩ := C44_radii l
  have a : 6000000 ≤ wgsA * (1 - wgsE2) := by unfold wgsA wgsE2; norm_num
  refine ⟨by linarith, by linarith, ?_⟩
  have : 6000000 ≤ Real.sqrt (Earth.RM l * Earth.RN l) := by
    refine Real.le_sqrt_of_sq_le ?_
    have : (6000000 : ℝ) * 6000000 ≤ Earth.RM l * Earth.RN l := mul_le_mul (by linarith) (by linarith) (by norm_num) (by linarith)
    linarith
  linarith

/-- After a sample. -/
theorem phi_near (k : Kit B K ρ) (hV : 0 ≤ B.speed) (F : TrueFlight B T lat lon h v C w θ f α) (n : Near K e dt t s lat lon h v C) (sm : Small K ρ e dt) (ht : 0 ≤ t) (hT : t + dt ≤ T)
    (g : ℝ) (m : Imu ℝ) (hg : len (increment s.nav s.dt m.gyro - (θ (t + dt) - θ t)) ≤ dt * e) (ha : len (forceIncrement s.nav s.dt m.acce - (α (t + dt) - α t)) ≤ dt * e)
    (φ : Fusion ℝ) (hφ : φ.ins = (s.forwardImu g m).2) (c : ℝ) (hc : 5 * K ≤ c) (h9 : 1 / |φ.opt.imuPara.gtCorr| ≤ c) (h10 : 1 / |φ.opt.imuPara.atCorr| ≤ c) (i j : Fin 15) :
    |φ.transferMatrix (s.forwardImu g m).1 i j - (1 : Matrix (Fin 15) (Fin 15) ℝ) i j| ≤ c * dt := by
  have hK := k.bounds.one
  have hd := sm.dt0
  obtain ⟨f1, f2, f3, f4, f5, f6, f7⟩ := small_facts k sm
  have gr := gravity_ahead k hV F n sm ht (by linarith) g m
  have st := near_step k F n sm ht hT g m hg ha
  obtain ⟨mv, mu⟩ := mean_vel k F n sm ht hT g m hg ha _ rfl
  obtain ⟨-, -, bl, bz⟩ := frame_turn k F n sm ht hT g m hg ha
  have A := ahead k F n sm ht (by linarith)
  obtain ⟨b1, b2, b3, b4⟩ := near_box k F n sm ht (by linarith)
  have fle := k.bounds.lip.fall_le _ _ _ _ A.lat_in A.vel_in A.height_in b2
  have hdt := n.dt_eq
  have ee : φ.ins.dt = dt := by rw [hφ]; exact hdt
  -- rates
  have en : φ.ins.omegaEnN = transportRate (fun j => (s.nav.vn j + (s.forwardImu g m).2.nav.vn j) / 2) ((s.forwardImu g m).2.nav.pos 0 + ((s.forwardImu g m).2.nav.pos 0 - s.nav.pos 0) / 2)
      ((s.nav.pos 2 + (s.forwardImu g m).2.nav.pos 2) / 2) := by
    have q1 : (s.forwardImu g m).2.omegaEnN = Earth.omegaEnN (s.forwardImu g m).2.vnMid (s.forwardImu g m).2.posMid := rfl
    have q2 : (s.forwardImu g m).2.vnMid = s.nav.vn + vd (s.forwardImu g m).2.nav.dvn (Fl.lit 2) := rfl
    have q3 : (s.forwardImu g m).2.nav.vn = s.nav.vn + (s.forwardImu g m).2.nav.dvn := rfl
    have q4 : (s.forwardImu g m).2.posMid 0 = (s.forwardImu g m).2.nav.pos 0 + Fl.lit (1 / 2) * ((s.forwardImu g m).2.nav.pos 0 - s.nav.pos 0) := rfl
    have q5 : (s.forwardImu g m).2.posMid 2 = Fl.lit (1 / 2) * ((s.forwardImu g m).2.nav.pos 2 + s.nav.pos 2) := rfl
    rw [hφ, q1, en_eq, q2, q4, q5, q3, lit_real]
    generalize (s.forwardImu g m).2.nav.dvn = dv
    generalize (s.forwardImu g m).2.nav.pos 0 = x1
    generalize (s.forwardImu g m).2.nav.pos 2 = z1
    congr 1
    · funext l; simp only [Pi.add_apply, vd, lit_real]; push_cast; ring
    · have e5 : (Fl.lit (1 / 2) : ℝ) = 1 / 2 := by rw [lit_real]; push_cast; ring
      rw [e5]; ring
    · have e5 : (Fl.lit (1 / 2) : ℝ) = 1 / 2 := by rw [lit_real]; push_cast; ring
      rw [e5]; ring
  have ie : φ.ins.omegaIeN = earthRate ((s.forwardImu g m).2.nav.pos 0 + ((s.forwardImu g m).2.nav.pos 0 - s.nav.pos 0) / 2) := by
    have q1 : (s.forwardImu g m).2.omegaIeN = Earth.omegaIeN ((s.forwardImu g m).2.posMid 0) := rfl
    have q4 : (s.forwardImu g m).2.posMid 0 = (s.forwardImu g m).2.nav.pos 0 + Fl.lit (1 / 2) * ((s.forwardImu g m).2.nav.pos 0 - s.nav.pos 0) := rfl
    rw [hφ, q1, ie_eq, q4, lit_real]
    congr 1; push_cast; ring
  have frame := k.bounds.lip.frame_le _ _ _ bl mu bz
  have earth : ∀ l, len (earthRate l) ≤ 1 := by
    intro l
    have q : len (earthRate l) ^ 2 = earthW ^ 2 := by
      rw [len_sq]; simp [earthRate]
      have := Real.sin_sq_add_cos_sq l
      linear_combination earthW ^ 2 * this
    have := earthW_small
    refine abs_le_of_sq_le_sq' (a := len (earthRate l)) ?_ zero_le_one |>.2
    rw [q]; have := this.1; have := earthW_small.2; nlinarith
  have sum3 : len (φ.ins.omegaEnN + φ.ins.omegaIeN) ≤ K := by
    rw [en, ie, add_comm]; exact frame
  have er : len φ.ins.omegaIeN ≤ 1 := by rw [ie]; exact earth _
  have l1 : len φ.ins.omegaEnN ≤ K + 1 := by
    have e1 : φ.ins.omegaEnN = (φ.ins.omegaEnN + φ.ins.omegaIeN) - φ.ins.omegaIeN := by abel
    rw [e1]; exact (len_sub_le _ _).trans (by linarith)
  have l2 : len (φ.ins.omegaEnN + (2 : ℝ) • φ.ins.omegaIeN) ≤ K + 1 := by
    have e1 : φ.ins.omegaEnN + (2 : ℝ) • φ.ins.omegaIeN = (φ.ins.omegaEnN + φ.ins.omegaIeN) + φ.ins.omegaIeN := by rw [two_smul]; abel
    rw [e1]; exact (len_add_le _ _).trans (by linarith)
  -- the specific force
  have l4 : len φ.ins.nav.vfKb ≤ 5 * K := by
    have ffall : fallAhead s = dt • fallRate (s.extrapolate.2.posMid 0) s.extrapolate.2.vnMid (s.extrapolate.2.posMid 2) s.nav.vn := by
      unfold fallAhead fallRate; rw [n.dt_eq, gravity_eq]
    have q : φ.ins.nav.vfKb = (1 / dt) • (φ.ins.nav.dvn - fallAhead s) := by
      have hie : s.extrapolate.2.omegaIeN = earthRate (s.extrapolate.2.posMid 0) := ie_eq _
      have hen : s.extrapolate.2.omegaEnN = transportRate s.extrapolate.2.vnMid (s.extrapolate.2.posMid 0) (s.extrapolate.2.posMid 2) := en_eq _ _
      have q0 : (s.forwardImu g m).2.nav.dvn = vs (s.forwardImu g m).2.nav.vfKb s.dt * 0 + ((s.forwardImu g m).2.nav.dvn) := by simp
      have q1 : ∃ vf : V3 ℝ, (s.forwardImu g m).2.nav.vfKb = vd vf s.dt ∧ (s.forwardImu g m).2.nav.dvn = vf +
          vs (v3 0 0 s.extrapolate.1 - cross (sv (Fl.lit 2) s.extrapolate.2.omegaIeN + s.extrapolate.2.omegaEnN) s.nav.vn) s.dt := ⟨_, rfl, rfl⟩
      obtain ⟨vf, q2, q3⟩ := q1
      have q4 : vs (v3 0 0 s.extrapolate.1 - cross (sv (Fl.lit 2) s.extrapolate.2.omegaIeN + s.extrapolate.2.omegaEnN) s.nav.vn) s.dt = fallAhead s := by
        have e1 : (s.extrapolate.1 : ℝ) = Earth.gravity (s.extrapolate.2.posMid 0) (s.extrapolate.2.posMid 2) := rfl
        rw [hie, hen, e1, cross_eq]
        unfold fallAhead
        have e2 : sv (Fl.lit 2) (earthRate (s.extrapolate.2.posMid 0)) = (2 : ℝ) • earthRate (s.extrapolate.2.posMid 0) := by ext l; simp [sv]
        rw [e2]
        ext l
        simp only [vs, Pi.smul_apply, smul_eq_mul, Pi.sub_apply, v3]
        ring
      rw [q4] at q3
      rw [hφ, q2, q3, add_sub_cancel_right, n.dt_eq]
      ext l; simp only [vd, Pi.smul_apply, smul_eq_mul]; ring
    rw [q, len_smul, abs_of_pos (by positivity), one_div, inv_mul_le_iff₀ hd]
    have d1 : len φ.ins.nav.dvn ≤ 4 * K * dt := by rw [hφ]; exact st.dvn
    have d2 : len (fallAhead s) ≤ dt * K := by
      rw [ffall, len_smul, abs_of_pos hd]; exact mul_le_mul_of_nonneg_left fle hd.le
    refine (len_sub_le _ _).trans ?_
    linarith
  -- height
  have hh : -1000001 ≤ φ.ins.nav.pos 2 := by
    have q1 := abs_le.1 st.height
    have q2 := abs_le.1 (F.height_le (t + dt) (by linarith) hT)
    have q3 := mul_le_mul_of_nonneg_right sm.step (by linarith [sm.e0] : 0 ≤ e + dt)
    have q4 : 1 * (e + dt) ≤ K * (e + dt) := mul_le_mul_of_nonneg_right hK (by linarith [sm.e0])
    have q5 := k.sane.height
    rw [hφ]
    linarith [q1.1, q2.1, sm.e0]
  obtain ⟨r1, r2, r3⟩ := far_below (φ.ins.nav.pos 0) _ hh
  have dv : ∀ x y : ℝ, 1 ≤ y → |x / y| ≤ |x| := by
    intro x y hy
    rw [abs_div, abs_of_pos (by linarith : 0 < y)]
    exact div_le_self (abs_nonneg _) hy
  have rot := near_rot st
  rw [← ee]
  refine phi_entry φ _ c (by rw [ee]; exact hd.le) (by linarith) (by linarith) (by linarith) (by linarith) (by linarith) (fun a b => ?_) ((dv _ _ r1).trans (by linarith)) ((dv _ _ r2).trans (by linarith))
    ((dv _ _ r3).trans ?_) h9 h10 i j
  · rw [hφ]; exact (rot_entry_le rot a b).trans (by linarith)
  · rw [abs_mul, abs_of_pos (by norm_num : (0 : ℝ) < 2)]; linarith
end Verif.Props
