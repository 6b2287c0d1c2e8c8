import Verif.Lemmas.Linear
import Mathlib.Tactic.NoncommRing
/-! C93: the transition matrix of the filter is the linearisation of the navigation equations. -/
namespace Verif.Props
open Verif Verif.Spec Verif.Convert Matrix

/-! ## The linearised equations -/

/-- The rate of the error state: the linear system the filter integrates. `E`, `T` are the rotation rates of the earth
and of the local frame, `G` the gravity, `fn` the specific force in the local frame, `tg`, `ta` the correlation times. -/
noncomputable def errorRate (C : M3 ℝ) (E T fn : V3 ℝ) (lat h G tg ta : ℝ) (x : Fin 15 → ℝ) : Fin 15 → ℝ :=
  stack (![x 3, x 4, x 5] - xp T ![x 0, x 1, x 2])
    (-xp (T + (2 : ℝ) • E) ![x 3, x 4, x 5] + xp fn ![x 6, x 7, x 8] + C *ᵥ ![x 12, x 13, x 14] +
      ![-G / (rM lat + h) * x 0, -G / (rN lat + h) * x 1, 2 * G / (Real.sqrt (rM lat * rN lat) + h) * x 2])
    (-xp (T + E) ![x 6, x 7, x 8] - C *ᵥ ![x 9, x 10, x 11])
    (-(1 / tg) • ![x 9, x 10, x 11]) (-(1 / ta) • ![x 12, x 13, x 14])

/-- How a correction `x` moves latitude, longitude and height (first part of C83). -/
noncomputable def posShift (x : Fin 15 → ℝ) (lat h : ℝ) : V3 ℝ :=
  ![-x 0 / (rM lat + h), -x 1 / ((rN lat + h) * Real.cos lat), x 2]
/-- How it changes the velocity. -/
noncomputable def velShift (x : Fin 15 → ℝ) (v : V3 ℝ) (lat h : ℝ) : V3 ℝ := -![x 3, x 4, x 5] + xp (frameTurn x lat h) v
/-- How it turns the attitude. -/
noncomputable def attShift (x : Fin 15 → ℝ) (C : M3 ℝ) (lat h : ℝ) : M3 ℝ := xm (![x 6, x 7, x 8] + frameTurn x lat h) * C

theorem frameTurn_eq (x : Fin 15 → ℝ) (lat h : ℝ) : frameTurn x lat h = transportRate ![x 0, x 1, x 2] lat h := rfl
theorem posShift_eq (x : Fin 15 → ℝ) (lat h : ℝ) : posShift x lat h = -posRate ![x 0, x 1, x 2] lat h := by
  ext i; fin_cases i <;> simp [posShift, posRate] <;> ring


theorem errorRate_block (C : M3 ℝ) (E T fn : V3 ℝ) (lat h G tg ta : ℝ) (x : Fin 15 → ℝ) (y : Fin 15 → ℝ)
    (hy : y = errorRate C E T fn lat h G tg ta x) :
    (![y 0, y 1, y 2] : V3 ℝ) = ![x 3, x 4, x 5] - xp T ![x 0, x 1, x 2] ∧
    (![y 3, y 4, y 5] : V3 ℝ) = -xp (T + (2 : ℝ) • E) ![x 3, x 4, x 5] + xp fn ![x 6, x 7, x 8] + C *ᵥ ![x 12, x 13, x 14] +
      ![-G / (rM lat + h) * x 0, -G / (rN lat + h) * x 1, 2 * G / (Real.sqrt (rM lat * rN lat) + h) * x 2] ∧
    (![y 6, y 7, y 8] : V3 ℝ) = -xp (T + E) ![x 6, x 7, x 8] - C *ᵥ ![x 9, x 10, x 11] := by
  subst hy
  unfold errorRate
  generalize (![x 3, x 4, x 5] - xp T ![x 0, x 1, x 2] : V3 ℝ) = a
  generalize (-xp (T + (2 : ℝ) • E) ![x 3, x 4, x 5] + xp fn ![x 6, x 7, x 8] + C *ᵥ ![x 12, x 13, x 14] +
      ![-G / (rM lat + h) * x 0, -G / (rN lat + h) * x 1, 2 * G / (Real.sqrt (rM lat * rN lat) + h) * x 2] : V3 ℝ) = b
  generalize (-xp (T + E) ![x 6, x 7, x 8] - C *ᵥ ![x 9, x 10, x 11] : V3 ℝ) = c
  refine ⟨?_, ?_, ?_⟩ <;> (ext i; fin_cases i <;> rfl)

/-- C93: let the state follow the navigation equations and let a correction `X t` of it follow the filter's linear
system. Then the corrected state follows the navigation equations as well, to first order in the correction, with the specific
force and the body rate lowered by the corrections of the biases: the change that the correction makes to the
position, velocity and attitude grows at the rate at which it changes the rates of the equations. Only
the vertical velocity is off, by the difference between the gradient of gravity and `2 g / R`. -/
theorem C93_linearisation (f : Fusion ℝ) (hc : Consistent f.ins.nav) (x : Fin 15 → ℝ) (F w : V3 ℝ) (tg ta : ℝ) (C : M3 ℝ) (v : V3 ℝ)
    (lat h : ℝ) (eC : C = f.ins.nav.Cbn) (ev : v = f.ins.nav.vn) (el : lat = f.ins.nav.pos 0) (eh : h = f.ins.nav.pos 2)
    (γ : ℝ → ℝ → ℝ) (γ' : ℝ) (hγ : HasDerivAt (fun e => γ ((corrected f x e).pos 0) ((corrected f x e).pos 2)) γ' 0)
    (X : ℝ → Fin 15 → ℝ) (L H : ℝ → ℝ) (V : ℝ → V3 ℝ) (K : ℝ → M3 ℝ)
    (x0 : X 0 = x) (l0 : L 0 = lat) (h0 : H 0 = h) (v0 : V 0 = v) (k0 : K 0 = C)
    (hL : HasDerivAt L (posRate v lat h 0) 0) (hH : HasDerivAt H (posRate v lat h 2) 0)
    (hV : VD V (velRate C F v lat h (γ lat h))) (hK : MD K (attRate C w v lat h))
    (hX : ∀ k, HasDerivAt (fun t => X t k)
      (errorRate C (earthRate lat) (transportRate v lat h) (C *ᵥ F) lat h (γ lat h) tg ta x k) 0) :
    (∃ a, VD (fun t => posShift (X t) (L t) (H t)) a ∧
      VD (fun e => posRate (corrected f x e).vn ((corrected f x e).pos 0) ((corrected f x e).pos 2)) a) ∧
    (∃ a, VD (fun t => velShift (X t) (V t) (L t) (H t)) a ∧
      VD (fun e => velRate (corrected f x e).Cbn (F - e • ![x 12, x 13, x 14]) (corrected f x e).vn
        ((corrected f x e).pos 0) ((corrected f x e).pos 2) (γ ((corrected f x e).pos 0) ((corrected f x e).pos 2)))
        (a + ![0, 0, γ' + 2 * γ lat h / (Real.sqrt (rM lat * rN lat) + h) * x 2])) ∧
    (∃ a, MD (fun t => attShift (X t) (K t) (L t) (H t)) a ∧
      MD (fun e => attRate (corrected f x e).Cbn (w - e • ![x 9, x 10, x 11]) (corrected f x e).vn
        ((corrected f x e).pos 0) ((corrected f x e).pos 2)) a) := by
  have r : Regular lat h := by rw [el, eh]; exact ⟨hc.lat, hc.height⟩
  have hrot : isRot C := by
    rw [eC, hc.dcm]
    exact toRot_isRot _ hc.unit
  obtain ⟨k, hk⟩ := rM_deriv lat
  obtain ⟨⟨c1, c2, c3⟩, ⟨p1, p2, p3⟩, cv, cC, -⟩ := C83_feedback f hc x _ rfl
  rw [← eC] at cC c3
  rw [← ev] at cv c2
  rw [← el, ← eh] at cv cC p1
  rw [frameTurn_eq] at cv cC
  have q0 : (corrected f x 0).pos 0 = lat := by rw [c1, el]
  have q2 : (corrected f x 0).pos 2 = h := by rw [c1, eh]
  obtain ⟨b1, b2, b3⟩ := errorRate_block C (earthRate lat) (transportRate v lat h) (C *ᵥ F) lat h (γ lat h) tg ta x _ rfl
  set y := errorRate C (earthRate lat) (transportRate v lat h) (C *ᵥ F) lat h (γ lat h) tg ta x with hy
  set d := transportRate ![x 0, x 1, x 2] lat h with hd
  set T := transportRate v lat h with hT
  have X1 : VD (fun t => ![X t 0, X t 1, X t 2]) ![y 0, y 1, y 2] := by
    intro i; fin_cases i; exacts [hX 0, hX 1, hX 2]
  have X2 : VD (fun t => ![X t 3, X t 4, X t 5]) ![y 3, y 4, y 5] := by
    intro i; fin_cases i; exacts [hX 3, hX 4, hX 5]
  have X3 : VD (fun t => ![X t 6, X t 7, X t 8]) ![y 6, y 7, y 8] := by
    intro i; fin_cases i; exacts [hX 6, hX 7, hX 8]
  obtain ⟨t1, t2⟩ := rates_deriv r hk X1 hL hH l0 h0
  obtain ⟨s1, s2⟩ := rates_deriv r hk cv p1 p3 q0 q2
  rw [c2] at s1 s2
  simp only [x0] at t1 t2
  have hE := earthRate_deriv p1
  rw [q0] at hE
  have ve := earth_variation r ![x 0, x 1, x 2]
  simp only [Matrix.cons_val_zero] at ve
  rw [ve, ← hd] at hE
  have vt := transport_variation (k := k) r ![x 0, x 1, x 2] v ![x 3, x 4, x 5]
  have vp := position_variation (k := k) r ![x 0, x 1, x 2] v ![x 3, x 4, x 5]
  rw [← hd, ← hT] at vt vp
  simp only [Matrix.cons_val_zero, Matrix.cons_val] at vt vp
  rw [← b1] at vt vp
  rw [vt] at s1
  rw [vp] at s2
  set D := trD k ![x 0, x 1, x 2] ![y 0, y 1, y 2] lat h (posRate v lat h 0) (posRate v lat h 2) with hD
  have hf : VD (fun e : ℝ => F - e • ![x 12, x 13, x 14]) (-![x 12, x 13, x 14]) := by
    have := VD.sub (VD.const F) (VD.lin ![x 12, x 13, x 14])
    rwa [zero_sub] at this
  have hw : VD (fun e : ℝ => w - e • ![x 9, x 10, x 11]) (-![x 9, x 10, x 11]) := by
    have := VD.sub (VD.const w) (VD.lin ![x 9, x 10, x 11])
    rwa [zero_sub] at this
  have W := VD.add hE s1
  have fT0 : frameTurn (X 0) (L 0) (H 0) = d := by rw [x0, l0, h0]; rfl
  have hd0 : d 0 = x 1 / (rN lat + h) := rfl
  have hd1 : d 1 = -x 0 / (rM lat + h) := rfl
  have m1 := VD.add (VD.neg X2) (VD.xp (a := fun t => frameTurn (X t) (L t) (H t)) t1 hV)
  have m2 := MD.mul (VD.xm (VD.add X3 t1)) hK
  refine ⟨⟨_, ?_, s2⟩, ⟨_, m1, ?_⟩, ⟨_, m2, ?_⟩⟩
  · simp only [posShift_eq]
    exact VD.neg t2
  · have g1 : VD (fun e => (![0, 0, γ ((corrected f x e).pos 0) ((corrected f x e).pos 2)] : V3 ℝ)) ![0, 0, γ'] := by
      intro i; fin_cases i
      · exact hasDerivAt_const ..
      · exact hasDerivAt_const ..
      · exact hγ
    have u1 := MD.mulVec cC hf
    have u2 := VD.xp (VD.add (VD.smul 2 hE) s1) cv
    have u3 := VD.sub (VD.add u1 g1) u2
    intro i
    refine (u3 i).congr_deriv ?_
    simp only [c2, c3, q0, q2, v0, fT0, zero_smul, sub_zero, b2]
    rw [← Matrix.mulVec_mulVec, xm_mulVec, Matrix.mulVec_neg, velRate, ← hT]
    generalize C *ᵥ F = CF
    generalize C *ᵥ (![x 12, x 13, x 14] : V3 ℝ) = ca
    clear_value D T d
    have k1 : -γ lat h / (rM lat + h) * x 0 = γ lat h * d 1 := by rw [hd1]; ring
    have k2 : -γ lat h / (rN lat + h) * x 1 = -γ lat h * d 0 := by rw [hd0]; ring
    rw [k1, k2]
    generalize 2 * γ lat h / (Real.sqrt (rM lat * rN lat) + h) * x 2 = Q
    generalize γ lat h = G
    generalize earthRate lat = E
    fin_cases i
    all_goals
      simp only [Pi.add_apply, Pi.sub_apply, Pi.neg_apply, Pi.smul_apply, smul_eq_mul, xp,
        Matrix.cons_val_zero, Matrix.cons_val_one, Matrix.cons_val, Fin.zero_eta, Fin.mk_one, Fin.reduceFinMk, Fin.isValue]
      ring
  · have u1 := MD.sub (MD.mul cC (VD.xm hw)) (MD.mul (VD.xm W) cC)
    intro i j
    refine (u1 i j).congr_deriv ?_
    simp only [c2, c3, q0, q2, k0, x0, l0, h0, zero_smul, sub_zero, b3]
    refine congrFun (congrFun (?_ : (_ : M3 ℝ) = _) i) j
    rw [attRate, ← hT, ← hd]
    generalize earthRate lat = E
    clear_value D T d
    generalize (![x 6, x 7, x 8] : V3 ℝ) = φ
    generalize (![x 9, x 10, x 11] : V3 ℝ) = ξ
    rw [xm_neg, Matrix.mul_neg, rot_xm hrot ξ]
    generalize C *ᵥ ξ = η
    have e1 : xm (-xp (T + E) φ - η + D) = -(xm (T + E) * xm φ - xm φ * xm (T + E)) - xm η + xm D := by
      rw [xm_add, xm_sub, xm_neg, xm_comm]
    have e2 : xm (xp d E + (xp d T - D)) = (xm d * xm (T + E) - xm (T + E) * xm d) - xm D := by
      rw [xm_comm, ← xm_sub]
      congr 1
      ext i; fin_cases i
      all_goals
        simp only [Pi.add_apply, Pi.sub_apply, Pi.neg_apply, Pi.smul_apply, smul_eq_mul, xp,
          Matrix.cons_val_zero, Matrix.cons_val_one, Matrix.cons_val, Fin.zero_eta, Fin.mk_one, Fin.reduceFinMk, Fin.isValue]
        ring
    rw [e1, e2, xm_add φ d, add_comm E T]
    generalize xm (T + E) = A
    generalize xm φ = B
    generalize xm d = Y
    noncomm_ring

/-- C93's hypotheses are met by every consistent filter, for example the vehicle of C81, with any correction, specific force,
body rate and correlation times: take motions that are straight in time. -/
example (f : Fusion ℝ) (hc : Consistent f.ins.nav) (x : Fin 15 → ℝ) (F w : V3 ℝ) (tg ta : ℝ) (C : M3 ℝ) (v : V3 ℝ)
    (lat h : ℝ) (eC : C = f.ins.nav.Cbn) (ev : v = f.ins.nav.vn) (el : lat = f.ins.nav.pos 0) (eh : h = f.ins.nav.pos 2) :
    ∃ (γ : ℝ → ℝ → ℝ) (γ' : ℝ) (X : ℝ → Fin 15 → ℝ) (L H : ℝ → ℝ) (V : ℝ → V3 ℝ) (K : ℝ → M3 ℝ), γ lat h = 9.8 ∧
      HasDerivAt (fun e => γ ((corrected f x e).pos 0) ((corrected f x e).pos 2)) γ' 0 ∧
      X 0 = x ∧ L 0 = lat ∧ H 0 = h ∧ V 0 = v ∧ K 0 = C ∧
      HasDerivAt L (posRate v lat h 0) 0 ∧ HasDerivAt H (posRate v lat h 2) 0 ∧
      VD V (velRate C F v lat h (γ lat h)) ∧ MD K (attRate C w v lat h) ∧
      ∀ k, HasDerivAt (fun t => X t k)
        (errorRate C (earthRate lat) (transportRate v lat h) (C *ᵥ F) lat h (γ lat h) tg ta x k) 0 := by
  have lin : ∀ a b : ℝ, HasDerivAt (fun t => a + t * b) b 0 := fun a b => by
    simpa using ((hasDerivAt_id (0 : ℝ)).mul_const b).const_add a
  refine ⟨fun _ _ => 9.8, 0, fun t k => x k + t * errorRate C (earthRate lat) (transportRate v lat h) (C *ᵥ F) lat h 9.8 tg ta x k,
    fun t => lat + t * posRate v lat h 0, fun t => h + t * posRate v lat h 2,
    fun t i => v i + t * velRate C F v lat h 9.8 i, fun t i j => C i j + t * attRate C w v lat h i j,
    rfl, hasDerivAt_const .., ?_, ?_, ?_, ?_, ?_, lin _ _, lin _ _, fun i => lin _ _, fun i j => lin _ _, fun k => lin _ _⟩
  · funext k; simp
  · simp
  · simp
  · funext k; simp
  · funext i j; simp
end Verif.Props
