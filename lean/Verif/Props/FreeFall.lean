import Verif.Props.Level
import Verif.Props.AlignOut
import Mathlib.Tactic.Ring
import Mathlib.Tactic.Linarith
import Mathlib.Tactic.NormNum
import Mathlib.Tactic.FieldSimp
import Mathlib.Tactic.SplitIfs
import Mathlib.Tactic.LinearCombination
/-! Which specific force and magnetometer readings the attitude reference filter `AttiAhrs` listens to, and what it
takes from them, in exact arithmetic. -/
namespace Verif.Props
open Verif Verif.Spec Verif.Convert Matrix

/-- Readings of an accelerometer (velocity increments over `ts`) the filter has to treat alike: both weaker than half
a metre per second squared, or both stronger and in the same direction. -/
def alikeForce (ts : ℝ) (u v : V3 ℝ) : Prop :=
  (len u / ts ≤ 1 / 2 ∧ len v / ts ≤ 1 / 2) ∨
  (1 / 2 < len u / ts ∧ 1 / 2 < len v / ts ∧ ∃ k : ℝ, 0 < k ∧ ∀ i, v i = k * u i)

/-- Readings of a vector sensor of the magnetometer form to be treated alike (the threshold is a tenth). -/
def alikeVec (u v : V3 ℝ) : Prop :=
  (len u ≤ 1 / 10 ∧ len v ≤ 1 / 10) ∨
  (1 / 10 < len u ∧ 1 / 10 < len v ∧ ∃ k : ℝ, 0 < k ∧ ∀ i, v i = k * u i)

theorem len_scaled (u v : V3 ℝ) (k : ℝ) (hk : 0 < k) (h : ∀ i, v i = k * u i) : len v = k * len u := by
  unfold len
  rw [h 0, h 1, h 2, show (k * u 0) ^ 2 + (k * u 1) ^ 2 + (k * u 2) ^ 2 = k ^ 2 * (u 0 ^ 2 + u 1 ^ 2 + u 2 ^ 2) by ring,
    Real.sqrt_mul (by positivity), Real.sqrt_sq hk.le]

theorem acc0_alike (a : Ahrs ℝ) (hts : 0 < a.ts) (u v : V3 ℝ) (h : alikeForce a.ts u v) : a.acc0 u = a.acc0 v := by
  unfold Ahrs.acc0
  simp only [vnorm_len, lt_real, lit_real]
  rcases h with ⟨h1, h2⟩ | ⟨h1, h2, k, hk, hv⟩
  · rw [if_neg (by push_cast; linarith), if_neg (by push_cast; linarith)]
  · rw [if_pos (by push_cast; linarith), if_pos (by push_cast; linarith)]
    have hl : 0 < len u := by
      by_contra hc
      have : len u / a.ts ≤ 0 := div_nonpos_of_nonpos_of_nonneg (by linarith) hts.le
      linarith
    funext i
    show u i / (len u / a.ts * a.ts) = v i / (len v / a.ts * a.ts)
    rw [len_scaled u v k hk hv, hv i]
    field_simp

theorem unit0_alike (u v : V3 ℝ) (h : alikeVec u v) : Ahrs.unit0 u = Ahrs.unit0 v := by
  unfold Ahrs.unit0
  simp only [vnorm_len, lt_real, lit_real]
  rcases h with ⟨h1, h2⟩ | ⟨h1, h2, k, hk, hv⟩
  · rw [if_neg (by push_cast; linarith), if_neg (by push_cast; linarith)]
  · rw [if_pos (by push_cast; linarith), if_pos (by push_cast; linarith)]
    have hl : 0 < len u := by linarith
    funext i
    show u i / len u = v i / len v
    rw [len_scaled u v k hk hv, hv i]
    field_simp

/-- Two histories of the filter alike up to what the filter may not distinguish. -/
inductive AlikeRuns (ts : ℝ) : List ACall → List ACall → Prop
  | nil : AlikeRuns ts [] []
  | imu (m m' : Imu ℝ) (cs cs' : List ACall) : m.gyro = m'.gyro → alikeForce ts m.acce m'.acce → AlikeRuns ts cs cs' →
      AlikeRuns ts (.imu m :: cs) (.imu m' :: cs')
  | mag (w f f' b b' : V3 ℝ) (cs cs' : List ACall) : alikeVec f f' → alikeVec b b' → AlikeRuns ts cs cs' →
      AlikeRuns ts (.mag w f b :: cs) (.mag w f' b' :: cs')
  | setEuler (e : V3 ℝ) (cs cs' : List ACall) : AlikeRuns ts cs cs' → AlikeRuns ts (.setEuler e :: cs) (.setEuler e :: cs')
  | setQuat (q : Quat ℝ) (cs cs' : List ACall) : AlikeRuns ts cs cs' → AlikeRuns ts (.setQuat q :: cs) (.setQuat q :: cs')

theorem exec_ts (c : ACall) (a : Ahrs ℝ) : (c.exec a).ts = a.ts := by cases c <;> rfl

/-- C169: over any history, the filter takes from an accelerometer (or magnetometer) reading its direction only, and
nothing at all when it is weaker than the threshold: alike histories give the same filter, hence the same attitude. -/
theorem C169_direction_only (dt : ℝ) (h0 : 0 < dt) (cs cs' : List ACall) (h : AlikeRuns dt cs cs') :
    arun cs (Ahrs.new dt) = arun cs' (Ahrs.new dt) := by
  have key : ∀ a : Ahrs ℝ, a.ts = dt → arun cs a = arun cs' a := by
    induction h with
    | nil => intro a _; rfl
    | imu m m' cs cs' hg hf _ ih =>
      intro a ha
      have e : ACall.exec (.imu m) a = ACall.exec (.imu m') a := by
        show a.update m.gyro m.acce = a.update m'.gyro m'.acce
        have he : a.err m.acce = a.err m'.acce := by
          unfold Ahrs.err
          rw [acc0_alike a (by rw [ha]; exact h0) _ _ (by rw [ha]; exact hf)]
        unfold Ahrs.update
        rw [hg, he]
      show arun cs (ACall.exec (.imu m) a) = arun cs' (ACall.exec (.imu m') a)
      rw [← e]
      exact ih _ (by rw [exec_ts]; exact ha)
    | mag w f f' b b' cs cs' hf hb _ ih =>
      intro a ha
      have e : ACall.exec (.mag w f b) a = ACall.exec (.mag w f' b') a := by
        show a.updateMag w f b = a.updateMag w f' b'
        unfold Ahrs.updateMag
        rw [unit0_alike _ _ hf, unit0_alike _ _ hb]
      show arun cs (ACall.exec (.mag w f b) a) = arun cs' (ACall.exec (.mag w f' b') a)
      rw [← e]
      exact ih _ (by rw [exec_ts]; exact ha)
    | setEuler e cs cs' _ ih => intro a ha; exact ih _ ha
    | setQuat q cs cs' _ ih => intro a ha; exact ih _ ha
  exact key _ rfl

/-- The hypotheses are met by a strong reading and its double and by two different weak ones. -/
example : AlikeRuns 1 [.imu ⟨0, zero3, v3 0 0 9⟩, .mag zero3 (v3 0 0 1) (v3 (1 / 20) 0 0)]
    [.imu ⟨0, zero3, v3 0 0 18⟩, .mag zero3 (v3 0 0 2) (v3 0 0 (1 / 20))] := by
  have l : ∀ x : ℝ, 0 ≤ x → len (v3 0 0 x) = x := by
    intro x hx; unfold len; simp [v3, Real.sqrt_sq hx]
  have l' : len (v3 (1 / 20) 0 0 : V3 ℝ) = 1 / 20 := by
    unfold len; simp [v3, Real.sqrt_sq]
  refine .imu _ _ _ _ rfl (.inr ⟨?_, ?_, 2, by norm_num, ?_⟩) (.mag _ _ _ _ _ _ _ (.inr ⟨?_, ?_, 2, by norm_num, ?_⟩) (.inl ⟨?_, ?_⟩) .nil)
  · rw [l _ (by norm_num)]; norm_num
  · rw [l _ (by norm_num)]; norm_num
  · intro i; fin_cases i <;> norm_num [v3]
  · rw [l _ (by norm_num)]; norm_num
  · rw [l _ (by norm_num)]; norm_num
  · intro i; fin_cases i <;> norm_num [v3]
  · rw [l']; norm_num
  · rw [l _ (by norm_num)]; norm_num

theorem new_q (dt : ℝ) : (Ahrs.new dt).qnb = qone ∧ (Ahrs.new dt).Cnb = 1 := by
  have e : eulerToQuat (zero3 : V3 ℝ) = qone := by
    unfold eulerToQuat qone
    simp [zero3, v3]
  have e1 : (Ahrs.new dt).qnb = qone := e
  refine ⟨e1, ?_⟩
  show quatToDcm (eulerToQuat zero3) = 1
  rw [(C39_euler_quaternion_agrees _).2, eulerToDcm_eq]
  funext i j
  fin_cases i <;> fin_cases j <;> simp [zero3, v3, Rx, Ry, Rz, Matrix.mul_apply, Fin.sum_univ_three, Matrix.one_apply]

/-- A small rotation vector gives no rotation axis only when it is zero. -/
theorem rv_im_iff (v : V3 ℝ) (h : len v ≤ 1) :
    ((rvToQuat v).x = 0 ∧ (rvToQuat v).y = 0 ∧ (rvToQuat v).z = 0) ↔ v = 0 := by
  have hl : 0 ≤ len v := Real.sqrt_nonneg _
  have hs : 1 / 4 < 1 / 2 * snP (len v / 2) := (level_series (len v / 2) (by linarith) (by linarith)).2.1
  rw [rv_small v (by linarith [Real.pi_gt_three])]
  have hn : 1 / 2 * snP (len v / 2) ≠ 0 := by linarith
  constructor
  · rintro ⟨e0, e1, e2⟩
    funext i
    fin_cases i
    · exact (mul_eq_zero.1 e0).resolve_left hn
    · exact (mul_eq_zero.1 e1).resolve_left hn
    · exact (mul_eq_zero.1 e2).resolve_left hn
  · rintro rfl; simp

theorem rv_one_iff (v : V3 ℝ) (h : len v ≤ 1) : rvToQuat v = qone ↔ v = 0 := by
  constructor
  · intro e; exact (rv_im_iff v h).1 (by rw [e]; exact ⟨rfl, rfl, rfl⟩)
  · intro e; exact rv_zero v e

theorem rv_normalized_one_iff (v : V3 ℝ) (h : len v ≤ 1) : (rvToQuat v).normalized = qone ↔ v = 0 := by
  constructor
  · intro e
    refine (rv_im_iff v h).1 ?_
    have hp : 0 < qsq (rvToQuat v) := rv_pos v
    have hs : Real.sqrt (qsq (rvToQuat v)) ≠ 0 := (Real.sqrt_pos.2 hp).ne'
    have hn : (rvToQuat v).nsq = qsq (rvToQuat v) := nsq_eq _
    unfold Quat.normalized at e
    rw [if_pos (by rw [lt_real, hn]; exact hp)] at e
    simp only [hn, sqrt_real] at e
    have ex := congrArg Quat.x e
    have ey := congrArg Quat.y e
    have ez := congrArg Quat.z e
    simp only [qone, div_eq_zero_iff, hs, or_false] at ex ey ez
    exact ⟨ex, ey, ez⟩
  · intro e
    rw [rv_zero v e]
    exact normalized_unit _ (by simp [qsq])

/-- The attitude got by following the gyroscope alone. -/
noncomputable def gyroOnly (q : Quat ℝ) (ms : List (Imu ℝ)) : Quat ℝ :=
  ms.foldl (fun q m => (q.mul (rvToQuat m.gyro)).normalized) q

/-- C169: in free fall (every reading weaker than half a metre per second squared) a filter that has integrated
nothing yet follows the gyroscope alone, for as long as the fall lasts. -/
theorem C169_free_fall (dt : ℝ) (e : V3 ℝ) (ms : List (Imu ℝ)) (h : ∀ m ∈ ms, len m.acce / dt ≤ 1 / 2) :
    (arun (.setEuler e :: ms.map .imu) (Ahrs.new dt)).getQnb = gyroOnly (eulerToQuat e) ms := by
  have key : ∀ (ms : List (Imu ℝ)) (a : Ahrs ℝ), a.ts = dt → a.exyzInt = zero3 → (∀ i, 0 ≤ a.ebMax i) →
      (∀ m ∈ ms, len m.acce / dt ≤ 1 / 2) → (arun (ms.map .imu) a).getQnb = gyroOnly a.qnb ms := by
    intro ms
    induction ms with
    | nil => intros; rfl
    | cons m ms ih =>
      intro a ha he hb hm
      have hacc : a.acc0 m.acce = zero3 := by
        have := hm m (by simp)
        unfold Ahrs.acc0
        simp only [vnorm_len, lt_real, lit_real, ha]
        rw [if_neg (by push_cast; linarith)]
      have herr : a.err m.acce = zero3 := by
        unfold Ahrs.err; rw [hacc]
        funext i; fin_cases i <;> simp [cross, zero3, v3]
      have hint : (a.exyzInt + vs (a.err m.acce) (a.Ki * a.ts)) = zero3 := by
        rw [herr, he]; funext i; fin_cases i <;> simp [zero3, v3, vs]
      have hq : (a.updateImu m).qnb = (a.qnb.mul (rvToQuat m.gyro)).normalized := by
        show (a.qnb.mul (rvToQuat (m.gyro - vs (sv a.Kp (a.err m.acce) + (a.exyzInt + vs (a.err m.acce) (a.Ki * a.ts))) a.ts))).normalized = _
        rw [hint, herr]
        congr 3
        funext i
        simp only [Pi.sub_apply, vs, Pi.add_apply, sv]
        fin_cases i <;> simp [zero3, v3]
      show (arun (ms.map .imu) (a.updateImu m)).getQnb = gyroOnly ((a.qnb.mul (rvToQuat m.gyro)).normalized) ms
      rw [← hq]
      refine ih _ ha ?_ hb (fun m' h' => hm m' (List.mem_cons_of_mem _ h'))
      funext i
      show Ahrs.clamp ((a.exyzInt + vs (a.err m.acce) (a.Ki * a.ts)) i) (a.ebMax i) = _
      rw [hint]
      have hz : (zero3 : V3 ℝ) i = 0 := by fin_cases i <;> simp [zero3, v3]
      have := hb i
      unfold Ahrs.clamp
      rw [hz, if_neg (by rw [lt_real]; linarith), if_neg (by rw [lt_real]; linarith)]
  refine key ms _ rfl rfl ?_ h
  intro i
  have := Real.pi_pos
  show 0 ≤ vs (v3 1 1 1) (deg : ℝ) i
  fin_cases i <;> simp [vs, v3, deg] <;> positivity

/-- The hypothesis is met by a fall with a small residual reading while turning. -/
example : ∀ m ∈ [(⟨0, v3 1 0 0, v3 0 0 (1 / 500)⟩ : Imu ℝ), ⟨1, v3 0 0 1, zero3⟩], len m.acce / (1 / 100) ≤ 1 / 2 := by
  intro m hm
  have h1 : len (v3 0 0 (1 / 500) : V3 ℝ) = 1 / 500 := by
    unfold len; simp [v3, Real.sqrt_sq]
  have h2 : len (zero3 : V3 ℝ) = 0 := by unfold len; simp [zero3, v3]
  rw [List.mem_cons, List.mem_singleton] at hm
  rcases hm with rfl | rfl
  · rw [h1]; norm_num
  · rw [h2]; norm_num

theorem new_gains (dt : ℝ) : (Ahrs.new dt).Kp = 2 * (2146 / 1000 / 100) ∧ (Ahrs.new dt).Ki = (2146 / 1000 / 100) * (2146 / 1000 / 100) ∧
    (Ahrs.new dt).ts = dt ∧ (Ahrs.new dt).exyzInt = zero3 := by
  refine ⟨?_, ?_, rfl, rfl⟩ <;> simp [Ahrs.new, f32_real, lit_real]

theorem cross_up (f : V3 ℝ) : cross ((1 : M3 ℝ) 2) f = v3 (-(f 1)) (f 0) 0 := by
  funext i; fin_cases i <;> simp [cross, v3]

/-- C169: a fresh filter at zero attitude and not turning stays there on the first reading exactly when the reading
is too weak or along the vertical: every stronger tilted reading is listened to. -/
theorem C169_listens_above_half (dt t : ℝ) (h0 : 0 < dt) (h1 : dt ≤ 1) (f : V3 ℝ) :
    ((Ahrs.new dt).updateImu ⟨t, zero3, f⟩).getQnb = ⟨1, 0, 0, 0⟩ ↔ len f / dt ≤ 1 / 2 ∨ (f 0 = 0 ∧ f 1 = 0) := by
  obtain ⟨hKp, hKi, hts, hint⟩ := new_gains dt
  obtain ⟨hq, hC⟩ := new_q dt
  obtain ⟨d, hd⟩ : ∃ d, d = (Ahrs.new dt).acc0 f := ⟨_, rfl⟩
  have herr : (Ahrs.new dt).err f = v3 (-(d 1)) (d 0) 0 := by
    unfold Ahrs.err
    rw [hC, ← hd, cross_up]
    funext i; fin_cases i <;> simp [cross, zero3, v3]
  obtain ⟨k, hk⟩ : ∃ k : ℝ, k = (2 * (2146 / 1000 / 100) + (2146 / 1000 / 100) * (2146 / 1000 / 100) * dt) * dt := ⟨_, rfl⟩
  have hk0 : 0 < k := by rw [hk]; positivity
  have hk1 : k ≤ 1 / 2 := by rw [hk]; nlinarith
  have hv : zero3 - vs (sv (Ahrs.new dt).Kp ((Ahrs.new dt).err f) + ((Ahrs.new dt).exyzInt + vs ((Ahrs.new dt).err f)
      ((Ahrs.new dt).Ki * (Ahrs.new dt).ts))) (Ahrs.new dt).ts = v3 (k * d 1) (-(k * d 0)) 0 := by
    rw [hKp, hKi, hts, hint, herr, hk]
    funext i
    simp only [Pi.sub_apply, vs, Pi.add_apply, sv]
    fin_cases i <;> simp [zero3, v3] <;> ring
  have hqn : ((Ahrs.new dt).updateImu ⟨t, zero3, f⟩).getQnb = (rvToQuat (v3 (k * d 1) (-(k * d 0)) 0)).normalized := by
    rw [← hv]
    show ((Ahrs.new dt).qnb.mul _).normalized = _
    rw [hq, qone_mul]
  rw [hqn]
  have hd1 : d 0 ^ 2 + d 1 ^ 2 ≤ 1 ∧ ((d 0 = 0 ∧ d 1 = 0) ↔ len f / dt ≤ 1 / 2 ∨ (f 0 = 0 ∧ f 1 = 0)) := by
    rw [hd]
    unfold Ahrs.acc0
    simp only [vnorm_len, lt_real, lit_real, hts]
    push_cast
    by_cases hc : 1 / 2 < len f / dt
    · have hl : 0 < len f := by
        by_contra hcc
        have : len f / dt ≤ 0 := div_nonpos_of_nonpos_of_nonneg (by linarith) h0.le
        linarith
      rw [if_pos hc]
      have e : ∀ i, vd f (len f / dt * dt) i = f i / len f := by
        intro i; show f i / (len f / dt * dt) = _; field_simp
      rw [e 0, e 1]
      have hls : len f ^ 2 = f 0 ^ 2 + f 1 ^ 2 + f 2 ^ 2 := len_sq f
      refine ⟨?_, ?_⟩
      · rw [div_pow, div_pow, ← add_div, div_le_one (by positivity), hls]
        nlinarith [sq_nonneg (f 2)]
      · rw [div_eq_zero_iff, div_eq_zero_iff]
        simp only [hl.ne', or_false]
        exact ⟨fun h => .inr h, fun h => h.resolve_left (by linarith)⟩
    · rw [if_neg hc]
      refine ⟨by simp [zero3, v3], ?_⟩
      simp only [zero3, v3]
      exact ⟨fun _ => .inl (by linarith), fun _ => by simp⟩
  have hlen : len (v3 (k * d 1) (-(k * d 0)) 0) ≤ 1 := by
    unfold len
    refine Real.sqrt_le_iff.2 ⟨by norm_num, ?_⟩
    simp only [v3, Matrix.cons_val_zero, Matrix.cons_val_one, Matrix.cons_val]
    have hkk : k ^ 2 ≤ 1 / 4 := by nlinarith
    have hm := mul_le_mul hkk hd1.1 (by positivity) (by norm_num)
    calc _ = k ^ 2 * (d 0 ^ 2 + d 1 ^ 2) := by ring
      _ ≤ _ := hm
      _ ≤ _ := by norm_num
  show (rvToQuat (v3 (k * d 1) (-(k * d 0)) 0)).normalized = qone ↔ _
  rw [rv_normalized_one_iff _ hlen, ← hd1.2]
  constructor
  · intro h
    have e0 := congrFun h 0
    have e1 := congrFun h 1
    simp [v3, hk0.ne'] at e0 e1
    exact ⟨e1, e0⟩
  · rintro ⟨h0', h1'⟩
    funext i; fin_cases i <;> simp [v3, h0', h1']

/-- C169: the same for the magnetometer of the magnetometer form: a fresh filter, weightless and not turning, stays at
zero attitude exactly when the field is weaker than a tenth, or points to the second axis (or level and exactly away
from it). -/
theorem C169_magnetometer (dt : ℝ) (h0 : 0 < dt) (h1 : dt ≤ 1) (b : V3 ℝ) :
    ((Ahrs.new dt).updateMag zero3 zero3 b).getQnb = ⟨1, 0, 0, 0⟩ ↔
      len b ≤ 1 / 10 ∨ (b 0 = 0 ∧ (0 ≤ b 1 ∨ b 2 = 0)) := by
  obtain ⟨hKp, hKi, hts, hint⟩ := new_gains dt
  obtain ⟨hq, hC⟩ := new_q dt
  obtain ⟨d, hd⟩ : ∃ d, d = Ahrs.unit0 b := ⟨_, rfl⟩
  have hz0 : Ahrs.unit0 (zero3 : V3 ℝ) = zero3 := by
    unfold Ahrs.unit0
    dsimp only
    rw [if_neg (by rw [lt_real, lit_real]; unfold vnorm sqNorm; simp [sumF_real, sqrt_real, Fin.sum_univ_three, zero3, v3])]
  obtain ⟨k, hk⟩ : ∃ k : ℝ, k = (2 * (2146 / 1000 / 100) + (2146 / 1000 / 100) * (2146 / 1000 / 100) * dt) * dt := ⟨_, rfl⟩
  have hk0 : 0 < k := by rw [hk]; positivity
  have hk1 : k ≤ 1 / 2 := by rw [hk]; nlinarith
  obtain ⟨n, hn⟩ : ∃ n : ℝ, n = Real.sqrt (d 0 * d 0 + d 1 * d 1) := ⟨_, rfl⟩
  have hn0 : 0 ≤ n := by rw [hn]; exact Real.sqrt_nonneg _
  have hn2 : n ^ 2 = d 0 ^ 2 + d 1 ^ 2 := by rw [hn, Real.sq_sqrt (by nlinarith [sq_nonneg (d 0), sq_nonneg (d 1)])]; ring
  have hqn : ((Ahrs.new dt).updateMag zero3 zero3 b).getQnb =
      rvToQuat (v3 (-(k * (n * d 2 - d 2 * d 1))) (-(k * (d 2 * d 0))) (k * (n * d 0))) := by
    unfold Ahrs.updateMag Ahrs.getQnb
    dsimp only
    rw [hz0, ← hd, hC, hq, qone_mul, hKp, hKi, hts, hint]
    congr 1
    have hb : mvec (1 : M3 ℝ) d = d := by rw [mvec_real]; simp
    have ht : mvec (Matrix.transpose (1 : M3 ℝ)) (v3 0 (Ahrs.normXY d) (d 2)) = v3 0 n (d 2) := by
      rw [mvec_real]; simp [Ahrs.normXY, sqrt_real, hn]
    rw [hb, ht, cross_up]
    funext i
    rw [hk]
    simp only [Pi.sub_apply, vs, Pi.add_apply, sv]
    fin_cases i <;> simp [zero3, v3, cross] <;> ring
  rw [hqn]
  have hd1 : d 0 ^ 2 + d 1 ^ 2 + d 2 ^ 2 ≤ 1 ∧
      ((d 0 = 0 ∧ (0 ≤ d 1 ∨ d 2 = 0)) ↔ len b ≤ 1 / 10 ∨ (b 0 = 0 ∧ (0 ≤ b 1 ∨ b 2 = 0))) := by
    rw [hd]
    unfold Ahrs.unit0
    simp only [vnorm_len, lt_real, lit_real]
    push_cast
    by_cases hc : 1 / 10 < len b
    · have hl : 0 < len b := by linarith
      rw [if_pos hc]
      have e : ∀ i, vd b (len b) i = b i / len b := fun i => rfl
      rw [e 0, e 1, e 2]
      have hls : len b ^ 2 = b 0 ^ 2 + b 1 ^ 2 + b 2 ^ 2 := len_sq b
      refine ⟨?_, ?_⟩
      · rw [div_pow, div_pow, div_pow, ← add_div, ← add_div, div_le_one (by positivity), hls]
      · rw [div_eq_zero_iff, div_eq_zero_iff, le_div_iff₀ hl, zero_mul]
        simp only [hl.ne', or_false]
        exact ⟨fun h => .inr h, fun h => h.resolve_left (by linarith)⟩
    · rw [if_neg hc]
      refine ⟨by simp [zero3, v3], ?_⟩
      simp only [zero3, v3]
      exact ⟨fun _ => .inl (by linarith), fun _ => by simp⟩
  show rvToQuat _ = qone ↔ _
  rw [rv_one_iff, ← hd1.2]
  · constructor
    · intro h
      have e0 := congrFun h 0
      have e2 := congrFun h 2
      simp only [v3, Matrix.cons_val_zero, Matrix.cons_val, Pi.zero_apply, neg_eq_zero, mul_eq_zero, hk0.ne', false_or] at e0 e2
      have hd0 : d 0 = 0 := by
        rcases e2 with e2 | e2
        · rw [e2] at hn2; nlinarith [sq_nonneg (d 0), sq_nonneg (d 1)]
        · exact e2
      refine ⟨hd0, ?_⟩
      have : d 2 * (n - d 1) = 0 := by linarith
      rcases mul_eq_zero.1 this with h2 | h2
      · exact .inr h2
      · exact .inl (by linarith)
    · rintro ⟨hd0, hd⟩
      funext i
      fin_cases i
      · simp only [v3]
        rcases hd with hd | hd
        · have : n = d 1 := by
            have : n ^ 2 = d 1 ^ 2 := by rw [hn2, hd0]; ring
            exact (sq_eq_sq₀ hn0 hd).1 this
          simp [this]; right; ring
        · simp [hd]
      · simp [v3, hd0]
      · simp [v3, hd0]
  · unfold len
    refine Real.sqrt_le_iff.2 ⟨by norm_num, ?_⟩
    simp only [v3, Matrix.cons_val_zero, Matrix.cons_val_one, Matrix.cons_val]
    have hlag : (n * d 2 - d 2 * d 1) ^ 2 + (d 2 * d 0) ^ 2 + (n * d 0) ^ 2 ≤ 4 := by
      have := hd1.1
      have a1 : (n - d 1) ^ 2 ≤ 4 * n ^ 2 := by nlinarith [sq_nonneg (d 0), sq_nonneg (n + d 1)]
      have a2 : 0 ≤ d 2 ^ 2 := sq_nonneg _
      nlinarith [mul_le_mul_of_nonneg_right a1 a2, sq_nonneg (d 0), sq_nonneg (d 1), mul_nonneg a2 (sq_nonneg (d 0))]
    have hkk : k ^ 2 ≤ 1 / 4 := by nlinarith
    have hm := mul_le_mul hkk hlag (by positivity) (by norm_num)
    calc _ = k ^ 2 * ((n * d 2 - d 2 * d 1) ^ 2 + (d 2 * d 0) ^ 2 + (n * d 0) ^ 2) := by ring
      _ ≤ _ := hm
      _ ≤ _ := by norm_num

/-- C170, the violation: a device held level, pointing north (zero attitude), that measures a field pointing north (and
down by any amount) is turned away from the right attitude by every such call: the code takes the second axis for
north, while the angles it sets and reports count heading from the first. -/
theorem C170_north_reading_turns_the_device (dt : ℝ) (h0 : 0 < dt) (h1 : dt ≤ 1) (north down : ℝ) (hn : 1 / 10 < north) :
    ((Ahrs.new dt).updateMag zero3 zero3 (v3 north 0 down)).getQnb ≠ (Ahrs.new dt).getQnb := by
  have hq : (Ahrs.new dt).getQnb = ⟨1, 0, 0, 0⟩ := (new_q dt).1
  rw [hq, Ne, C169_magnetometer dt h0 h1]
  rintro (h | ⟨h, _⟩)
  · have : north ≤ len (v3 north 0 down) := by
      unfold len
      refine Real.le_sqrt_of_sq_le ?_
      simp only [v3, Matrix.cons_val_zero, Matrix.cons_val_one, Matrix.cons_val]
      nlinarith [sq_nonneg down]
    linarith
  · simp [v3] at h; linarith

/-- C170, the part that holds: the same device keeps its attitude when the field it measures points to its second axis
(and down by any amount). -/
theorem C170_second_axis_partial (dt : ℝ) (h0 : 0 < dt) (h1 : dt ≤ 1) (y down : ℝ) (hy : 0 ≤ y) :
    ((Ahrs.new dt).updateMag zero3 zero3 (v3 0 y down)).getQnb = (Ahrs.new dt).getQnb := by
  have hq : (Ahrs.new dt).getQnb = ⟨1, 0, 0, 0⟩ := (new_q dt).1
  rw [hq, C169_magnetometer dt h0 h1]
  exact .inr ⟨by simp [v3], .inl (by simpa [v3] using hy)⟩

/-- The heading of a device is counted from the first axis: heading zero points the body's first axis to the first
axis of the navigation frame, and a quarter turn points it to the second. -/
theorem C170_heading_convention :
    (fun i => eulerToDcm (v3 0 0 0 : V3 ℝ) i 0) = v3 1 0 0 ∧ (fun i => eulerToDcm (v3 0 0 (Real.pi / 2)) i 0) = v3 0 1 0 := by
  constructor <;> rw [eulerToDcm_eq] <;> funext i <;> fin_cases i <;>
    simp [v3, Rx, Ry, Rz, Matrix.mul_apply, Fin.sum_univ_three]
end Verif.Props
