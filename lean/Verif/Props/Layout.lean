import Verif.Model.Layout
import Mathlib.Tactic.SplitIfs
/-! The state layout of the sixteen builds. -/
namespace Verif.Props
open Verif

/-- The groups of states of a build: base states, gyroscope scale, accelerometer scale, lever arm, odometer
scale; each as start and size. -/
def groups (b : Build) : List (Nat × Nat) :=
  [(0, 15), (b.gyroStart, b.gyroSize), (b.acceStart, b.acceSize), (b.armStart, b.armSize), (b.odoStart, b.odoSize)]

/-- How many groups index `k` belongs to. -/
def owners (b : Build) (k : Nat) : Nat := ((groups b).filter fun s => decide (s.1 ≤ k ∧ k < s.1 + s.2)).length

/-- An enabled group, then a disabled one, then an enabled one. -/
def hasGap (b : Build) : Bool :=
  (b.gyroScale && !b.acceScale && (b.leverArm || b.odoScale)) || (b.acceScale && !b.leverArm && b.odoScale)

/-- C65: in every build no group reaches outside the state vector; and every state belongs to exactly one group
exactly in the builds without a gap. So in the five builds with a gap two groups share states and some state
belongs to none. -/
theorem C65_layout (b : Build) :
    (∀ s ∈ groups b, s.1 + s.2 ≤ b.count) ∧
    ((∀ k < b.count, owners b k = 1) ↔ hasGap b = false) := by
  rcases b with ⟨g, a, l, o⟩
  cases g <;> cases a <;> cases l <;> cases o <;> exact ⟨by decide, by decide⟩

/-- C65, the violation spelled out on the build that estimates gyroscope scale and lever arm: the two groups are
the same three states, and three states are unused. -/
theorem C65_overlap : let b : Build := ⟨true, false, true, false⟩
    b.gyroStart = b.armStart ∧ b.gyroSize = 3 ∧ b.armSize = 3 ∧ b.count = 21 ∧ (∀ k, 18 ≤ k → k < 21 → owners b k = 0) := by
  refine ⟨rfl, rfl, rfl, rfl, ?_⟩
  intro k h1 h2
  obtain rfl | rfl | rfl : k = 18 ∨ k = 19 ∨ k = 20 := by omega
  all_goals rfl

/-- C65: the sizes add up: base states plus 3, 3, 3 and 1 for the enabled groups; 15 in the default build. -/
theorem C65_count (b : Build) : b.count = 15 + (if b.gyroScale then 3 else 0) + (if b.acceScale then 3 else 0) +
    (if b.leverArm then 3 else 0) + (if b.odoScale then 1 else 0) := by
  rcases b with ⟨g, a, l, o⟩
  cases g <;> cases a <;> cases l <;> cases o <;> rfl

section
variable {α : Type} [Add α] [Sub α] [Mul α] [Neg α] [Div α] [Zero α] [One α] [Fl α]

theorem gyro_count (b : Build) (h : b.gyroScale = true) : 18 ≤ b.count ∧ b.gyroStart = 15 := by
  rcases b with ⟨g, a, l, o⟩
  simp only at h; subst h
  cases a <;> cases l <;> cases o <;> exact ⟨by decide, rfl⟩

theorem acce_count (b : Build) (h : b.acceScale = true) : 15 ≤ b.acceStart ∧ b.acceStart + 3 ≤ b.count := by
  rcases b with ⟨g, a, l, o⟩
  simp only at h; subst h
  cases g <;> cases l <;> cases o <;> exact ⟨by decide, by decide⟩

/-- C78, the violation: in a build that estimates gyroscope scale factors (and not accelerometer ones) the
attitude error does not depend on the scale error: the coupling that drives it was put into the rows of the
gyroscope bias. For every state, attitude and rotation rate. -/
theorem C78_gyro_scale_misses_attitude (b : Build) (hg : b.gyroScale = true) (ha : b.acceScale = false) (f : Fusion α)
    (phi : Matrix (Fin b.count) (Fin b.count) α) (h0 : ∀ i j, 15 ≤ j.val → phi i j = 0) (i j : Fin 3)
    (hi : ∀ n, i.val + n < 18 → i.val + n < b.count := fun _ h => Nat.lt_of_lt_of_le h (gyro_count b hg).1)
    (hj : 15 + j.val < b.count := Nat.lt_of_lt_of_le (by omega) (gyro_count b hg).1) :
    scaleBlocks b f phi ⟨i.val + 6, hi 6 (by omega)⟩ ⟨15 + j.val, hj⟩ = 0 ∧
    scaleBlocks b f phi ⟨i.val + 9, hi 9 (by omega)⟩ ⟨15 + j.val, hj⟩ =
      mmul (-f.ins.nav.Cbn) (diagM f.ins.gyroPre) i j := by
  have hs := (gyro_count b hg).2
  unfold scaleBlocks
  simp only [hg, ha, if_true, Bool.false_eq_true, if_false]
  constructor
  · rw [setBlock, dif_neg (by simp only; omega), setBlock, dif_neg (by simp only; omega)]
    exact h0 _ _ (by simp only; omega)
  · rw [setBlock, dif_pos (by simp only; omega)]
    congr 1 <;> (apply Fin.ext; simp only; omega)

/-- C78 for the accelerometer: the velocity error does not depend on the scale error; the coupling was put into
the rows of the attitude. -/
theorem C78_acce_scale_misses_velocity (b : Build) (ha : b.acceScale = true) (f : Fusion α)
    (phi : Matrix (Fin b.count) (Fin b.count) α) (h0 : ∀ i j, 15 ≤ j.val → phi i j = 0) (i j : Fin 3)
    (hi : ∀ n, i.val + n < 15 → i.val + n < b.count :=
      fun _ h => Nat.lt_of_lt_of_le h (Nat.le_trans (Nat.le_trans (acce_count b ha).1 (Nat.le_add_right _ 3)) (acce_count b ha).2))
    (hj : b.acceStart + j.val < b.count := Nat.lt_of_lt_of_le (Nat.add_lt_add_left j.isLt _) (acce_count b ha).2) :
    scaleBlocks b f phi ⟨i.val + 3, hi 3 (by omega)⟩ ⟨b.acceStart + j.val, hj⟩ = 0 ∧
    scaleBlocks b f phi ⟨i.val + 6, hi 6 (by omega)⟩ ⟨b.acceStart + j.val, hj⟩ =
      mmul f.ins.nav.Cbn (diagM f.ins.accePre) i j := by
  have hs := acce_count b ha
  have hg : b.gyroStart = 15 := rfl
  unfold scaleBlocks
  simp only [ha, if_true]
  constructor
  · rw [setBlock, dif_neg (by simp only; omega), setBlock, dif_neg (by simp only; omega)]
    split_ifs
    · rw [setBlock, dif_neg (by simp only; omega), setBlock, dif_neg (by simp only; omega)]
      exact h0 _ _ (by simp only; omega)
    · exact h0 _ _ (by simp only; omega)
  · rw [setBlock, dif_pos (by simp only; omega)]
    congr 1 <;> (apply Fin.ext; simp only; omega)

/-- For comparison, the default states: the biases do drive attitude and velocity (rows 6 and 3). -/
theorem C78_biases_couple (g : α) (f : Fusion α) (i j : Fin 3) :
    f.transferMatrix g ⟨6 + i.val, by omega⟩ ⟨9 + j.val, by omega⟩ = -f.ins.nav.Cbn i j * f.ins.dt ∧
    f.transferMatrix g ⟨3 + i.val, by omega⟩ ⟨12 + j.val, by omega⟩ = f.ins.nav.Cbn i j * f.ins.dt := by
  have hi := i.isLt
  have hj := j.isLt
  unfold Fusion.transferMatrix
  constructor
  · rw [setBlock, dif_neg (by simp only; omega), setBlock, dif_neg (by simp only; omega), setBlock, dif_pos (by simp only; omega)]
    have h1 : (⟨6 + i.val - 6, by omega⟩ : Fin 3) = i := Fin.ext (by simp)
    have h2 : (⟨9 + j.val - 9, by omega⟩ : Fin 3) = j := Fin.ext (by simp)
    simp only [h1, h2]; rfl
  · rw [setBlock, dif_neg (by simp only; omega), setBlock, dif_neg (by simp only; omega), setBlock, dif_neg (by simp only; omega),
      setBlock, dif_pos (by simp only; omega)]
    have h1 : (⟨3 + i.val - 3, by omega⟩ : Fin 3) = i := Fin.ext (by simp)
    have h2 : (⟨12 + j.val - 12, by omega⟩ : Fin 3) = j := Fin.ext (by simp)
    simp only [h1, h2]; rfl
end
/-- The default build, and a build the scale theorems apply to. -/
example : hasGap ⟨false, false, false, false⟩ = false ∧ hasGap ⟨true, false, false, false⟩ = false ∧
    (⟨true, true, true, true⟩ : Build).count = 25 := ⟨rfl, rfl, rfl⟩
end Verif.Props
