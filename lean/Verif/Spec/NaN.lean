import Verif.Model.Api
/-! What a not-a-number does in arithmetic: operations on it give it again, comparisons with it are false. -/
namespace Verif.Spec
open Verif
variable {α : Type} [Add α] [Sub α] [Mul α] [Neg α] [Div α] [Zero α] [One α] [Fl α]

/-- `bad` behaves like IEEE not-a-number. -/
structure Absorbing (bad : α → Prop) : Prop where
  add_l : ∀ a b, bad a → bad (a + b)
  add_r : ∀ a b, bad b → bad (a + b)
  sub_l : ∀ a b, bad a → bad (a - b)
  sub_r : ∀ a b, bad b → bad (a - b)
  mul_l : ∀ a b, bad a → bad (a * b)
  mul_r : ∀ a b, bad b → bad (a * b)
  div_l : ∀ a b, bad a → bad (a / b)
  div_r : ∀ a b, bad b → bad (a / b)
  neg : ∀ a, bad a → bad (-a)
  sqrt : ∀ a, bad a → bad (Fl.sqrt a)
  sin : ∀ a, bad a → bad (Fl.sin a)
  cos : ∀ a, bad a → bad (Fl.cos a)
  asin : ∀ a, bad a → bad (Fl.asin a)
  atan : ∀ a, bad a → bad (Fl.atan a)
  atan2_l : ∀ a b, bad a → bad (Fl.atan2 a b)
  f32 : ∀ a, bad a → bad (Fl.f32 a)
  lt_l : ∀ a b, bad a → Fl.lt a b = false
  lt_r : ∀ a b, bad b → Fl.lt a b = false
  le_l : ∀ a b, bad a → Fl.le a b = false
  le_r : ∀ a b, bad b → Fl.le a b = false

/-- Real numbers and one not-a-number. -/
def NReal := Option ℝ
namespace NReal
/-- Apply to numbers. -/
def un (f : ℝ → ℝ) : NReal → NReal := fun a => Option.map f a
/-- Apply to two numbers. -/
def bin (f : ℝ → ℝ → ℝ) : NReal → NReal → NReal := fun a b => Option.map₂ f a b
/-- Compare two numbers. -/
def cmp (r : ℝ → ℝ → Bool) : NReal → NReal → Bool
  | some a, some b => r a b
  | _, _ => false
noncomputable instance : Add NReal := ⟨bin (· + ·)⟩
noncomputable instance : Sub NReal := ⟨bin (· - ·)⟩
noncomputable instance : Mul NReal := ⟨bin (· * ·)⟩
/-- Quotient; not a number when dividing by zero. -/
noncomputable def quot : NReal → NReal → NReal
  | some a, some b => open Classical in if b = 0 then none else some (a / b)
  | _, _ => none
noncomputable instance : Div NReal := ⟨quot⟩
noncomputable instance : Neg NReal := ⟨un (- ·)⟩
noncomputable instance : Zero NReal := ⟨some 0⟩
noncomputable instance : One NReal := ⟨some 1⟩
noncomputable instance : Fl NReal where
  lit q := some (q : ℝ)
  pi := some Real.pi
  sin := un Real.sin
  cos := un Real.cos
  tan := un Real.tan
  asin := un Real.arcsin
  atan := un Real.arctan
  atan2 := bin Fl.atan2
  sqrt := un Real.sqrt
  pow := bin (fun x y => x ^ y)
  lt := cmp Fl.lt
  le := cmp Fl.le
  eq := cmp Fl.eq
  nan := none
  f32 := id
  minv A := A

/-- The laws can be met. -/
theorem absorbing : Absorbing (fun a : NReal => a = none) where
  add_l a b h := by subst h; rfl
  add_r a b h := by subst h; exact Option.map₂_none_right _ a
  sub_l a b h := by subst h; rfl
  sub_r a b h := by subst h; exact Option.map₂_none_right _ a
  mul_l a b h := by subst h; rfl
  mul_r a b h := by subst h; exact Option.map₂_none_right _ a
  div_l a b h := by subst h; rfl
  div_r a b h := by subst h; cases a <;> rfl
  neg a h := by subst h; rfl
  sqrt a h := by subst h; rfl
  sin a h := by subst h; rfl
  cos a h := by subst h; rfl
  asin a h := by subst h; rfl
  atan a h := by subst h; rfl
  atan2_l a b h := by subst h; rfl
  f32 a h := h
  lt_l a b h := by subst h; rfl
  lt_r a b h := by subst h; cases a <;> rfl
  le_l a b h := by subst h; rfl
  le_r a b h := by subst h; cases a <;> rfl
end NReal
end Verif.Spec
