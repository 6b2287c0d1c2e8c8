import Verif.Model.Crc
import Verif.Spec.Crc
import Mathlib.Logic.Function.Iterate
import Mathlib.Tactic.Conv
namespace Verif.Crc
open Verif.Spec.Crc

theorem bitStep_xor (x y : U32) : bitStep (x ^^^ y) = bitStep x ^^^ bitStep y := by
  unfold bitStep
  rw [BitVec.msb_xor, BitVec.shiftLeft_xor_distrib]
  cases x.msb <;> cases y.msb <;> simp
  · ac_rfl
  · ac_rfl
  · rw [show x <<< 1 ^^^ poly ^^^ (y <<< 1 ^^^ poly) = (x <<< 1 ^^^ y <<< 1) ^^^ (poly ^^^ poly) by ac_rfl]
    simp

theorem bitStep_low (x : U32) : (bitStep x).getLsbD 0 = x.msb := by
  unfold bitStep
  cases h : x.msb <;> simp [poly]

theorem bitStep_inj {x y : U32} (h : bitStep x = bitStep y) : x = y := by
  have hm : x.msb = y.msb := by rw [← bitStep_low x, ← bitStep_low y, h]
  have hs : x <<< 1 = y <<< 1 := by
    unfold bitStep at h
    rw [hm] at h
    cases hy : y.msb
    · simpa [hy] using h
    · simp only [hy, if_true] at h
      have := congrArg (· ^^^ poly) h
      simpa [BitVec.xor_assoc] using this
  apply BitVec.eq_of_getLsbD_eq
  intro i hi
  by_cases h31 : i = 31
  · subst h31
    simpa [BitVec.msb_eq_getLsbD_last] using hm
  · have h1 := congrArg (fun v : U32 => v.getLsbD (i+1)) hs
    simp only [BitVec.getLsbD_shiftLeft] at h1
    have : i + 1 < 32 := by omega
    simpa [this] using h1

theorem bitStep8_xor (x y : U32) : bitStep8 (x ^^^ y) = bitStep8 x ^^^ bitStep8 y := by
  simp [bitStep8, bitStep_xor]

theorem bitStep8_inj {x y : U32} (h : bitStep8 x = bitStep8 y) : x = y := by
  unfold bitStep8 at h
  exact bitStep_inj (bitStep_inj (bitStep_inj (bitStep_inj (bitStep_inj (bitStep_inj
    (bitStep_inj (bitStep_inj h)))))))

theorem bitStep_shl (x : U32) (h : x.msb = false) : bitStep x = x <<< 1 := by simp [bitStep, h]

theorem bitStep8_low (x : U32) (h : ∀ i, 24 ≤ i → x.getLsbD i = false) : bitStep8 x = x <<< 8 := by
  have key : ∀ k, k ≤ 7 → (x <<< k).msb = false := by
    intro k hk
    rw [BitVec.msb_eq_getLsbD_last, BitVec.getLsbD_shiftLeft]
    rw [h (32 - 1 - k) (by omega)]; simp
  have s : ∀ k, k ≤ 7 → bitStep (x <<< k) = x <<< (k+1) := by
    intro k hk
    rw [bitStep_shl _ (key k hk), BitVec.shiftLeft_add]
  unfold bitStep8
  have h0 : bitStep x = x <<< 1 := by simpa using s 0 (by omega)
  rw [h0, s 1 (by omega), s 2 (by omega), s 3 (by omega), s 4 (by omega), s 5 (by omega),
    s 6 (by omega), s 7 (by omega)]

theorem table_ok : ∀ i : Fin 256, table.getD i.val 0 = bitStep8 (BitVec.ofNat 32 i.val <<< 24) := by
  decide +kernel

theorem table_ok' (v : Byte) : table.getD v.toNat 0 = bitStep8 (v.setWidth 32 <<< 24) := by
  have := table_ok ⟨v.toNat, v.isLt⟩
  simpa [BitVec.ofNat_toNat] using this

/-- the top byte of the register -/
def top (c : U32) : Byte := (c >>> 24).setWidth 8

theorem idx_eq (c : U32) (b : Byte) : ((c >>> 24) ^^^ b.setWidth 32).toNat = (top c ^^^ b).toNat := by
  have : (c >>> 24) ^^^ b.setWidth 32 = (top c ^^^ b).setWidth 32 := by
    apply BitVec.eq_of_getLsbD_eq
    intro i hi
    simp only [top, BitVec.getLsbD_xor, BitVec.getLsbD_setWidth, BitVec.getLsbD_ushiftRight, hi,
      decide_true, Bool.true_and]
    by_cases h8 : i < 8
    · simp [h8]
    · have : c.getLsbD (24 + i) = false := BitVec.getLsbD_of_ge _ _ (by omega)
      simp [h8, this]
  rw [this, BitVec.toNat_setWidth]
  have := (top c ^^^ b).isLt
  omega

theorem split_top (c : U32) : c = ((c <<< 8) >>> 8) ^^^ ((top c).setWidth 32 <<< 24) := by
  apply BitVec.eq_of_getLsbD_eq
  intro i hi
  simp only [top, BitVec.getLsbD_xor, BitVec.getLsbD_setWidth, BitVec.getLsbD_ushiftRight,
    BitVec.getLsbD_shiftLeft, hi, decide_true, Bool.true_and]
  by_cases h : i < 24
  · have : 8 + i < 32 := by omega
    simp [this, h]
  · have h1 : ¬ (8 + i < 32) := by omega
    have h2 : i - 24 < 32 := by omega
    have h3 : i - 24 < 8 := by omega
    have h4 : 24 + (i - 24) = i := by omega
    simp [h1, h2, h3, h4, h]

theorem tableStep_eq_softStep (c : U32) (b : Byte) : tableStep c b = softStep c b := by
  unfold tableStep softStep
  rw [idx_eq, table_ok']
  have hx : (top c ^^^ b).setWidth 32 <<< 24 = ((top c).setWidth 32 <<< 24) ^^^ (b.setWidth 32 <<< 24 : U32) := by
    rw [BitVec.setWidth_xor, BitVec.shiftLeft_xor_distrib]
  rw [hx, bitStep8_xor, bitStep8_xor]
  have hc : bitStep8 c = bitStep8 ((c <<< 8) >>> 8) ^^^ bitStep8 ((top c).setWidth 32 <<< 24) := by
    rw [← bitStep8_xor, ← split_top c]
  rw [hc, bitStep8_low ((c <<< 8) >>> 8)]
  · rw [show (c <<< 8) >>> 8 <<< 8 = c <<< 8 by
      apply BitVec.eq_of_getLsbD_eq
      intro i hi
      simp only [BitVec.getLsbD_ushiftRight, BitVec.getLsbD_shiftLeft, hi]
      by_cases h : i < 8
      · simp [h]
      · have h1 : 8 + (i - 8) = i := by omega
        simp [h, h1, hi]]
    ac_rfl
  · intro i hi
    simp only [BitVec.getLsbD_ushiftRight, BitVec.getLsbD_shiftLeft]
    have : ¬ (8 + i < 32) := by omega
    simp [this]

/-- one message bit, at the top of the word -/
def bit31 (b : Bool) : U32 := if b then 0x80000000#32 else 0#32

theorem serial_eq (r : U32) (b : Bool) :
    serial r b = bitStep (r ^^^ bit31 b) := by
  have hmm : (2147483648#32).msb = true := by decide
  unfold serial bitStep bit31
  rw [BitVec.msb_xor, BitVec.shiftLeft_xor_distrib]
  cases b <;> cases h : r.msb <;> simp [poly, hmm]

theorem serial_xor (r d : U32) (b : Bool) : serial (r ^^^ d) b = serial r b ^^^ bitStep d := by
  rw [serial_eq, serial_eq, ← bitStep_xor]
  congr 1
  ac_rfl

theorem softStep_eq_serial (c : U32) (b : Byte) : softStep c b = (bitsOfByte b).foldl serial c := by
  have hz : ∀ r, serial r false = bitStep r := by intro r; simp [serial_eq, bit31]
  have hb : ∀ v : Byte, bitStep8 (v.setWidth 32 <<< 24) = (bitsOfByte v).foldl serial 0 := by
    intro v
    have : ∀ i : Fin 256, bitStep8 ((BitVec.ofNat 8 i.val).setWidth 32 <<< 24) =
        (bitsOfByte (BitVec.ofNat 8 i.val)).foldl serial 0 := by decide +kernel
    have := this ⟨v.toNat, v.isLt⟩
    simpa [BitVec.ofNat_toNat] using this
  unfold softStep
  rw [bitStep8_xor, hb]
  have gen : ∀ (l : List Bool) (r d : U32), l.foldl serial (r ^^^ d) =
      l.foldl serial r ^^^ (bitStep^[l.length] d) := by
    intro l
    induction l with
    | nil => intro r d; simp
    | cons a l ih => intro r d; simp only [List.foldl_cons, serial_xor, ih, List.length_cons, Nat.iterate]
  have := gen (bitsOfByte b) 0 c
  rw [show (0 : U32) ^^^ c = c from BitVec.zero_xor] at this
  rw [this]
  simp [bitsOfByte, Nat.iterate, bitStep8, BitVec.xor_comm]

theorem serial_inj {r s : U32} {b : Bool} (h : serial r b = serial s b) : r = s := by
  rw [serial_eq, serial_eq] at h
  have := congrArg (· ^^^ bit31 b) (bitStep_inj h)
  simpa [BitVec.xor_assoc] using this

theorem foldl_serial_inj {l : List Bool} {r s : U32} (h : l.foldl serial r = l.foldl serial s) :
    r = s := by
  induction l generalizing r s with
  | nil => exact h
  | cons a l ih => exact serial_inj (ih h)

theorem foldl_serial_xor (l : List Bool) : ∀ (r d : U32), l.foldl serial (r ^^^ d) =
      l.foldl serial r ^^^ (bitStep^[l.length] d) := by
  induction l with
  | nil => intro r d; simp
  | cons a l ih => intro r d; simp only [List.foldl_cons, serial_xor, ih, List.length_cons, Nat.iterate]

/-- `k`-fold shift of a word with all bits at positions `≥ 32-k` clear never feeds back. -/
theorem iterate_low (k : Nat) (x : U32) (h : ∀ i, 32 - k ≤ i → x.getLsbD i = false) (hk : k ≤ 32) :
    bitStep^[k] x = x <<< k := by
  induction k with
  | zero => simp
  | succ k ih =>
    rw [Function.iterate_succ_apply', ih (fun i hi => h i (by omega)) (by omega)]
    rw [bitStep_shl, BitVec.shiftLeft_add]
    rw [BitVec.msb_eq_getLsbD_last, BitVec.getLsbD_shiftLeft]
    rw [h (32 - 1 - k) (by omega)]; simp

/-- A word with the message bits `l` (at most 32) in its top positions, first bit highest. -/
def pack : List Bool → U32
  | [] => 0
  | b :: l => bit31 b ^^^ (pack l >>> 1)

theorem pack_get (l : List Bool) (i : Nat) (hi : i < 32) : (pack l).getLsbD (31 - i) = l.getD i false := by
  induction l generalizing i with
  | nil => simp [pack]
  | cons b l ih =>
    have hc : ∀ b, (bit31 b).getLsbD (31 - i) = (b && decide (i = 0)) := by
      have : ∀ (b : Bool) (j : Fin 32), (bit31 b).getLsbD (31 - j.val) = (b && decide (j.val = 0)) := by
        decide +kernel
      exact fun b => this b ⟨i, hi⟩
    simp only [pack, BitVec.getLsbD_xor, BitVec.getLsbD_ushiftRight, hc]
    cases i with
    | zero =>
      have : (pack l).getLsbD 32 = false := BitVec.getLsbD_of_ge _ _ (by omega)
      cases b <;> simp_all
    | succ i =>
      have h := ih i (by omega)
      have e : 1 + (31 - (i+1)) = 31 - i := by omega
      rw [e, h]
      cases b <;> simp_all

theorem pack_inj {l m : List Bool} (hl : l.length = m.length) (h32 : l.length ≤ 32) (h : pack l = pack m) :
    l = m := by
  apply List.ext_getElem hl
  intro i h1 h2
  have a := pack_get l i (by omega)
  have b := pack_get m i (by omega)
  rw [h, b] at a
  simp [List.getD, h1, h2] at a
  exact a.symm

theorem foldl_serial_pack (l : List Bool) (hl : l.length ≤ 32) (r : U32) :
    l.foldl serial r = bitStep^[l.length] (r ^^^ pack l) := by
  induction l generalizing r with
  | nil => simp [pack]
  | cons b l ih =>
    simp only [List.length_cons] at hl ⊢
    rw [List.foldl_cons, ih (by omega), Function.iterate_succ_apply]
    congr 1
    rw [serial_eq]
    simp only [pack]
    rw [← BitVec.xor_assoc, bitStep_xor (r ^^^ bit31 b)]
    congr 1
    have hz : (pack l >>> 1).msb = false := by
      rw [BitVec.msb_eq_getLsbD_last, BitVec.getLsbD_ushiftRight]
      exact BitVec.getLsbD_of_ge _ _ (by omega)
    rw [bitStep_shl _ hz]
    apply BitVec.eq_of_getLsbD_eq
    intro i hi
    simp only [BitVec.getLsbD_ushiftRight, BitVec.getLsbD_shiftLeft, hi]
    by_cases h0 : i < 1
    · have : i = 0 := by omega
      subst this
      have := pack_get l 31 (by omega)
      simp at this
      simp [this, List.getElem?_eq_none (show l.length ≤ 31 by omega)]
    · have : 1 + (i - 1) = i := by omega
      simp [h0, this]

theorem foldl_serial_burst {m m' : List Bool} (hl : m.length = m'.length) (h32 : m.length ≤ 32)
    {r : U32} (h : m.foldl serial r = m'.foldl serial r) : m = m' := by
  rw [foldl_serial_pack m h32, foldl_serial_pack m' (hl ▸ h32), ← hl] at h
  have hi : Function.Injective (bitStep^[m.length]) :=
    Function.Injective.iterate (fun _ _ h => bitStep_inj h) _
  have := hi h
  apply pack_inj hl h32
  have := congrArg (r ^^^ ·) this
  simpa [← BitVec.xor_assoc] using this

theorem foldl_softStep (l : List Byte) (r : U32) : l.foldl softStep r = (bitsOf l).foldl serial r := by
  induction l generalizing r with
  | nil => rfl
  | cons b l ih =>
    rw [List.foldl_cons, ih, softStep_eq_serial]
    simp [bitsOf, List.flatMap_cons, List.foldl_append]

theorem checksum_eq_soft (l : List Byte) : checksum l = checksumSoft l := by
  unfold checksum checksumSoft
  have : tableStep = softStep := by funext c b; exact tableStep_eq_softStep c b
  rw [this]

theorem checksum_eq_crcBits (l : List Byte) : checksum l = crcBits (bitsOf l) := by
  rw [checksum_eq_soft]; exact foldl_softStep l _

theorem tableStep_top (c : U32) : tableStep c (top c) = c <<< 8 := by
  unfold tableStep
  rw [idx_eq]
  have : table.getD 0 0 = 0 := by decide +kernel
  simp only [BitVec.xor_self, BitVec.toNat_ofNat, Nat.zero_mod, this]
  simp

theorem le32_revert (c : U32) : le32 (revert c) =
    [(c >>> 24).setWidth 8, (c >>> 16).setWidth 8, (c >>> 8).setWidth 8, c.setWidth 8] := by
  have f0 : ∀ j, j < 8 → (0xff#32).getLsbD j = true := by decide +kernel
  have hm : ∀ j : Fin 32, (0xff#32).getLsbD j = decide (j.val < 8) ∧
      (0xff00#32).getLsbD j = (decide (8 ≤ j.val) && decide (j.val < 16)) ∧
      (0xff0000#32).getLsbD j = (decide (16 ≤ j.val) && decide (j.val < 24)) ∧
      (0xff000000#32).getLsbD j = decide (24 ≤ j.val) := by decide +kernel
  have m0 : ∀ j, j < 32 → (0xff#32).getLsbD j = decide (j < 8) := fun j h => (hm ⟨j, h⟩).1
  have m1 : ∀ j, j < 32 → (0xff00#32).getLsbD j = (decide (8 ≤ j) && decide (j < 16)) := fun j h => (hm ⟨j, h⟩).2.1
  have m2 : ∀ j, j < 32 → (0xff0000#32).getLsbD j = (decide (16 ≤ j) && decide (j < 24)) := fun j h => (hm ⟨j, h⟩).2.2.1
  have m3 : ∀ j, j < 32 → (0xff000000#32).getLsbD j = decide (24 ≤ j) := fun j h => (hm ⟨j, h⟩).2.2.2
  have bit : ∀ j, j < 32 → (revert c).getLsbD j =
      c.getLsbD ((3 - j / 8) * 8 + j % 8) := by
    intro j hj
    simp only [revert, BitVec.getLsbD_or, BitVec.getLsbD_shiftLeft, BitVec.getLsbD_ushiftRight,
      BitVec.getLsbD_and, hj, decide_true, Bool.true_and]
    have c1 : c.getLsbD (8+j) = true → 8 + j < 32 := fun h => BitVec.lt_of_getLsbD h
    have c2 : c.getLsbD (24+j) = true → 24 + j < 32 := fun h => BitVec.lt_of_getLsbD h
    rcases (by omega : j < 8 ∨ (8 ≤ j ∧ j < 16) ∨ (16 ≤ j ∧ j < 24) ∨ 24 ≤ j) with h | h | h | h
    · rw [m3 _ (by omega), m2 _ (by omega)]
      have e : (3 - j / 8) * 8 + j % 8 = 24 + j := by omega
      rw [e]; simp [show j < 24 by omega, show j < 8 by omega]
      intro _ h16; omega
    · have e : (3 - j / 8) * 8 + j % 8 = 8 + j := by omega
      rw [m2 _ (by omega), e, m1 _ (by omega)]
      rw [show c.getLsbD (24 + j) = false from BitVec.getLsbD_of_ge _ _ (by omega)]
      simp [show j < 24 by omega, show 16 ≤ 8 + j by omega, show 8 + j < 24 by omega]
      intros; omega
    · have e : (3 - j / 8) * 8 + j % 8 = j - 8 := by omega
      rw [e, m2 _ (by omega), m1 _ (by omega)]
      rw [show c.getLsbD (24 + j) = false from BitVec.getLsbD_of_ge _ _ (by omega)]
      simp [show j < 24 by omega, show ¬ j < 8 by omega, show 8 ≤ j - 8 by omega, show j - 8 < 16 by omega]
      intros; omega
    · have e : (3 - j / 8) * 8 + j % 8 = j - 24 := by omega
      rw [e, m0 _ (by omega), m1 _ (by omega)]
      rw [show c.getLsbD (24 + j) = false from BitVec.getLsbD_of_ge _ _ (by omega),
        show c.getLsbD (8 + j) = false from BitVec.getLsbD_of_ge _ _ (by omega)]
      simp [show ¬ j < 24 by omega, show j - 24 < 8 by omega, show ¬ j < 8 by omega]
      intros; omega
  unfold le32
  simp only [List.cons.injEq, and_true]
  refine ⟨?_, ?_, ?_, ?_⟩ <;> apply BitVec.eq_of_getLsbD_eq <;> intro i hi <;>
    simp only [BitVec.getLsbD_setWidth, BitVec.getLsbD_ushiftRight, hi, decide_true, Bool.true_and]
  · rw [bit _ (by omega)]; congr 1; omega
  · rw [bit _ (by omega)]; congr 1; omega
  · rw [bit _ (by omega)]; congr 1; omega
  · rw [bit _ (by omega)]; congr 1; omega

theorem foldl_own (c : U32) : (le32 (revert c)).foldl tableStep c = 0 := by
  rw [le32_revert]
  have e : ∀ k : Nat, (c >>> (24 - 8*k)).setWidth 8 = top (c <<< (8*k)) ∨ 3 < k := by
    intro k
    by_cases hk : 3 < k
    · right; exact hk
    left
    apply BitVec.eq_of_getLsbD_eq
    intro i hi
    simp only [top, BitVec.getLsbD_setWidth, BitVec.getLsbD_ushiftRight, BitVec.getLsbD_shiftLeft, hi,
      decide_true, Bool.true_and]
    rw [show 24 - 8*k + i = 24 + i - 8*k by omega]
    simp [show 24 + i < 32 by omega]
    omega
  have e0 := (e 0).resolve_right (by omega)
  have e1 := (e 1).resolve_right (by omega)
  have e2 := (e 2).resolve_right (by omega)
  have e3 := (e 3).resolve_right (by omega)
  simp only [Nat.mul_zero, Nat.sub_zero, Nat.mul_one, Nat.reduceSub, Nat.reduceMul] at e0 e1 e2 e3
  have z : c <<< 0 = c := by simp
  rw [z] at e0
  have z' : c >>> 0 = c := by simp
  rw [z'] at e3
  rw [e0, e1, e2, e3]
  simp only [List.foldl_cons, List.foldl_nil]
  rw [tableStep_top]
  rw [tableStep_top, ← BitVec.shiftLeft_add, tableStep_top, ← BitVec.shiftLeft_add, tableStep_top, ← BitVec.shiftLeft_add]
  simp

theorem bitsOf_append (x y : List Byte) : bitsOf (x ++ y) = bitsOf x ++ bitsOf y := by simp [bitsOf]

theorem bitsOf_length (l : List Byte) : (bitsOf l).length = 8 * l.length := by
  induction l with
  | nil => rfl
  | cons a l ih =>
    rw [show a :: l = [a] ++ l from rfl, bitsOf_append, List.length_append, ih]
    simp [bitsOf, bitsOfByte]; omega

theorem bitsOfByte_inj {a b : Byte} (hab : bitsOfByte a = bitsOfByte b) : a = b := by
  simp only [bitsOfByte, List.cons.injEq] at hab
  apply BitVec.eq_of_getLsbD_eq
  intro i hi
  rcases (by omega : i = 0 ∨ i = 1 ∨ i = 2 ∨ i = 3 ∨ i = 4 ∨ i = 5 ∨ i = 6 ∨ i = 7) with
    h | h | h | h | h | h | h | h <;> subst h <;> simp_all

theorem bitsOf_inj {a b : List Byte} (h : bitsOf a = bitsOf b) : a = b := by
  induction a generalizing b with
  | nil => cases b with
    | nil => rfl
    | cons _ _ => simp [bitsOf, bitsOfByte] at h
  | cons x a ih => cases b with
    | nil => simp [bitsOf, bitsOfByte] at h
    | cons y b =>
      simp only [bitsOf, List.flatMap_cons] at h
      have := List.append_inj h (by simp [bitsOfByte])
      rw [bitsOfByte_inj this.1, ih this.2]

end Verif.Crc
