import Verif.Model.Adi
import Verif.Lemmas.Real
import Mathlib.Tactic.Ring
import Mathlib.Tactic.FinCases
import Mathlib.Tactic.NormNum
/-! The ADI sensor handle. -/
namespace Verif.Props
open Verif

/-- The checksum of the data sheet: the sixteen-bit sum of the first eighteen bytes (status, six measurements,
temperature, counter) is stored little-endian in bytes 18 and 19. -/
def validFrame (raw : List Byte) : Prop :=
  ∃ lo hi : Byte, raw[18]? = some lo ∧ raw[19]? = some hi ∧
    ((raw.take 18).map BitVec.toNat).sum % 65536 = lo.toNat + 256 * hi.toNat

theorem sum_bytes (bs : List Byte) : ∀ (s : BitVec 16), s.toNat + 255 * bs.length < 65536 →
    (bs.foldl (fun (s : BitVec 16) (b : Byte) => s + b.setWidth 16) s).toNat = s.toNat + (bs.map BitVec.toNat).sum := by
  induction bs with
  | nil => intro s _; simp
  | cons b bs ih =>
    intro s h
    rw [List.foldl_cons]
    have hb := b.isLt
    have h1 : (s + b.setWidth 16).toNat = s.toNat + b.toNat := by
      rw [BitVec.toNat_add, BitVec.toNat_setWidth]
      simp only [List.length_cons] at h
      rw [Nat.mod_eq_of_lt (a := b.toNat) (by omega), Nat.mod_eq_of_lt (by omega)]
    rw [ih _ (by simp only [List.length_cons] at h; omega), h1]
    simp only [List.map_cons, List.sum_cons]
    omega

/-- C66: the check accepts a frame exactly if its first twenty bytes are all zero. -/
theorem C66_accepts_iff_zero (raw : List Byte) : adiCheckSum raw = true ↔ ∀ b ∈ raw.take 20, b = 0#8 := by
  unfold adiCheckSum
  simp only [beq_iff_eq]
  have hl : (raw.take 20).length ≤ 20 := List.length_take_le ..
  generalize raw.take 20 = bs at *
  have hs := sum_bytes bs 0#16 (by simp; omega)
  have h0 : (bs.foldl (fun (s : BitVec 16) (b : Byte) => s + b.setWidth 16) 0#16) = 0#16 ↔ (bs.map BitVec.toNat).sum = 0 := by
    constructor
    · intro h; rw [h] at hs; simpa using hs.symm
    · intro h; apply BitVec.eq_of_toNat_eq; rw [hs, h]; rfl
  rw [h0]
  clear hs h0 hl
  induction bs with
  | nil => simp
  | cons b bs ih =>
    simp only [List.map_cons, List.sum_cons, List.mem_cons, forall_eq_or_imp]
    rw [Nat.add_eq_zero_iff]
    constructor
    · rintro ⟨h1, h2⟩; exact ⟨BitVec.eq_of_toNat_eq h1, ih.mp h2⟩
    · rintro ⟨h1, h2⟩; exact ⟨by rw [h1]; rfl, ih.mpr h2⟩

/-- C66, the violation: a frame with a correct checksum and any non-zero byte in its checked part is refused. -/
theorem C66_valid_frames_refused (raw : List Byte) (_ : validFrame raw) (b : Byte) (hb : b ∈ raw.take 20) (h : b ≠ 0#8) :
    adiCheckSum raw = false := by
  rw [Bool.eq_false_iff, Ne, C66_accepts_iff_zero]
  exact fun hall => h (hall b hb)

/-- C66, the part that holds: a complete frame that is accepted has a correct checksum. -/
theorem C66_accepted_valid_partial (raw : List Byte) (hl : raw.length = 24) (h : adiCheckSum raw = true) : validFrame raw := by
  rw [C66_accepts_iff_zero] at h
  have hz : ∀ k, k < 20 → raw[k]? = some 0#8 := by
    intro k hk
    have hk2 : k < (raw.take 20).length := by rw [List.length_take]; omega
    have := h _ (List.getElem_mem hk2)
    rw [List.getElem_take] at this
    rw [List.getElem?_eq_getElem (by omega), this]
  refine ⟨0#8, 0#8, hz 18 (by omega), hz 19 (by omega), ?_⟩
  have hs : ((raw.take 18).map BitVec.toNat).sum = 0 := by
    apply List.sum_eq_zero
    intro x hx
    obtain ⟨b, hb, rfl⟩ := List.mem_map.mp hx
    have : b ∈ raw.take 20 := by
      have hp : raw.take 18 = (raw.take 20).take 18 := by rw [List.take_take]; rfl
      rw [hp] at hb
      exact List.mem_of_mem_take hb
    rw [h b this]; rfl
  rw [hs]; rfl

/-- A frame as the sensor sends it: one measurement of 1, checksum 1. It is valid and refused. -/
example : let raw : List Byte := [0, 0, 1] ++ List.replicate 15 0 ++ [1, 0] ++ List.replicate 4 0
    validFrame raw ∧ adiCheckSum raw = false := by
  refine ⟨⟨1, 0, rfl, rfl, rfl⟩, rfl⟩

/-- C67: the two bytes are read as a signed big-endian sixteen-bit number, for all 65536 pairs. -/
theorem C67_velocity_raw (vh vl : Byte) :
    velRaw vh vl = if vh.toNat < 128 then (vh.toNat * 256 + vl.toNat : Int) else (vh.toNat * 256 + vl.toNat : Int) - 65536 := by
  have hbits : (((vh.setWidth 32 <<< 8).setWidth 16).signExtend 32) ||| vl.setWidth 32 = ((vh ++ vl : BitVec 16)).signExtend 32 := by
    apply BitVec.eq_of_getLsbD_eq
    intro i hi
    simp only [BitVec.getLsbD_or, BitVec.getLsbD_signExtend, BitVec.getLsbD_setWidth, BitVec.getLsbD_shiftLeft,
      BitVec.getLsbD_append, BitVec.msb_eq_getLsbD_last]
    by_cases h1 : i < 8
    · simp [hi, h1, show i < 16 by omega, show i < 32 by omega]
    · by_cases h2 : i < 16
      · have : vl.getLsbD i = false := BitVec.getLsbD_of_ge _ _ (by omega)
        simp [h1, h2, show i < 32 by omega, this, show i - 8 < 32 by omega]
      · have : vl.getLsbD i = false := BitVec.getLsbD_of_ge _ _ (by omega)
        simp [h2, hi, this]
  unfold velRaw
  rw [hbits, BitVec.toInt_signExtend_of_le (by omega)]
  have hn : (vh ++ vl : BitVec 16).toNat = vh.toNat * 256 + vl.toNat := by
    have hl := vl.isLt
    rw [BitVec.toNat_append, Nat.shiftLeft_eq, ← Nat.shiftLeft_eq, ← Nat.shiftLeft_add_eq_or_of_lt (by simpa using hl), Nat.shiftLeft_eq]
  rw [BitVec.toInt_eq_toNat_cond, hn]
  have hl := vl.isLt
  split_ifs <;> omega

/-- C67: so speeds and rates come out in units of a thousandth, between -32.768 and 32.767, and different byte
pairs give different values. -/
theorem C67_velocity (vh vl ah al : Byte) :
    (convertVel vh vl ah al : ℝ × ℝ) = ((velRaw vh vl : ℝ) / 1000, (velRaw ah al : ℝ) / 1000) ∧
    -32768 ≤ velRaw vh vl ∧ velRaw vh vl ≤ 32767 ∧
    (∀ vh' vl', velRaw vh vl = velRaw vh' vl' → vh = vh' ∧ vl = vl') := by
  have hh := vh.isLt
  have hl := vl.isLt
  refine ⟨?_, ?_, ?_, ?_⟩
  · simp only [convertVel, lit_real]
    show ((((velRaw vh vl : ℚ) : ℝ) / ((1000 : ℚ) : ℝ)), (((velRaw ah al : ℚ) : ℝ) / ((1000 : ℚ) : ℝ))) = _
    push_cast; rfl
  · rw [C67_velocity_raw]; split_ifs <;> omega
  · rw [C67_velocity_raw]; split_ifs <;> omega
  · intro vh' vl' h
    have hh' := vh'.isLt
    have hl' := vl'.isLt
    rw [C67_velocity_raw, C67_velocity_raw] at h
    constructor <;> apply BitVec.eq_of_toNat_eq <;> split_ifs at h <;> omega

/-- 0x03E8 is 1 m/s, 0xFC18 is -1 m/s. -/
example : velRaw 0x03 0xE8 = 1000 ∧ velRaw 0xFC 0x18 = -1000 := by decide

/-- C79: conversion to increments multiplies every angular rate by the sampling interval and every acceleration
(in g) by the sampling interval and gravity, and with the flag set the result is turned from right-front-up to
front-right-down; doing the two in the other order gives the same. -/
theorem C79_increment (rate g : ℝ) (m : Meas ℝ) :
    (absolute2Increment rate g m false).gyro = (fun i => m.gyro i / rate) ∧
    (absolute2Increment rate g m false).acce = (fun i => m.acce i * g / rate) ∧
    (absolute2Increment rate g m true).gyro = rfuToFrd (absolute2Increment rate g m false).gyro ∧
    (absolute2Increment rate g m true).acce = rfuToFrd (absolute2Increment rate g m false).acce ∧
    absolute2Increment rate g ⟨rfuToFrd m.gyro, rfuToFrd m.acce⟩ false = absolute2Increment rate g m true := by
  refine ⟨?_, ?_, rfl, rfl, ?_⟩
  · funext i; show m.gyro i * (1 / rate) = _; ring
  · funext i; show m.acce i * (1 / rate * g) = _; ring
  · simp only [absolute2Increment, if_true, Bool.false_eq_true, if_false]
    congr 1
    · funext i
      fin_cases i
      · rfl
      · rfl
      · show m.gyro 2 * Fl.lit (-1) * _ = m.gyro 2 * _ * Fl.lit (-1); ring
    · funext i
      fin_cases i
      · rfl
      · rfl
      · show m.acce 2 * Fl.lit (-1) * _ = m.acce 2 * _ * Fl.lit (-1); ring

/-- C79: the message published by the replay node is the frame conversion and nothing else: rates and
accelerations, not increments. -/
theorem C79_message (m : Meas ℝ) : (toImuMsg m).gyro = rfuToFrd m.gyro ∧ (toImuMsg m).acce = rfuToFrd m.acce := by
  constructor <;>
  · funext i
    fin_cases i
    · rfl
    · rfl
    · show -(_ : ℝ) = _ * Fl.lit (-1)
      rw [lit_real]; push_cast; ring

/-- C79: raw counts are scaled linearly with the two sensitivities. -/
theorem C79_scale (kg ka : ℝ) (gyro acce : Fin 3 → BitVec 16) (i : Fin 3) :
    (convertRaw2D kg ka gyro acce).gyro i = kg * (gyro i).toInt ∧ (convertRaw2D kg ka gyro acce).acce i = ka * (acce i).toInt := by
  simp only [convertRaw2D, lit_real]
  push_cast
  exact ⟨rfl, rfl⟩
end Verif.Props
