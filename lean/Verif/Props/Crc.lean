import Verif.Lemmas.Crc
/-! # C01, C02, C03: the recorder checksum -/
namespace Verif.Props
open Verif.Crc Verif.Spec.Crc

/-- C01. For every byte string the table driven checksum is the bit-serial CRC-32/MPEG-2 of its bits,
and the two build variants of `crc32_checksum` agree. -/
theorem C01_crc_table_correct (m : List (BitVec 8)) :
    checksum m = crcBits (bitsOf m) ∧ checksum m = checksumSoft m :=
  ⟨checksum_eq_crcBits m, checksum_eq_soft m⟩

/-- The published check value of CRC-32/MPEG-2 on "123456789" is 0x0376E6E7. -/
example : checksum [0x31, 0x32, 0x33, 0x34, 0x35, 0x36, 0x37, 0x38, 0x39] = 0x0376E6E7 := by
  decide +kernel

/-- C02. Whatever the payload, a payload followed by the four bytes in which the recorder stores its
checksum (byte-swapped value, little-endian memory) passes the loader's test "CRC is zero". -/
theorem C02_written_checksum_verifies (m : List (BitVec 8)) :
    checksum (m ++ le32 (revert (checksum m))) = 0 := by
  unfold checksum
  rw [List.foldl_append]
  exact foldl_own _

/-- C02, converse: the four stored bytes are the only ones that pass. -/
theorem C02_only_that_checksum_verifies (m t : List (BitVec 8)) (ht : t.length = 4)
    (h : checksum (m ++ t) = 0) : t = le32 (revert (checksum m)) := by
  have h2 := C02_written_checksum_verifies m
  rw [checksum_eq_crcBits, bitsOf_append, crcBits, List.foldl_append] at h h2
  exact bitsOf_inj (foldl_serial_burst (by rw [bitsOf_length, bitsOf_length, ht]; rfl)
    (by rw [bitsOf_length, ht]; decide) (h.trans h2.symm))

/-- C03. Two blocks of which one differs from the other only inside a window of at most 32 consecutive
*bits* (anywhere, not necessarily byte aligned) never have the same CRC. -/
theorem C03_burst_detected_bits (a b : List (BitVec 8)) (pre win win' post : List Bool)
    (ha : bitsOf a = pre ++ win ++ post) (hb : bitsOf b = pre ++ win' ++ post)
    (hl : win.length = win'.length) (h32 : win.length ≤ 32) (hne : win ≠ win') :
    checksum a ≠ checksum b := by
  intro h
  rw [checksum_eq_crcBits, checksum_eq_crcBits, ha, hb] at h
  simp only [crcBits, List.foldl_append] at h
  exact hne (foldl_serial_burst hl h32 (foldl_serial_inj h))

/-- C03. A block that passes the loader's test, changed inside a window of at most four consecutive
bytes, fails it: at every window position and for every really different replacement. -/
theorem C03_burst_detected (pre win win' post : List (BitVec 8))
    (hl : win.length = win'.length) (h4 : win.length ≤ 4) (hne : win ≠ win')
    (hok : checksum (pre ++ win ++ post) = 0) :
    checksum (pre ++ win' ++ post) ≠ 0 := by
  rw [← hok]
  intro h
  refine C03_burst_detected_bits _ _ (bitsOf pre) (bitsOf win') (bitsOf win) (bitsOf post)
    (by simp [bitsOf_append]) (by simp [bitsOf_append]) ?_ ?_ (fun e => hne (bitsOf_inj e).symm) h
  · rw [bitsOf_length, bitsOf_length, hl]
  · rw [bitsOf_length]; omega

/-- A concrete block and a concrete corruption meeting the hypotheses of C03. -/
example : checksum ([0x55, 0xAA] ++ [0x01, 0x02] ++ le32 (revert (checksum [0x55, 0xAA, 0x01, 0x02]))) = 0 ∧
    checksum ([0x55, 0xAA] ++ [0x01, 0x03] ++ le32 (revert (checksum [0x55, 0xAA, 0x01, 0x02]))) ≠ 0 := by
  decide +kernel

end Verif.Props
