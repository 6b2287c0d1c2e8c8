import Verif.Model.Crc
/-!
Independent specification of CRC-32/MPEG-2 as a bit-serial shift register over the message bits,
most significant bit of each byte first. Uses nothing of the model but the types.
-/
namespace Verif.Spec.Crc

/-- The bits of a byte, most significant first. -/
def bitsOfByte (b : BitVec 8) : List Bool :=
  [b.getLsbD 7, b.getLsbD 6, b.getLsbD 5, b.getLsbD 4,
   b.getLsbD 3, b.getLsbD 2, b.getLsbD 1, b.getLsbD 0]

/-- The bits of a message in transmission order. -/
def bitsOf (m : List (BitVec 8)) : List Bool := m.flatMap bitsOfByte

/-- Feed one message bit into the 32 bit linear feedback shift register with generator
x^32+x^26+x^23+x^22+x^16+x^12+x^11+x^10+x^8+x^7+x^5+x^4+x^2+x+1. -/
def serial (r : BitVec 32) (bit : Bool) : BitVec 32 :=
  if (r.msb != bit) then (r <<< 1) ^^^ 0x04C11DB7 else r <<< 1

/-- The CRC of a bit string, register preset to all ones. -/
def crcBits (bits : List Bool) : BitVec 32 := bits.foldl serial 0xFFFFFFFF

end Verif.Spec.Crc
