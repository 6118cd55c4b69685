/-! # Specification: CRC-32/MPEG-2 (ISO/IEC 13818-1 Annex A), bit by bit, independent of the model -/

namespace Spec

/-- One bit through the shift register: the bit leaving the register, added to the input bit, decides whether the
generator x^32+x^26+x^23+x^22+x^16+x^12+x^11+x^10+x^8+x^7+x^5+x^4+x^2+x+1 (0x04C11DB7) is added. -/
def crcBit (r : UInt32) (b : Bool) : UInt32 :=
  if r.toNat.testBit 31 != b then (r <<< 1) ^^^ 0x04C11DB7 else r <<< 1

/-- The bits of a byte, most significant first. -/
def byteBits (b : UInt8) : List Bool := [7, 6, 5, 4, 3, 2, 1, 0].map b.toNat.testBit

/-- The bits of a byte string in transmission order. -/
def bits (l : List UInt8) : List Bool := l.flatMap byteBits

/-- CRC-32/MPEG-2: initial value all ones, no reflection, no final xor. -/
def crc32 (l : List UInt8) : UInt32 := (bits l).foldl crcBit 0xFFFFFFFF

/-- The check value of the CRC catalogue: CRC-32/MPEG-2 of the ASCII string "123456789". -/
example : crc32 [0x31, 0x32, 0x33, 0x34, 0x35, 0x36, 0x37, 0x38, 0x39] = 0x0376E6E7 := by decide +kernel

end Spec
