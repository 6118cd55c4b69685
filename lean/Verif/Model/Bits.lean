import Verif.Model.Rust

/-! # `src/bits.rs`: the macro `set_bits!` -/

namespace Mpegts

/-- `set_bits!(shift, v1, s1, v2, s2, ...)` on `u8` operands, src/bits.rs:9-21.  The macro recurses over its arguments: the
first value is shifted by `shift - s1`, the others are packed below it.  (A macro call has at least one field.)  Every use
in the crate has constant sizes of at least 1 whose sum is at most `shift = 8`, so that no shift overflows; the model
is meant for such sizes. -/
def setBits8 (shift : Nat) : List (UInt8 × Nat) → UInt8
  | [] => 0
  | [(v, size)] => v <<< UInt8.ofNat (shift - size)
  | (v, size) :: rest => (v <<< UInt8.ofNat (shift - size)) ||| setBits8 (shift - size) rest

/-- `set_bits!` on `u16` operands, src/bits.rs:9-21. -/
def setBits16 (shift : Nat) : List (UInt16 × Nat) → UInt16
  | [] => 0
  | [(v, size)] => v <<< UInt16.ofNat (shift - size)
  | (v, size) :: rest => (v <<< UInt16.ofNat (shift - size)) ||| setBits16 (shift - size) rest

end Mpegts
