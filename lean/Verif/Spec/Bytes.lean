/-! # Specification: numbers as bytes (independent of the model) -/

namespace Spec

/-- The big-endian value of a byte string: the first byte is the most significant. -/
def beNat : List UInt8 → Nat
  | [] => 0
  | b :: rest => b.toNat * 256 ^ rest.length + beNat rest

/-- The `n` big-endian digits (base 256) of `v`; higher digits are dropped. -/
def beBytes : (n : Nat) → (v : Nat) → List UInt8
  | 0, _ => []
  | n + 1, v => UInt8.ofNat (v / 256 ^ n) :: beBytes n v

/-- A flag as a number. -/
def bit (b : Bool) : Nat := if b then 1 else 0

example : beNat [0x12, 0x34] = 0x1234 := by decide
example : beBytes 3 0x1234AB = [0x12, 0x34, 0xAB] := by decide

end Spec
