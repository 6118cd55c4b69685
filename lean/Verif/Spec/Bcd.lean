/-! # Specification: binary coded decimal, dates (independent of the model) -/

namespace Spec

/-- The number whose `k` hexadecimal digits are the last `k` decimal digits of `n`. -/
def bcd : (k : Nat) → Nat → Nat
  | 0, _ => 0
  | k + 1, n => bcd k (n / 10) * 16 + n % 10

/-- The decimal reading of the last `k` hexadecimal digits of `x`. -/
def unbcd : (k : Nat) → Nat → Nat
  | 0, _ => 0
  | k + 1, x => unbcd k (x / 16) * 10 + x % 16

/-- The last `k` hexadecimal digits of `x` are all decimal digits. -/
def ValidBcd : (k : Nat) → Nat → Prop
  | 0, _ => True
  | k + 1, x => x % 16 < 10 ∧ ValidBcd k (x / 16)

instance : (k x : Nat) → Decidable (ValidBcd k x)
  | 0, _ => .isTrue trivial
  | k + 1, x => by unfold ValidBcd; have := instDecidableValidBcd k (x / 16); infer_instance

/-- Day number of a Gregorian date, counted from 1858-11-17 (Modified Julian Date): the formula of EN 300 468
Annex C in integer arithmetic. -/
def mjd (y m d : Nat) : Nat :=
  let l := if m ≤ 2 then 1 else 0
  14956 + d + (36525 * (y - 1900 - l)) / 100 + (306001 * (m + 1 + l * 12)) / 10000

/-- MJD of the Unix epoch. -/
def unixEpochMjd : Nat := 40587

example : mjd 1970 1 1 = unixEpochMjd := by decide
/-- The largest 16-bit MJD, 65535, is 2038-04-22. -/
example : mjd 2038 4 22 = 65535 := by decide
example : bcd 4 1987 = 0x1987 := by decide
example : unbcd 4 0x1987 = 1987 := by decide

end Spec
