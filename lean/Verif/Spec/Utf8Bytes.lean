/-! # Specification: bytes that are split as UTF-8 -/

namespace Spec

/-- A byte that continues a character of UTF-8: 10xxxxxx. -/
def Continues (b : UInt8) : Prop := b.toNat / 64 = 2
instance : DecidablePred Continues := fun b => by unfold Continues; infer_instance

/-- Position `i` holds a byte that continues a character. -/
def ContinuesAt (data : List UInt8) (i : Nat) : Prop := ∃ b, data[i]? = some b ∧ Continues b
instance (data : List UInt8) (i : Nat) : Decidable (ContinuesAt data i) := by
  unfold ContinuesAt
  cases data[i]? with
  | none => exact isFalse (by simp)
  | some b => exact decidable_of_iff (Continues b) (by simp)

/-- Bytes that `split` cuts forever with pieces of `n` bytes, one of them for the selector. -/
def Stuck (n : Nat) (data : List UInt8) : Prop :=
  (n = 1 ∧ data ≠ [] ∧ ¬ ContinuesAt data 0) ∨
  (n = 2 ∧ (∃ j, 0 < j ∧ ContinuesAt data j) ∧ ¬ (ContinuesAt data 0 ∧ ContinuesAt data 1)) ∨
  (n = 3 ∧ ∃ i, ContinuesAt data (i + 1) ∧ ContinuesAt data (i + 2))

/-- Bytes at which `split` panics. -/
def Stumbles (n : Nat) (data : List UInt8) : Prop :=
  (n = 1 ∧ ContinuesAt data 0) ∨ (n = 2 ∧ ContinuesAt data 0 ∧ ContinuesAt data 1)

end Spec
