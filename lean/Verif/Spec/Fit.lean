import Verif.Spec.AnyValue

/-! # Specification: values that do not fit their fields, as they are received

Values are or-ed over each other (`Spec.AnyValue.overlay`), so what a field holds in the end are the low bits of its own value and
what spills over from the fields behind it.  Nothing here refers to the model. -/

namespace Spec.Fit
open Spec.AnyValue (overlay)

/-- What the first of some bit fields, given as (width in bits, value), holds. -/
def first : List (Nat × Nat) → Nat
  | [] => 0
  | f :: r => (f.2 ||| overlay r / 2 ^ (r.map (·.1)).sum) % 2 ^ f.1

/-- What the field number `k`, counted from 0, holds. -/
def held (fields : List (Nat × Nat)) (k : Nat) : Nat := first (fields.drop k)

/-- All the fields, with what they hold. -/
def fit : List (Nat × Nat) → List (Nat × Nat)
  | [] => []
  | f :: r => (f.1, first (f :: r)) :: fit r

/-- Values that fit are held as they are. -/
example : (List.range 3).map (held [(1, 1), (2, 2), (5, 3)]) = [1, 2, 3] := by decide
/-- Of a value that is too large the low bits are held, and the excess spoils the fields before. -/
example : (List.range 3).map (held [(4, 0b0001), (2, 0b10110), (2, 0b01)]) = [0b0101, 0b10, 0b01] := by decide
/-- The first field spoils no other. -/
example : (List.range 2).map (held [(3, 0xFF), (1, 0)]) = [0b111, 0] := by decide

end Spec.Fit
