import Verif.Spec.Crc
import Verif.Spec.Section
import Verif.Spec.Loss

namespace Spec

/-- The number of bits in which two byte strings differ. -/
def damaged (a b : List UInt8) : Nat := (List.zipWith xor (bits a) (bits b)).count true

example : damaged [0xFF, 0x00] [0x7F, 0x03] = 3 := by decide

/-- Two byte strings that differ only inside a window of at most 32 consecutive bits, and do differ there. -/
def Burst (a b : List UInt8) : Prop :=
  ∃ pre w w' post, bits a = pre ++ w ++ post ∧ bits b = pre ++ w' ++ post ∧ w.length = w'.length ∧ w.length ≤ 32 ∧ w ≠ w'

example : Burst [0x80, 0x01] [0x80, 0x0E] := ⟨bits [0x80] ++ List.replicate 4 false, [false, false, false, true],
  [true, true, true, false], [], by decide, by decide, rfl, by decide, by decide⟩

/-- What may arrive of a section over a channel that damages bits: the section, or one of the same length, as its length field says, in
which up to three bits are different, or any number of bits in a window of 32. -/
def Disturbed (sec got : List UInt8) : Prop :=
  got = sec ∨ (got.length = sec.length ∧ IsSection got ∧ ((1 ≤ damaged sec got ∧ damaged sec got ≤ 3) ∨ Burst sec got))

/-- Those of the parts `l`, each sent as a section, whose section arrived as it was sent. -/
def undamaged {β : Type} (l : List β) (sent got : List (List UInt8)) : List β :=
  ((l.zip (sent.zip got)).filter fun x => x.2.1 == x.2.2).map (·.1)

example : undamaged ["a", "b", "c"] [[1], [2], [3]] [[1], [6], [3]] = ["a", "c"] := by decide

/-- Those of the parts `l`, each sent as a section, all of whose packets arrive (`keep`, C91) and whose section arrived as it was sent. -/
def arriving {β : Type} (keep : Nat → Bool) (l : List β) (sent got : List (List UInt8)) : List β :=
  ((survivors (fun x : β × List UInt8 × List UInt8 => x.2.1) keep 0 (l.zip (sent.zip got))).filter fun x => x.2.1 == x.2.2).map (·.1)

example : arriving (fun n => decide (n ≠ 2)) ["a", "b", "c"] [[1], [2], [3]] [[1], [6], [3]] = ["a"] := by decide

end Spec
