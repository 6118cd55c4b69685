import Verif.Model.OwnTable
import Verif.Spec.Spill

/-! # Specification: the sections of a table of the user's -/

namespace Spec
open Mpegts

/-- Section number and last section number filled in, in one byte each. -/
def withNumbers (number last : Nat) (b : List UInt8) : List UInt8 :=
  b.take 6 ++ [UInt8.ofNat number, UInt8.ofNat last] ++ b.drop 8

/-- The section that is sent for `s`: one whose size is not yet known gets its length and its CRC; one whose size is known gets a new CRC in
place of its last four bytes. -/
def Finished (s : Psi) (sec : List UInt8) : Prop :=
  (s.size = 0 ∧ 3 ≤ s.buffer.length ∧ sec = Spill.complete s.buffer) ∨
  (4 ≤ s.size ∧ s.size ≤ s.buffer.length ∧
    sec = s.buffer.take (s.size - 4) ++ beBytes 4 (crc32 (s.buffer.take (s.size - 4))).toNat)

end Spec
