import Verif.Spec.Bytes

/-! # Specification: the transport packet header (ISO/IEC 13818-1, 2.4.3.2), independent of the model -/

namespace Spec

/-- The fields of the four header bytes. -/
structure Header where
  sync : Nat
  tei : Bool
  pusi : Bool
  priority : Bool
  pid : Nat
  scrambling : Nat
  adaptation : Bool
  payload : Bool
  cc : Nat
deriving DecidableEq

/-- Field widths: 8, 13, 2 and 4 bits (the flags are one bit by type). -/
def Header.Valid (h : Header) : Prop :=
  h.sync < 2 ^ 8 ∧ h.pid < 2 ^ 13 ∧ h.scrambling < 2 ^ 2 ∧ h.cc < 2 ^ 4

instance (h : Header) : Decidable h.Valid := by unfold Header.Valid; infer_instance

/-- The 32 header bits as one number, most significant field first:
sync(8) tei(1) pusi(1) priority(1) pid(13) scrambling(2) adaptation(1) payload(1) cc(4). -/
def Header.word (h : Header) : Nat :=
  h.sync * 2 ^ 24 + bit h.tei * 2 ^ 23 + bit h.pusi * 2 ^ 22 + bit h.priority * 2 ^ 21 + h.pid * 2 ^ 8 +
    h.scrambling * 2 ^ 6 + bit h.adaptation * 2 ^ 5 + bit h.payload * 2 ^ 4 + h.cc

/-- The four header bytes. -/
def Header.encode (h : Header) : List UInt8 := beBytes 4 h.word

example : (Header.mk 0x47 false true false 0x1FFF 0 false true 5).encode = [0x47, 0x5F, 0xFF, 0x15] := by decide

end Spec
