import Verif.Spec.Packet
import Verif.Spec.Crc

/-! # Specification: sections and their packetisation (ISO/IEC 13818-1, 2.4.4), independent of the model -/

namespace Spec

/-- A transport packet without adaptation field: header, `body`, and 0xFF stuffing up to 188 bytes. -/
def payloadPacket (pid cc : Nat) (pusi : Bool) (body : List UInt8) : List UInt8 :=
  (Header.mk 0x47 false pusi false pid 0 false true cc).encode ++ body ++ List.replicate (184 - body.length) 0xFF

/-- Number of packets for a section of `n` bytes: one pointer byte and the section, 184 bytes per packet,
rounded up. -/
def packetCount (n : Nat) : Nat := (n + 1 + 183) / 184

/-- The `i`-th packet of a section: the `i`-th 184 bytes of pointer_field 0 followed by the section. -/
def packetAt (pid cc : Nat) (sec : List UInt8) (i : Nat) : List UInt8 :=
  payloadPacket pid ((cc + i) % 16) (decide (i = 0)) (((0x00 :: sec).drop (184 * i)).take 184)

/-- All packets of a section. -/
def packets (pid cc : Nat) (sec : List UInt8) : List (List UInt8) :=
  (List.range (packetCount sec.length)).map (packetAt pid cc sec)

/-- A complete section: at least its three header bytes, and as long as the 12-bit section_length in bytes 1
and 2 says. -/
def IsSection (sec : List UInt8) : Prop :=
  3 ≤ sec.length ∧ sec.length = 3 + beNat ((sec.drop 1).take 2) % 4096

instance (sec : List UInt8) : Decidable (IsSection sec) := by unfold IsSection; infer_instance

example : packetCount 183 = 1 ∧ packetCount 184 = 2 ∧ packetCount 4096 = 23 := by decide
example : IsSection [0x70, 0x70, 0x05, 0xDC, 0xB7, 0x23, 0x59, 0x59] := by decide

end Spec

namespace Spec

/-- Total length of the section that starts with the bytes `l`, as its section_length field says; 0 while the
field is not there yet. -/
def declaredSize (l : List UInt8) : Nat :=
  if 3 ≤ l.length then 3 + beNat ((l.drop 1).take 2) % 4096 else 0

/-- The bytes `l` up to the end of the section that starts there (all of them while its length is unknown). -/
def upToEnd (l : List UInt8) : List UInt8 := if 3 ≤ l.length then l.take (declaredSize l) else l

end Spec

namespace Spec

/-- A section without CRC (`body`, its section_length not set yet) made complete: the 12-bit section_length counts what
follows the field, up to and including the CRC, and the CRC of everything before it is appended. -/
def complete (body : List UInt8) : List UInt8 :=
  let lengthField := (body.getD 1 0).toNat / 16 * 4096 + (body.length - 3 + 4)
  let head := body.take 1 ++ beBytes 2 lengthField ++ body.drop 3
  head ++ beBytes 4 (crc32 head).toNat

example : complete [0x42, 0xB0, 0, 1, 2] = [0x42, 0xB0, 6, 1, 2] ++ beBytes 4 (crc32 [0x42, 0xB0, 6, 1, 2]).toNat := rfl

end Spec
