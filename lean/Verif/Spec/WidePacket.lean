import Verif.Spec.Section

/-! # Specification: packets of a section whose PID or counter does not fit the header, independent of the model

What a release build writes when the caller gives a PID above 13 bits or a counter above 4 bits. -/

namespace Spec

/-- The header for a 16-bit `pid` and an 8-bit `cc`: the PID field takes the low 13 bits, the counter field the low 4
bits, and the three bits above the PID stand where transport_error, payload_unit_start and priority are. -/
def spillHeader (pid cc : Nat) (first : Bool) : Header where
  sync := 0x47
  tei := decide (pid / 2 ^ 15 % 2 = 1)
  pusi := first || decide (pid / 2 ^ 14 % 2 = 1)
  priority := decide (pid / 2 ^ 13 % 2 = 1)
  pid := pid % 2 ^ 13
  scrambling := 0
  adaptation := false
  payload := true
  cc := cc % 2 ^ 4

/-- The `i`-th packet of a section with such a header. -/
def spillPacketAt (pid cc : Nat) (sec : List UInt8) (i : Nat) : List UInt8 :=
  let body := ((0x00 :: sec).drop (184 * i)).take 184
  (spillHeader pid (cc + i) (decide (i = 0))).encode ++ body ++ List.replicate (184 - body.length) 0xFF

/-- All packets of a section with such headers. -/
def spillPackets (pid cc : Nat) (sec : List UInt8) : List (List UInt8) :=
  (List.range (packetCount sec.length)).map (spillPacketAt pid cc sec)

example : (spillHeader 0x4012 0x1F false).encode = [0x47, 0x40, 0x12, 0x1F] := by decide
example : (spillHeader 0xA012 3 true).encode = [0x47, 0xE0, 0x12, 0x13] := by decide

end Spec

namespace Spec

/-- Packets of 188 bytes each, with the bits of `pid` above the 13-bit field or-ed into the three flags (bits 7 to 5 of
the second byte) of every packet. -/
def spill (pid : Nat) (bytes : List UInt8) : List UInt8 :=
  bytes.mapIdx fun i b => if i % 188 = 1 then b ||| UInt8.ofNat (pid / 2 ^ 13 * 2 ^ 5) else b

example : spill 0x4012 [0x47, 0x00, 0x12, 0x10] = [0x47, 0x40, 0x12, 0x10] := by decide

end Spec
