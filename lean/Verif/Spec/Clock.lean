import Verif.Spec.Bytes

/-! # Specification: clock fields (ISO/IEC 13818-1, 2.4.3.5 and 2.4.3.7), independent of the model -/

namespace Spec

/-- The PCR counts modulo `2^33 * 300`. -/
def pcrPeriod : Nat := 2 ^ 33 * 300

/-- The PTS/DTS clock counts modulo `2^33`. -/
def ptsPeriod : Nat := 2 ^ 33

/-- The 48-bit program_clock_reference field: base (33 bits), reserved (6 bits, set), extension (9 bits). -/
def pcrField (base reserved ext : Nat) : List UInt8 := beBytes 6 (base * 2 ^ 15 + reserved * 2 ^ 9 + ext)

/-- The 40-bit timestamp field: 4-bit prefix, ts[32..30], marker, ts[29..15], marker, ts[14..0], marker. -/
def tsField (pre : Nat) (m1 m2 m3 : Bool) (ts : Nat) : List UInt8 :=
  beBytes 5 (pre * 2 ^ 36 + ts / 2 ^ 30 * 2 ^ 33 + bit m1 * 2 ^ 32 + ts / 2 ^ 15 % 2 ^ 15 * 2 ^ 17 + bit m2 * 2 ^ 16 +
    ts % 2 ^ 15 * 2 + bit m3)

example : pcrField 1 0x3F 2 = [0, 0, 0, 0, 0xFE, 0x02] := by decide
example : tsField 2 true true true 225220 = [0x21, 0x00, 0x0D, 0xDF, 0x89] := by decide

end Spec
