import Verif.Spec.Spill
import Verif.Spec.ScheduleAny

/-! # Specification: descriptors whose values need not fit their fields

The layouts of `Spec.Descriptor` for values of any size.  Values are not masked: a value that is too large for its field is or-ed over
the fields before it in the same byte or word, and what passes the beginning of that byte or word is lost.  Lengths are stated in a byte.
Nothing here refers to the model. -/

namespace Spec.AnyValue
open Spec.Descriptor (descriptor sized hhmm hhmmss)

/-- A sequence of bit fields, most significant first, each given as (width in bits, value), or-ed over each other. -/
def overlay : List (Nat × Nat) → Nat
  | [] => 0
  | f :: r => f.2 * 2 ^ (r.map (·.1)).sum ||| overlay r

/-- Where the values fit these are the bit fields of the standard. -/
example : overlay [(1, 1), (2, 2), (5, 3)] = Descriptor.pack [(1, 1), (2, 2), (5, 3)] := by decide
/-- A value of five bits in a field of two spills over the bits before it. -/
example : overlay [(4, 0b0001), (2, 0b10110), (2, 0b01)] = 0b01011001 := by decide

/-- A descriptor that states a length for its body. -/
def stating (tag length : Nat) (body : List UInt8) : List UInt8 := UInt8.ofNat tag :: UInt8.ofNat length :: body

/-- Two decimal digits, the first of them modulo 16. -/
def digits2 (n : Nat) : Nat := n / 10 % 16 * 16 + n % 10

/-- Four decimal digits of a number, of which the first two are taken from a byte. -/
def digits4 (n : Nat) : Nat := digits2 (n / 100 % 256) * 2 ^ 8 + bcd 2 n

/-- Eight decimal digits of a number, of which the first four are taken from 16 bits. -/
def digits8 (n : Nat) : Nat := digits4 (n / 10000 % 65536) * 2 ^ 16 + bcd 4 n

example : digits8 12345678 = 0x12345678 := by decide
example : digits4 25601 = 0x0001 := by decide

/-- A UTC time: day, modulo 2^16, and time of day, the latter of the time modulo 2^32. -/
def utc (t : Nat) : List UInt8 := beBytes 2 (unixEpochMjd + t / 86400) ++ beBytes 3 (hhmmss (t % 2 ^ 32 % 86400))

/-- A descriptor without special meaning: nothing if the data do not fit. -/
def raw (tag : Nat) (data : List UInt8) : List UInt8 := if data.length ≤ 255 then descriptor tag data else []

def conditionalAccess (caid pid : Nat) (priv : List UInt8) : List UInt8 :=
  stating 0x09 (4 + priv.length) (beBytes 2 caid ++ beBytes 2 (overlay [(3, 0b111), (13, pid)]) ++ priv)

/-- The length says four bytes for each language, whatever the codes. -/
def language (items : List (List UInt8 × Nat)) : List UInt8 :=
  stating 0x0A (4 * items.length) (items.flatMap fun i => i.1 ++ beBytes 1 i.2)

def maximumBitrate (rate : Nat) : List UInt8 := stating 0x0E 3 (beBytes 3 (overlay [(2, 0b11), (22, rate)]))

/-- The symbol rate has six digits (one byte less than `digits8`); the last byte has no digit of it. -/
def satellite (frequency orbit westEast polarization rollOff system modulation symbolRate fec : Nat) : List UInt8 :=
  stating 0x43 11 (beBytes 4 (digits8 frequency) ++ beBytes 2 (digits4 orbit) ++
    beBytes 1 (overlay [(1, westEast), (2, polarization), (2, rollOff), (1, system), (2, modulation)]) ++
    beBytes 3 (digits8 symbolRate) ++ beBytes 1 fec)

def cable (frequency fecOuter modulation symbolRate fec : Nat) : List UInt8 :=
  stating 0x44 11 (beBytes 4 (digits8 frequency) ++ beBytes 1 0xFF ++ beBytes 1 (overlay [(4, 0xF), (4, fecOuter)]) ++
    beBytes 1 modulation ++ beBytes 3 (digits8 symbolRate) ++ beBytes 1 fec)

/-- The length counts three bytes for the language, whatever it is. -/
def shortEvent (lang name text : List UInt8) : List UInt8 :=
  stating 0x4D (5 + name.length + text.length) (lang ++ sized name ++ sized text)

/-- The length counts three bytes for the language and no length bytes of the items; nothing if it does not fit. -/
def extendedEvent (number last : Nat) (lang : List UInt8) (items : List (List UInt8 × List UInt8)) (text : List UInt8) : List UInt8 :=
  let length := 6 + (items.map fun i => i.1.length + i.2.length).sum + text.length
  if length ≤ 255 then
    stating 0x4E length (beBytes 1 (overlay [(4, number), (4, last)]) ++ lang ++
      sized (items.flatMap fun i => sized i.1 ++ sized i.2) ++ sized text)
  else []

/-- The length says 13 bytes for each country, whatever the codes. -/
def localTimeOffset (items : List Descriptor.Offset) : List UInt8 :=
  stating 0x58 (13 * items.length) (items.flatMap fun i => i.country ++
    beBytes 1 (overlay [(6, i.region), (1, 1), (1, i.polarity)]) ++
    beBytes 2 (hhmm (i.offset % 1440)) ++ utc i.time ++ beBytes 2 (hhmm (i.next % 1440)))

def terrestrial (frequency bandwidth priority slicing mpeFec constellation hierarchy hp lp guard mode other : Nat) : List UInt8 :=
  stating 0x5A 11 (beBytes 4 frequency ++
    beBytes 1 (overlay [(3, bandwidth), (1, priority), (1, slicing), (1, mpeFec), (2, 0b11)]) ++
    beBytes 1 (overlay [(2, constellation), (3, hierarchy), (3, hp)]) ++
    beBytes 1 (overlay [(3, lp), (2, guard), (2, mode), (1, other)]) ++ beBytes 4 0xFFFFFFFF)

def logicalChannels (items : List (Nat × Nat × Nat)) : List UInt8 :=
  stating 0x83 (4 * items.length) (items.flatMap fun i =>
    beBytes 2 i.1 ++ beBytes 2 (overlay [(1, i.2.1), (5, 0b11111), (10, i.2.2)]))

/-! ## Entries of tables

The lengths of loops are those of `Spec.Spill`. -/

def sdtEntry (pnr schedule presentFollowing status caMode : Nat) (descs : List UInt8) : List UInt8 :=
  beBytes 2 pnr ++ beBytes 1 (overlay [(6, 0b111111), (1, schedule), (1, presentFollowing)]) ++
    Spill.sized (overlay [(3, status), (1, caMode)]) descs

def eitEntry (eventId start duration status caMode : Nat) (descs : List UInt8) : List UInt8 :=
  beBytes 2 eventId ++ utc start ++ beBytes 3 (hhmmss (duration % 86400)) ++ Spill.sized (overlay [(3, status), (1, caMode)]) descs

def tot (time : Nat) (descs : List UInt8) : List UInt8 := [0x73, 0x70, 0x00] ++ utc time ++ Spill.sized 0b1111 descs

example : sdtEntry 7 1 0 4 1 [1, 2] = Table.sdtEntry 7 1 0 4 1 [1, 2] := by decide

/-! ## Which section an entry is sent in

The bytes an entry is counted with can differ from the bytes it takes. -/

/-- `first` put before the first of some sections. -/
def before {α : Type} (first : List α) : List (List α) → List (List α)
  | [] => [first]
  | g :: r => (first ++ g) :: r

/-- Entries in order over sections of `limit` bytes.  An entry is put into the current section, of which `used` bytes are taken,
if it fits as it is counted; otherwise it opens a new section, of which `next` bytes are taken. -/
def distribute {α : Type} (counted taken : α → Nat) (limit next : Nat) : (used : Nat) → List α → List (List α)
  | _, [] => [[]]
  | used, x :: r =>
    if used + counted x ≤ limit then before [x] (distribute counted taken limit next (used + taken x) r)
    else [] :: before [x] (distribute counted taken limit next (next + taken x) r)

example : distribute id (· - 1) 10 0 0 [4, 4, 4, 8, 3, 5] = [[4, 4, 4], [8, 3], [5]] := by decide

/-! ## Schedules

`Spec.ScheduleAny` with events that are counted with one size and take another, and with the limits of segments counted in 64 bits. -/

open Spec.Schedule (midnight segmentOf segmentLength)
open Spec.ScheduleAny (Sect nextSegment nextNumber firstStart lastStart)

def place {α : Type} (start counted taken : α → Nat) (room limit : Nat) (pos : Nat × Nat) (s : Sect α) : List α → List (Sect α)
  | [] => [s]
  | i :: r =>
    if limit ≤ start i then
      s :: place start counted taken room ((limit + segmentLength) % 2 ^ 64) (nextSegment pos) ⟨(nextSegment pos).1, (nextSegment pos).2, [i]⟩ r
    else if room ≤ (s.events.map taken).sum + counted i then
      s :: place start counted taken room limit (nextNumber pos) ⟨(nextNumber pos).1, (nextNumber pos).2, [i]⟩ r
    else place start counted taken room limit pos { s with events := s.events ++ [i] } r

/-- Some count passes the end of its type while the events are placed; `held` are the events in the current section. -/
def overflows {α : Type} (start counted taken : α → Nat) (room limit : Nat) (pos : Nat × Nat) (held : List α) : List α → Bool
  | [] => false
  | i :: r =>
    if limit ≤ start i then
      decide (2 ^ 64 ≤ limit + segmentLength) || decide (pos.2 / 8 = 31 ∧ pos.1 = 255) ||
        overflows start counted taken room ((limit + segmentLength) % 2 ^ 64) (nextSegment pos) [i] r
    else if room ≤ (held.map taken).sum + counted i then
      decide (pos.2 = 255) || overflows start counted taken room limit (nextNumber pos) [i] r
    else overflows start counted taken room limit pos (held ++ [i]) r

/-- The sections for the events `l` of a schedule with the table id `id`. -/
def sections {α : Type} (start counted taken : α → Nat) (room id : Nat) (l : List α) : List (Sect α) :=
  let origin := midnight (firstStart start l)
  let first := segmentOf origin (firstStart start l)
  (List.range (first + 1)).map (⟨id / 16 * 16, 8 * ·, []⟩) ++
    place start counted taken room ((origin + (first + 2) * segmentLength) % 2 ^ 64) (id / 16 * 16, 8 * (first + 1))
      ⟨id, 8 * (first + 1), []⟩ l

/-- Some count passes the end of its type: the last event starts before the midnight before the first; more than 16 tables; the end
of the segment after that of the first event is too large for 64 bits; or while the events are placed. -/
def SomeOverflow {α : Type} (start counted taken : α → Nat) (room id : Nat) (l : List α) : Prop :=
  let origin := midnight (firstStart start l)
  let first := segmentOf origin (firstStart start l)
  lastStart start l < origin ∨ 256 ≤ id / 16 * 16 + segmentOf origin (lastStart start l) / 32 % 256 ∨
    2 ^ 64 ≤ origin + (first + 2) * segmentLength ∨
    overflows start counted taken room (origin + (first + 2) * segmentLength) (id / 16 * 16, 8 * (first + 1)) [] l = true

instance {α : Type} (start counted taken : α → Nat) (room id : Nat) (l : List α) : Decidable (SomeOverflow start counted taken room id l) := by
  unfold SomeOverflow; infer_instance

end Spec.AnyValue
