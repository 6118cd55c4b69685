import Verif.Spec.Section
import Verif.Spec.Descriptor

/-! # Specification: table sections on the wire

The syntax tables of ISO/IEC 13818-1 section 2.4.4 and EN 300 468 section 5.2, transcribed.  Arguments are plain numbers and
byte strings (descriptor loops are given as their bytes); nothing here refers to the model.  Each function gives the section
without its CRC and with section_length still zero; `Spec.complete` adds both. -/

namespace Spec.Table
open Spec.Descriptor (pack utc hhmmss)

/-- The eight bytes all long sections start with: table_id 8; section_syntax_indicator and reserved bits 4; section_length 12
(zero here); the table_id_extension 16; reserved 2, version_number 5, current_next_indicator 1; section_number 8;
last_section_number 8. -/
def header (tableId flags ext version number last : Nat) : List UInt8 :=
  beBytes 1 tableId ++ beBytes 2 (pack [(4, flags), (12, 0)]) ++ beBytes 2 ext ++
    beBytes 1 (pack [(2, 0b11), (5, version), (1, 1)]) ++ beBytes 1 number ++ beBytes 1 last

/-- Four bits and the 12-bit length of a loop, and the loop. -/
def sized12 (bits : Nat) (loop : List UInt8) : List UInt8 := beBytes 2 (pack [(4, bits), (12, loop.length)]) ++ loop

/-- Entry of the program association section: program_number 16, reserved 3, PID 13. -/
def patEntry (pnr pid : Nat) : List UInt8 := beBytes 2 pnr ++ beBytes 2 (pack [(3, 0b111), (13, pid)])

/-- program_association_section. -/
def pat (tsid version number last : Nat) (entries : List UInt8) : List UInt8 :=
  header 0x00 0b1011 tsid version number last ++ entries

/-- Entry of the program map section: stream_type 8, reserved 3, elementary_PID 13, reserved 4, ES_info_length 12,
descriptors. -/
def pmtEntry (type pid : Nat) (descs : List UInt8) : List UInt8 :=
  beBytes 1 type ++ beBytes 2 (pack [(3, 0b111), (13, pid)]) ++ sized12 0b1111 descs

/-- TS_program_map_section: after the header reserved 3, PCR_PID 13, reserved 4, program_info_length 12, descriptors. -/
def pmt (pnr version number last pcr : Nat) (descs entries : List UInt8) : List UInt8 :=
  header 0x02 0b1011 pnr version number last ++ beBytes 2 (pack [(3, 0b111), (13, pcr)]) ++ sized12 0b1111 descs ++ entries

/-- Entry of the network information section: transport_stream_id 16, original_network_id 16, reserved 4,
transport_descriptors_length 12, descriptors. -/
def nitEntry (tsid onid : Nat) (descs : List UInt8) : List UInt8 :=
  beBytes 2 tsid ++ beBytes 2 onid ++ sized12 0b1111 descs

/-- network_information_section: reserved 4, network_descriptors_length 12, descriptors, reserved 4,
transport_stream_loop_length 12, entries. -/
def nit (tableId networkId version number last : Nat) (descs entries : List UInt8) : List UInt8 :=
  header tableId 0b1111 networkId version number last ++ sized12 0b1111 descs ++ sized12 0b1111 entries

/-- Entry of the service description section: service_id 16, reserved 6, EIT_schedule_flag 1, EIT_present_following_flag 1,
running_status 3, free_CA_mode 1, descriptors_loop_length 12, descriptors. -/
def sdtEntry (pnr schedule presentFollowing status caMode : Nat) (descs : List UInt8) : List UInt8 :=
  beBytes 2 pnr ++ beBytes 1 (pack [(6, 0b111111), (1, schedule), (1, presentFollowing)]) ++
    sized12 (pack [(3, status), (1, caMode)]) descs

/-- service_description_section: original_network_id 16, reserved 8, entries. -/
def sdt (tableId tsid version number last onid : Nat) (entries : List UInt8) : List UInt8 :=
  header tableId 0b1111 tsid version number last ++ beBytes 2 onid ++ [0xFF] ++ entries

/-- Entry of the event information section: event_id 16, start_time 40 (UTC), duration 24, running_status 3, free_CA_mode 1,
descriptors_loop_length 12, descriptors. -/
def eitEntry (eventId start duration status caMode : Nat) (descs : List UInt8) : List UInt8 :=
  beBytes 2 eventId ++ utc start ++ beBytes 3 (hhmmss duration) ++ sized12 (pack [(3, status), (1, caMode)]) descs

/-- event_information_section: transport_stream_id 16, original_network_id 16, segment_last_section_number 8,
last_table_id 8, entries. -/
def eit (tableId pnr version number last tsid onid segmentLast lastTableId : Nat) (entries : List UInt8) : List UInt8 :=
  header tableId 0b1111 pnr version number last ++ beBytes 2 tsid ++ beBytes 2 onid ++ beBytes 1 segmentLast ++
    beBytes 1 lastTableId ++ entries

/-- time_date_section, complete (it has no CRC): table_id 0x70, section_length 5, UTC time. -/
def tdt (time : Nat) : List UInt8 := [0x70, 0x70, 0x05] ++ utc time

/-- time_offset_section: table_id 0x73, UTC time, reserved 4, descriptors_loop_length 12, descriptors. -/
def tot (time : Nat) (descs : List UInt8) : List UInt8 := [0x73, 0x70, 0x00] ++ utc time ++ sized12 0b1111 descs

/-- The seconds six decimal digits of hours, minutes and seconds stand for. -/
def seconds (b : Nat) : Nat := unbcd 2 (b / 65536) * 3600 + unbcd 2 (b / 256 % 256) * 60 + unbcd 2 (b % 256)

/-- The UTC time (seconds since 1970) a 16 bit MJD, not before 1970, and a 24 bit BCD time of day stand for. -/
def instant (mjd b : Nat) : Nat := (mjd - unixEpochMjd) * 86400 + seconds b

/-! ## Several sections -/

/-- The packets of several sections on one PID, the continuity counter running on. -/
def stream (pid : Nat) : (cc : Nat) → List (List UInt8) → List (List UInt8)
  | _, [] => []
  | cc, sec :: rest => packets pid cc sec ++ stream pid (cc + packetCount sec.length) rest

/-- Number of packets of several sections. -/
def streamCount (secs : List (List UInt8)) : Nat := (secs.map fun s => packetCount s.length).sum

/-- `groups` is the way to distribute `items` over sections greedily: all items, in order; every section but the first
has at least one item; a section has as many bytes as `first` (the first one) or `next` (the others) plus its items, and
this is at most `limit`; and a section is only closed when the next item does not fit any more. -/
structure Packed {α : Type} (size : α → Nat) (limit first next : Nat) (items : List α) (groups : List (List α)) : Prop where
  all : groups.flatten = items
  nonempty : groups ≠ []
  progress : ∀ g ∈ groups.tail, g ≠ []
  fits : ∀ i g, groups[i]? = some g → (if i = 0 then first else next) + (g.map size).sum ≤ limit
  full : ∀ i g h x, groups[i]? = some g → groups[i + 1]? = some h → h.head? = some x →
    limit < (if i = 0 then first else next) + (g.map size).sum + size x

/-! ## Reading entries -/

/-- Cut a loop into its entries: each has `hdr` bytes whose last two end with a 12-bit length of what follows.  An entry that
is cut short ends the loop. -/
def entries (hdr : Nat) (s : List UInt8) : List (List UInt8) :=
  let n := hdr + beNat ((s.drop (hdr - 2)).take 2) % 4096
  if _h : 2 ≤ hdr ∧ hdr ≤ s.length ∧ n ≤ s.length then s.take n :: entries hdr (s.drop n) else []
termination_by s.length
decreasing_by simp; omega

/-- Cut a loop into entries of exactly `n` bytes; a rest shorter than `n` is ignored. -/
def chunks (n : Nat) (s : List UInt8) : List (List UInt8) :=
  if _h : 0 < n ∧ n ≤ s.length then s.take n :: chunks n (s.drop n) else []
termination_by s.length
decreasing_by simp; omega

example : patEntry 1 0x100 = [0x00, 0x01, 0xE1, 0x00] := by decide
example : header 0x42 0b1111 0x1234 5 1 2 = [0x42, 0xF0, 0x00, 0x12, 0x34, 0xCB, 0x01, 0x02] := by decide
example : sized12 0b1111 [1, 2, 3] = [0xF0, 0x03, 1, 2, 3] := by decide
example : tdt 1700000000 = [0x70, 0x70, 0x05, 0xEB, 0x66, 0x22, 0x13, 0x20] := by decide
example : instant 0xEB66 0x221320 = 1700000000 := by decide

end Spec.Table
