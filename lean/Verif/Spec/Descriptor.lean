import Verif.Spec.Bytes
import Verif.Spec.Bcd
import Verif.Spec.Text

/-! # Specification: descriptors on the wire

The syntax tables of ISO/IEC 13818-1 section 2.6 and EN 300 468 section 6.2, transcribed.  Arguments are plain numbers
and byte strings; nothing here refers to the model. -/

namespace Spec.Descriptor

/-- A sequence of bit fields, most significant first, each given as (width in bits, value). -/
def pack (fields : List (Nat × Nat)) : Nat := fields.foldl (fun acc f => acc * 2 ^ f.1 + f.2) 0

example : pack [(1, 1), (2, 2), (5, 3)] = 0b11000011 := by decide

/-- A descriptor: tag, length of the body, body. -/
def descriptor (tag : Nat) (body : List UInt8) : List UInt8 :=
  UInt8.ofNat tag :: UInt8.ofNat body.length :: body

/-- A length byte and that many bytes. -/
def sized (text : List UInt8) : List UInt8 := UInt8.ofNat text.length :: text

/-- Hours and minutes as four decimal digits. -/
def hhmm (minutes : Nat) : Nat := bcd 4 (minutes / 60 * 100 + minutes % 60)

/-- Hours, minutes and seconds as six decimal digits. -/
def hhmmss (seconds : Nat) : Nat := bcd 6 (seconds / 3600 * 10000 + seconds / 60 % 60 * 100 + seconds % 60)

/-- A UTC time (seconds since 1970): 16 bit MJD and 24 bit BCD time of day. -/
def utc (t : Nat) : List UInt8 := beBytes 2 (unixEpochMjd + t / 86400) ++ beBytes 3 (hhmmss (t % 86400))

/-- CA_descriptor: CA_system_ID 16, reserved 3, CA_PID 13, private data. -/
def conditionalAccess (caid pid : Nat) (priv : List UInt8) : List UInt8 :=
  descriptor 0x09 (beBytes 4 (pack [(16, caid), (3, 0b111), (13, pid)]) ++ priv)

/-- ISO_639_language_descriptor: per language the three-letter code 24 and audio_type 8. -/
def language (items : List (List UInt8 × Nat)) : List UInt8 :=
  descriptor 0x0A (items.flatMap fun i => i.1 ++ beBytes 1 i.2)

/-- maximum_bitrate_descriptor: reserved 2, maximum_bitrate 22. -/
def maximumBitrate (rate : Nat) : List UInt8 :=
  descriptor 0x0E (beBytes 3 (pack [(2, 0b11), (22, rate)]))

/-- network_name_descriptor: text. -/
def networkName (text : List UInt8) : List UInt8 := descriptor 0x40 text

/-- service_list_descriptor: per service service_id 16, service_type 8. -/
def serviceList (items : List (Nat × Nat)) : List UInt8 :=
  descriptor 0x41 (items.flatMap fun i => beBytes 3 (pack [(16, i.1), (8, i.2)]))

/-- satellite_delivery_system_descriptor: frequency 32 (8 digits), orbital_position 16 (4 digits), west_east_flag 1,
polarization 2, roll_off 2, modulation_system 1, modulation_type 2, symbol_rate 28 (7 digits), FEC_inner 4. -/
def satellite (frequency orbit westEast polarization rollOff system modulation symbolRate fec : Nat) : List UInt8 :=
  descriptor 0x43 (beBytes 11 (pack [(32, bcd 8 frequency), (16, bcd 4 orbit), (1, westEast), (2, polarization),
    (2, rollOff), (1, system), (2, modulation), (28, bcd 7 symbolRate), (4, fec)]))

/-- cable_delivery_system_descriptor: frequency 32 (8 digits), reserved 12, FEC_outer 4, modulation 8, symbol_rate 28
(7 digits), FEC_inner 4. -/
def cable (frequency fecOuter modulation symbolRate fec : Nat) : List UInt8 :=
  descriptor 0x44 (beBytes 11 (pack [(32, bcd 8 frequency), (12, 0xFFF), (4, fecOuter), (8, modulation),
    (28, bcd 7 symbolRate), (4, fec)]))

/-- service_descriptor: service_type 8, provider and service name with lengths. -/
def service (type : Nat) (provider name : List UInt8) : List UInt8 :=
  descriptor 0x48 (beBytes 1 type ++ sized provider ++ sized name)

/-- short_event_descriptor: language 24, event name and text with lengths. -/
def shortEvent (lang name text : List UInt8) : List UInt8 :=
  descriptor 0x4D (lang ++ sized name ++ sized text)

/-- extended_event_descriptor: descriptor_number 4, last_descriptor_number 4, language 24, the items with their total
length, text with length. -/
def extendedEvent (number last : Nat) (lang : List UInt8) (items : List (List UInt8 × List UInt8)) (text : List UInt8) :
    List UInt8 :=
  descriptor 0x4E (beBytes 1 (pack [(4, number), (4, last)]) ++ lang ++
    sized (items.flatMap fun i => sized i.1 ++ sized i.2) ++ sized text)

/-- stream_identifier_descriptor: component_tag 8. -/
def streamIdentifier (tag : Nat) : List UInt8 := descriptor 0x52 (beBytes 1 tag)

/-- One country of a local_time_offset_descriptor. -/
structure Offset where
  country : List UInt8
  region : Nat
  polarity : Nat
  offset : Nat
  time : Nat
  next : Nat

/-- local_time_offset_descriptor: per country country_code 24, region_id 6, reserved 1, polarity 1, offset 16
(hours and minutes), time_of_change 40, next_time_offset 16. -/
def localTimeOffset (items : List Offset) : List UInt8 :=
  descriptor 0x58 (items.flatMap fun i => i.country ++ beBytes 1 (pack [(6, i.region), (1, 1), (1, i.polarity)]) ++
    beBytes 2 (hhmm i.offset) ++ utc i.time ++ beBytes 2 (hhmm i.next))

/-- terrestrial_delivery_system_descriptor: centre_frequency 32, bandwidth 3, priority 1, time_slicing 1, MPE-FEC 1,
reserved 2, constellation 2, hierarchy 3, code_rate HP 3, code_rate LP 3, guard_interval 2, transmission_mode 2,
other_frequency_flag 1, reserved 32. -/
def terrestrial (frequency bandwidth priority slicing mpeFec constellation hierarchy hp lp guard mode other : Nat) :
    List UInt8 :=
  descriptor 0x5A (beBytes 11 (pack [(32, frequency), (3, bandwidth), (1, priority), (1, slicing), (1, mpeFec), (2, 0b11),
    (2, constellation), (3, hierarchy), (3, hp), (3, lp), (2, guard), (2, mode), (1, other), (32, 0xFFFFFFFF)]))

/-- logical_channel_descriptor: per service service_id 16, visible 1, reserved 5, channel number 10. -/
def logicalChannels (items : List (Nat × Nat × Nat)) : List UInt8 :=
  descriptor 0x83 (items.flatMap fun i => beBytes 4 (pack [(16, i.1), (1, i.2.1), (5, 0b11111), (10, i.2.2)]))

/-- The complete descriptors of a descriptor loop, each with its tag and length bytes; a truncated one ends the loop. -/
def frames : List UInt8 → List (List UInt8)
  | tag :: len :: rest =>
    if len.toNat ≤ rest.length then (tag :: len :: rest.take len.toNat) :: frames (rest.drop len.toNat) else []
  | _ => []
termination_by s => s.length
decreasing_by simp; omega

end Spec.Descriptor
