import Verif.Props.C02_C05
import Verif.Props.C06_C11
import Verif.Props.C12_C15
import Verif.Props.C16_C18
import Verif.Props.C19_C22

/-! # Concrete cases for C02 to C22

Each theorem with hypotheses is applied to values that meet them. -/

namespace Mpegts.Examples
open Spec

/-- A header with every field different from zero. -/
abbrev header : Header := ⟨0x47, true, true, false, 0x1ABC, 2, true, true, 9⟩

example := C04_header_fields header (by decide) [7, 1, 2]
example := C02_set_pid .debug header (by decide) [7] 0x0123 (by decide)
example := C02_set_pid_debug_panics [0x47, 0, 0, 0x10] 8192 (by decide)
example := C02_set_pid_release header (by decide) [7] 0xFFFF
example := C03_set_cc .debug header (by decide) [7] 15 (by decide)
example := C03_set_cc_out_of_range header (by decide) [7] 16 (by decide)
example := C03_set_flags header (by decide) [7]
example := (C05_payload_offset_partial .debug header (by decide) 183 []).2.1 rfl (by decide)
example := C05_payload_offset_overflow_refuted header (by decide) rfl 251 (by decide) [0]
example := C05_no_payload_refuted .debug header (by decide) 9 [0]
example := C05_short .debug header (by decide)

example := C06_set_pcr (List.replicate 18 0x11) 123456789 (by decide)
example := C06_get_pcr (List.replicate 6 0) [1] 8589934591 63 299 rfl (by decide) (by decide) (by decide)
example := C06_round_trip (List.replicate 12 0) 2576980377599 (by decide) (by decide)
example := C06_round_trip_mod (List.replicate 12 0) 2576980377600 (by decide)
example := C06_short (List.replicate 11 0) 1 (by decide)
example := C07_is_pcr header (by decide) 7 0x10 [0, 0]
example := C07_is_pcr_short header (by decide) 7
example := C08_pcr_delta_partial .debug 5 2576980377599 (by decide)
example := C08_pcr_delta_wrap_refuted .debug 2576980377599 5 (by decide) (by decide)
example := C09_pcr_to_stc .debug 100 50 1000 200 (by decide) (by decide) (by decide)
example := C10_jitter_partial .debug 0 271 (by decide) (by decide) (by decide) (by decide)
example := (C10_jitter_wrap_refuted .debug 4 2576980377599 5 (by decide) (by decide) (by decide) (by decide)).1 (by decide)
example := (C10_jitter_wrap_refuted .debug 2576980377599 4 5 (by decide) (by decide) (by decide) (by decide)).2 (by decide)
example := C11_bitrate .debug 27000000 1000000 (by decide) (by decide)

example := (C12_get_pts_dts 3 true false true 8589934591 (by decide) (by decide) (List.replicate 9 0) [1]).1 rfl
example := (C12_get_pts_dts 1 true false true 225220 (by decide) (by decide) (List.replicate 14 0) []).2 rfl
example := C12_flags [0, 0, 1, 0xE0, 0, 0, 0x80] rfl 0xC0 [10]
example := C14_pts_delta_partial .debug 5 8589934591 (by decide)
example := C14_pts_delta_wrap_refuted .debug 8589934591 5 (by decide) (by decide)

example := (C17_residue [0x31, 0x32] (beBytes 4 (crc32 [0x31, 0x32]).toNat) (by decide)).2 ⟨_, C16_crc _, rfl⟩
/-- Three bits turned in the second byte. -/
example := C18_burst [0x31, 0x72, 9] [0x31, 0x0F, 9] (bits [0x31] ++ [false]) [true, true, true, false, false, true, false]
  [false, false, false, true, true, true, true] (bits [9]) (by decide) (by decide) rfl (by decide) (by decide)
/-- The first bit of a section turned. -/
example := C18_burst_check .debug
  (Psi.mk ([0x00, 0xB0, 0x05, 0x00] ++ beBytes 4 (crc32 [0x00, 0xB0, 0x05, 0x00]).toNat) 8 0 0)
  (Psi.mk ([0x80, 0xB0, 0x05, 0x00] ++ beBytes 4 (crc32 [0x00, 0xB0, 0x05, 0x00]).toNat) 8 0 0) (by decide +kernel) rfl
  [] [false] [true] _ rfl rfl rfl (by decide) (by decide)

example := (C19_to_bcd .debug).2.2 12345678 (by decide)
example := (C19_from_bcd .debug).2.2 0x12345678 (by decide)
example := C20_from_bcd_time .debug 0x235959 (by decide) (by decide) (by decide)
example := C20_round_trip .debug 86399 (by decide)
example := C21_from_bcd_time_partial .debug 0x0459 (by decide) (by decide)
example := C21_from_bcd_time_refuted 0x2359 (by decide) (by decide)
example := C21_round_trip_partial .debug 299 (by decide)
example := C22_to_mjd 1547057412 (by decide)
example := C22_from_mjd .debug 58492 (by decide)
example := C22_from_mjd_early 40586 (by decide)
example := C22_round_trip .debug 1547057412 (by decide)

end Mpegts.Examples
