import Verif.Props.C75Text
import Verif.Props.C76
import Verif.Props.C81
import Verif.Lemmas.DebugSays
import Verif.Examples.C02_C22
import Verif.Examples.Sent

/-! # Concrete cases for C75, C76 and C81

Each theorem with hypotheses is applied to values that meet them. -/

namespace Mpegts.Examples
open Spec

theorem pcr_field : 182 ≤ ([0, 0, 0, 0, 0x7E, 5] ++ List.replicate 176 0xFF : List UInt8).length := by rw [List.length_append, List.length_replicate]; decide
/-- An adaptation field of 7 bytes with a PCR. -/
example := C75_adaptation header (by decide) 7 0x10 _ (Nat.le_trans (by decide) pcr_field)
example := C75_packet .debug header (by decide) (7 :: 0x10 :: _) (Nat.add_le_add_right pcr_field 2)
example := C75_text ⟨true, id⟩ .debug header (by decide) 7 0x10 _ pcr_field
/-- The source is shown as a string in the Latin alphabet. -/
example := C75_wrappers ⟨true, fun _ => t!"source"⟩ _ _ (fun _ : Source => says_quoted _ (fun _ => by simp) ⟨0, [0x41]⟩) source partly ⟨source, 0, [], 8191, 0⟩

/-- Three stray bytes, a packet of PID 17, one of another PID, and a part of a packet. -/
abbrev carrier : List UInt8 := [1, 2, 3] ++ payloadPacket 17 3 true (0 :: List.replicate 183 4) ++ payloadPacket 18 3 true (0 :: List.replicate 183 4) ++
  [0x47, 1]
theorem carrier_carries : Carries 17 carrier [payloadPacket 17 3 true (0 :: List.replicate 183 4)] :=
  ⟨[([1, 2, 3], payloadPacket 17 3 true (0 :: List.replicate 183 4)), ([], payloadPacket 18 3 true (0 :: List.replicate 183 4))], [], [0x47, 1],
    by decide +kernel, by decide +kernel, by decide, by decide, by decide, by decide +kernel⟩
example := C76_listen (Sdt.parse .debug) .debug 17 Sdt.default (held [1, 2]) ⟨carrier, []⟩ (fun e h => nomatch h) _ carrier_carries packetBuffer packetBuffer_ok 1000
  (by decide +kernel)
example := C76_sdt .debug bigSdt bigSdt_inRange 17 3 (held [1, 2]) (by decide) (by decide)
example := C76_nit .debug bigNit bigNit_inRange 16 3 (held [1, 2]) (by decide) (by decide)
example := C76_pmt_partial .debug { samplePmt2 with descriptors := [] }
  ⟨samplePmt2_inRange.1, samplePmt2_inRange.2, by decide +kernel, samplePmt2_inRange.items⟩ rfl 0x100 3 (held [1, 2]) (by decide) (by decide)
example := C76_pmt_received_partial .debug samplePmt2 samplePmt2_inRange 0x100 3 (held [1, 2]) (by decide) (by decide)
example := C76_tdt .debug ⟨1700000000⟩ ⟨5⟩ time_ok 20 3 (held [1, 2]) (by decide) (by decide)
example := C76_tot_partial .debug sampleTot ⟨5, []⟩ sampleTot_inRange (by decide +kernel) rfl 20 3 (held [1, 2]) (by decide) (by decide)
example := C76_eit_pf_partial .debug sampleEit (.inl rfl) sampleEit_inRange (by decide) 18 3 (held [1, 2]) (by decide) (by decide)
example := C76_eit_schedule_partial .debug sampleLong sampleLong_ok ⟨by decide, by decide +kernel⟩ 18 3 (held [1, 2]) (by decide) (by decide)

example := C81_conditional_access .debug 0x0B00 0x1234 [1, 2] (by decide) (by decide)
example := C81_maximum_bitrate .debug 77777 (by decide)
example := C81_satellite .debug 1176600 192 1 0 0 0 1 275005 3 (by decide) (by decide) (by decide) (by decide) (by decide) (by decide) (by decide)
  (by decide) (by decide)
example := C81_cable_partial .debug 3460000 2 3 68750 15 (by decide) (by decide) (by decide) (by decide) (by decide) (by decide)
/-- 4.3 GHz. -/
example := C81_cable_refuted 43000000 2 3 68750 15 (by decide) (by decide) (by decide) (by decide) (by decide) (by decide)
example := C81_terrestrial_partial .debug 47400000 1 1 0 1 2 3 4 5 1 2 1 (by decide) (by decide) (by decide) (by decide) (by decide) (by decide) (by decide)
  (by decide) (by decide) (by decide) (by decide) (by decide) (by decide)
example := C81_terrestrial_refuted 474000000 1 1 0 1 2 3 4 5 1 2 1 (by decide) (by decide) (by decide) (by decide) (by decide) (by decide) (by decide)
  (by decide) (by decide) (by decide) (by decide) (by decide) (by decide)
example := C81_language .debug [([0x65, 0x6E, 0x67], 3), ([0x64, 0x65, 0x75], 0)] (by decide)
example := C81_service_list .debug [(0xFFFF, 1), (7, 255)] (by decide)
example := C81_logical_channels .debug [(0xFFFF, 1, 1023), (7, 0, 12)] (by decide)
example := C81_service .debug 1 [0x41] [5, 0xE9] (by decide)
example := C81_short_event .debug [0x65, 0x6E, 0x67] [0x41] [5, 0xE9] (by decide) (by decide)
example := C81_extended_event .debug 1 15 [0x65, 0x6E, 0x67] [([0x41], [0x42, 0x43]), ([], [5, 0xE9])] [0x44] (by decide) (by decide) (by decide) (by decide)
theorem summer : Valid58 ⟨[0x47, 0x42, 0x52], 1, 0, 60, 1700000000, 120⟩ := by refine ⟨rfl, ?_, ?_, ?_, ?_, ?_⟩ <;> simp [unixEpochMjd]
theorem india : Valid58 ⟨[0x49, 0x4E, 0x44], 0, 0, 330, 1700000000, 120⟩ := by refine ⟨rfl, ?_, ?_, ?_, ?_, ?_⟩ <;> simp [unixEpochMjd]
example := C81_local_time_offset_partial .debug [⟨[0x47, 0x42, 0x52], 1, 0, 60, 1700000000, 120⟩] (by simpa using summer)
example := (C81_local_time_offset_refuted [⟨[0x47, 0x42, 0x52], 1, 0, 60, 1700000000, 120⟩, ⟨[0x49, 0x4E, 0x44], 0, 0, 330, 1700000000, 120⟩]
  (by simp [summer, india])).1 (by decide)

end Mpegts.Examples
