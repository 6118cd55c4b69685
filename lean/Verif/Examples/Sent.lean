import Verif.Props.Sent
import Verif.Props.C69
import Verif.Props.C73_C74
import Verif.Examples.Tables

/-! # Concrete cases for C60, C63, C64, C68 to C74, C82 and C100

Each theorem with hypotheses is applied to values that meet them. -/

namespace Mpegts.Examples
open Spec Table

example := Pat.C63_pat .debug samplePat 0 3 [1] (by decide) (by decide)
example := Pat.C64_pat .debug samplePat 0 3 [1] (by decide) (by decide)
example := Pat.C68_pat .debug { samplePat with version := 0xE7 } 0 3 [1] (held [1, 2]) (by decide) (by decide)
example := Pmt.C64_pmt .debug samplePmt2 samplePmt2_inRange.program (fun i hi => (samplePmt2_inRange.items i hi).1) 0x100 3 [1] (by decide) (by decide)
example := Pmt.C68_pmt .debug { samplePmt2 with version := 0xE7 } ⟨by decide, by decide, samplePmt2_inRange.program, samplePmt2_inRange.items⟩ 0x100 3 [1] (held [1, 2])
  (by decide) (by decide)
example := Nit.C64_nit .debug bigNit bigNit_inRange.network.1 (fun i hi => (bigNit_inRange.items i hi).1) 16 3 [1] (by decide) (by decide)
example := Nit.C68_nit .debug { bigNit with version := 0xE7 } ⟨by decide, by decide, bigNit_inRange.network, bigNit_inRange.items⟩ 16 3 [1]
  (held [1, 2]) (by decide) (by decide)
example := Eit.C63_eit_pf .debug sampleEit (.inl rfl) (fun i hi => (sampleEit_inRange.items i hi).1) 18 3 [1] (by decide) (by decide)
example := Eit.C64_eit_pf .debug sampleEit (.inl rfl) (fun i hi => (sampleEit_inRange.items i hi).1) 18 3 [1] (by decide) (by decide)
example := Eit.C68_eit_pf .debug { sampleEit with version := 0xE7 } (.inl rfl) ⟨by decide, sampleEit_inRange.items⟩ (by decide) 18 3 [1] (held [1, 2])
  (by decide) (by decide)
example := Eit.C63_eit_schedule .debug sampleLong sampleLong_ok 18 3 [1] (by decide) (by decide)
example := Eit.C60_segment_partial .debug sampleSchedule sampleSchedule_ok (by decide) (by decide +kernel) 18 3 [1] (by decide) (by decide)
/-- `sampleLong` has two sections of one segment. -/
example := Eit.C60_segment_last_refuted .debug sampleLong sampleLong_ok 18 3 [1] (by decide) (by decide)
example := Eit.C100_events .release (sampleBig 300) (by decide) (by decide) (fun i hi => by rw [List.eq_of_mem_replicate hi]; exact bigEvent_ok)
  (by decide) 18 3 [1] (by decide) (by decide)
example := Eit.C100_length .release (sampleBig 300) (by decide) (by decide) (fun i hi => by rw [List.eq_of_mem_replicate hi]; exact bigEvent_ok)
  (by decide) 18 3 [1] (by decide) (by decide)
example := Eit.C100_spill_refuted .release (sampleBig 300) (by decide) (by decide) (fun i hi => by rw [List.eq_of_mem_replicate hi]; exact bigEvent_ok)
  (by decide) (sampleBig_segment 300 (by decide)) 18 3 [1] (by decide) (by decide)
example := Eit.C100_other_refuted .release (sampleDays 0x50) rfl (by decide +kernel) (by decide +kernel) (by decide +kernel) (sampleDays_each _)
  (by decide) 18 3 [1] (by decide) (by decide)
example := Eit.C100_unique_partial .debug sampleSchedule (by decide) (by decide) (fun i hi => (sampleSchedule_inRange.items i hi).1) (by decide +kernel)
  18 3 [1] (by decide) (by decide)

example := C69_from_bytes .debug [0x06, 0xE0, 0x64, 0xF0, 3, 0x7A, 1, 0x80] (by decide) ⟨0x06, 100, [.raw ⟨0x7A, [0x80]⟩]⟩ (by decide)

abbrev packetBuffer : List UInt8 := List.replicate 200 9
theorem packetBuffer_ok : 188 ≤ packetBuffer.length := by rw [List.length_replicate]; decide
/-- Reads of 8, of 1 and of 501 bytes, then of all that fits. -/
abbrev source : Source := ⟨sampleStream, [.chunk 7, .chunk 0, .chunk 500]⟩
theorem source_steady : Steady source := by intro e h; simp at h; rcases h with rfl | rfl | rfl <;> exact ⟨_, rfl⟩
/-- A source that fails. -/
abbrev failing : Source := ⟨sampleStream, [.chunk 0, .chunk 99, .err 5]⟩
example := C72_outcome failing packetBuffer packetBuffer_ok
example := C72_short failing [1, 2, 3] (by decide)
example := C70_read source source_steady packetBuffer packetBuffer_ok
example := C70_all 1000 source source_steady packetBuffer packetBuffer_ok (by decide +kernel)
theorem whole_steady : Steady ⟨sampleStream, []⟩ := by intro e h; simp at h
example := C70_chunking source ⟨sampleStream, []⟩ source_steady whole_steady packetBuffer (packetBuffer ++ [1]) packetBuffer_ok
  (by rw [List.length_append, List.length_replicate]; decide) rfl 1000 500 (by decide +kernel) (by decide +kernel)
example := C71_slices source source_steady packetBuffer packetBuffer_ok 1000 (by decide +kernel)
example := C71_packets [0x47 :: List.replicate 187 3, 0x47 :: List.replicate 187 0x47] (by decide +kernel) source.events source_steady packetBuffer
  packetBuffer_ok 400 (by decide)
example := C82_interrupted_partial failing packetBuffer packetBuffer_ok
example := C82_interrupted_refuted (0x47 :: List.replicate 187 3) [1, 2] (by decide +kernel) rfl 99 (by decide) (.err 5) (by intro n; simp) [.chunk 3] packetBuffer
  packetBuffer_ok

/-- 156 bytes of a packet are pending. -/
abbrev partly : TsDrain Source := ⟨source, List.replicate 188 7, 32⟩
theorem partly_ok : partly.Valid := ⟨by rw [List.length_replicate], by decide⟩
example := C73_read TsReader.read reader_packetReader partly partly_ok [1, 2, 3] (by decide)
example := C73_prefix TsReader.read reader_packetReader failing (fun i => UInt8.ofNat i) [[1, 2, 3], [4]] (by decide)
example := C73_copy source source_steady (fun i => UInt8.ofNat i) (fun i => List.replicate (i + 1) 1) (fun i => by simp) 1000 (by decide +kernel)
example := C74_empty_refuted (TsDrain.new source (fun _ => 0xEE)) ⟨by simp [TsDrain.new, Ts.PACKET_SIZE], by decide⟩ rfl source_steady
  (0x47 :: List.replicate 187 3) _ (by decide +kernel : nextPacket sampleStream = some (_, sampleStream.drop 190))
example := C74_empty_partial TsReader.read partly partly_ok (by decide +kernel)

end Mpegts.Examples
