import Verif.Props.C87_C90
import Verif.Props.C91
import Verif.Props.C93
import Verif.Props.C95
import Verif.Props.C96Schedule
import Verif.Props.C97
import Verif.Props.C98
import Verif.Props.C99
import Verif.Examples.C75_C82

/-! # Concrete cases for C87 to C99

Each theorem with hypotheses is applied to values that meet them. -/

namespace Mpegts.Examples
open Spec

example := C87_set_bits [(1, 1), (2, 2), (1, 2), (1, 1)] (by decide) (by decide) (by decide)
example := C87_set_bits16 [(0x155, 9), (2, 2), (1, 2)] (by decide) (by decide) (by decide)
example := C87_fields_readable [(1, 1), (2, 2)] [(3, 2), (5, 3)] (by decide) (by decide) (by decide) (by decide)
example := C87_overflow_spills 1 0x22 4 (by decide) (by decide) (by decide)
example := C88_oversize_refuted .debug (.d41 ⟨List.replicate 86 ⟨0x0101, 1⟩⟩) trivial (by decide +kernel) [.d52 ⟨7⟩] [1]
example := C89_satellite .debug 11766000 1152 .east .vertical .alpha25 true .qpsk 27500 .r3_4 [1] (by decide) (by decide) (by decide)
example := C89_cable_partial .debug 346000000 .noOuterFec .qam64 6875 .r3_4 [1] (by decide) (by decide) (by simp)
example := C89_cable_refuted .debug 346000000 .qam64 6875 .r3_4 [1] (by decide) (by decide)
example := C90_downcast_partial (.raw ⟨0x7F, [1]⟩) (by rintro r ⟨⟩; decide)
example := C90_downcast_refuted .debug 0x48 [1] (by decide) (by simp [KeptRaw]) (by decide)

theorem samplePmt2_misread : Pmt.misread .debug samplePmt2 = .ok [] := by decide +kernel
example := C91_pat .debug samplePat (by decide) (by decide) (by decide) 0 3 [1] (by decide) (by decide)
example := C91_pmt .debug samplePmt2 samplePmt2_inRange [] samplePmt2_misread 0x100 3 [1] (by decide) (by decide)
example := C91_tot .debug sampleTot ⟨5, []⟩ sampleTot_inRange (by decide +kernel) 20 3 [1] (by decide) (by decide)
example := C91_nit .debug bigNit bigNit_inRange 16 3 [1] (by decide) (by decide)
example := C91_eit_pf .debug sampleEit (.inl rfl) sampleEit_inRange 18 3 [1] (by decide) (by decide)
example := C91_eit_schedule .debug sampleSchedule sampleSchedule_ok sampleSchedule_inRange 18 3 [1] (by decide) (by decide)
example := C92_sdt .debug bigSdt bigSdt_inRange 3 (by decide) 17 3 [1] (held [1, 2]) (by decide) (by decide)
example := C92_nit .debug bigNit bigNit_inRange 3 (by decide) 16 3 [1] (held [1, 2]) (by decide) (by decide)
example := C92_eit_pf .debug sampleEit (.inl rfl) sampleEit_inRange (by decide) 3 (by decide) 18 3 [1] (held [1, 2]) (by decide) (by decide)
example := C92_eit_schedule .debug sampleSchedule sampleSchedule_ok sampleSchedule_inRange 3 (by decide) 18 3 [1] (held [1, 2]) (by decide) (by decide)
example := C92_pat .debug samplePat (by decide) (by decide) (by decide) 3 (by decide) 0 3 [1] (held [1, 2]) (by decide) (by decide)
example := C92_pmt .debug samplePmt2 samplePmt2_inRange [] samplePmt2_misread 3 (by decide) 0x100 3 [1] (held [1, 2]) (by decide) (by decide)
example := C92_tot .debug sampleTot ⟨5, []⟩ sampleTot_inRange (by decide +kernel) 3 (by decide) 20 3 [1] (held [1, 2]) (by decide) (by decide)
example := C92_tdt .debug ⟨1700000000⟩ ⟨5⟩ time_ok 3 (by decide) 20 3 [1] (held [1, 2]) (by decide) (by decide)

/-- The product does not fit 64 bits. -/
example := C93_stc_release 5 (2 ^ 62) 8 3 (by decide)
example := C93_bitrate_release 30000 (2 ^ 62) (by decide)
example := C93_jitter_in_range .debug 5 2576980377599 (by decide) (by decide)

theorem service_relayed : Relayed (Descriptor.service 1 [0x41] [0x42, 0x43]) := .service _ _ _ (by decide) (by decide) (by simp [Kept]) (by simp [Kept])
theorem tag_relayed : Relayed (Descriptor.streamIdentifier 7) := .streamIdentifier _ (by decide)
theorem both_relayed : ∀ d ∈ [Descriptor.service 1 [0x41] [0x42, 0x43], Descriptor.streamIdentifier 7], Relayed d := by
  simp [service_relayed, tag_relayed]
example := C95_descriptor_partial .debug _ [1] service_relayed
example := C95_loop_partial .debug _ [1] both_relayed
example := C95_satellite_refuted .debug 1176600 192 1 0 0 0 1 275005 3 [1] (by decide) (by decide) (by decide) (by decide) (by decide) (by decide)
  (by decide) (by decide) (by decide)
example := C95_cable_refuted .debug 3460000 2 3 68755 15 [1] (by decide) (by decide) (by decide) (by decide) (by decide) (by decide)
example := C95_cable_frequency_refuted 43000000 2 3 68750 15 [1] (by decide) (by decide) (by decide) (by decide) (by decide) (by decide)
example := C95_extended_event_refuted .debug 1 15 [0x65, 0x6E, 0x67] [([0x41], [0x42, 0x43]), ([], [5, 0xE9])] [0x44] [1] (by decide) (by decide) (by decide)
  (by decide) (by simp [Kept]) (by simp [Kept]) (by simp [Kept]) (by decide)
example := (C95_local_time_offset_refuted [⟨[0x47, 0x42, 0x52], 1, 0, 60, 1700000000, 120⟩, ⟨[0x49, 0x4E, 0x44], 0, 0, 330, 1700000000, 120⟩] [1]
  (by simp [summer, india])).1 (by decide)
example := C95_terrestrial_refuted 474000000 1 1 0 1 2 3 4 5 1 2 1 [1] (by decide) (by decide) (by decide) (by decide) (by decide) (by decide) (by decide)
  (by decide) (by decide) (by decide) (by decide) (by decide) (by decide)

/-- A service with two descriptors. -/
abbrev relayService : Service := ⟨101, 1, 1, 4, 0, [Descriptor.service 1 [0x41] [0x42, 0x43], Descriptor.streamIdentifier 7]⟩
theorem relayService_valid : relayService.Valid :=
  ⟨by decide, by decide, by decide, by decide, by decide, both_relayed, by decide +kernel⟩
abbrev relayTransport : Transport := ⟨1, 2, [Descriptor.service 1 [0x41] [0x42, 0x43], Descriptor.streamIdentifier 7]⟩
theorem relayTransport_valid : relayTransport.Valid := ⟨by decide, by decide, both_relayed, by decide +kernel⟩
abbrev relayStream : Stream := ⟨2, 0x1FFE, [Descriptor.service 1 [0x41] [0x42, 0x43], Descriptor.streamIdentifier 7]⟩
theorem relayStream_valid : relayStream.Valid := ⟨by decide, by decide, both_relayed, by decide +kernel⟩

example := C96_sdt .debug 0x46 1 31 2 (.inr rfl) (by decide) (by decide) (by decide) [(0, 7, [relayService, relayService]), (9, 7, []), (3, 7, [relayService])]
  (by decide) (by decide +kernel) (by simp [relayService_valid]) 17 (by decide) 5 (held [1, 2]) 17 (by decide) 3 (by decide) [1]
example := C96_sdt_single .debug 0x46 1 31 2 (.inr rfl) (by decide) (by decide) (by decide) [relayService, relayService] (by simp [relayService_valid])
  (by decide +kernel) 17 (by decide) 5 (held [1, 2]) 17 (by decide) 3 (by decide) [1]
example := C96_nit .debug 0x41 1 31 (.inr rfl) (by decide) (by decide) [⟨0, 1, [Descriptor.streamIdentifier 7], [relayTransport]⟩, ⟨1, 1, [], [relayTransport]⟩]
  (by decide) (by decide +kernel) (by simp [tag_relayed]) (by decide +kernel) (by simp [relayTransport_valid]) 16 (by decide) 5 (held [1, 2]) 16 (by decide) 3
  (by decide) [1]
example := C96_pmt_partial .debug 1 31 0x1FFF (by decide) (by decide) (by decide) [(0, 7, [relayStream, relayStream]), (9, 7, []), (3, 7, [relayStream])]
  (by decide) (by decide +kernel) (by simp [relayStream_valid]) 16 (by decide) 5 (held [1, 2]) 16 (by decide) 3 (by decide) [1]
example := C96_pmt_refuted .debug 1 31 0x1FFF (by decide) (by decide) (by decide) 9 [0x06, 0x50, 0xE4, 0xB1] (by decide)
  (.conditionalAccess 0x0650 0x04B1 [] (by decide) (by decide) (by decide)) [relayStream] (by simp [relayStream_valid]) (by decide +kernel)
  16 (by decide) 5 (held [1, 2]) 16 (by decide) 3 (by decide) [1]
example := C96_eit_pf .debug 0x4F 1 31 2 3 (.inr rfl) (by decide) (by decide) (by decide) (by decide)
  [⟨0, 1, 1, 0x4F, [sampleRelayEvent, sampleRelayEvent]⟩, ⟨1, 1, 1, 0x4F, []⟩] (by decide) (by decide +kernel) (by simp [sampleRelayEvent_valid])
  18 (by decide) 5 (held [1, 2]) 18 (by decide) 3 (by decide) [1]
example := C96_eit_following_refuted .debug 0x4F 1 31 2 3 (.inr rfl) (by decide) (by decide) (by decide) (by decide) _ sampleRelayEvent_valid
  18 (by decide) 5 (held [1, 2]) 18 (by decide) 3 (by decide) [1]
example := C96_pat_partial .debug 1 31 (by decide) (by decide) [(0, 1, [(1, 8191), (2, 100)]), (1, 1, [(3, 101)])] (by decide) (by decide) (by decide)
  (by decide) 0 (by decide) 5 (held [1, 2]) 0 (by decide) 3 (by decide) [1]
example := C96_pat_refuted .debug 1 31 (by decide) (by decide) (List.replicate 253 (1, 8191)) [(2, 100)] (by decide +kernel) (by decide) (by decide)
  (by decide +kernel) 0 (by decide) 5 (held [1, 2]) 0 (by decide) 3 (by decide) [1]
example := C96_tdt .debug ⟨5⟩ 1700000000 (by decide) 20 (by decide) 5 (by decide) (held [1, 2]) 20 (by decide) 3 (by decide) [1]
example := C96_tot .debug ⟨5, []⟩ rfl 1700000000 (by decide) _ both_relayed (by decide) 20 (by decide) 5 (held [1, 2]) 20 (by decide) 3 (by decide) [1]
example := C96_eit_empty_refuted .debug 0x50 1 31 2 3 (by decide) (by decide) (by decide) (by decide) (by decide) 8 16 8 0x50 (by decide) 18 (by decide) 5
  (held [1, 2]) 18 3 [1]

example := C97_cut_service_refuted 1 [0x41, 0x42, 0x43] 1 (by decide) (by decide)

/-- Descriptors of 1212 bytes. -/
abbrev hugeLoop : Descriptors := List.replicate 6 (.raw ⟨0x7F, List.replicate 200 7⟩)
abbrev hugeNit : Nit := { sampleNit with descriptors := hugeLoop }
instance (i : NitItem) : Decidable (Nit.ItemFits i) := by unfold Nit.ItemFits; infer_instance
instance (t : Nit) : Decidable (Nit.NetworkFits t) := by unfold Nit.NetworkFits; infer_instance
theorem hugeNit_fits : hugeNit.Fits := ⟨by decide, by decide, by decide +kernel, by decide +kernel⟩
abbrev hugePmt : Pmt := { samplePmt2 with descriptors := hugeLoop }
instance (i : PmtItem) : Decidable (Pmt.ItemFits i) := by unfold Pmt.ItemFits; infer_instance
instance (t : Pmt) : Decidable (Pmt.ProgramFits t) := by unfold Pmt.ProgramFits; infer_instance
theorem hugePmt_fits : hugePmt.Fits := ⟨by decide, by decide, by decide +kernel, by decide +kernel⟩
example := C98_nit_partial .debug hugeNit hugeNit_fits 16 3 [1] (by decide) (by decide)
example := C98_pmt_partial .debug hugePmt hugePmt_fits 0x100 3 [1] (by decide) (by decide)
example := C98_sdt_refuted .debug hugeSdt hugeSdt_fits 17 3 [1] (by decide) (by decide) hugeService (by simp [hugeSdt]) (by decide +kernel)
example := C98_nit_refuted .debug hugeNit hugeNit_fits 16 3 [1] (by decide) (by decide) _ (.inl rfl) (by decide +kernel)
example := C98_pmt_refuted .debug hugePmt hugePmt_fits 0x100 3 [1] (by decide) (by decide) _ (.inl rfl) (by decide +kernel)

example := C99_collect_partial TsReader.read reader_packetReader failing (fun _ => 0) (fun _ => 1) [[1, 2], []] (by decide)
theorem packets_ok : ∀ pk ∈ List.replicate 26595 ((0x47 : UInt8) :: List.replicate 187 0), pk.length = 188 ∧ pk.head? = some 0x47 :=
  fun pk h => by rw [List.eq_of_mem_replicate h, List.length_cons, List.length_replicate]; exact ⟨rfl, rfl⟩
example := C99_full_refuted _ packets_ok List.length_replicate [1, 2] source.events source_steady (fun _ => 0) (fun _ => 1)
  (List.replicate 26595 [1]) List.length_replicate [3]
/-- The source fails before the first packet. -/
example := C99_caller_refuted (σ := Nat) (fun s b => .ok ⟨.error 5, b, s + 1⟩) ⟨7, 0, [⟨[1, 2], 0, 0, 0, 0⟩], 0, 0⟩ [3] _ rfl

end Mpegts.Examples
