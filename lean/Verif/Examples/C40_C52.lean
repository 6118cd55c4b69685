import Verif.Props.C40_C42
import Verif.Props.C41_C48
import Verif.Props.C49_C52
import Verif.Props.C78_C79
import Verif.Props.C83_C86

/-! # Concrete cases for C40 to C52, C77 to C79 and C83 to C86

Each theorem with hypotheses is applied to values that meet them. -/

namespace Mpegts.Examples
open Spec

/-- A section of 8 bytes (a TDT). -/
abbrev short : List UInt8 := [0x70, 0x70, 0x05, 0xDC, 0xB7, 0x23, 0x59, 0x59]
/-- A section of 200 bytes: two packets. -/
abbrev long : List UInt8 := [0x70, 0xB0, 197] ++ List.replicate 197 7

theorem short_section : IsSection short := by decide
theorem long_section : IsSection long := by decide +kernel

example := C40_demux .debug ⟨long, 200, 17, 15⟩ [1] (by decide) (by decide +kernel) (by decide) (by decide)
example := C40_packets .debug ⟨long, 200, 17, 15⟩ [1] (by decide) (by decide +kernel) (by decide) (by decide)
example := C40_empty .debug ⟨[1, 2], 0, 17, 15⟩ [1] rfl
example := C42_chaining .debug ⟨long, 200, 17, 15⟩ ⟨short, 8, 0, 0⟩ [1] (by decide) (by decide +kernel) (by decide) (by decide) (by decide)
  (by decide)

/-- A reassembler in some state. -/
abbrev some_state : Psi := ⟨[1, 2, 3, 4], 9, 17, 5⟩
example := C41_reassemble .debug some_state 17 15 long long_section (by decide)
example := C41_round_trip .debug ⟨long, 200, 17, 15⟩ some_state [1] long_section (by decide +kernel) (by decide) (by decide)
/-- A packet with an adaptation field only. -/
abbrev no_payload : List UInt8 := [0x47, 0x00, 0x11, 0x25, 183, 0] ++ List.replicate 182 0xFF
example := C43_no_payload .debug some_state no_payload (by decide +kernel) (by decide +kernel)
example := C43_interleave .debug some_state [no_payload, payloadPacket 17 3 true (0 :: short)] (by decide +kernel)
/-- Counter 7 behind counter 5. -/
example := C44_discontinuity .debug some_state (payloadPacket 17 7 false short) (by decide) (by decide +kernel) (by decide +kernel)
  (by decide +kernel) (by decide +kernel)
example := C44_contiguous .debug (packets 17 15 long) _ (by decide +kernel) (C41_reassemble .debug Psi.default 17 15 long long_section (by decide))
  (by decide +kernel) (by decide +kernel)
theorem default_ok : Psi.default.Ok := by constructor <;> decide
theorem some_ok : some_state.Ok := by constructor <;> decide
/-- The pointer_field reaches behind the packet. -/
example := ((C45_crash_refuted .debug Psi.default default_ok
  ([0x47, 0x40, 0x11, 0x31, 172] ++ List.replicate 172 0xFF ++ [182] ++ List.replicate 10 0xFF) (by decide +kernel)).1).2 (by decide +kernel)
example := C45_no_crash_partial .debug some_state some_ok (payloadPacket 17 7 true (200 :: short)) (by decide +kernel) (.inl (by decide +kernel))
example := C46_bounded_partial .debug (packets 17 15 long) _ (by decide +kernel) (by decide +kernel)
  (C41_reassemble .debug Psi.default 17 15 long long_section (by decide))
/-- The section starts 2 bytes behind the pointer_field; the counter is not the next. -/
example := C47_section_start .debug some_state some_ok (payloadPacket 17 9 true ([2, 1, 2] ++ short)) (by decide +kernel) (by decide +kernel)
  (by decide +kernel) (by decide +kernel) (by decide +kernel) (.inr (.inl (by decide +kernel)))
example := C47_no_start .debug some_state (payloadPacket 17 6 true (183 :: short)) (by decide +kernel) (by decide +kernel) (by decide +kernel)

/-- A packet with the last 3 bytes of a section and the first 5 of the next. -/
abbrev joint : List UInt8 := payloadPacket 17 6 true ([3, 0x23, 0x59, 0x59] ++ short.take 5)
example := C48_pointer_continuation_partial .debug ⟨short.take 5, 8, 17, 5⟩ short 5 joint (joint.drop 8) (by decide) short_section (by decide)
  (by decide) rfl rfl (by decide +kernel) (by decide +kernel) (by decide +kernel) (by decide +kernel) (by decide +kernel) (by decide +kernel)
  (by decide +kernel) (by decide +kernel)
example := C48_next_section_partial .debug ⟨short ++ short.take 5, 8, 17, 5⟩ joint (short.take 5) (by decide) (by decide) (by decide) (by decide)
  (by decide +kernel) (by decide +kernel) (by decide +kernel) (by decide +kernel) (by decide +kernel) (by decide +kernel) (by decide +kernel)
example := C48_lost_section_refuted .debug ⟨short ++ short.take 5, 8, 17, 5⟩ (payloadPacket 17 6 false (short.drop 5)) short (short.take 5) (by decide)
  short_section (by decide) rfl (by decide +kernel) (by decide +kernel) (by decide +kernel) (by decide +kernel) (by decide +kernel)
example := C77_stuffing_only .debug ⟨List.replicate 83 0xFF, declaredSize (List.replicate 83 0xFF), 17, 5⟩ 83 rfl rfl
example := C77_stuffing_dropped .debug some_state some_ok (payloadPacket 17 6 true (0 :: short)) short 175 (by decide +kernel) (by decide +kernel)
  (by decide +kernel) (by decide +kernel) (.inl (by decide +kernel)) short_section (by decide +kernel)

example := C49_finalize .debug ⟨[0x42, 0xB0, 0, 1, 2, 0xC1], 0, 17, 5⟩ rfl (by decide) (by decide)
example := C49_check .debug ⟨[0x42, 0xB0, 0, 1, 2, 0xC1], 0, 17, 5⟩ rfl (by decide) (by decide)
example := C49_refinalize .debug ⟨short, 8, 17, 5⟩ (by decide) (by decide)
example := (C49_finalize_panics .release ⟨[1, 2], 3, 0, 0⟩ (by decide)).2 (by decide)
example := C51_eq .debug ⟨short, 8, 17, 5⟩ ⟨long, 200, 17, 5⟩ (by decide) (by decide) (by decide) (by decide +kernel)
example := (C51_panics .debug ⟨short, 9, 17, 5⟩ ⟨long, 9, 17, 5⟩ (by decide)).2 (by decide)
example := C51_sizes .debug ⟨short, 9, 17, 5⟩ ⟨[], 3, 17, 5⟩ (by decide)
example := C52_new .debug 0x42 33 11 (by decide)
example := C52_new_short 0x42 33 2 (by decide)

/-- The sections of two PIDs, packets alternating. -/
abbrev mixed : List (List UInt8) :=
  [packetAt 17 15 long 0, packetAt 18 3 long 0, packetAt 17 15 long 1, packetAt 18 3 long 1]
example := C78_interleaved .debug (fun _ => Psi.default) mixed [17, 18] (fun pid => if pid = 17 then 15 else 3) (fun _ => long) (by decide +kernel)
  (by decide +kernel)
example := C79_orphan_partial .debug Psi.default (payloadPacket 17 6 false short) rfl rfl (by decide) (by decide +kernel) (by decide +kernel)
  (by decide +kernel) (by decide +kernel)
example := C79_orphan_short_partial .debug Psi.default ([0x47, 0, 17, 0x31, 181] ++ List.replicate 183 0xFF) rfl rfl
  (by decide) (by decide +kernel) (by decide +kernel) (by decide +kernel) (by decide +kernel) (by decide +kernel) (by decide +kernel)
example := C79_orphan_refuted .debug Psi.default (payloadPacket 17 1 false short) rfl rfl (by decide) (by decide +kernel) (by decide +kernel)
  (by decide +kernel) (by decide +kernel) (by decide +kernel)


theorem three_sections : ∀ sec ∈ [validSection 1, validSection 2, validSection 3], IsSection sec ∧ 7 < sec.length ∧ crc32 sec = 0 := by
  intro sec h
  simp only [List.mem_cons, List.not_mem_nil, or_false] at h
  rcases h with rfl | rfl | rfl <;> exact ⟨(validSection_ok _).1, by rw [(validSection_ok _).2.1]; decide, (validSection_ok _).2.2⟩
/-- Six packets: too few for the counter to be ambiguous, whatever is lost. -/
example := C83_loss_partial .debug 17 14 (by decide) (fun n => decide (n ≠ 3)) [validSection 1, validSection 2, validSection 3] three_sections rfl
  (by intro i j h1 h2 _ _ _ h3; have h4 : (Table.stream 17 14 [validSection 1, validSection 2, validSection 3]).length = 6 := by decide +kernel
      omega) some_state
/-- A section of 4000 bytes: 22 packets. -/
abbrev large : List UInt8 := [0x70, 0xBF, 0x9D] ++ List.replicate 3997 7
theorem large_section : IsSection large := by decide +kernel
example := C83_middle_refuted .debug 17 14 (by decide) large large_section (by decide +kernel) some_state
example := C84_repeat_first_partial .debug some_state 17 14 3 long long_section (by decide)
example := C84_repeat_refuted .debug some_state 17 14 1 long long_section (by decide) (by decide) (by decide +kernel)
theorem cut_consecutive : Consecutive (stuffedPacket 17 15 true [0, 0x70] ::
    [stuffedPacket 17 0 false [0x70, 0x05, 0xDC], stuffedPacket 17 1 false [0xB7, 0x23, 0x59, 0x59]]) := by
  intro i a b ha hb
  match i with
  | 0 => simp only [List.getElem?_cons_zero, List.getElem?_cons_succ, Option.some.injEq] at ha hb; subst ha hb; decide +kernel
  | 1 => simp only [List.getElem?_cons_zero, List.getElem?_cons_succ, Option.some.injEq] at ha hb; subst ha hb; decide +kernel
  | i + 2 => simp at hb
example := C85_any_split_partial .debug some_state some_ok (stuffedPacket 17 15 true [0, 0x70])
  [stuffedPacket 17 0 false [0x70, 0x05, 0xDC], stuffedPacket 17 1 false [0xB7, 0x23, 0x59, 0x59]] short [] short_section (by decide +kernel)
  (by decide +kernel) (by decide +kernel) (by decide +kernel) (by decide +kernel) (.inl (by decide +kernel)) (by decide +kernel) cut_consecutive
  (by decide +kernel) (by decide +kernel)
example := (C85_tiny_refuted .debug some_state some_ok (stuffedPacket 17 15 true [0, 0x70]) (stuffedPacket 17 0 false [0x70]) (by decide +kernel)
  (by decide +kernel) (by decide +kernel) (by decide +kernel) (by decide +kernel) (.inl (by decide +kernel)) (by decide +kernel) (by decide +kernel)
  (by decide +kernel) (by decide +kernel) (by decide +kernel) (by decide +kernel)).2 (stuffedPacket 17 1 false [0x05, 0xDC, 0xB7]) (by decide +kernel)
  (by decide +kernel) (by decide +kernel) (by decide +kernel) (by decide +kernel)
example := C86_first_partial .debug some_state some_ok (payloadPacket 17 6 true (0 :: (short ++ short))) short (short ++ List.replicate 167 0xFF)
  short_section (by decide +kernel) (by decide +kernel) (by decide +kernel) (by decide +kernel) (.inl (by decide +kernel)) (by decide +kernel)
/-- Two packets that differ only in the second section. -/
example := C86_second_refuted .debug some_state some_ok (payloadPacket 17 6 true (0 :: (short ++ short)))
  (payloadPacket 17 6 true (0 :: (short ++ [0x73, 1, 2, 3]))) short (short ++ List.replicate 167 0xFF) ([0x73, 1, 2, 3] ++ List.replicate 171 0xFF)
  short_section (by decide +kernel) (by decide +kernel) (by decide +kernel) (by decide +kernel) (.inl (by decide +kernel)) (by decide +kernel)
  (by decide +kernel) (by decide +kernel) (by decide +kernel)

end Mpegts.Examples
