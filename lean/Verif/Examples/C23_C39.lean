import Verif.Props.C23_C26
import Verif.Props.C27_C28
import Verif.Props.C29_C30
import Verif.Props.C30Small
import Verif.Props.C31
import Verif.Props.C32_C33
import Verif.Props.C34_C39
import Verif.Props.C36
import Verif.Props.C38

/-! # Concrete cases for C23 to C39

Each theorem with hypotheses is applied to values that meet them. -/

namespace Mpegts.Examples
open Spec

example := C25_round_trip ⟨5, [0xB0, 0x01]⟩ (by decide) (by decide)

theorem cyrillic : ∀ c ∈ ['П', 'р', '!'], Text.InTable CodePage.iso8859_5 c := by
  intro c hc
  simp only [List.mem_cons, List.not_mem_nil, or_false] at hc
  rcases hc with rfl | rfl | rfl
  · exact ⟨0xBF, by decide⟩
  · exact ⟨0xE0, by decide⟩
  · exact ⟨0x21, by decide⟩
theorem not_cyrillic : ¬ Text.InTable CodePage.iso8859_5 '“' := by
  intro h
  have := inTable_value _ (good_tables 5 _ rfl) _ h
  revert this
  decide +kernel
example := C27_round_trip 5 _ rfl ['П', 'р', '!'] cyrillic
example := C27_unknown_codepage ['a', 'П'] 12 rfl
example := C27_replacement_partial 5 _ rfl ['a'] ['b'] '“' (by decide) (by decide) not_cyrillic
example := C27_astral_refuted 5 _ rfl (Char.ofNat 0x10041) (by decide) (by decide)
example := (C27_astral_any_refuted 5 _ rfl ['a'] ['b'] (Char.ofNat 0x10416) (by decide)).1 (by decide)
example := (C27_astral_any_refuted 5 _ rfl ['a'] ['b'] (Char.ofNat 0x1D800) (by decide)).2 (by decide)
example := C27_c1_refuted 5 _ rfl '\u0085' (by decide) (by decide)
example := (C28_panics_iff ⟨12, [0x41]⟩).2 (by decide)

example := C29_short .debug ⟨5, [0x41, 0x42]⟩ 2 (by decide)
example := C29_long_partial .debug ⟨5, [0x41, 0x42, 0x43, 0x44, 0x45]⟩ 4 (by decide) (by decide)
example := C29_tiny_refuted .release ⟨5, [0x41, 0x42, 0x43]⟩ 2 (by decide) (by decide)
example := C30_split_partial .debug ⟨5, [0x41, 0x42, 0x43, 0x44, 0x45]⟩ 5 (by decide) (by decide) (by decide)
example := C30_split_empty .debug 5 3 (by decide)
example := C30_utf8_partial .debug ['П', 'р', '€'] (by decide) 4 (by decide) (by decide)
example := C30_utf8_refuted .debug ['A'] ['B'] (Char.ofNat 0x1F600) (by decide)
example := C30_no_room_refuted .debug ⟨5, [0x41, 0x42]⟩ 0x41 [0x42] rfl (by decide)
example := C30_underflow_refuted ⟨5, [0x41, 0x42]⟩ 2 (by decide) (by decide) (by decide)
example := C30_utf8_small_partial .debug ['a', 'П', 'b', 'c'] 3 (.inr rfl) (by decide) (by decide +kernel)

example := C31_there_and_back ("de", "deu", "ger") (by decide +kernel)
example := C31_back_and_there ("de", "deu", "ger") (by decide +kernel)
example := C31_unknown "xx" (by decide +kernel)

/-- An extended event with an item. -/
abbrev extended : Desc4E := ⟨1, 2, ⟨0, [0x65, 0x6E, 0x67]⟩, [(⟨0, [0x41]⟩, ⟨0, [0x42]⟩)], ⟨0, [0x43]⟩⟩
/-- An offset of two hours, and one of nine and a half hours. -/
abbrev offsets : Desc58 := ⟨[⟨⟨0, [0x64, 0x65, 0x75]⟩, 5, 0, 120, 1547057412, 60⟩, ⟨⟨0, [0x61, 0x75, 0x73]⟩, 3, 1, 570, 1547057412, 630⟩]⟩

theorem sample_ok : ∀ d ∈ sampleDescs, d.InRange ∧ d.Exact ∧ ¬ d.HasItems := by decide +kernel
theorem sample_in : ∀ d ∈ sampleDescs, d.InRange ∧ ¬ d.HasItems := fun d h => ⟨(sample_ok d h).1, (sample_ok d h).2.2⟩
example := C32_wire_format_partial .debug (.d52 ⟨7⟩) [1, 2] (by decide) (by decide)
example := (C32_wire_format_refuted .debug extended [1, 2] (by decide +kernel)).2 (by decide)
example := C33_size_partial .debug (.d40 ⟨⟨5, [0xB0, 0xB1]⟩⟩) [1, 2] (by decide) (by decide)
example := C33_size_refuted .debug extended [1, 2] (by decide +kernel)
example := C33_list_partial .debug sampleDescs [1, 2] sample_in
example := C33_raw_oversize_refuted .debug 0x7F (List.replicate 256 1) [] (by rw [List.length_replicate]; decide)

example := C34_round_trip_partial .debug (.d58 ⟨[⟨⟨0, [0x64, 0x65, 0x75]⟩, 5, 0, 120, 1547057412, 60⟩]⟩) (by decide +kernel) (by decide +kernel)
  (by decide)
example := C34_extended_event_refuted .debug extended (by decide +kernel) (by decide)
example := (C34_local_time_offset_refuted offsets (by decide +kernel) (by simp [roundTrips])).1 (by decide)
example := C35_kept_verbatim .debug 0x7F [1, 2, 3] (by decide) (by simp [KeptRaw])
/-- A service descriptor whose lengths do not add up. -/
theorem kept_service : KeptRaw 0x48 [1, 1, 0x41, 2, 0x42] :=
  .inr ⟨1, [0x41], 2, [0x42], by simp [Descriptor.sized], by simp, by simp⟩
example := C35_kept_verbatim .debug 0x48 [1, 1, 0x41, 2, 0x42] (by decide) kept_service
example := C35_unknown_tag .debug 0x7F [1, 2, 3] (by decide) (by decide)
example := C35_tag .debug 0x52 [1, 7] (.d52 ⟨7⟩) (by decide +kernel)
example := C37_truncated_tail .debug [.d52 ⟨1⟩] sampleDescs [0x4D, 3, 1, 2] (fun d h => ⟨(sample_ok d h).1, (sample_ok d h).2.1⟩)
  (.inr ⟨0x4D, 3, [1, 2], rfl, by decide⟩)
example := C36_parse_wire .debug [.d52 ⟨1⟩] sampleDescs (fun d h => ⟨(sample_ok d h).1, (sample_ok d h).2.1⟩)
example := C36_round_trip_partial .debug [.d52 ⟨1⟩] sampleDescs [9] sample_ok
example := C36_each .debug [.d52 ⟨1⟩] [.d52 ⟨7⟩, .d58 offsets] [9] (by decide +kernel)
example := C36_extended_event_refuted .debug [.d52 ⟨1⟩] sampleDescs sampleDescs extended [9] sample_ok (by decide +kernel) (by decide) sample_in

example := C39_clone_partial (.d52 ⟨7⟩) (by simp)
example := C39_clone_refuted ⟨0x52, []⟩ (by decide)
example := C39_clone_parsed_refuted .debug 0x48 [1, 1, 0x41, 2, 0x42] (by decide) kept_service (by decide)
example := C39_clone_list_partial [.d52 ⟨7⟩, .raw ⟨0x7F, [1]⟩] (by simp; decide)
example := C39_clone_list_refuted [.d52 ⟨7⟩, .raw ⟨0x52, []⟩] ⟨0x52, []⟩ (by simp) (by decide)

example := (C38_exact_partial .debug 0x5A 11 [0xFF, 0xFF, 0xFF, 0xFF, 0, 0, 0, 0xFF, 0xFF, 0xFF, 0xFF] rfl).1 (by simp [Panics, field, beNat])
example := (C38_exact_partial .debug 0x48 5 [1, 1, 0x41, 1, 0x42] rfl).2 (by simp [Panics, field, beNat])
example := C38_no_panic_partial .debug 0x0A 5 [1, 2, 3, 4, 5] rfl (by decide) (by decide)
example := C38_service_refuted .release 1 5 [0x41, 0x42] (by decide) (by decide) (by decide) []
example := C38_short_event_refuted .release 0x65 0x6E 0x67 5 [0x41, 0x42] (by decide) (by decide) (by decide) []

end Mpegts.Examples
