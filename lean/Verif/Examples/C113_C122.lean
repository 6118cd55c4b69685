import Verif.Props.C113
import Verif.Props.C114
import Verif.Props.C115
import Verif.Props.C116
import Verif.Props.C117
import Verif.Props.C118
import Verif.Props.C119
import Verif.Props.C120
import Verif.Props.C122
import Verif.Lemmas.Receiver
import Verif.Examples.C100_C112

/-! # Concrete cases for C113 to C122

Each theorem with hypotheses is applied to values that meet them. -/

namespace Mpegts.Examples
open Spec Table

abbrev laden : List UInt8 := payloadPacket 17 3 true (0 :: List.replicate 183 4)
theorem laden_ok : IsPacket laden := by decide +kernel
example := C113_header .debug (held [1, 2]) 0x48 1 1 0x1FFF 3 laden laden_ok
example := C113_received (Sdt.parse .debug) .debug Sdt.default (held [1, 2]) [laden, laden] (by simpa using laden_ok) fun _ => (0x48, 1, 1, 0x1FFF, 3)
example := Eit.C114_release_refuted Eit.default foreignEit foreignEit_ok 18 3 (by decide) (held [1, 2])

example := C115_iso8859 5 _ [0x10, 0x00, 0x05] [0xB7, 0x80, 0x41] (.long 5 (by decide)) rfl (by decide)
example := C115_wide_refuted 0x14 [0x41, 0x42] (by decide)
theorem cafe_valid : ∀ g ∈ [ForeignText.Glyph.plain 0x43, .plain 0x61, .plain 0x66, .accented 0xC2 0x65], g.Valid := by
  simp only [List.mem_cons, List.not_mem_nil, or_false, forall_eq_or_imp, forall_eq, ForeignText.Glyph.Valid,
    ForeignText.isAccent, ForeignText.isLetter]
  decide +kernel
example := C115_accents_refuted _ cafe_valid
example := C115_letters_refuted ['C', 'a', 'f'] ['s'] 'é' 0xC2 0x65 (by decide)
example := C115_newline_refuted 5 _ rfl [0xB7, 0xB8, 0x8A, 0xBC] (by unfold ForeignText.Covered; decide +kernel)

example := C116_jitter .debug 54000000 0 (by decide) (by decide)
example := C117_to_bcd8 200 (by decide)
example := C117_from_mjd 100 (by decide)

theorem one_line : ∀ t, '\n' ∉ (plainQuotes true).quote t := by simp [plainQuotes]
example := C118_plain (plainQuotes true) one_line ⟨1, 2, [⟨1, 100⟩]⟩ ⟨7⟩ (held [1, 2])
example := C118_descriptor_partial (plainQuotes true) one_line (.d40 ⟨⟨5, [0xB7, 0x80]⟩⟩) (by simp [stringsOf, Displayable])
example := C118_tables_partial (plainQuotes true) one_line
example := C118_panics_refuted (plainQuotes true) one_line
example := C118_received_refuted .debug (plainQuotes true) one_line 1 [0x41] [0x42, 0x43] 0x0D (by decide) (by decide) (by decide)

open Mapping in
theorem sampleTen_valid : ∀ l ∈ sampleTen, l.Valid := by simp [sampleTen, Line.Valid]
example := C119_file t!"8859-10" t!"TXT" t!"Nordic" (by decide) sampleTen sampleTen_valid
example := C119_unknown [mappingFile (10, sampleTen), (t!"README", [])] (t!"README", []) (by simp) (by decide) (by decide)
example := C119_crate 5 5 rfl _ rfl t!"8859-5" t!"TXT" t!"Cyrillic" (by decide) sampleFive
  (by
    intro l hl
    obtain ⟨x, hx, rfl⟩ := List.mem_map.1 hl
    have h : ∀ y ∈ ((CodePage.upper 5).getD []).zipIdx, 0xA0 + y.2 < 256 ∧ y.1 < 65536 := by decide +kernel
    exact ⟨(h x hx).1, (h x hx).2, by simp⟩)
  ⟨by decide +kernel, by decide +kernel⟩
example := C119_blank t!"8859-10.TXT" t!"Nordic" sampleTen sampleTen_valid t!" \t " t!"0xA2\t0x0041\n" (by decide) (by decide)
example := C119_stray t!"8859-10.TXT" t!"Nordic" sampleTen sampleTen_valid 'x' t!"0xA2\t0x0041\n" (by decide) (by decide)
example := C119_columns t!"8859-10.TXT" t!"Nordic" sampleTen sampleTen_valid t!"A2" t!"G1" t!" # note" t!"0xA3\t0x0041\n" '\t' (by decide) (by decide) (by decide)
  (by simp; decide) (by decide)
example := C119_separator t!"8859-10.TXT" t!"Nordic" sampleTen sampleTen_valid 0xA2 (by decide) ' ' '\t' (by decide) (by decide) (by decide) (by decide)
  t!"0x0041" t!"0xA3\t0x0041\n" (by decide)

example := C120_split_partial .debug ⟨5, [0x41, 0x42]⟩ 1
example := C120_split_refuted .debug ⟨5, [0x41, 0x42]⟩ 1 (by decide) (by decide)

/-! Sections of another sender, in layouts of its own. -/

abbrev foreignTot : Foreign.Tot := ⟨0b1010, 1700000000, 0b0101, [0x90, 1, 2]⟩
theorem foreignTot_ok : foreignTot.Ok := ⟨by decide, by unfold unixEpochMjd; decide, by decide, by decide⟩
theorem complete_ne (l : List UInt8) : complete l ≠ [] := by simp [complete, beBytes]

example := Sdt.C121_sdt_partial .debug Sdt.default [foreignSdt, foreignSdt] (by simp [foreignSdt_ok]) (held [1, 2]) 0 _
  (packing_stream 17 (by decide) _ (by simp [complete_ne]) 5 [] 0)
example := Pat.C121_pat_partial .debug Pat.default [foreignPat, foreignPat] (by simp [foreignPat_ok]) (held [1, 2]) 0 _
  (packing_stream 0 (by decide) _ (by simp [complete_ne]) 5 [] 0)
example := Nit.C121_nit_partial .debug Nit.default [foreignNit, foreignNit] (by simp [foreignNit_ok]) (held [1, 2]) 0 _
  (packing_stream 16 (by decide) _ (by simp [complete_ne]) 5 [] 0)
example := Pmt.C121_pmt_partial .debug Pmt.default [foreignPmt] (by simp [foreignPmt_ok]) (held [1, 2]) 0 _
  (packing_stream 0x100 (by decide) _ (by simp [complete_ne]) 5 [] 0)
example := Eit.C121_eit_partial .debug Eit.default [foreignEit, foreignEit] (by simp [foreignEit_ok]) (held [1, 2]) 0 _
  (packing_stream 18 (by decide) _ (by simp [complete_ne]) 5 [] 0)
example := Tot.C121_tot_partial .debug ⟨5, []⟩ [foreignTot] (by simp [foreignTot_ok]) (held [1, 2]) 0 _
  (packing_stream 20 (by decide) _ (by simp [complete_ne]) 5 [] 0)

/-- A time section of which the first packet holds five bytes. -/
abbrev foreignTdt : Foreign.Tdt := ⟨0b1010, 1700000000⟩
theorem foreignTdt_ok : foreignTdt.Ok := ⟨by decide, by unfold unixEpochMjd; decide⟩
abbrev firstFive : List UInt8 := [0x47, 0x40, 0x14, 0x35, 177, 0x00] ++ List.replicate 176 0xFF ++ [0x00] ++ foreignTdt.bytes.take 5
example := Tdt.C121_tdt_refuted .debug ⟨5⟩ foreignTdt foreignTdt_ok (held [1, 2]) firstFive
  ⟨⟨by decide +kernel, by decide +kernel⟩, by decide +kernel, by decide +kernel, by decide +kernel⟩ (by decide +kernel)
  (foreignTdt.bytes.take 5) (foreignTdt.bytes.drop 5) (List.take_append_drop _ _).symm (by decide +kernel) (by decide +kernel) (by decide +kernel) []

/-- A packet with a section and more behind it. -/
abbrev crowded : List UInt8 := [0x47, 0x40, 0x11, 0x15, 0x00] ++ complete foreignSdt.body ++ List.replicate (183 - (complete foreignSdt.body).length) 0x42
theorem crowded_laden : Laden crowded true := ⟨⟨by decide +kernel, by decide +kernel⟩, by decide +kernel, by decide +kernel, by decide +kernel⟩
example := C121_second_refuted .debug Sdt.default foreignSdt foreignSdt_ok (held [1, 2]) crowded
  (List.replicate (183 - (complete foreignSdt.body).length) 0x42) crowded_laden (by decide +kernel) (by decide +kernel)
example := C121_empty_refuted .debug Sdt.default foreignSdt foreignSdt_ok (held [1, 2]) crowded
  (List.replicate (183 - (complete foreignSdt.body).length) 0x42) ([0x47, 0x00, 0x11, 0x25, 183] ++ List.replicate 183 0x00) crowded_laden
  (by decide +kernel) (by decide +kernel) (by decide +kernel) (by decide +kernel)

example := C122_listen (Sdt.parse .debug) .debug 17 Sdt.default (held [1, 2]) ⟨carrier, []⟩ (fun _ h => nomatch h) _ carrier_carries packetBuffer packetBuffer_ok 1000
  (by decide +kernel)

/-- The packets of some sections, one after the other, carry them. -/
theorem carries_stream (pid cc : Nat) (h : pid < 8192) (secs : List (List UInt8)) (hs : ∀ s ∈ secs, s ≠ [])
    (hk : ∀ pk ∈ stream pid cc secs, pk.length = 188 ∧ pk.head? = some 0x47 ∧ pidOf pk = pid) :
    CarriesSections pid (stream pid cc secs).flatten secs := by
  refine ⟨0, _, ⟨(stream pid cc secs).map ([], ·), [], [], ?_, ?_, by simp, .inl rfl, by decide, ?_⟩, packing_stream pid h secs hs cc [] 0⟩
  · generalize stream pid cc secs = l
    induction l with
    | nil => rfl
    | cons a l ih => simpa [interleave] using ih
  · intro x hx
    obtain ⟨pk, hp, rfl⟩ := List.mem_map.1 hx
    exact ⟨by simp, (hk pk hp).1, (hk pk hp).2.1⟩
  · rw [List.map_map]
    have : ((fun x : List UInt8 × List UInt8 => x.2) ∘ fun x => (([] : List UInt8), x)) = id := rfl
    rw [this, List.map_id, List.filter_eq_self]
    intro pk hp
    simpa using (hk pk hp).2.2

theorem no_trouble (data : List UInt8) : Steady ⟨data, []⟩ := fun _ h => nomatch h

example := C122_sdt .debug Sdt.default [foreignSdt] (by simp [foreignSdt_ok]) 17 _ (no_trouble _)
  (carries_stream 17 5 (by decide) [complete foreignSdt.body] (by simp [complete_ne]) (by decide +kernel)) (held [1, 2]) packetBuffer packetBuffer_ok 1000 (by decide +kernel)
example := C122_nit .debug Nit.default [foreignNit] (by simp [foreignNit_ok]) 16 _ (no_trouble _)
  (carries_stream 16 5 (by decide) [complete foreignNit.body] (by simp [complete_ne]) (by decide +kernel)) (held [1, 2]) packetBuffer packetBuffer_ok 1000 (by decide +kernel)
example := C122_eit .debug Eit.default [foreignEit] (by simp [foreignEit_ok]) 18 _ (no_trouble _)
  (carries_stream 18 5 (by decide) [complete foreignEit.body] (by simp [complete_ne]) (by decide +kernel)) (held [1, 2]) packetBuffer packetBuffer_ok 1000 (by decide +kernel)
example := C122_tot .debug ⟨5, []⟩ [foreignTot] (by simp [foreignTot_ok]) 20 _ (no_trouble _)
  (carries_stream 20 5 (by decide) [complete foreignTot.body] (by simp [complete_ne]) (by decide +kernel)) (held [1, 2]) packetBuffer packetBuffer_ok 1000 (by decide +kernel)
example := C122_pmt_partial .debug Pmt.default [foreignPmt] (by simp [foreignPmt_ok]) 0x100 _ (no_trouble _)
  (carries_stream 0x100 5 (by decide) [complete foreignPmt.body] (by simp [complete_ne]) (by decide +kernel)) (held [1, 2]) packetBuffer packetBuffer_ok 1000 (by decide +kernel)
example := C122_pat .debug Pat.default [foreignPat] (by simp [foreignPat_ok]) 0 _ (no_trouble _)
  (carries_stream 0 5 (by decide) [complete foreignPat.body] (by simp [complete_ne]) (by decide +kernel)) (held [1, 2]) packetBuffer packetBuffer_ok 1000 (by decide +kernel)

/-- A PAT with one program, and its PMT behind it. -/
abbrev onePat : Foreign.Pat := ⟨⟨0x00, 0b1000, 0x1234, 0b01, 9, 1, 3, 7⟩, [⟨1, 0b101, 0x100⟩]⟩
theorem onePat_ok : onePat.Ok :=
  ⟨⟨by decide, by decide, by decide, by decide, by decide, by decide, by decide, by decide⟩, by decide,
    fun x hx => by
      simp only [List.mem_cons, List.not_mem_nil, or_false] at hx
      subst hx; exact ⟨by decide, by decide, by decide⟩, by decide⟩
abbrev both : List UInt8 := (stream 0 5 [complete onePat.body]).flatten ++ (stream 0x100 5 [complete foreignPmt.body]).flatten
example := C122_discover_partial .debug [onePat] (by simp [onePat_ok]) (fun _ => [foreignPmt]) (by simp [foreignPmt_ok]) ⟨both, []⟩ (no_trouble _)
  ⟨0, _, ⟨[([], packetAt 0 5 (complete onePat.body) 0), ([], packetAt 0x100 5 (complete foreignPmt.body) 0)], [], [], by decide +kernel, by decide +kernel,
    by decide, by decide, by decide, by decide +kernel⟩, packing_stream 0 (by decide) [complete onePat.body] (by simp [complete_ne]) 5 [] 0⟩
  (by
    simp only [List.mem_singleton, forall_eq]
    exact ⟨0, _, ⟨[([], packetAt 0 5 (complete onePat.body) 0), ([], packetAt 0x100 5 (complete foreignPmt.body) 0)], [], [], by decide +kernel, by decide +kernel,
      by decide, by decide, by decide, by decide +kernel⟩, packing_stream 0x100 (by decide) [complete foreignPmt.body] (by simp [complete_ne]) 5 [] 0⟩)
  packetBuffer packetBuffer_ok 1000 (by decide +kernel)

end Mpegts.Examples
