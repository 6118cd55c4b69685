import Verif.Lemmas.EndsText
import Verif.Props.C30Small

/-! # C120: every call comes to an end

`Ends` (`Verif.Spec.Ends`): the call returns a value or panics.  It does not run forever (`Fault.diverge`) and has no undefined
behaviour (`Fault.ub`).  The arguments and the state of the objects are arbitrary, and so is the profile.  `TsReader` is modelled
with sources that deliver a finite stream (`Source`); drain and multiplexer work on any reader that ends itself. -/

namespace Mpegts
open Spec

/-- C120: reading and changing packet headers. -/
theorem C120_packet (p : Profile) (ts : List UInt8) (pid : UInt16) (cc : UInt8) :
    Ends (Ts.isSync ts) ∧ Ends (Ts.isError ts) ∧ Ends (Ts.isPayload ts) ∧ Ends (Ts.isPusi ts) ∧ Ends (Ts.isAdaptation ts) ∧
    Ends (Ts.getAdaptationSize ts) ∧ Ends (Ts.getPayloadOffset p ts) ∧ Ends (Ts.isScrambled ts) ∧ Ends (Ts.getPid ts) ∧ Ends (Ts.getCc ts) ∧
    Ends (Ts.setPid p ts pid) ∧ Ends (Ts.setCc p ts cc) ∧ Ends (Ts.setPayload0 ts) ∧ Ends (Ts.setPayload1 ts) ∧
    Ends (Ts.setPusi0 ts) ∧ Ends (Ts.setPusi1 ts) := by
  refine ⟨?_, ?_, ?_, ?_, ?_, ?_, ?_, ?_, ?_, ?_, ?_, ?_, ?_, ?_, ?_, ?_⟩ <;> exact End.out

/-- C120: clocks of packets and of elementary streams. -/
theorem C120_clock (p : Profile) (ts : List UInt8) (a b c d : UInt64) :
    Ends (Ts.isPcr ts) ∧ Ends (Ts.getPcr ts) ∧ Ends (Ts.setPcr ts a) ∧ Ends (Ts.pcrDelta p a b) ∧ Ends (Ts.pcrToStc p a b c d) ∧
    Ends (Ts.pcrJitterNs p a b) ∧ Ends (Ts.pcrDeltaBitrate p a b) ∧ Ends (Pes.isPrefix ts) ∧ Ends (Pes.isSyntaxSpec ts) ∧ Ends (Pes.getLength ts) ∧
    Ends (Pes.getPayloadOffset ts) ∧ Ends (Pes.isPts ts) ∧ Ends (Pes.getPts ts) ∧ Ends (Pes.isDts ts) ∧ Ends (Pes.getDts ts) ∧
    Ends (Pes.ptsDelta p a b) := by
  refine ⟨?_, ?_, ?_, ?_, ?_, ?_, ?_, ?_, ?_, ?_, ?_, ?_, ?_, ?_, ?_, ?_⟩ <;> exact End.out

/-- C120: integers in byte slices, checksums, decimal numbers, times and dates. -/
theorem C120_numbers (p : Profile) (s : List UInt8) (x : UInt8) (y : UInt16) (z : UInt32) :
    Ends (getU16 s) ∧ Ends (getU24 s) ∧ Ends (getU32 s) ∧ Ends (setU16 s y) ∧ Ends (setU24 s z) ∧ Ends (setU32 s z) ∧ Ends (crc32b s) ∧
    Ends (fromBcd8 p x) ∧ Ends (toBcd8 p x) ∧ Ends (fromBcd16 p y) ∧ Ends (toBcd16 p y) ∧ Ends (fromBcd32 p z) ∧ Ends (toBcd32 p z) ∧
    Ends (fromBcdTime16 p y) ∧ Ends (toBcdTime16 p y) ∧ Ends (fromBcdTime32 p z) ∧ Ends (toBcdTime32 p z) ∧ Ends (fromMjd p y) := by
  refine ⟨?_, ?_, ?_, ?_, ?_, ?_, ?_, ?_, ?_, ?_, ?_, ?_, ?_, ?_, ?_, ?_, ?_, ?_⟩ <;> exact End.out

/-- C120: descriptors, one at a time. -/
theorem C120_descriptor (p : Profile) (s : List UInt8) :
    (Ends (DescRaw.parse s) ∧ Ends (Desc09.parse s) ∧ Ends (Desc0A.parse s) ∧ Ends (Desc0E.parse s) ∧ Ends (Desc40.parse s) ∧
      Ends (Desc41.parse s) ∧ Ends (Desc43.parse p s) ∧ Ends (Desc44.parse p s) ∧ Ends (Desc48.parse s) ∧ Ends (Desc4D.parse s) ∧
      Ends (Desc4E.parse s) ∧ Ends (Desc52.parse s) ∧ Ends (Desc58.parse p s) ∧ Ends (Desc5A.parse p s) ∧ Ends (Desc83.parse s)) ∧
    (Ends (Desc09.check s) ∧ Ends (Desc0A.check s) ∧ Ends (Desc0E.check s) ∧ Ends (Desc40.check s) ∧
      Ends (Desc41.check s) ∧ Ends (Desc43.check s) ∧ Ends (Desc44.check s) ∧ Ends (Desc48.check s) ∧ Ends (Desc4D.check s) ∧
      Ends (Desc4E.check s) ∧ Ends (Desc52.check s) ∧ Ends (Desc58.check s) ∧ Ends (Desc5A.check s) ∧ Ends (Desc83.check s)) ∧
    ∀ d : Desc, Ends (d.assemble p s) ∧ Ends d.clone ∧ ∀ k, Ends (d.downcast k) := by
  refine ⟨⟨?_, ?_, ?_, ?_, ?_, ?_, ?_, ?_, ?_, ?_, ?_, ?_, ?_, ?_, ?_⟩, ⟨?_, ?_, ?_, ?_, ?_, ?_, ?_, ?_, ?_, ?_, ?_, ?_, ?_, ?_⟩,
    fun d => ⟨?_, ?_, fun k => ?_⟩⟩ <;> exact End.out

/-- C120: lists of descriptors, parsed from whatever bytes and sent whatever they hold. -/
theorem C120_descriptors (p : Profile) (ds : Descriptors) (s : List UInt8) :
    Ends (Desc.parse p s) ∧ Ends (Descriptors.parse p ds s) ∧ Ends (Descriptors.assemble p ds s) ∧ Ends (Descriptors.clone ds) := by
  refine ⟨?_, ?_, ?_, ?_⟩ <;> exact End.out

/-- C120: sections: reassembling, checking, comparing, finishing and packetising, in whatever state. -/
theorem C120_section (p : Profile) (a b : Psi) (l : List UInt8) (id version : UInt8) (size : Nat) :
    Ends (Psi.new p id size version) ∧ Ends (a.mux p l) ∧ Ends (a.check p) ∧ Ends (a.getCrc32 p) ∧ Ends (a.calcCrc32 p) ∧
    Ends (a.checkCrc32 p) ∧ Ends (a.eq p b) ∧ Ends (a.finalize p) ∧ Ends (a.demux p l) := by
  refine ⟨?_, ?_, ?_, ?_, ?_, ?_, ?_, ?_, ?_⟩ <;> exact End.out

/-- C120: tables take any section, and a table of any contents is sent. -/
theorem C120_tables (p : Profile) (s : Psi) (pid : UInt16) (cc : UInt8) (dst : List UInt8) :
    (∀ t : Pat, Ends (t.parse p s) ∧ Ends (t.psiListAssemble p) ∧ Ends (t.demux p pid cc dst)) ∧
    (∀ t : Pmt, Ends (t.parse p s) ∧ Ends (t.psiListAssemble p) ∧ Ends (t.demux p pid cc dst)) ∧
    (∀ t : Nit, Ends (t.parse p s) ∧ Ends (t.psiListAssemble p) ∧ Ends (t.demux p pid cc dst)) ∧
    (∀ t : Sdt, Ends (t.parse p s) ∧ Ends (t.psiListAssemble p) ∧ Ends (t.demux p pid cc dst)) ∧
    (∀ t : Eit, Ends (t.parse p s) ∧ Ends (t.psiListAssemble p) ∧ Ends (t.demux p pid cc dst)) ∧
    (∀ t : Tdt, Ends (t.parse p s) ∧ Ends (t.psiAssemble p) ∧ Ends (t.demux p pid cc dst)) ∧
    (∀ t : Tot, Ends (t.parse p s) ∧ Ends (t.psiAssemble p) ∧ Ends (t.demux p pid cc dst)) ∧
    Ends (Pat.ofPsi p s) ∧ Ends (Pmt.ofPsi p s) ∧ Ends (Nit.ofPsi p s) ∧ Ends (Sdt.ofPsi p s) ∧ Ends (Eit.ofPsi p s) ∧ Ends (Tdt.ofPsi p s) ∧
    Ends (Tot.ofPsi p s) := by
  refine ⟨fun t => ⟨?_, ?_, ?_⟩, fun t => ⟨?_, ?_, ?_⟩, fun t => ⟨?_, ?_, ?_⟩, fun t => ⟨?_, ?_, ?_⟩, fun t => ⟨?_, ?_, ?_⟩,
    fun t => ⟨?_, ?_, ?_⟩, fun t => ⟨?_, ?_, ?_⟩, ?_, ?_, ?_, ?_, ?_, ?_, ?_⟩ <;> exact End.out

/-- C120: texts. -/
theorem C120_text (p : Profile) (s : StringDVB) (n : Nat) (dst : List UInt8) :
    Ends s.toStringR ∧ Ends s.display ∧ Ends (s.assembleSized dst) ∧ Ends (s.truncate p n) := by
  refine ⟨?_, ?_, ?_, ?_⟩ <;> exact End.out

/-- C120: the reader, whatever its source does, and drain and multiplexer over any reader that ends. -/
theorem C120_reader (src : Source) (buf : List UInt8) {σ : Type} (rd : TsReadImpl σ) (h : AlwaysEnds rd) :
    Ends (TsReader.read src buf) ∧ (∀ d : TsDrain σ, Ends (d.read rd buf)) ∧ ∀ c : Cbr σ, Ends (c.read rd buf) := by
  have : ∀ st buf, End (rd st buf) := fun st buf => ⟨h st buf⟩
  refine ⟨?_, fun d => ?_, fun c => ?_⟩ <;> exact End.out

/-- C120: `Debug` output. -/
theorem C120_debug (f : Fmt) (p : Profile) (packet : List UInt8) :
    (∀ s : StringDVB, Ends (s.debugText f)) ∧ (∀ d : Desc, Ends (d.debugText f)) ∧ (∀ ds : Descriptors, Ends (descriptorsText f ds)) ∧
    (∀ t : Pat, Ends (t.debugText f)) ∧ (∀ t : Pmt, Ends (t.debugText f)) ∧ (∀ t : Nit, Ends (t.debugText f)) ∧ (∀ t : Sdt, Ends (t.debugText f)) ∧
    (∀ t : Eit, Ends (t.debugText f)) ∧ (∀ t : Tdt, Ends (t.debugText f)) ∧ (∀ t : Tot, Ends (t.debugText f)) ∧ (∀ s : Psi, Ends (s.debugText f)) ∧
    Ends (Ts.adaptationText f packet) ∧ Ends (Ts.packetNew p packet) ∧ Ends (Ts.packetText f p packet) := by
  refine ⟨fun _ => ?_, fun _ => ?_, fun _ => ?_, fun _ => ?_, fun _ => ?_, fun _ => ?_, fun _ => ?_, fun _ => ?_, fun _ => ?_, fun _ => ?_,
    fun _ => ?_, ?_, ?_, ?_⟩ <;> exact End.out

/-- C120: the generator of the code page tables. -/
theorem C120_tool (dir : List (List Char × List Char)) : Ends (Tool.main dir) := End.out

/-- C120 is false for `split`, and this is the only function: it ends, or it never does. -/
theorem C120_split_partial (p : Profile) (s : StringDVB) (n : Nat) :
    Ends (s.split p n) ∨ ∀ fuel, s.splitFuel p fuel n = .error .diverge :=
  (StringDVB.split_cases p s n).imp_left fun h => h.out

/-- Forever is forever: a call that does not end with any amount of fuel is no call that ends. -/
theorem not_ends_of_forever (p : Profile) (s : StringDVB) (n : Nat) (h : ∀ fuel, s.splitFuel p fuel n = .error .diverge) :
    ¬ Ends (s.split p n) := by
  have h1 : s.split p n = .error .diverge := h _
  rw [h1]
  rintro (⟨v, hv⟩ | hv)
  · cases hv
  · exact absurd hv (by simp [panic])

theorem ends_underflow (p : Profile) (s : StringDVB) (n : Nat) (h : n < reserved s.codepage) (hd : s.data ≠ [])
    (hl : s.data.length < 2 ^ 63) : Ends (s.split p n) := by
  obtain ⟨h1, h2, -⟩ := C30_underflow_refuted s n h hd hl
  cases p with
  | debug => exact .inr h1
  | release => exact .inl ⟨_, h2⟩

theorem ends_empty (p : Profile) (s : StringDVB) (n : Nat) (hd : s.data = []) : Ends (s.split p n) := by
  obtain ⟨cp, data⟩ := s
  obtain rfl : data = [] := hd
  simp only [StringDVB.split, StringDVB.splitFuel, List.isEmpty_nil, if_true]
  exact End.out

/-- C120 is false for `split`, exactly: in a code page of one byte a letter it runs forever when the size of a piece is the size
of the selector of the code page and there is any text; every other size lets it end. -/
theorem C120_split_refuted (p : Profile) (s : StringDVB) (n : Nat) (hcp : s.codepage.toNat ≠ 21) (hl : s.data.length < 2 ^ 63) :
    ((∀ fuel, s.splitFuel p fuel n = .error .diverge) ↔ s.data ≠ [] ∧ n = reserved s.codepage) ∧
    (Ends (s.split p n) ↔ s.data = [] ∨ n ≠ reserved s.codepage) := by
  by_cases hd : s.data = []
  · have he := ends_empty p s n hd
    exact ⟨⟨fun h => absurd he (not_ends_of_forever p s n h), fun h => absurd hd h.1⟩, ⟨fun _ => .inl hd, fun _ => he⟩⟩
  · by_cases hn : n = reserved s.codepage
    · subst hn
      have hf : ∀ fuel, s.splitFuel p fuel (reserved s.codepage) = .error .diverge := by
        obtain ⟨b, l, e⟩ := List.exists_cons_of_ne_nil hd
        exact C30_no_room_refuted p s b l e (fun h => absurd h hcp)
      exact ⟨⟨fun _ => ⟨hd, rfl⟩, fun _ => hf⟩, ⟨fun h => absurd h (not_ends_of_forever p s _ hf), fun h => by
        rcases h with h | h
        · exact absurd h hd
        · exact absurd rfl h⟩⟩
    · have he : Ends (s.split p n) := by
        by_cases hlt : n < reserved s.codepage
        · exact ends_underflow p s n hlt hd hl
        · obtain ⟨pieces, h1, -⟩ := C30_split_partial p s n hd (by omega) (fun h => absurd h hcp)
          exact .inl ⟨_, h1⟩
      exact ⟨⟨fun h => absurd he (not_ends_of_forever p s n h), fun h => absurd h.2 hn⟩, ⟨fun _ => .inr hn, fun _ => he⟩⟩

/-- C120 is false for `split`, exactly: a UTF-8 text is split forever when the pieces have at most three bytes and some letter
does not fit into a piece beside the selector; in every other case `split` ends. -/
theorem C120_split_utf8_refuted (p : Profile) (s : List Char) (n : Nat) (hl : (Text.utf8 s).length < 2 ^ 63) :
    ((∀ fuel, (StringDVB.fromStr s 21).splitFuel p fuel n = .error .diverge) ↔
      1 ≤ n ∧ n ≤ 3 ∧ ∃ c ∈ s, n < 1 + (String.utf8EncodeChar c).length) ∧
    (Ends ((StringDVB.fromStr s 21).split p n) ↔ ¬ (1 ≤ n ∧ n ≤ 3 ∧ ∃ c ∈ s, n < 1 + (String.utf8EncodeChar c).length)) := by
  have key : (Ends ((StringDVB.fromStr s 21).split p n) ∧ ¬ (1 ≤ n ∧ n ≤ 3 ∧ ∃ c ∈ s, n < 1 + (String.utf8EncodeChar c).length)) ∨
      ((∀ fuel, (StringDVB.fromStr s 21).splitFuel p fuel n = .error .diverge) ∧
        (1 ≤ n ∧ n ≤ 3 ∧ ∃ c ∈ s, n < 1 + (String.utf8EncodeChar c).length)) := by
    have hdata : (StringDVB.fromStr s 21).data = Text.utf8 s := rfl
    have hcp : (StringDVB.fromStr s 21).codepage = 21 := rfl
    have hres : reserved (StringDVB.fromStr s 21).codepage = 1 := rfl
    cases s with
    | nil => exact .inl ⟨ends_empty p _ n rfl, fun ⟨_, _, c, hc, _⟩ => by cases hc⟩
    | cons a l =>
      obtain ⟨lead, tail, e, hlead, -⟩ := utf8_shape a
      have hne : (StringDVB.fromStr (a :: l) 21).data ≠ [] := by
        rw [hdata, Text.utf8, List.flatMap_cons, e]; simp
      by_cases h0 : n = 0
      · exact .inl ⟨ends_underflow p _ n (by rw [hres]; omega) hne (by rw [hdata]; exact hl), fun h => by omega⟩
      by_cases h1 : n = 1
      · subst h1
        refine .inr ⟨fun fuel => ?_, Nat.le_refl _, by omega, a, by simp, by rw [e]; simp⟩
        have := C30_no_room_refuted p (StringDVB.fromStr (a :: l) 21) lead (tail ++ Text.utf8 l)
          (by rw [hdata, Text.utf8, List.flatMap_cons, e]; rfl) (fun _ => hlead) fuel
        rwa [hres] at this
      by_cases h4 : 4 ≤ n
      · obtain ⟨pieces, h1, -⟩ := C30_split_partial p (StringDVB.fromStr (a :: l) 21) n hne (by rw [hres]; omega) (fun _ => h4)
        exact .inl ⟨.inl ⟨_, h1⟩, fun h => by omega⟩
      by_cases hs : ∃ c ∈ (a :: l), n < 1 + (String.utf8EncodeChar c).length
      · obtain ⟨c, hc, hn⟩ := hs
        exact .inr ⟨C30_utf8_small_refuted p (a :: l) n (by omega) c hc (by omega), by omega, by omega, c, hc, hn⟩
      · obtain ⟨parts, h1, -⟩ := C30_utf8_small_partial p (a :: l) n (by omega) (by simp) (fun c hc => by
          refine Decidable.byContradiction fun hlt => hs ⟨c, hc, by omega⟩)
        exact .inl ⟨.inl ⟨_, h1⟩, fun h => hs h.2.2⟩
  rcases key with ⟨he, hn⟩ | ⟨hf, hn⟩
  · exact ⟨⟨fun h => absurd he (not_ends_of_forever p _ n h), fun h => absurd h hn⟩, ⟨fun _ => hn, fun _ => he⟩⟩
  · exact ⟨⟨fun _ => hn, fun _ => hf⟩, ⟨fun h => absurd h (not_ends_of_forever p _ n hf), fun h => absurd hn h⟩⟩

/-- A reader that always panics ends always, so that the hypothesis of `C120_reader` does not ask for a reader that works; neither
does `TsReader` itself fail it. -/
example : AlwaysEnds TsReader.read := fun st buf => (C120_reader st buf TsReader.read (fun _ _ => End.out)).1

/-- A multiplexer over a drain over a reader. -/
example (c : Cbr (TsDrain Source)) (buf : List UInt8) : Ends (c.read (fun d b => d.read TsReader.read b) buf) :=
  (C120_reader ⟨[], []⟩ buf _ (fun d b => (C120_reader ⟨[], []⟩ b TsReader.read (fun _ _ => End.out)).2.1 d)).2.2 c

/-- "é" in pieces of two bytes: no letter of two bytes fits beside the selector. -/
example : ∀ fuel, (StringDVB.fromStr ['é'] 21).splitFuel .release fuel 2 = .error .diverge :=
  (C120_split_utf8_refuted .release ['é'] 2 (by decide)).1.2 ⟨by omega, by omega, 'é', by simp, by decide⟩

/-- In pieces of three bytes it is split. -/
example : Ends ((StringDVB.fromStr ['é'] 21).split .release 3) :=
  (C120_split_utf8_refuted .release ['é'] 3 (by decide)).2.2 (by
    rintro ⟨-, -, c, hc, h⟩
    obtain rfl : c = 'é' := by simpa using hc
    exact absurd h (by decide))

/-- `Ends` is not true of everything: running forever is no end. -/
example : ¬ Ends (.error .diverge : R Nat) := by
  rintro (⟨v, hv⟩ | hv)
  · cases hv
  · exact absurd hv (by simp [panic])

end Mpegts
