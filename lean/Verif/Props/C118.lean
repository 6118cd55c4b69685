import Verif.Lemmas.DebugSays
import Verif.Props.C115
import Verif.Props.C75
import Verif.Props.C81

/-! # C118: the `Debug` text of tables and descriptors; C75: that of packets -/

namespace Mpegts
open Spec Spec.Shown

/-- How a string is shown within a `Debug` text: what `to_string()` returns, quoted. -/
abbrev shownAs (f : Fmt) : StringDVB → Text := fun s => f.quote (displayed s)

theorem strings_desc (d : Desc) : (desc d).strings = stringsOf d := by
  have b : ∀ l : List UInt8, (l.map fun b => Shown.num b.toNat).flatMap (·.strings) = [] := by
    intro l; induction l with
    | nil => rfl
    | cons a l ih => simpa [Shown.num, Shown.atom] using ih
  cases d with
  | raw d => simp [desc, descRaw, record, num, atom, Shown.list, b, stringsOf]
  | d09 d => simp [desc, desc09, record, num, atom, Shown.list, b, stringsOf]
  | d0A d =>
    simp only [desc, desc0A, record, Shown.list, stringsOf, List.flatMap_cons, List.flatMap_nil, List.append_nil]
    induction d.items with
    | nil => rfl
    | cons a l ih => simpa [desc0Ai, Shown.string, record, num, atom, quoted] using ih
  | d0E d => rfl
  | d40 d => rfl
  | d41 d =>
    simp only [desc, desc41, record, Shown.list, stringsOf, List.flatMap_cons, List.flatMap_nil, List.append_nil]
    induction d.items with
    | nil => rfl
    | cons a l ih => simpa [desc41i, record, num, atom] using ih
  | d43 d => rfl
  | d44 d => rfl
  | d48 d => rfl
  | d4D d => rfl
  | d4E d =>
    simp only [desc, desc4E, record, Shown.list, stringsOf, List.flatMap_cons, List.flatMap_nil, List.append_nil]
    have : (d.items.map fun i => Shown.pair (.string i.1) (.string i.2)).flatMap (·.strings) = d.items.flatMap (fun i => [i.1, i.2]) := by
      induction d.items with
      | nil => rfl
      | cons a l ih => simpa [Shown.pair, Shown.string, record, num, atom, quoted] using ih
    rw [this]
    simp [Shown.string, record, num, atom, quoted]
  | d52 d => rfl
  | d58 d =>
    simp only [desc, desc58, record, Shown.list, stringsOf, List.flatMap_cons, List.flatMap_nil, List.append_nil]
    induction d.items with
    | nil => rfl
    | cons a l ih => simpa [desc58i, Shown.string, record, num, atom, quoted] using ih
  | d5A d => rfl
  | d83 d =>
    simp only [desc, desc83, record, Shown.list, stringsOf, List.flatMap_cons, List.flatMap_nil, List.append_nil]
    induction d.items with
    | nil => rfl
    | cons a l ih => simpa [desc83i, record, num, atom] using ih

theorem strings_descs (ds : List Desc) : (Shown.list (ds.map desc)).strings = ds.flatMap stringsOf := by
  simp only [Shown.list, List.flatMap_map]
  induction ds with
  | nil => rfl
  | cons a l ih => simp only [List.flatMap_cons, ih, strings_desc]

theorem Says.iff {f : Fmt} {r : R Text} {x : Shown} (h : Says f r x) :
    (r = panic ↔ ∃ s ∈ x.strings, ¬ Displayable s) ∧
    ((∀ s ∈ x.strings, Displayable s) → r = .ok (x.text f.alternate (shownAs f))) := by
  refine ⟨⟨fun he => Classical.byContradiction fun hn => ?_, h.bad⟩, h.good⟩
  have := h.good (fun s hs => Classical.byContradiction fun hd => hn ⟨s, hs, hd⟩)
  rw [he] at this; cases this

/-- C118 for the values without DVB strings: formatting never panics and writes the fields with their names and values. -/
theorem C118_plain (f : Fmt) (hq : ∀ t, '\n' ∉ f.quote t) (a : Pat) (t : Tdt) (s : Psi) :
    a.debugText f = .ok ((pat a).text f.alternate (shownAs f)) ∧ t.debugText f = .ok ((tdt t).text f.alternate (shownAs f)) ∧
    s.debugText f = .ok ((psi s).text f.alternate (shownAs f)) := by
  refine ⟨(says_pat f hq a).good ?_, (says_tdt f hq t).good ?_, (says_psi f hq s).good ?_⟩
  · simp [pat, patItem, record, num, atom, Shown.list]
  · simp [tdt, record, num, atom]
  · simp [psi, record, num, atom, Shown.list]

/-- C118 (partial): a descriptor all of whose strings have a known code page is shown with its fields, names and values.
Missing: the others, see `C118_panics_refuted`. -/
theorem C118_descriptor_partial (f : Fmt) (hq : ∀ t, '\n' ∉ f.quote t) (d : Desc) (h : ∀ s ∈ stringsOf d, Displayable s) :
    d.debugText f = .ok ((desc d).text f.alternate (shownAs f)) :=
  (says_desc f hq d).good (by rw [strings_desc]; exact h)

theorem strings_items {α : Type} (l : List α) (x : α → Shown) (ds : α → List Desc) (h : ∀ a, (x a).strings = (ds a).flatMap stringsOf) :
    (Shown.list (l.map x)).strings = (l.flatMap ds).flatMap stringsOf := by
  simp only [Shown.list, List.flatMap_map]
  induction l with
  | nil => rfl
  | cons a l ih => rw [List.flatMap_cons, ih, List.flatMap_cons, List.flatMap_append, h]

theorem strings_pmt (t : Pmt) : (pmt t).strings = (t.descriptors ++ t.items.flatMap (·.descriptors)).flatMap stringsOf := by
  have := strings_items t.items pmtItem (·.descriptors) (fun a => by
    simp only [pmtItem, record, List.flatMap_cons, List.flatMap_nil, List.append_nil, strings_descs]; rfl)
  simp only [pmt, record, List.flatMap_cons, List.flatMap_nil, List.append_nil, strings_descs, this, List.flatMap_append]; rfl

theorem strings_nit (t : Nit) : (nit t).strings = (t.descriptors ++ t.items.flatMap (·.descriptors)).flatMap stringsOf := by
  have := strings_items t.items nitItem (·.descriptors) (fun a => by
    simp only [nitItem, record, List.flatMap_cons, List.flatMap_nil, List.append_nil, strings_descs]; rfl)
  simp only [nit, record, List.flatMap_cons, List.flatMap_nil, List.append_nil, strings_descs, this, List.flatMap_append]; rfl

theorem strings_sdt (t : Sdt) : (sdt t).strings = (t.items.flatMap (·.descriptors)).flatMap stringsOf := by
  have := strings_items t.items sdtItem (·.descriptors) (fun a => by
    simp only [sdtItem, record, List.flatMap_cons, List.flatMap_nil, List.append_nil, strings_descs]; rfl)
  simp only [sdt, record, List.flatMap_cons, List.flatMap_nil, List.append_nil, this]; rfl

theorem strings_eit (t : Eit) : (eit t).strings = (t.items.flatMap (·.descriptors)).flatMap stringsOf := by
  have := strings_items t.items eitItem (·.descriptors) (fun a => by
    simp only [eitItem, record, List.flatMap_cons, List.flatMap_nil, List.append_nil, strings_descs]; rfl)
  simp only [eit, record, List.flatMap_cons, List.flatMap_nil, List.append_nil, this]; rfl

theorem strings_tot (t : Tot) : (tot t).strings = t.descriptors.flatMap stringsOf := by
  simp only [tot, record, List.flatMap_cons, List.flatMap_nil, List.append_nil, strings_descs]; rfl

/-- C118 (partial): a table all of whose strings have a known code page is shown with its fields, names and values, on one
line with `{:?}` and on several lines with `{:#?}`.  Missing: the others, see `C118_panics_refuted`. -/
theorem C118_tables_partial (f : Fmt) (hq : ∀ t, '\n' ∉ f.quote t) :
    (∀ t : Pmt, (∀ d ∈ t.descriptors ++ t.items.flatMap (·.descriptors), ∀ s ∈ stringsOf d, Displayable s) →
      t.debugText f = .ok ((pmt t).text f.alternate (shownAs f))) ∧
    (∀ t : Nit, (∀ d ∈ t.descriptors ++ t.items.flatMap (·.descriptors), ∀ s ∈ stringsOf d, Displayable s) →
      t.debugText f = .ok ((nit t).text f.alternate (shownAs f))) ∧
    (∀ t : Sdt, (∀ d ∈ t.items.flatMap (·.descriptors), ∀ s ∈ stringsOf d, Displayable s) →
      t.debugText f = .ok ((sdt t).text f.alternate (shownAs f))) ∧
    (∀ t : Eit, (∀ d ∈ t.items.flatMap (·.descriptors), ∀ s ∈ stringsOf d, Displayable s) →
      t.debugText f = .ok ((eit t).text f.alternate (shownAs f))) ∧
    (∀ t : Tot, (∀ d ∈ t.descriptors, ∀ s ∈ stringsOf d, Displayable s) →
      t.debugText f = .ok ((tot t).text f.alternate (shownAs f))) := by
  have key : ∀ {ds : List Desc} {l : List StringDVB}, l = ds.flatMap stringsOf → (∀ d ∈ ds, ∀ s ∈ stringsOf d, Displayable s) →
      ∀ s ∈ l, Displayable s := by
    rintro ds l rfl h s hs
    obtain ⟨d, hd, hs⟩ := List.mem_flatMap.mp hs
    exact h d hd s hs
  exact ⟨fun t h => (says_pmt f hq t).good (key (strings_pmt t) h), fun t h => (says_nit f hq t).good (key (strings_nit t) h),
    fun t h => (says_sdt f hq t).good (key (strings_sdt t) h), fun t h => (says_eit f hq t).good (key (strings_eit t) h),
    fun t h => (says_tot f hq t).good (key (strings_tot t) h)⟩

/-- C118 is false: writing a table to a log panics, exactly if one of its descriptors holds a non-empty string whose code page
is not known. -/
theorem C118_panics_refuted (f : Fmt) (hq : ∀ t, '\n' ∉ f.quote t) :
    (∀ d : Desc, d.debugText f = panic ↔ ∃ s ∈ stringsOf d, ¬ Displayable s) ∧
    (∀ t : Pmt, t.debugText f = panic ↔ ∃ d ∈ t.descriptors ++ t.items.flatMap (·.descriptors), ∃ s ∈ stringsOf d, ¬ Displayable s) ∧
    (∀ t : Nit, t.debugText f = panic ↔ ∃ d ∈ t.descriptors ++ t.items.flatMap (·.descriptors), ∃ s ∈ stringsOf d, ¬ Displayable s) ∧
    (∀ t : Sdt, t.debugText f = panic ↔ ∃ d ∈ t.items.flatMap (·.descriptors), ∃ s ∈ stringsOf d, ¬ Displayable s) ∧
    (∀ t : Eit, t.debugText f = panic ↔ ∃ d ∈ t.items.flatMap (·.descriptors), ∃ s ∈ stringsOf d, ¬ Displayable s) ∧
    (∀ t : Tot, t.debugText f = panic ↔ ∃ d ∈ t.descriptors, ∃ s ∈ stringsOf d, ¬ Displayable s) := by
  have key : ∀ {ds : List Desc} {l : List StringDVB}, l = ds.flatMap stringsOf →
      ((∃ s ∈ l, ¬ Displayable s) ↔ ∃ d ∈ ds, ∃ s ∈ stringsOf d, ¬ Displayable s) := by
    rintro ds l rfl
    constructor
    · rintro ⟨s, hs, hn⟩
      obtain ⟨d, hd, hs⟩ := List.mem_flatMap.mp hs
      exact ⟨d, hd, s, hs, hn⟩
    · rintro ⟨d, hd, s, hs, hn⟩
      exact ⟨s, List.mem_flatMap.mpr ⟨d, hd, hs⟩, hn⟩
  refine ⟨fun d => ?_, fun t => ?_, fun t => ?_, fun t => ?_, fun t => ?_, fun t => ?_⟩
  · rw [(says_desc f hq d).iff.1, strings_desc]
  · rw [(says_pmt f hq t).iff.1, key (strings_pmt t)]
  · rw [(says_nit f hq t).iff.1, key (strings_nit t)]
  · rw [(says_sdt f hq t).iff.1, key (strings_sdt t)]
  · rw [(says_eit f hq t).iff.1, key (strings_eit t)]
  · rw [(says_tot f hq t).iff.1, key (strings_tot t)]

/-- C118: a sender can make the log of a receiver panic: a service descriptor with a service name after a reserved selector
(`08`, `0C` to `0F`) is parsed, and formatting it panics. -/
theorem C118_received_refuted (p : Profile) (f : Fmt) (hq : ∀ t, '\n' ∉ f.quote t) (type : Nat) (provider name : List UInt8) (sel : UInt8)
    (hs : sel.toNat = 0x08 ∨ (0x0C ≤ sel.toNat ∧ sel.toNat ≤ 0x0F)) (hn : name ≠ []) (h : 4 + provider.length + name.length ≤ 255) :
    ∃ d, Desc.parse p (Descriptor.service type provider (sel :: name)) = .ok d ∧ d.debugText f = panic := by
  refine ⟨_, C81_service p type provider (sel :: name) (by simp; omega), ?_⟩
  rw [(C118_panics_refuted f hq).1]
  refine ⟨StringDVB.ofBytes (sel :: name), by simp [stringsOf], ?_⟩
  rw [displayable_iff, Classical.not_not, C115_panics_refuted]
  obtain ⟨b, r, rfl⟩ := List.exists_cons_of_ne_nil hn
  exact .inl ⟨sel, b, r, rfl, hs⟩

/-- How `{:?}` shows a text of letters. -/
def plainQuotes (alternate : Bool) : Fmt := ⟨alternate, fun t => t!"\"" ++ t.filter (· ≠ '\n') ++ t!"\""⟩

example : (Pat.mk 1 2 [⟨1, 100⟩, ⟨2, 200⟩]).debugText (plainQuotes false) =
    .ok "Pat { version: 1, tsid: 2, items: [PatItem { pnr: 1, pid: 100 }, PatItem { pnr: 2, pid: 200 }] }".toList := by decide +kernel

example : (Tot.mk 7 [.d40 ⟨⟨0, [0x41, 0x42]⟩⟩]).debugText (plainQuotes true) = .ok ("Tot {\n    time: 7,\n    descriptors: [\n        Desc40 {\n" ++
    "            name: StringDVB {\n                codepage: 0,\n                text: \"AB\",\n            },\n        },\n    ],\n}").toList := by
  decide +kernel

example : (Tot.mk 7 [.d40 ⟨⟨12, [0x41]⟩⟩]).debugText (plainQuotes true) = panic := by decide +kernel

end Mpegts
