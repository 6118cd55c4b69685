import Verif.Model.TextEq
import Verif.Props.C23_C26
import Verif.Props.C27_C28

/-! # C132: comparing DVB strings -/

namespace Mpegts
open Spec

/-- The table a text is stored in when table `cp` is asked for: UTF-8 if there is no such table. -/
def Text.tableFor (cp : UInt8) : UInt8 := if (CodePage.upper cp.toNat).isSome then cp else 21

theorem Text.fromStr_codepage (s : List Char) (cp : UInt8) : (StringDVB.fromStr s cp).codepage = Text.tableFor cp := by
  unfold Text.tableFor
  cases h : CodePage.upper cp.toNat with
  | some t => rw [fromStr_table cp t h]; rfl
  | none => rw [C27_unknown_codepage s cp h]; rfl

theorem Text.eq_iff (a b : StringDVB) : a.eq b = true ↔ a = b := by
  rw [StringDVB.eq, Bool.and_eq_true, beq_iff_eq, beq_iff_eq]
  cases a; cases b; simp

/-- C132: two strings are equal exactly if `get_codepage` and `as_bytes` give the same; equal strings are sent as the same bytes behind
anything and shown as the same text. -/
theorem C132_equal (a b : StringDVB) :
    (a.eq b = true ↔ a.getCodepage = b.getCodepage ∧ a.asBytes = b.asBytes) ∧
    (a.eq b = true → (∀ dst, a.assemble dst = b.assemble dst) ∧ a.toStringR = b.toStringR ∧ a.isEmpty = b.isEmpty) := by
  rw [Text.eq_iff]
  refine ⟨?_, ?_⟩
  · cases a; cases b; simp [StringDVB.getCodepage, StringDVB.asBytes]
  · rintro rfl; exact ⟨fun _ => rfl, rfl, rfl⟩

/-- C132: what `get_codepage` and `as_bytes` of a string made from text give: the table asked for, UTF-8 where there is none, and one byte
for each character of the table that stands for it, or the text's UTF-8. -/
theorem C132_accessors (s : List Char) (cp : UInt8) :
    (∀ t, CodePage.upper cp.toNat = some t → (∀ c ∈ s, Text.InTable t c) →
      (StringDVB.fromStr s cp).getCodepage = cp ∧ (StringDVB.fromStr s cp).asBytes.map (Text.charOf t) = s.map some) ∧
    (CodePage.upper cp.toNat = none → (StringDVB.fromStr s cp).getCodepage = 21 ∧ (StringDVB.fromStr s cp).asBytes = Text.utf8 s) :=
  ⟨fun t ht hs => (C27_round_trip cp t ht s hs).2, fun h => by
    rw [C27_unknown_codepage s cp h, (C27_utf8 s).1]; exact ⟨rfl, rfl⟩⟩

/-- C132: texts made for one table, of characters it has, are equal exactly if the texts are; in UTF-8, and where there is no such table,
that holds for all texts. -/
theorem C132_texts_partial (s u : List Char) (cp : UInt8) :
    (∀ t, CodePage.upper cp.toNat = some t → (∀ c ∈ s, Text.InTable t c) → (∀ c ∈ u, Text.InTable t c) →
      ((StringDVB.fromStr s cp).eq (StringDVB.fromStr u cp) = true ↔ s = u)) ∧
    (CodePage.upper cp.toNat = none → ((StringDVB.fromStr s cp).eq (StringDVB.fromStr u cp) = true ↔ s = u)) := by
  simp only [Text.eq_iff]
  refine ⟨fun t ht hs hu => ⟨fun h => ?_, fun h => by rw [h]⟩, fun hn => ⟨fun h => ?_, fun h => by rw [h]⟩⟩
  · have e := (C27_round_trip cp t ht s hs).1
    rw [h, (C27_round_trip cp t ht u hu).1] at e
    cases e; rfl
  · have e := (C27_utf8 s).2
    rw [C27_unknown_codepage s cp hn, C27_unknown_codepage u cp hn] at h
    rw [h, (C27_utf8 u).2] at e
    cases e; rfl

/-- C132 fails across tables: strings made for different tables are never equal, whatever the texts - not even for the same text, the empty
one among them, which is sent as the same bytes (none). -/
theorem C132_tables_refuted (s u : List Char) (cp cq : UInt8) (h : cp ≠ cq) (hp : CodePage.upper cp.toNat ≠ none)
    (dst : List UInt8) :
    (StringDVB.fromStr s cp).eq (StringDVB.fromStr u cq) = false ∧ (StringDVB.fromStr u cq).eq (StringDVB.fromStr s cp) = false ∧
    (StringDVB.fromStr [] cp).assemble dst = (StringDVB.fromStr [] cq).assemble dst ∧
    (StringDVB.fromStr [] cp).toStringR = (StringDVB.fromStr [] cq).toStringR := by
  have hc : (StringDVB.fromStr s cp).codepage ≠ (StringDVB.fromStr u cq).codepage := by
    rw [Text.fromStr_codepage, Text.fromStr_codepage]
    revert hp h
    revert cp cq
    have h21 : ∀ cp : UInt8, CodePage.upper cp.toNat ≠ none → cp ≠ 21 := by decide +kernel
    intro cp cq h hp
    unfold Text.tableFor
    rw [if_pos (Option.isSome_iff_ne_none.2 hp)]
    split
    · exact h
    · exact h21 cp hp
  have he : ∀ x : UInt8, (StringDVB.fromStr [] x).data = [] := by
    intro x
    cases hx : CodePage.upper x.toNat with
    | some t => rw [fromStr_table x t hx]; rfl
    | none => rw [C27_unknown_codepage _ x hx]; rfl
  refine ⟨?_, ?_, ?_, ?_⟩
  · rw [Bool.eq_false_iff, Ne, Text.eq_iff]; intro e; exact hc (by rw [e])
  · rw [Bool.eq_false_iff, Ne, Text.eq_iff]; intro e; exact hc (by rw [e])
  · rw [C24_assemble, C24_assemble, he, he]; rfl
  · rw [C80_display, C80_display, he, he]; rfl

/-- C132 fails for characters that a table lacks: a text with one equals the text with the substitute instead. -/
theorem C132_lossy_refuted (a b : List Char) (cp : UInt8) (t : List Nat) (ht : CodePage.upper cp.toNat = some t) (c : Char)
    (h1 : 0xA0 ≤ c.val.toNat) (h2 : c.val.toNat < 0x10000) (hc : ¬ Text.InTable t c) :
    (StringDVB.fromStr (a ++ c :: b) cp).eq
      (StringDVB.fromStr (a ++ (Text.substitute c).map (fun x => Char.ofNat x.toNat) ++ b) cp) = true := by
  have hsub : ∀ c, ∀ x ∈ Text.substitute c, x.toNat < 0x80 := by
    intro c x hx
    unfold Text.substitute at hx
    split at hx
    · simp at hx; subst hx; decide
    · split at hx
      · simp at hx; subst hx; decide
      · split at hx
        · simp at hx; subst hx; decide
        · simp at hx; subst hx; decide
  have key : ∀ l : List UInt8, (∀ x ∈ l, x.toNat < 0x80) →
      (StringDVB.fromStr (l.map fun x => Char.ofNat x.toNat) cp).data = l := by
    intro l hl
    rw [fromStr_table cp t ht]
    simp only []
    induction l with
    | nil => rfl
    | cons x l ih =>
      have hx := hl x (by simp)
      have e : (Char.ofNat x.toNat).val.toNat = x.toNat := char_toNat_ofNat (by omega)
      rw [List.map_cons, List.flatMap_cons, ih (fun y hy => hl y (by simp [hy])),
        encodeChar_ascii _ _ (by rw [e]; omega), e, UInt8.ofNat_toNat]
      rfl
  rw [StringDVB.eq, Bool.and_eq_true, beq_iff_eq, beq_iff_eq, Text.fromStr_codepage, Text.fromStr_codepage,
    C27_replacement_partial cp t ht a b c h1 h2 hc, C27_append, C27_append, key _ (hsub c)]
  exact ⟨rfl, rfl⟩

/-- C132: `is_empty` tells whether anything is sent, and whether the size is zero. -/
theorem C132_empty (s : StringDVB) (dst : List UInt8) :
    (s.isEmpty = true ↔ s.assemble dst = dst) ∧ (s.isEmpty = true ↔ s.size = 0) ∧ (s.isEmpty = true → s.toStringR = .ok []) := by
  have h1 : s.isEmpty = true ↔ s.data = [] := List.isEmpty_iff
  have h2 : Text.encoding s.codepage.toNat s.data = [] ↔ s.data = [] := by
    cases hd : s.data with
    | nil => simp [Text.encoding]
    | cons => simp [Text.encoding]
  refine ⟨?_, ?_, fun h => ?_⟩
  · rw [h1, C24_assemble, ← h2]; simp
  · rw [h1, C23_size_encoding, List.length_eq_zero_iff, h2]
  · rw [C80_display, if_pos (h1.1 h)]

/-- C132: a string made from text in UTF-8, or of characters that its table has, is empty exactly if the text is. -/
theorem C132_empty_text_partial (s : List Char) (cp : UInt8) :
    (∀ t, CodePage.upper cp.toNat = some t → (∀ c ∈ s, c.val.toNat < 0x80 ∨ (0xA0 ≤ c.val.toNat ∧ c.val.toNat < 0x10000)) →
      ((StringDVB.fromStr s cp).isEmpty = true ↔ s = [])) ∧
    (CodePage.upper cp.toNat = none → ((StringDVB.fromStr s cp).isEmpty = true ↔ s = [])) := by
  have h1 : ∀ x : StringDVB, x.isEmpty = true ↔ x.data = [] := fun _ => List.isEmpty_iff
  simp only [h1]
  refine ⟨fun t ht hs => ?_, fun hn => ?_⟩
  · cases s with
    | nil => rw [fromStr_table cp t ht]; simp
    | cons c s =>
      simp only [List.cons_ne_nil, iff_false]
      rw [show c :: s = [] ++ c :: s from rfl]
      rcases hs c (by simp) with h | ⟨h, h'⟩
      · rw [fromStr_table cp t ht]
        simp [encodeChar_ascii _ c h]
      · by_cases hc : Text.InTable t c
        · obtain ⟨b, hb, -⟩ := encodeChar_inTable t (good_tables cp t ht) c hc
          rw [fromStr_table cp t ht]
          simp [hb]
        · rw [C27_replacement_partial cp t ht [] s c h h' hc]
          unfold Text.substitute
          repeat' split
          all_goals simp
  · rw [C27_unknown_codepage s cp hn, (C27_utf8 s).1]
    cases s with
    | nil => simp [Text.utf8]
    | cons c s =>
      simp only [List.cons_ne_nil, iff_false]
      intro h
      have e := (C27_utf8 (c :: s)).2
      rw [(C27_utf8 (c :: s)).1, C80_display] at e
      simp [h] at e

/-- C132 fails for the C1 control characters: a text of nothing else is empty and equals the empty text. -/
theorem C132_controls_refuted (s : List Char) (cp : UInt8) (t : List Nat) (ht : CodePage.upper cp.toNat = some t)
    (hs : ∀ c ∈ s, 0x80 ≤ c.val.toNat ∧ c.val.toNat < 0xA0) :
    (StringDVB.fromStr s cp).isEmpty = true ∧ (StringDVB.fromStr s cp).eq (StringDVB.fromStr [] cp) = true := by
  have hd : (StringDVB.fromStr s cp).data = [] := by
    induction s with
    | nil => rw [fromStr_table cp t ht]; rfl
    | cons c s ih =>
      rw [show c :: s = [c] ++ s from rfl, C27_append, ih (fun x hx => hs x (by simp [hx])),
        (C27_c1_refuted cp t ht c (hs c (by simp)).1 (hs c (by simp)).2).1]
      rfl
  refine ⟨List.isEmpty_iff.2 hd, ?_⟩
  rw [StringDVB.eq, Bool.and_eq_true, beq_iff_eq, beq_iff_eq, Text.fromStr_codepage, Text.fromStr_codepage, hd]
  rw [fromStr_table cp t ht]
  exact ⟨rfl, rfl⟩

/-- C132: strings fit to be sent (C25) are equal exactly if they are sent as the same bytes, and a received string equals the one sent
exactly if that is fit to be sent. -/
theorem C132_sent (a b : StringDVB) :
    (roundTrips a → roundTrips b → (a.eq b = true ↔ a.assemble [] = b.assemble [])) ∧
    ((StringDVB.ofBytes (a.assemble [])).eq a = true ↔ roundTrips a) := by
  simp only [Text.eq_iff]
  refine ⟨fun ha hb => ⟨fun h => by rw [h], fun h => ?_⟩, C25_round_trip_iff a⟩
  rw [← (C25_round_trip_iff a).2 ha, h, (C25_round_trip_iff b).2 hb]

/-- C132: strings received as bytes that are kept (C26) are equal exactly if the bytes are. -/
theorem C132_received (l m : List UInt8) (hl : Kept l) (hm : Kept m) :
    (StringDVB.ofBytes l).eq (StringDVB.ofBytes m) = true ↔ l = m := by
  rw [Text.eq_iff]
  refine ⟨fun h => ?_, fun h => by rw [h]⟩
  rw [← (C26_kept_iff l).2 hl, h, (C26_kept_iff m).2 hm]

/-- C132, looking for a name: what a receiver gets of a text that has a first character, not a control one, equals a text made for the same
table exactly if the texts are the same. -/
theorem C132_search (s u : List Char) (cp : UInt8) (t : List Nat) (ht : CodePage.upper cp.toNat = some t)
    (hs : ∀ c ∈ s, Text.InTable t c) (hu : ∀ c ∈ u, Text.InTable t c) (h0 : u ≠ []) (hc : ∀ c ∈ u.head?, 0x20 ≤ c.val.toNat) :
    (StringDVB.ofBytes ((StringDVB.fromStr u cp).assemble [])).eq (StringDVB.fromStr s cp) = true ↔ u = s := by
  have hr : roundTrips (StringDVB.fromStr u cp) := by
    right
    obtain ⟨-, e1, e2⟩ := C27_round_trip cp t ht u hu
    obtain ⟨c, u, rfl⟩ := List.exists_cons_of_ne_nil h0
    cases hd : (StringDVB.fromStr (c :: u) cp).data with
    | nil => rw [hd] at e2; simp at e2
    | cons b r =>
      rw [hd] at e2
      simp only [List.map_cons, List.cons.injEq] at e2
      refine ⟨by simp, ?_⟩
      rw [e1]
      have : ∀ cp : UInt8, CodePage.upper cp.toNat ≠ none → cp = 0 ∨ (1 ≤ cp.toNat ∧ cp.toNat ≤ 15) := by decide +kernel
      rcases this cp (by rw [ht]; simp) with h | h
      · left
        refine ⟨h, ?_⟩
        have hc' := hc c (by simp)
        simp only [List.headD_cons]
        refine Nat.not_lt.1 fun hlt => ?_
        have e := e2.1
        rw [Text.charOf, if_pos (by omega)] at e
        simp only [Option.some.injEq] at e
        rw [← e, char_toNat_ofNat (by omega)] at hc'
        omega
      · right; left; exact h
  rw [(C25_round_trip_iff _).2 hr]
  exact (C132_texts_partial u s cp).1 t ht hu hs

/-- Cyrillic names: equal to themselves only, and never to the same name in UTF-8. -/
theorem Text.mir_pir : (∀ c ∈ "Мир".toList, Text.InTable CodePage.iso8859_5 c) ∧ (∀ c ∈ "Пир".toList, Text.InTable CodePage.iso8859_5 c) ∧
    CodePage.upper (5 : UInt8).toNat = some CodePage.iso8859_5 := by
  refine ⟨?_, ?_, rfl⟩ <;> intro c hc <;> simp only [String.reduceToList, List.mem_cons, List.not_mem_nil, or_false] at hc <;>
    rcases hc with rfl | rfl | rfl
  · exact ⟨0xBC, by decide⟩
  · exact ⟨0xD8, by decide⟩
  · exact ⟨0xE0, by decide⟩
  · exact ⟨0xBF, by decide⟩
  · exact ⟨0xD8, by decide⟩
  · exact ⟨0xE0, by decide⟩
example : (StringDVB.fromStr "Мир".toList 5).eq (StringDVB.fromStr "Пир".toList 5) = false ∧
    (StringDVB.fromStr "Мир".toList 5).eq (StringDVB.fromStr "Мир".toList 5) = true ∧
    (StringDVB.fromStr "Мир".toList 5).eq (StringDVB.fromStr "Мир".toList 21) = false ∧
    (StringDVB.fromStr [] 5).eq StringDVB.default = false := by decide +kernel
example := (C132_texts_partial "Мир".toList "Пир".toList 5).1 _ rfl Text.mir_pir.1 Text.mir_pir.2.1
example := C132_search "Мир".toList "Пир".toList 5 _ rfl Text.mir_pir.1 Text.mir_pir.2.1 (by decide) (by decide)
example := C132_lossy_refuted "Stra".toList "e".toList 5 _ rfl 'ß' (by decide) (by decide) (fun h => by
  rcases inTable_value _ (good_tables 5 _ rfl) _ h with h | h
  · exact absurd h (by decide)
  · exact absurd h.2.2 (by decide +kernel))
example (dst) := C132_tables_refuted "News".toList "News".toList 0 5 (by decide) (by decide) dst
example : (0xA0 ≤ 'ß'.val.toNat ∧ 'ß'.val.toNat < 0x10000) ∧ (StringDVB.fromStr "ß".toList 5).eq (StringDVB.fromStr "?".toList 5) = true := by
  decide +kernel
example := C132_controls_refuted [Char.ofNat 0x8A, Char.ofNat 0x86] 5 _ rfl (by decide)
example := (C132_empty_text_partial "ß…".toList 5).1 _ rfl (by decide)
example := (C132_sent ⟨5, [0xBC]⟩ ⟨5, [0xBF]⟩).1 (by right; simp) (by right; simp)
example := C132_received [1, 0xBC] [0x41] (by simp [Kept]) (by simp [Kept])

end Mpegts
