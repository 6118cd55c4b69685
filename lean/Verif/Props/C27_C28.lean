import Verif.Lemmas.Utf8

/-! # C27, C28, C80: text in the character tables -/

namespace Mpegts
open Spec

/-- The crate's tables are the standard's. -/
theorem map_eq : ∀ cp : UInt8, getCodepageMap cp = (CodePage.upper cp.toNat).map (·.map UInt16.ofNat) := by
  decide +kernel

/-- What the proofs need to know about a table. -/
def GoodTable (t : List Nat) : Prop := t.length = 96 ∧ ∀ u ∈ t, u < 0xD800 ∧ (u = 0 ∨ 0xA0 ≤ u)

instance (t : List Nat) : Decidable (GoodTable t) := by unfold GoodTable; infer_instance

theorem good_tables : ∀ cp : UInt8, ∀ t ∈ CodePage.upper cp.toNat, GoodTable t := by decide +kernel

theorem u16n (n : Nat) (h : n < 65536) : (UInt16.ofNat n).toNat = n := UInt16.toNat_ofNat_of_lt' h

theorem char_toNat_ofNat {n : Nat} (h : n < 0xD800) : (Char.ofNat n).val.toNat = n := by
  have hv : n.isValidChar := .inl h
  simp only [Char.ofNat, hv, dif_pos, Char.ofNatAux]
  rfl

theorem charUnchecked_ok {u : Nat} (h : u < 0xD800) :
    StringDVB.charUnchecked (UInt16.ofNat u) = .ok (Char.ofNat u) := by
  have h1 : (UInt16.ofNat u).toUInt32.toNat = u := by
    rw [UInt16.toNat_toUInt32, u16n _ (by omega)]
  have h2 : (UInt16.ofNat u).toUInt32.isValidChar := by
    rw [UInt32.isValidChar, h1]; exact .inl h
  rw [StringDVB.charUnchecked, dif_pos h2]
  refine congrArg Except.ok ?_
  apply Char.ext
  apply UInt32.toNat_inj.1
  rw [char_toNat_ofNat h]
  exact h1

theorem shown_cons (t : List Nat) (b : UInt8) (r : List UInt8) : Text.shown t (b :: r) =
    (match Text.charOf t b with
    | some c => [c]
    | none => if b.toNat < 0xA0 then [] else ['?']) ++ Text.shown t r := rfl

/-- The display loop shows what the table says. -/
theorem displayLoop_eq (t : List Nat) (ht : GoodTable t) (data : List UInt8) :
    StringDVB.displayLoop (t.map UInt16.ofNat) data = .ok (Text.shown t data) := by
  induction data with
  | nil => rfl
  | cons b r ih =>
    rw [StringDVB.displayLoop.eq_def, shown_cons]
    simp only [ih, ok_bind, pure_eq_ok, Text.charOf]
    have hb := b.toNat_lt
    have h1 : b ≤ 0x7F ↔ b.toNat < 0x80 := by
      rw [UInt8.le_iff_toNat_le, show (0x7F : UInt8).toNat = 0x7F from rfl]; omega
    have h2 : b ≥ 0xA0 ↔ ¬ b.toNat < 0xA0 := by
      rw [ge_iff_le, UInt8.le_iff_toNat_le, show (0xA0 : UInt8).toNat = 0xA0 from rfl]; omega
    simp only [h1, h2]
    by_cases e1 : b.toNat < 0x80
    · rw [if_pos e1, if_pos e1]; rfl
    rw [if_neg e1, if_neg e1]
    by_cases e2 : b.toNat < 0xA0
    · rw [if_neg (by simpa using e2)]
      simp only [if_pos e2]
      rfl
    · rw [if_pos e2]
      simp only [if_neg e2]
      have hl : b.toNat - 0xA0 < t.length := by rw [ht.1]; omega
      have hg := ht.2 _ (List.getElem_mem hl)
      rw [idx_ok (by rw [List.length_map]; exact hl), List.getElem_map, List.getElem?_eq_getElem hl]
      generalize t[b.toNat - 0xA0] = u at hg ⊢
      simp only [ok_bind]
      by_cases z : u = 0
      · subst z; rfl
      · have hz : ¬ UInt16.ofNat u = 0 := by
          intro h
          have := congrArg UInt16.toNat h
          rw [u16n _ (by omega)] at this
          exact z this
        rw [if_neg hz, charUnchecked_ok hg.1]
        simp only [ok_bind]
        obtain ⟨v, rfl⟩ : ∃ v, u = v + 1 := ⟨u - 1, by omega⟩
        rfl

/-- C80: what `to_string()` gives, for every string: nothing for empty data, the UTF-8 reading for UTF-8, the
characters of the standard's table otherwise - and a panic if there is no such table. -/
theorem C80_display (s : StringDVB) : s.toStringR =
    if s.data = [] then .ok []
    else if s.codepage.toNat = 21 then .ok (StringDVB.fromUtf8Lossy s.data)
    else match CodePage.upper s.codepage.toNat with
      | some t => .ok (Text.shown t s.data)
      | none => panic := by
  obtain ⟨cp, data⟩ := s
  simp only [StringDVB.toStringR, StringDVB.display]
  cases data with
  | nil => rfl
  | cons b r =>
    simp only [List.isEmpty_cons, Bool.false_eq_true, if_false, reduceCtorEq]
    have h21 : cp = UTF8 ↔ cp.toNat = 21 := by rw [← UInt8.toNat_inj]; rfl
    by_cases e : cp = UTF8
    · rw [if_pos e, if_pos (h21.1 e)]; rfl
    · rw [if_neg e, if_neg (fun h => e (h21.2 h)), map_eq]
      cases h : CodePage.upper cp.toNat with
      | none => rfl
      | some t =>
        simp only [Option.map_some, displayLoop_eq t (good_tables cp t h)]
        rfl

example : CodePage.upper 5 = some CodePage.iso8859_5 ∧
    (StringDVB.toStringR ⟨5, [0xB0, 0x21, 0x8A]⟩) = .ok ['А', '!'] := by
  constructor
  · rfl
  · decide +kernel

/-- C28: `to_string()` never passes an invalid scalar value to the unchecked constructor (nor does it diverge). -/
theorem C28_no_undefined_behaviour (s : StringDVB) : s.toStringR ≠ .error .ub ∧ s.toStringR ≠ .error .diverge := by
  rw [C80_display]
  split
  · simp
  split
  · simp
  split <;> simp [panic]

/-- C28: it panics exactly for non-empty text with a codepage number that names no table (12, 16 to 20, 22 and up). -/
theorem C28_panics_iff (s : StringDVB) : s.toStringR = panic ↔
    s.data ≠ [] ∧ (s.codepage.toNat = 12 ∨ (16 ≤ s.codepage.toNat ∧ s.codepage.toNat ≠ 21)) := by
  rw [C80_display]
  have key : ∀ cp : UInt8, (cp.toNat ≠ 21 ∧ CodePage.upper cp.toNat = none) ↔
      (cp.toNat = 12 ∨ (16 ≤ cp.toNat ∧ cp.toNat ≠ 21)) := by decide +kernel
  rw [← key]
  by_cases e1 : s.data = []
  · simp [e1, panic]
  rw [if_neg e1]
  by_cases e2 : s.codepage.toNat = 21
  · simp [e2, panic]
  rw [if_neg e2]
  cases h : CodePage.upper s.codepage.toNat with
  | none => simp [e1, e2]
  | some t => simp [panic]

example : StringDVB.toStringR ⟨12, [0x41]⟩ = panic ∧ StringDVB.toStringR ⟨12, []⟩ = .ok [] := by decide +kernel

/-! ### From text to bytes -/

theorem fromStr_table (cp : UInt8) (t : List Nat) (ht : CodePage.upper cp.toNat = some t) (s : List Char) :
    StringDVB.fromStr s cp = ⟨cp, s.flatMap (StringDVB.encodeChar (t.map UInt16.ofNat))⟩ := by
  have : ∀ cp : UInt8, CodePage.upper cp.toNat ≠ none → cp ≠ UTF8 := by decide +kernel
  have hne := this cp (by rw [ht]; simp)
  rw [StringDVB.fromStr, if_neg hne, map_eq, ht]
  rfl

/-- Position of a character in the table, as the search finds it. -/
theorem find_table (t : List Nat) (ht : GoodTable t) (n : Nat) (hn : n < 0x10000) :
    (∃ v, ∃ h : v < t.length, (t.map UInt16.ofNat).findIdx? (fun u => u == UInt16.ofNat n) = some v ∧ t[v] = n) ∨
    ((t.map UInt16.ofNat).findIdx? (fun u => u == UInt16.ofNat n) = none ∧ n ∉ t) := by
  have eqv : ∀ u ∈ t, (UInt16.ofNat u == UInt16.ofNat n) = true ↔ u = n := by
    intro u hu
    have := (ht.2 u hu).1
    rw [beq_iff_eq, ← UInt16.toNat_inj, u16n _ (by omega), u16n _ (by omega)]
  cases h : (t.map UInt16.ofNat).findIdx? (fun u => u == UInt16.ofNat n) with
  | none =>
    right
    refine ⟨rfl, fun hm => ?_⟩
    rw [List.findIdx?_eq_none_iff] at h
    have := h _ (List.mem_map_of_mem hm)
    rw [(eqv n hm).2 rfl] at this
    cases this
  | some v =>
    left
    rw [List.findIdx?_eq_some_iff_getElem] at h
    obtain ⟨hv, h1, -⟩ := h
    rw [List.length_map] at hv
    rw [List.getElem_map] at h1
    exact ⟨v, hv, rfl, (eqv _ (List.getElem_mem hv)).1 h1⟩

theorem encodeChar_ascii (m : List UInt16) (c : Char) (h : c.val.toNat < 0x80) :
    StringDVB.encodeChar m c = [UInt8.ofNat c.val.toNat] := by
  have e : c.val.toUInt16.toNat = c.val.toNat := by
    rw [UInt32.toNat_toUInt16]; omega
  have h1 : c.val.toUInt16 ≤ 0x007F := by
    rw [UInt16.le_iff_toNat_le, e, show (0x7F : UInt16).toNat = 0x7F from rfl]; omega
  rw [StringDVB.encodeChar, if_pos h1]
  refine congrArg (fun x => [x]) ?_
  apply UInt8.toNat_inj.1
  rw [UInt16.toNat_toUInt8, e, u8n _ (by omega)]
  omega

theorem u16_of_char {c : Char} (h : c.val.toNat < 0x10000) : c.val.toUInt16 = UInt16.ofNat c.val.toNat := by
  apply UInt16.toNat_inj.1
  rw [UInt32.toNat_toUInt16, u16n _ h]; omega

theorem charOf_high (t : List Nat) (ht : GoodTable t) {v : Nat} (hv : v < t.length) (h0 : t[v] ≠ 0) :
    Text.charOf t (UInt8.ofNat v + 0xA0) = some (Char.ofNat t[v]) := by
  have hl := ht.1
  have e : (UInt8.ofNat v + 0xA0).toNat = v + 0xA0 := by
    rw [UInt8.toNat_add, u8n _ (by omega), show (0xA0 : UInt8).toNat = 0xA0 from rfl]; omega
  rw [Text.charOf, e, if_neg (by omega), if_neg (by omega), Nat.add_sub_cancel, List.getElem?_eq_getElem hv]
  generalize t[v] = u at h0
  obtain ⟨w, rfl⟩ : ∃ w, u = w + 1 := ⟨u - 1, by omega⟩
  rfl

/-- The values of characters of the repertoire. -/
theorem inTable_value (t : List Nat) (ht : GoodTable t) (c : Char) (h : Text.InTable t c) :
    c.val.toNat < 0x80 ∨ (0xA0 ≤ c.val.toNat ∧ c.val.toNat < 0xD800 ∧ c.val.toNat ∈ t) := by
  obtain ⟨b, hb⟩ := h
  rw [Text.charOf] at hb
  split at hb
  · left
    simp only [Option.some.injEq] at hb
    rw [← hb, char_toNat_ofNat (by omega)]; assumption
  · split at hb
    · cases hb
    · right
      split at hb
      · cases hb
      · rename_i u hu0 hu
        simp only [Option.some.injEq] at hb
        have hm : u ∈ t := List.mem_of_getElem? hu
        have := ht.2 u hm
        have h0 : u ≠ 0 := hu0
        rw [← hb, char_toNat_ofNat this.1]
        exact ⟨by omega, this.1, hm⟩
      · cases hb

/-- A character of the repertoire is written as one byte that stands for it. -/
theorem encodeChar_inTable (t : List Nat) (ht : GoodTable t) (c : Char) (h : Text.InTable t c) :
    ∃ b, StringDVB.encodeChar (t.map UInt16.ofNat) c = [b] ∧ Text.charOf t b = some c := by
  rcases inTable_value t ht c h with h1 | ⟨h1, h2, hm⟩
  · refine ⟨_, encodeChar_ascii _ c h1, ?_⟩
    rw [Text.charOf, u8n _ (by omega), if_pos h1, char_ofNat c _ rfl]
  · rcases find_table t ht c.val.toNat (by omega) with ⟨v, hv, hf, he⟩ | ⟨-, hn⟩
    · refine ⟨UInt8.ofNat v + 0xA0, ?_, ?_⟩
      · have e := u16_of_char (c := c) (by omega)
        have g1 : ¬ c.val.toUInt16 ≤ 0x007F := by
          rw [UInt16.le_iff_toNat_le, e, u16n _ (by omega), show (0x7F : UInt16).toNat = 0x7F from rfl]; omega
        have g2 : c.val.toUInt16 ≥ 0x00A0 := by
          rw [ge_iff_le, UInt16.le_iff_toNat_le, e, u16n _ (by omega), show (0xA0 : UInt16).toNat = 0xA0 from rfl]; omega
        rw [StringDVB.encodeChar, if_neg g1, if_pos g2, e, hf]
      · rw [charOf_high t ht hv (by omega), he, char_ofNat c _ rfl]
    · exact absurd hm hn

/-- C27: a text over the repertoire of a single-byte table is stored as one byte per character, each standing for its
character, and displays as itself. -/
theorem C27_round_trip (cp : UInt8) (t : List Nat) (ht : CodePage.upper cp.toNat = some t) (s : List Char)
    (hs : ∀ c ∈ s, Text.InTable t c) :
    (StringDVB.fromStr s cp).toStringR = .ok s ∧ (StringDVB.fromStr s cp).codepage = cp ∧
    (StringDVB.fromStr s cp).data.map (Text.charOf t) = s.map some := by
  have hg := good_tables cp t ht
  have hm : (s.flatMap (StringDVB.encodeChar (t.map UInt16.ofNat))).map (Text.charOf t) = s.map some := by
    induction s with
    | nil => rfl
    | cons c s ih =>
      obtain ⟨b, h1, h2⟩ := encodeChar_inTable t hg c (hs c (by simp))
      rw [List.flatMap_cons, h1, List.map_append, ih (fun c hc => hs c (by simp [hc]))]
      simp [h2]
  have hsh : ∀ (l : List UInt8) (s : List Char), l.map (Text.charOf t) = s.map some → Text.shown t l = s := by
    intro l
    induction l with
    | nil => intro s h; cases s with
      | nil => rfl
      | cons => simp at h
    | cons b l ih =>
      intro s h
      cases s with
      | nil => simp at h
      | cons c s =>
        simp only [List.map_cons, List.cons.injEq] at h
        rw [shown_cons, h.1, ih s h.2]
        rfl
  rw [fromStr_table cp t ht]
  refine ⟨?_, rfl, hm⟩
  rw [C80_display]
  simp only [ht]
  have h21 : ∀ cp : UInt8, CodePage.upper cp.toNat ≠ none → ¬ cp.toNat = 21 := by decide +kernel
  rw [if_neg (h21 cp (by rw [ht]; simp)), hsh _ _ hm]
  split
  · rename_i h
    rw [h] at hm
    cases s with
    | nil => rfl
    | cons => simp at hm
  · rfl

example : ∀ c ∈ ['П', 'р', '!'], Text.InTable CodePage.iso8859_5 c := by
  intro c hc
  simp only [List.mem_cons, List.not_mem_nil, or_false] at hc
  rcases hc with rfl | rfl | rfl
  · exact ⟨0xBF, by decide⟩
  · exact ⟨0xE0, by decide⟩
  · exact ⟨0x21, by decide⟩

/-- C27: in UTF-8 every text is stored as its UTF-8 bytes and displays as itself. -/
theorem C27_utf8 (s : List Char) :
    StringDVB.fromStr s 21 = ⟨21, Text.utf8 s⟩ ∧ (StringDVB.fromStr s 21).toStringR = .ok s := by
  have e : StringDVB.fromStr s 21 = ⟨21, Text.utf8 s⟩ := rfl
  refine ⟨e, ?_⟩
  rw [e, C80_display]
  simp only [show (21 : UInt8).toNat = 21 from rfl, if_true, lossy_utf8]
  split
  · rename_i h
    have := lossy_utf8 s
    rw [h] at this
    exact congrArg _ this
  · rfl

/-- C27: asking for a codepage that names no table gives UTF-8. -/
theorem C27_unknown_codepage (s : List Char) (cp : UInt8) (h : CodePage.upper cp.toNat = none) :
    StringDVB.fromStr s cp = StringDVB.fromStr s 21 := by
  have e : StringDVB.fromStr s 21 = ⟨21, Text.utf8 s⟩ := rfl
  rw [e, StringDVB.fromStr]
  split
  · rename_i h'; rw [h']; rfl
  · rw [map_eq, h]; rfl

/-- Text is converted character by character. -/
theorem C27_append (a b : List Char) (cp : UInt8) :
    (StringDVB.fromStr (a ++ b) cp).data = (StringDVB.fromStr a cp).data ++ (StringDVB.fromStr b cp).data := by
  cases h : CodePage.upper cp.toNat with
  | none =>
    rw [C27_unknown_codepage _ _ h, C27_unknown_codepage _ _ h, C27_unknown_codepage _ _ h]
    simp only [C27_utf8, Text.utf8, List.flatMap_append]
  | some t => simp only [fromStr_table cp t h, List.flatMap_append]

theorem char_eq_iff (c d : Char) : c = d ↔ c.val.toNat = d.val.toNat := by
  rw [Char.ext_iff, ← UInt32.toNat_inj]

/-- C27, for characters up to U+FFFF other than the C1 controls: a character that the table lacks is replaced as
documented: typographic quotes by plain quotes, the ellipsis by three dots, everything else by `?`. -/
theorem C27_replacement_partial (cp : UInt8) (t : List Nat) (ht : CodePage.upper cp.toNat = some t) (a b : List Char) (c : Char)
    (h1 : 0xA0 ≤ c.val.toNat) (h2 : c.val.toNat < 0x10000) (hc : ¬ Text.InTable t c) :
    (StringDVB.fromStr (a ++ c :: b) cp).data =
      (StringDVB.fromStr a cp).data ++ Text.substitute c ++ (StringDVB.fromStr b cp).data := by
  have hg := good_tables cp t ht
  have key : StringDVB.encodeChar (t.map UInt16.ofNat) c = Text.substitute c := by
    rcases find_table t hg c.val.toNat h2 with ⟨v, hv, hf, he⟩ | ⟨hf, -⟩
    · exact absurd ⟨_, by rw [charOf_high t hg hv (by omega), he, char_ofNat c _ rfl]⟩ hc
    · have e := u16_of_char (c := c) h2
      have g1 : ¬ c.val.toUInt16 ≤ 0x007F := by
        rw [UInt16.le_iff_toNat_le, e, u16n _ (by omega), show (0x7F : UInt16).toNat = 0x7F from rfl]; omega
      have g2 : c.val.toUInt16 ≥ 0x00A0 := by
        rw [ge_iff_le, UInt16.le_iff_toNat_le, e, u16n _ (by omega), show (0xA0 : UInt16).toNat = 0xA0 from rfl]; omega
      rw [StringDVB.encodeChar, if_neg g1, if_pos g2, e, hf]
      simp only [← UInt16.toNat_inj, u16n _ h2, UInt16.reduceToNat, Text.substitute, char_eq_iff]
      simp only [show '«'.val.toNat = 0xAB from rfl, show '»'.val.toNat = 0xBB from rfl,
        show '“'.val.toNat = 0x201C from rfl, show '”'.val.toNat = 0x201D from rfl, show '‟'.val.toNat = 0x201F from rfl,
        show '‘'.val.toNat = 0x2018 from rfl, show '’'.val.toNat = 0x2019 from rfl, show '‛'.val.toNat = 0x201B from rfl,
        show '…'.val.toNat = 0x2026 from rfl]
      generalize c.val.toNat = n
      repeat' split
      all_goals first | rfl | omega
  rw [C27_append, fromStr_table cp t ht (c :: b), fromStr_table cp t ht b, List.flatMap_cons, key, List.append_assoc]

example : ¬ Text.InTable CodePage.iso8859_5 '“' := by
  intro h
  have := inTable_value _ (good_tables 5 _ rfl) _ h
  revert this
  decide +kernel

example : Text.substitute '“' = [0x22] ∧ Text.substitute '…' = [0x2E, 0x2E, 0x2E] ∧ Text.substitute 'Ж' = [0x3F] := by
  decide

/-- C27 is false beyond U+FFFF: the upper bits of the character are dropped before it is looked up, so U+10000 + n is
stored as the ASCII character n instead of being replaced by `?`. -/
theorem C27_astral_refuted (cp : UInt8) (t : List Nat) (ht : CodePage.upper cp.toNat = some t) (c : Char)
    (h : 0x10000 ≤ c.val.toNat) (hl : c.val.toNat % 0x10000 < 0x80) :
    StringDVB.fromStr [c] cp = StringDVB.fromStr [Char.ofNat (c.val.toNat % 0x10000)] cp ∧
    (StringDVB.fromStr [c] cp).data = [UInt8.ofNat (c.val.toNat % 0x10000)] ∧
    ¬ Text.InTable t c ∧ ((StringDVB.fromStr [c] cp).data = Text.substitute c ↔ c.val.toNat % 0x10000 = 0x3F) := by
  have hg := good_tables cp t ht
  have hb : StringDVB.encodeChar (t.map UInt16.ofNat) c = [UInt8.ofNat (c.val.toNat % 0x10000)] := by
    have e : c.val.toUInt16.toNat = c.val.toNat % 0x10000 := UInt32.toNat_toUInt16 _
    have g1 : c.val.toUInt16 ≤ 0x007F := by
      rw [UInt16.le_iff_toNat_le, e, show (0x7F : UInt16).toNat = 0x7F from rfl]; omega
    rw [StringDVB.encodeChar, if_pos g1]
    refine congrArg (fun x => [x]) ?_
    apply UInt8.toNat_inj.1
    rw [UInt16.toNat_toUInt8, e, u8n _ (by omega)]
    omega
  have hd : (StringDVB.fromStr [c] cp).data = [UInt8.ofNat (c.val.toNat % 0x10000)] := by
    rw [fromStr_table cp t ht]
    simp only [List.flatMap_cons, List.flatMap_nil, List.append_nil, hb]
  refine ⟨?_, hd, ?_, ?_⟩
  · rw [fromStr_table cp t ht, fromStr_table cp t ht]
    simp only [List.flatMap_cons, List.flatMap_nil, List.append_nil, hb]
    rw [encodeChar_ascii _ _ (by rw [char_toNat_ofNat (by omega)]; exact hl), char_toNat_ofNat (by omega)]
  · intro hi
    rcases inTable_value t hg c hi with h1 | h1 <;> omega
  · rw [hd]
    have : Text.substitute c = [0x3F] := by
      simp only [Text.substitute, char_eq_iff]
      simp only [show '«'.val.toNat = 0xAB from rfl, show '»'.val.toNat = 0xBB from rfl,
        show '“'.val.toNat = 0x201C from rfl, show '”'.val.toNat = 0x201D from rfl, show '‟'.val.toNat = 0x201F from rfl,
        show '‘'.val.toNat = 0x2018 from rfl, show '’'.val.toNat = 0x2019 from rfl, show '‛'.val.toNat = 0x201B from rfl,
        show '…'.val.toNat = 0x2026 from rfl]
      rw [if_neg (by omega), if_neg (by omega), if_neg (by omega)]
      rfl
    rw [this, List.cons.injEq, ← UInt8.toNat_inj, u8n _ (by omega)]
    simp

/-- C27 is false beyond U+FFFF, for every character: it is stored, in any text, as the character of its lower 16 bits would be; where
these are no character (surrogates) it is replaced by `?` as documented. -/
theorem C27_astral_any_refuted (cp : UInt8) (t : List Nat) (ht : CodePage.upper cp.toNat = some t) (a b : List Char) (c : Char)
    (h : 0x10000 ≤ c.val.toNat) :
    ((c.val.toNat % 0x10000 < 0xD800 ∨ 0xE000 ≤ c.val.toNat % 0x10000) →
      StringDVB.fromStr (a ++ c :: b) cp = StringDVB.fromStr (a ++ Char.ofNat (c.val.toNat % 0x10000) :: b) cp) ∧
    ((0xD800 ≤ c.val.toNat % 0x10000 ∧ c.val.toNat % 0x10000 < 0xE000) →
      StringDVB.fromStr (a ++ c :: b) cp = StringDVB.fromStr (a ++ '?' :: b) cp) := by
  have hg := good_tables cp t ht
  have e : c.val.toUInt16.toNat = c.val.toNat % 0x10000 := UInt32.toNat_toUInt16 _
  constructor
  · intro hl
    have hv : (c.val.toNat % 0x10000).isValidChar := by
      rcases hl with hl | hl
      · exact .inl hl
      · exact .inr ⟨by omega, by omega⟩
    have ev : (Char.ofNat (c.val.toNat % 0x10000)).val.toNat = c.val.toNat % 0x10000 := by
      simp only [Char.ofNat, hv, dif_pos, Char.ofNatAux]
      rfl
    have e' : c.val.toUInt16 = (Char.ofNat (c.val.toNat % 0x10000)).val.toUInt16 := by
      apply UInt16.toNat_inj.1
      rw [e, UInt32.toNat_toUInt16, ev]
      omega
    rw [fromStr_table cp t ht, fromStr_table cp t ht]
    simp only [List.flatMap_append, List.flatMap_cons, StringDVB.encodeChar, ← e']
  · intro hl
    have hk : StringDVB.encodeChar (t.map UInt16.ofNat) c = [0x3F] := by
      have eo : c.val.toUInt16 = UInt16.ofNat (c.val.toNat % 0x10000) := by
        apply UInt16.toNat_inj.1
        rw [e, u16n _ (by omega)]
      have hf : (t.map UInt16.ofNat).findIdx? (fun u => u == UInt16.ofNat (c.val.toNat % 0x10000)) = none := by
        rcases find_table t hg (c.val.toNat % 0x10000) (by omega) with ⟨v, hv, hf, he⟩ | ⟨hf, -⟩
        · have := (hg.2 t[v] (List.getElem_mem hv)).1
          omega
        · exact hf
      have g1 : ¬ c.val.toUInt16 ≤ 0x007F := by
        rw [UInt16.le_iff_toNat_le, e, show (0x7F : UInt16).toNat = 0x7F from rfl]; omega
      have g2 : c.val.toUInt16 ≥ 0x00A0 := by
        rw [ge_iff_le, UInt16.le_iff_toNat_le, e, show (0xA0 : UInt16).toNat = 0xA0 from rfl]; omega
      rw [StringDVB.encodeChar, if_neg g1, if_pos g2, eo, hf]
      simp only [← UInt16.toNat_inj, u16n _ (show c.val.toNat % 0x10000 < 65536 by omega), UInt16.reduceToNat]
      generalize c.val.toNat % 0x10000 = n at *
      repeat' split
      all_goals first | rfl | omega
    rw [fromStr_table cp t ht, fromStr_table cp t ht]
    simp only [List.flatMap_append, List.flatMap_cons, hk]
    rw [encodeChar_ascii _ '?' (by decide)]
    rfl

example : (StringDVB.fromStr ['a', Char.ofNat 0x10416] 5).data = [0x61, 0xB6] ∧ (StringDVB.fromStr ['a', 'Ж'] 5).data = [0x61, 0xB6] ∧
    (StringDVB.fromStr [Char.ofNat 0x1D800] 5).data = [0x3F] := by decide +kernel

example : (StringDVB.fromStr [Char.ofNat 0x10041] 5).data = [0x41] := by decide +kernel

/-- C27 is false for the C1 control characters: they are dropped without replacement. -/
theorem C27_c1_refuted (cp : UInt8) (t : List Nat) (ht : CodePage.upper cp.toNat = some t) (c : Char)
    (h1 : 0x80 ≤ c.val.toNat) (h2 : c.val.toNat < 0xA0) :
    (StringDVB.fromStr [c] cp).data = [] ∧ ¬ Text.InTable t c := by
  constructor
  · rw [fromStr_table cp t ht]
    simp only [List.flatMap_cons, List.flatMap_nil, List.append_nil]
    have e := u16_of_char (c := c) (by omega)
    have g1 : ¬ c.val.toUInt16 ≤ 0x007F := by
      rw [UInt16.le_iff_toNat_le, e, u16n _ (by omega), show (0x7F : UInt16).toNat = 0x7F from rfl]; omega
    have g2 : ¬ c.val.toUInt16 ≥ 0x00A0 := by
      rw [ge_iff_le, UInt16.le_iff_toNat_le, e, u16n _ (by omega), show (0xA0 : UInt16).toNat = 0xA0 from rfl]; omega
    rw [StringDVB.encodeChar, if_neg g1, if_neg g2]
  · intro hi
    rcases inTable_value t (good_tables cp t ht) c hi with h1 | h1 <;> omega

example : (StringDVB.fromStr ['\u0085'] 5).data = [] := by decide +kernel

end Mpegts
