import Verif.Props.C80
import Verif.Spec.ForeignText

/-! # C115: texts as other senders write them -/

namespace Mpegts
open Spec

/-! ### Selecting a table -/

/-- C115: a text in ISO 8859, announced by either of the standard's selectors, displays as the characters of its part. -/
theorem C115_iso8859 (n : Nat) (t : List Nat) (sel data : List UInt8) (hs : ForeignText.Selects n sel)
    (ht : CodePage.upper n = some t) (hne : data ≠ []) :
    StringDVB.ofBytes (sel ++ data) = ⟨UInt8.ofNat n, data⟩ ∧
    (StringDVB.ofBytes (sel ++ data)).toStringR = .ok (Text.shown t data) := by
  have hn : n ≤ 15 := by cases hs <;> omega
  have e : StringDVB.ofBytes (sel ++ data) = ⟨UInt8.ofNat n, data⟩ := by
    cases hs with
    | short h =>
      have key : ∀ k : Nat, 5 ≤ k → k ≤ 15 → UInt8.ofNat (k - 4) ≠ UTF8 ∧ ¬ UInt8.ofNat (k - 4) ≥ 0x20 ∧
          UInt8.ofNat (k - 4) < 0x10 ∧ UInt8.ofNat (k - 4) + 4 = UInt8.ofNat k := by
        intro k h1 h2
        have : ∀ k ∈ List.range 16, 5 ≤ k → UInt8.ofNat (k - 4) ≠ UTF8 ∧ ¬ UInt8.ofNat (k - 4) ≥ 0x20 ∧
          UInt8.ofNat (k - 4) < 0x10 ∧ UInt8.ofNat (k - 4) + 4 = UInt8.ofNat k := by decide
        exact this k (List.mem_range.2 (by omega)) h1
      obtain ⟨k1, k2, k3, k4⟩ := key n h.1 h.2
      rw [List.cons_append, List.nil_append, StringDVB.ofBytes, if_neg k1, if_neg k2, if_pos k3, k4]
    | long h =>
      show StringDVB.ofBytes (0x10 :: 0x00 :: UInt8.ofNat n :: data) = _
      rw [StringDVB.ofBytes, if_neg (by decide), if_neg (by decide), if_neg (by decide), if_pos ⟨rfl, by simp⟩]
      rfl
  refine ⟨e, ?_⟩
  have en : (UInt8.ofNat n).toNat = n := UInt8.toNat_ofNat_of_lt' (show n < 256 by omega)
  rw [e, C80_display]
  simp only [hne, if_false, en, if_neg (show n ≠ 21 by omega), ht]

/-- C115: a text in UTF-8 displays as itself. -/
theorem C115_utf8 (s : List Char) : (StringDVB.ofBytes (0x15 :: Text.utf8 s)).toStringR = .ok s := by
  have e : StringDVB.ofBytes (0x15 :: Text.utf8 s) = StringDVB.fromStr s 21 := rfl
  rw [e, (C27_utf8 s).2]

/-- C115 is false for the tables of Chinese, Japanese and Korean texts (selectors `11` to `14`) and for reserved
selectors from `16` on: whatever the text, a single question mark is left of it. -/
theorem C115_wide_refuted (sel : UInt8) (data : List UInt8) (h : 0x11 ≤ sel.toNat ∧ sel.toNat < 0x20 ∧ sel.toNat ≠ 0x15) :
    StringDVB.ofBytes (sel :: data) = ⟨0, [0x3F]⟩ ∧ (StringDVB.ofBytes (sel :: data)).toStringR = .ok ['?'] := by
  have key : ∀ s : UInt8, 0x11 ≤ s.toNat ∧ s.toNat < 0x20 ∧ s.toNat ≠ 0x15 →
      s ≠ UTF8 ∧ ¬ s ≥ 0x20 ∧ ¬ s < 0x10 ∧ s ≠ 0x10 := by decide +kernel
  obtain ⟨k1, k2, k3, k4⟩ := key sel h
  have e : StringDVB.ofBytes (sel :: data) = ⟨0, [0x3F]⟩ := by
    rw [StringDVB.ofBytes, if_neg k1, if_neg k2, if_neg k3, if_neg (fun hh => k4 hh.1)]
  refine ⟨e, ?_⟩
  rw [e]
  decide +kernel

/-- C115: exactly these byte strings make `to_string()` panic: a non-empty text after the reserved selectors `08` and `0C` to
`0F`, or after `10 xx nn` where `nn` is no part of ISO 8859 (and not 0 or 21). -/
theorem C115_panics_refuted (l : List UInt8) : (StringDVB.ofBytes l).toStringR = panic ↔
    (∃ sel b r, l = sel :: b :: r ∧ (sel.toNat = 0x08 ∨ (0x0C ≤ sel.toNat ∧ sel.toNat ≤ 0x0F))) ∨
    (∃ x n b r, l = 0x10 :: x :: n :: b :: r ∧ (n.toNat = 12 ∨ (16 ≤ n.toNat ∧ n.toNat ≠ 21))) := by
  rw [C28_panics_iff]
  match l with
  | [] => simp [StringDVB.ofBytes, StringDVB.default]
  | b0 :: rest =>
    rw [StringDVB.ofBytes]
    by_cases h1 : b0 = UTF8
    · rw [if_pos h1]
      subst h1
      simp [UTF8]
    rw [if_neg h1]
    by_cases h2 : b0 ≥ 0x20
    · rw [if_pos h2]
      have n2 : 0x20 ≤ b0.toNat := by simpa [UInt8.le_iff_toNat_le] using h2
      have n0 : b0 ≠ 0x10 := by rintro rfl; simp at n2
      constructor
      · rintro ⟨-, h⟩; simp at h
      · rintro (⟨s, b, r, e, h⟩ | ⟨x, n, b, r, e, h⟩)
        · rw [List.cons.injEq] at e; rw [e.1] at n2; omega
        · rw [List.cons.injEq] at e; exact absurd e.1 n0
    rw [if_neg h2]
    by_cases h3 : b0 < 0x10
    · rw [if_pos h3]
      have key : ∀ b : UInt8, b < 0x10 → (((b + 4).toNat = 12 ∨ (16 ≤ (b + 4).toNat ∧ (b + 4).toNat ≠ 21)) ↔
          (b.toNat = 0x08 ∨ (0x0C ≤ b.toNat ∧ b.toNat ≤ 0x0F))) ∧ b ≠ 0x10 := by decide +kernel
      obtain ⟨k1, k2⟩ := key b0 h3
      constructor
      · rintro ⟨hd, h⟩
        left
        match rest with
        | [] => exact absurd rfl hd
        | b :: r => exact ⟨b0, b, r, rfl, k1.1 h⟩
      · rintro (⟨s, b, r, e, h⟩ | ⟨x, n, b, r, e, h⟩)
        · rw [List.cons.injEq] at e
          refine ⟨by simp [e.2], k1.2 (by rw [e.1]; exact h)⟩
        · rw [List.cons.injEq] at e; exact absurd e.1 k2
    rw [if_neg h3]
    by_cases h4 : b0 = 0x10 ∧ (b0 :: rest).length ≥ 3
    · rw [if_pos h4]
      obtain ⟨rfl, h4⟩ := h4
      match rest with
      | x :: n :: more =>
        constructor
        · rintro ⟨hd, h⟩
          right
          match more with
          | [] => exact absurd rfl hd
          | b :: r => exact ⟨x, n, b, r, rfl, h⟩
        · rintro (⟨s, b, r, e, h⟩ | ⟨x', n', b, r, e, h⟩)
          · rw [List.cons.injEq] at e; rw [← e.1] at h; simp at h
          · simp only [List.cons.injEq, true_and] at e
            obtain ⟨-, rfl, rfl⟩ := e
            exact ⟨by simp, h⟩
      | [x] => simp at h4
      | [] => simp at h4
    · rw [if_neg h4]
      constructor
      · rintro ⟨-, h⟩; simp at h
      · have nb : 0x10 ≤ b0.toNat := by
          rw [UInt8.lt_iff_toNat_lt] at h3; simp at h3; omega
        rintro (⟨s, b, r, e, h⟩ | ⟨x, n, b, r, e, h⟩)
        · rw [List.cons.injEq] at e; rw [e.1] at nb; omega
        · rw [List.cons.injEq] at e
          exact absurd ⟨e.1, by simp [e.2]⟩ h4

/-! ### The default table -/

theorem ofBytes_default (b : UInt8) (r : List UInt8) (h : 0x20 ≤ b.toNat) : StringDVB.ofBytes (b :: r) = ⟨0, b :: r⟩ := by
  have key : ∀ b : UInt8, 0x20 ≤ b.toNat → b ≠ UTF8 ∧ b ≥ 0x20 := by decide +kernel
  obtain ⟨k1, k2⟩ := key b h
  rw [StringDVB.ofBytes, if_neg k1, if_pos k2]

theorem glyph_shown (g : ForeignText.Glyph) (h : g.Valid) : Text.shown CodePage.iso6937 g.bytes = g.markFirst := by
  have one : ∀ b : UInt8, Text.charOf CodePage.iso6937 b ≠ none →
      Text.shown CodePage.iso6937 [b] = [ForeignText.glyphChar b] := by
    intro b hb
    rw [Text.shown, List.flatMap_cons, List.flatMap_nil, List.append_nil, ForeignText.glyphChar]
    cases hc : Text.charOf CodePage.iso6937 b with
    | none => exact absurd hc hb
    | some c => rfl
  cases g with
  | plain b => exact one b h.2.1
  | accented m l =>
    have km : ∀ b : UInt8, (0xC1 ≤ b.toNat ∧ b.toNat ≤ 0xCF ∧ b.toNat ≠ 0xC9 ∧ b.toNat ≠ 0xCC) →
        Text.charOf CodePage.iso6937 b ≠ none := by decide +kernel
    have kl : ∀ b : UInt8, ((0x41 ≤ b.toNat ∧ b.toNat ≤ 0x5A) ∨ (0x61 ≤ b.toNat ∧ b.toNat ≤ 0x7A)) →
        Text.charOf CodePage.iso6937 b ≠ none := by decide +kernel
    have : ForeignText.Glyph.bytes (.accented m l) = [m] ++ [l] := rfl
    rw [this, Text.shown, List.flatMap_append]
    have e1 := one m (km m h.1)
    have e2 := one l (kl l h.2)
    rw [Text.shown] at e1 e2
    rw [e1, e2]
    rfl

/-- C115 is false for accented letters in the default table: `to_string()` puts the accent in front of its letter, where
Unicode attaches it to the character before.  Exactly the texts without accents display right. -/
theorem C115_accents_refuted (gs : List ForeignText.Glyph) (h : ∀ g ∈ gs, g.Valid) :
    (StringDVB.ofBytes (gs.flatMap (·.bytes))).toStringR = .ok (gs.flatMap (·.markFirst)) ∧
    ((StringDVB.ofBytes (gs.flatMap (·.bytes))).toStringR = .ok (gs.flatMap (·.text)) ↔ ∀ g ∈ gs, g.isPlain) := by
  have e : (StringDVB.ofBytes (gs.flatMap (·.bytes))).toStringR = .ok (gs.flatMap (·.markFirst)) := by
    have sh : Text.shown CodePage.iso6937 (gs.flatMap (·.bytes)) = gs.flatMap (·.markFirst) := by
      induction gs with
      | nil => rfl
      | cons g gs ih =>
        rw [List.flatMap_cons, List.flatMap_cons, ← ih (fun g hg => h g (List.mem_cons_of_mem _ hg)),
          ← glyph_shown g (h g List.mem_cons_self), Text.shown, List.flatMap_append]
        rfl
    cases gs with
    | nil => rfl
    | cons g gs =>
      have hb : ∃ b r, (g :: gs).flatMap (·.bytes) = b :: r ∧ 0x20 ≤ b.toNat := by
        have hg := h g List.mem_cons_self
        cases g with
        | plain b => exact ⟨b, _, rfl, hg.1⟩
        | accented m l => exact ⟨m, _, rfl, by have := hg.1.1; omega⟩
      obtain ⟨b, r, e1, hb⟩ := hb
      rw [e1] at sh ⊢
      rw [ofBytes_default b r hb, C80_display]
      simp only [reduceCtorEq, if_false]
      rw [← sh]
      rfl
  refine ⟨e, ?_⟩
  rw [e]
  have lt : ∀ g : ForeignText.Glyph, g.isPlain → g.markFirst = g.text := by
    intro g hg
    cases g with
    | plain b => rfl
    | accented m l => exact hg.elim
  constructor
  · intro heq
    replace heq := Except.ok.inj heq
    clear e
    induction gs with
    | nil => simp
    | cons g gs ih =>
      rw [List.flatMap_cons, List.flatMap_cons] at heq
      have hg : g.isPlain := by
        cases g with
        | plain b => trivial
        | accented m l =>
          exfalso
          have hv : (ForeignText.Glyph.accented m l).Valid := h _ List.mem_cons_self
          have km : ∀ b : UInt8, (0xC1 ≤ b.toNat ∧ b.toNat ≤ 0xCF ∧ b.toNat ≠ 0xC9 ∧ b.toNat ≠ 0xCC) →
              0x300 ≤ (ForeignText.glyphChar b).val.toNat := by decide +kernel
          have kl : ∀ b : UInt8, ((0x41 ≤ b.toNat ∧ b.toNat ≤ 0x5A) ∨ (0x61 ≤ b.toNat ∧ b.toNat ≤ 0x7A)) →
              (ForeignText.glyphChar b).val.toNat < 0x300 := by decide +kernel
          have := (List.cons.inj heq).1
          have h1 := km m hv.1
          have h2 := kl l hv.2
          rw [this] at h1
          omega
      rw [lt g hg] at heq
      intro g' hg'
      rcases List.mem_cons.1 hg' with rfl | hm
      · exact hg
      · exact ih (fun g hg => h g (List.mem_cons_of_mem _ hg)) (List.append_cancel_left heq) g' hm
  · intro hp
    congr 1
    clear e h
    induction gs with
    | nil => rfl
    | cons g gs ih =>
      rw [List.flatMap_cons, List.flatMap_cons, lt g (hp g List.mem_cons_self),
        ih (fun g hg => hp g (List.mem_cons_of_mem _ hg))]

/-- C115 for sending: the accented letters of western European languages are all in the default table, but `from_str` writes a
question mark for every one of them. -/
theorem C115_letters_refuted (a b : List Char) (c : Char) (m l : UInt8) (h : (c, m, l) ∈ ForeignText.accentedLetters) :
    (ForeignText.Glyph.accented m l).Valid ∧
    (StringDVB.fromStr (a ++ c :: b) 0).data =
      (StringDVB.fromStr a 0).data ++ [0x3F] ++ (StringDVB.fromStr b 0).data := by
  have key : ∀ x ∈ ForeignText.accentedLetters, ((0xC1 ≤ x.2.1.toNat ∧ x.2.1.toNat ≤ 0xCF ∧ x.2.1.toNat ≠ 0xC9 ∧ x.2.1.toNat ≠ 0xCC) ∧
      ((0x41 ≤ x.2.2.toNat ∧ x.2.2.toNat ≤ 0x5A) ∨ (0x61 ≤ x.2.2.toNat ∧ x.2.2.toNat ≤ 0x7A))) ∧
      0xA0 ≤ x.1.val.toNat ∧ x.1.val.toNat < 0x10000 ∧ Text.substitute x.1 = [0x3F] ∧
      ∀ b : UInt8, Text.charOf CodePage.iso6937 b ≠ some x.1 := by decide +kernel
  obtain ⟨k1, k2, k3, k4, k5⟩ := key _ h
  refine ⟨k1, ?_⟩
  rw [C27_replacement_partial 0 CodePage.iso6937 rfl a b c k2 k3 (fun ⟨v, hv⟩ => k5 v hv), k4]

/-! ### Line breaks -/

/-- C115 is false for line breaks (`8A`): they vanish, and the words before and after are joined.  Exactly the texts without
line break display right. -/
theorem C115_newline_refuted (n : Nat) (t : List Nat) (ht : CodePage.upper n = some t) (data : List UInt8)
    (hc : ForeignText.Covered t data) :
    (⟨UInt8.ofNat n, data⟩ : StringDVB).toStringR = .ok (ForeignText.lines t (data.filter (· ≠ 0x8A))) ∧
    ((⟨UInt8.ofNat n, data⟩ : StringDVB).toStringR = .ok (ForeignText.lines t data) ↔ (0x8A : UInt8) ∉ data) := by
  have hn : n ≤ 15 := by
    match n with
    | 0 | 1 | 2 | 3 | 4 | 5 | 6 | 7 | 8 | 9 | 10 | 11 | 12 | 13 | 14 | 15 => omega
    | n + 16 => simp [CodePage.upper] at ht
  have en : (UInt8.ofNat n).toNat = n := UInt8.toNat_ofNat_of_lt' (show n < 256 by omega)
  have sh : Text.shown t data = ForeignText.lines t (data.filter (· ≠ 0x8A)) := by
    clear ht
    induction data with
    | nil => rfl
    | cons b r ih =>
      have ih := ih (fun x hx => hc x (List.mem_cons_of_mem _ hx))
      rw [Text.shown, List.flatMap_cons]
      rw [Text.shown] at ih
      rw [ih]
      by_cases hb : b = 0x8A
      · subst hb
        rfl
      · rw [List.filter_cons, if_pos (c := decide (b ≠ 0x8A) = true) (by simpa using hb), ForeignText.lines, ForeignText.lines, List.flatMap_cons,
          if_neg hb]
        congr 1
        rcases hc b List.mem_cons_self with h | h
        · cases hch : Text.charOf t b with
          | none => simp only [if_pos h.2]
          | some c => rfl
        · cases hch : Text.charOf t b with
          | none => exact absurd hch h
          | some c => rfl
  have e : (⟨UInt8.ofNat n, data⟩ : StringDVB).toStringR = .ok (ForeignText.lines t (data.filter (· ≠ 0x8A))) := by
    rw [C80_display, ← sh]
    by_cases h0 : data = []
    · simp only [h0, if_true]; rfl
    · simp only [h0, if_false, en, if_neg (show n ≠ 21 by omega), ht]
  refine ⟨e, ?_⟩
  rw [e]
  constructor
  · intro heq hm
    have := congrArg List.length (Except.ok.inj heq)
    clear e sh heq hc
    have le : ∀ d : List UInt8, (ForeignText.lines t (d.filter (· ≠ 0x8A))).length ≤ (ForeignText.lines t d).length := by
      intro d
      induction d with
      | nil => exact Nat.le_refl _
      | cons b r ih =>
        have cons : ∀ (x : UInt8) (y : List UInt8), (ForeignText.lines t (x :: y)).length =
            (ForeignText.lines t [x]).length + (ForeignText.lines t y).length := by
          intro x y
          simp [ForeignText.lines]
        rw [cons b r, List.filter_cons]
        split
        · rw [cons]; omega
        · omega
    obtain ⟨x, y, rfl⟩ := List.append_of_mem hm
    have app : ∀ x y : List UInt8, (ForeignText.lines t (x ++ y)).length =
        (ForeignText.lines t x).length + (ForeignText.lines t y).length := by
      intro x y
      simp [ForeignText.lines]
    have c1 : ∀ y : List UInt8, (ForeignText.lines t (0x8A :: y)).length = 1 + (ForeignText.lines t y).length := by
      intro y
      rw [ForeignText.lines, ForeignText.lines, List.flatMap_cons, List.length_append]
      rfl
    rw [List.filter_append, app, app, c1, List.filter_cons, if_neg (by simp)] at this
    have h1 := le x
    have h2 := le y
    omega
  · intro hm
    rw [List.filter_eq_self.2]
    intro b hb
    simp only [ne_eq, decide_eq_true_eq]
    rintro rfl
    exact hm hb

/-- C115 is false for the control codes of UTF-8 texts: they display as characters of the private use area.  Exactly the texts
without control codes display right. -/
theorem C115_utf8_newline_refuted (s : List Char) :
    (StringDVB.ofBytes (0x15 :: Text.utf8 s)).toStringR = .ok (ForeignText.linesUtf8 s) ↔ ∀ c ∈ s, ¬ ForeignText.isControl c := by
  rw [C115_utf8]
  have ctl : ForeignText.isControl (Char.ofNat 0xE08A) := by decide
  constructor
  · intro heq c hc hi
    replace heq : s = ForeignText.linesUtf8 s := Except.ok.inj heq
    have : c ∈ ForeignText.linesUtf8 s := heq ▸ hc
    obtain ⟨x, -, hx⟩ := List.mem_flatMap.1 this
    by_cases h1 : x = Char.ofNat 0xE08A
    · rw [if_pos h1, List.mem_singleton] at hx
      rw [hx] at hi
      revert hi; decide
    · rw [if_neg h1] at hx
      by_cases h2 : ForeignText.isControl x
      · rw [if_pos h2] at hx; cases hx
      · rw [if_neg h2, List.mem_singleton] at hx
        exact h2 (hx ▸ hi)
  · intro h
    congr 1
    rw [ForeignText.linesUtf8]
    induction s with
    | nil => rfl
    | cons c s ih =>
      have hc := h c List.mem_cons_self
      rw [List.flatMap_cons, if_neg (fun e : c = Char.ofNat 0xE08A => hc (by rw [e]; exact ctl)), if_neg hc,
        ← ih (fun c hc => h c (List.mem_cons_of_mem _ hc))]
      rfl

/-! ### Concrete cases -/

/-- "Café" as a broadcaster sends it in the default table. -/
example : (StringDVB.ofBytes [0x43, 0x61, 0x66, 0xC2, 0x65]).toStringR = .ok ['C', 'a', 'f', '́', 'e'] ∧
    (∀ g ∈ [ForeignText.Glyph.plain 0x43, .plain 0x61, .plain 0x66, .accented 0xC2 0x65], g.Valid) := by
  refine ⟨by decide +kernel, ?_⟩
  simp only [List.mem_cons, List.not_mem_nil, or_false, forall_eq_or_imp, forall_eq, ForeignText.Glyph.Valid,
    ForeignText.isAccent, ForeignText.isLetter]
  decide +kernel

/-- Two lines in ISO 8859-5. -/
example : (StringDVB.ofBytes [0x01, 0xB7, 0xB8, 0x8A, 0xBC]).toStringR = .ok ['З', 'И', 'М'] ∧
    ForeignText.lines CodePage.iso8859_5 [0xB7, 0xB8, 0x8A, 0xBC] = ['З', 'И', '\n', 'М'] := by decide +kernel

example : ForeignText.Selects 5 [0x01] ∧ ForeignText.Selects 5 [0x10, 0x00, 0x05] :=
  ⟨.short 5 (by decide), .long 5 (by decide)⟩

end Mpegts
