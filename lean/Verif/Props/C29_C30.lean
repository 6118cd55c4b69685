import Verif.Props.C23_C26
import Verif.Props.C27_C28

/-! # C29, C30: shortening and splitting DVB strings -/

namespace Mpegts
open Spec

/-! ### C29 -/

/-- C29: a string of at most `n` data bytes is left alone. -/
theorem C29_short (p : Profile) (s : StringDVB) (n : Nat) (h : s.data.length ≤ n) : s.truncate p n = .ok s := by
  rw [StringDVB.truncate, if_neg (by omega)]
  rfl

/-- C29, for `n ≥ 3`: a longer string becomes its first `n - 3` bytes and "...", `n` bytes in all. -/
theorem C29_long_partial (p : Profile) (s : StringDVB) (n : Nat) (hn : 3 ≤ n) (h : n < s.data.length) :
    s.truncate p n = .ok ⟨s.codepage, s.data.take (n - 3) ++ [0x2E, 0x2E, 0x2E]⟩ ∧
    (s.data.take (n - 3) ++ [(0x2E : UInt8), 0x2E, 0x2E]).length = n := by
  obtain ⟨cp, data⟩ := s
  simp only at h ⊢
  constructor
  · obtain ⟨m, rfl⟩ : ∃ m, n = m + 3 := ⟨n - 3, by omega⟩
    have hl : (data.take m).length = m := by rw [List.length_take]; omega
    have e : data.take (m + 3) = data.take m ++ [data[m], data[m+1], data[m+2]] := by
      rw [List.take_add_one, List.take_add_one, List.take_add_one]
      simp only [List.getElem?_eq_getElem (show m < data.length by omega),
        List.getElem?_eq_getElem (show m + 1 < data.length by omega),
        List.getElem?_eq_getElem (show m + 2 < data.length by omega), Option.toList_some, List.append_assoc,
        List.cons_append, List.nil_append]
    have hs : ∀ (l : List UInt8) k (v : UInt8), setIdx (data.take m ++ l) (m + k) v = (data.take m ++ ·) <$> setIdx l k v := by
      intro l k v
      have := setIdx_append_add (data.take m) l k v
      rwa [hl] at this
    rw [StringDVB.truncate, if_pos h]
    simp only [resize_shrink _ _ _ (Nat.le_of_lt h), e, Nat.add_sub_cancel]
    rw [usizeSub_ok p (by omega), usizeSub_ok p (by omega), usizeSub_ok p (by omega)]
    rw [show m + 3 - 1 = m + 2 by omega, show m + 3 - 2 = m + 1 by omega, show m + 3 - 3 = m + 0 by omega]
    simp only [ok_bind, hs, setIdx_succ, setIdx_zero, map_ok, pure_eq_ok]
  · rw [List.length_append, List.length_take]
    simp only [List.length_cons, List.length_nil]
    omega

example : (StringDVB.truncate .debug ⟨5, [0x41, 0x42, 0x43, 0x44, 0x45]⟩ 4) = .ok ⟨5, [0x41, 0x2E, 0x2E, 0x2E]⟩ := by
  decide

/-- C29 is false for `n < 3`: truncating a longer string panics, in both profiles. -/
theorem C29_tiny_refuted (p : Profile) (s : StringDVB) (n : Nat) (hn : n < 3) (h : n < s.data.length) :
    s.truncate p n = panic := by
  obtain ⟨cp, data⟩ := s
  simp only at h
  rw [StringDVB.truncate, if_pos h]
  simp only [resize_shrink _ _ _ (Nat.le_of_lt h)]
  have hp : ∀ (l : List UInt8) i v, l.length ≤ i → setIdx l i v = panic := by
    intro l i v h; rw [setIdx, if_neg (by omega)]
  have hl : ∀ k, (data.take k).length ≤ k := fun k => by rw [List.length_take]; omega
  have hs : ∀ (l : List UInt8) i v, i < l.length → ∃ l', setIdx l i v = .ok l' ∧ l'.length = l.length := by
    intro l i v h
    exact ⟨_, setIdx_ok v h, by simp⟩
  have hl2 : ∀ k, k < data.length → (data.take k).length = k := fun k h => by rw [List.length_take]; omega
  match n, hn with
  | 0, _ =>
    cases p
    · rfl
    · simp only [usizeSub, Profile.overflow]
      rw [if_neg (by omega)]
      simp only [ok_bind]
      rw [hp _ _ _ (by have := hl 0; omega)]; rfl
  | 1, _ =>
    obtain ⟨l1, e1, g1⟩ := hs (data.take 1) 0 0x2E (by rw [hl2 1 h]; omega)
    rw [usizeSub_ok p (by omega)]
    simp only [ok_bind, Nat.sub_self, e1]
    cases p
    · rfl
    · simp only [usizeSub, Profile.overflow]
      rw [if_neg (by omega)]
      simp only [ok_bind]
      rw [hp _ _ _ (by rw [g1]; have := hl 1; omega)]; rfl
  | 2, _ =>
    obtain ⟨l1, e1, g1⟩ := hs (data.take 2) 1 0x2E (by rw [hl2 2 h]; omega)
    obtain ⟨l2, e2, g2⟩ := hs l1 0 0x2E (by rw [g1, hl2 2 h]; omega)
    rw [usizeSub_ok p (by omega), usizeSub_ok p (by omega)]
    simp only [ok_bind, Nat.sub_self, show 2 - 1 = 1 from rfl, e1, e2]
    cases p
    · rfl
    · simp only [usizeSub, Profile.overflow]
      rw [if_neg (by omega)]
      simp only [ok_bind]
      rw [hp _ _ _ (by rw [g2, g1]; have := hl 2; omega)]; rfl

example : StringDVB.truncate .release ⟨0, [0x41, 0x42, 0x43]⟩ 2 = panic := by decide

/-! ### C30 -/

/-- Bytes of a piece of at most `n` bytes that remain for characters: the library reserves three bytes for the selector
of every table but the default one and UTF-8. -/
def room (cp : UInt8) (n : Nat) : Nat := if cp = 0 then n else if cp.toNat = 21 then n - 1 else n - 3

/-- Bytes the library reserves for the selector. -/
def reserved (cp : UInt8) : Nat := if cp = 0 then 0 else if cp.toNat = 21 then 1 else 3

theorem utf8_iff (cp : UInt8) : cp = UTF8 ↔ cp.toNat = 21 := by rw [← UInt8.toNat_inj]; rfl

theorem splitFuel_eq (p : Profile) (fuel : Nat) (s : StringDVB) (n : Nat) (h : reserved s.codepage ≤ n)
    (hd : s.data ≠ []) : s.splitFuel p fuel n = s.splitLoop p (room s.codepage n) fuel 0 [] := by
  have he : s.data.isEmpty = false := by rw [List.isEmpty_eq_false_iff]; exact hd
  simp only [StringDVB.splitFuel, room, reserved, utf8_iff] at *
  by_cases h0 : s.codepage = 0
  · simp [h0, he]
  · by_cases h1 : s.codepage.toNat = 21
    · simp only [h0, h1, if_true, if_false] at *
      rw [usizeSub_ok p h]; simp [he]
    · simp only [h0, h1, if_false] at *
      rw [usizeSub_ok p h]; simp [he]

/-- The cut before position `next` that the loop makes. -/
theorem splitBack_spec (p : Profile) (data : List UInt8) (k next : Nat) (h : next < data.length) (hk : k ≤ next) :
    ∃ m, StringDVB.splitBack p data k next = .ok m ∧ next - k ≤ m ∧ m ≤ next ∧
      (∀ j, m < j → j ≤ next → ∀ hj : j < data.length, StringDVB.isCont data[j] = true) ∧
      (m = next - k ∨ ∃ hm : m < data.length, StringDVB.isCont data[m] = false) := by
  induction k generalizing next with
  | zero => exact ⟨next, rfl, by omega, by omega, fun j h1 h2 => by omega, .inl (by omega)⟩
  | succ k ih =>
    rw [StringDVB.splitBack, idx_ok h]
    simp only [ok_bind]
    by_cases hc : ((data[next] &&& 0xC0) != 0x80) = true
    · rw [if_pos hc]
      refine ⟨next, rfl, by omega, by omega, fun j h1 h2 => by omega, .inr ⟨h, ?_⟩⟩
      simpa [StringDVB.isCont] using hc
    · rw [if_neg hc, usizeSub_ok p (by omega)]
      simp only [ok_bind, pure_eq_ok]
      obtain ⟨m, h1, h2, h3, h4, h5⟩ := ih (next - 1) (by omega) (by omega)
      refine ⟨m, h1, by omega, by omega, ?_, ?_⟩
      · intro j hj1 hj2 hj
        by_cases e : j = next
        · subst e; simpa [StringDVB.isCont] using hc
        · exact h4 j hj1 (by omega) hj
      · rcases h5 with h5 | h5
        · left; omega
        · exact .inr h5

/-- One iteration of the loop. -/
theorem splitLoop_step (p : Profile) (s : StringDVB) (r fuel skip : Nat) (out : List StringDVB) (h : skip < s.data.length) (m : Nat)
    (hm : (if s.codepage = UTF8 ∧ min s.data.length (skip + r) < s.data.length
          then StringDVB.splitBack p s.data 2 (min s.data.length (skip + r))
          else pure (min s.data.length (skip + r))) = .ok m) :
    s.splitLoop p r (fuel + 1) skip out =
      slice s.data skip m >>= fun piece => s.splitLoop p r fuel m (out ++ [⟨s.codepage, piece⟩]) := by
  rw [StringDVB.splitLoop, if_pos h]
  by_cases hc : s.codepage = UTF8 ∧ min s.data.length (skip + r) < s.data.length
  · rw [if_pos hc] at hm
    simp only [if_pos hc, hm, ok_bind]
  · rw [if_neg hc] at hm
    simp only [pure_eq_ok, Except.ok.injEq] at hm
    simp only [if_neg hc, pure_eq_ok, ok_bind]
    rw [hm]

/-- Loop invariant of `split`, for enough room. -/
theorem splitLoop_spec (p : Profile) (s : StringDVB) (r : Nat) (hr : 1 ≤ r) (hu : s.codepage.toNat = 21 → 3 ≤ r)
    (fuel skip : Nat) (out : List StringDVB) (hf : s.data.length - skip < fuel) (hs : skip ≤ s.data.length) :
    ∃ pieces, s.splitLoop p r fuel skip out = .ok (out ++ pieces) ∧
      (pieces.map (·.data)).flatten = s.data.drop skip ∧
      (∀ x ∈ pieces, x.codepage = s.codepage ∧ x.data ≠ [] ∧ x.data.length ≤ r) ∧
      (s.codepage.toNat ≠ 21 → pieces.length = (s.data.length - skip + (r - 1)) / r ∧
        ∀ x ∈ pieces.dropLast, x.data.length = r) := by
  induction fuel generalizing skip out with
  | zero => omega
  | succ fuel ih =>
    by_cases hlt : skip < s.data.length
    · -- the end of this piece
      have hnext : ∃ m, (if s.codepage = UTF8 ∧ min s.data.length (skip + r) < s.data.length
          then StringDVB.splitBack p s.data 2 (min s.data.length (skip + r))
          else pure (min s.data.length (skip + r))) = .ok m ∧ skip < m ∧ m ≤ s.data.length ∧ m ≤ skip + r ∧
          (s.codepage.toNat ≠ 21 → m = min s.data.length (skip + r)) := by
        by_cases hc : s.codepage = UTF8 ∧ min s.data.length (skip + r) < s.data.length
        · rw [if_pos hc]
          have hu3 := hu ((utf8_iff _).1 hc.1)
          obtain ⟨m, h1, h2, h3, -⟩ := splitBack_spec p s.data 2 _ hc.2 (by omega)
          exact ⟨m, h1, by omega, by omega, by omega, fun h => absurd ((utf8_iff _).1 hc.1) h⟩
        · rw [if_neg hc]
          exact ⟨_, rfl, by omega, by omega, by omega, fun _ => rfl⟩
      obtain ⟨m, hm, h1, h2, h3, h4⟩ := hnext
      rw [splitLoop_step p s r fuel skip out hlt m hm, slice, if_pos ⟨by omega, h2⟩]
      simp only [ok_bind]
      obtain ⟨pieces, g1, g2, g3, g4⟩ := ih m (out ++ [⟨s.codepage, (s.data.take m).drop skip⟩]) (by omega) h2
      have hlen : ((s.data.take m).drop skip).length = m - skip := by
        rw [List.length_drop, List.length_take]; omega
      refine ⟨⟨s.codepage, (s.data.take m).drop skip⟩ :: pieces, ?_, ?_, ?_, ?_⟩
      · rw [g1, List.append_assoc]; rfl
      · rw [List.map_cons, List.flatten_cons, g2]
        simp only
        have : s.data.drop m = (s.data.drop skip).drop (m - skip) := by
          rw [List.drop_drop]; congr 1; omega
        rw [this, List.drop_take, List.take_append_drop]
      · intro x hx
        rw [List.mem_cons] at hx
        rcases hx with rfl | hx
        · refine ⟨rfl, ?_, ?_⟩
          · intro h
            have := congrArg List.length h
            rw [hlen] at this
            simp at this
            omega
          · rw [hlen]; omega
        · exact g3 x hx
      · intro hne
        have hm' := h4 hne
        have g4' := g4 hne
        by_cases hend : s.data.length ≤ skip + r
        · -- last piece
          have hml : m = s.data.length := by omega
          have hp0 : pieces = [] := by
            have := g4'.1
            rw [hml, Nat.sub_self, Nat.zero_add, Nat.div_eq_of_lt (by omega)] at this
            exact List.length_eq_zero_iff.1 this
          subst hp0
          refine ⟨?_, by simp⟩
          simp only [List.length_cons, List.length_nil]
          have hb : s.data.length - skip + (r - 1) = 1 * r + (s.data.length - skip - 1) := by omega
          rw [hb, Nat.add_comm (1 * r), Nat.add_mul_div_right _ _ (by omega), Nat.div_eq_of_lt (by omega)]
        · have hml : m = skip + r := by omega
          refine ⟨?_, ?_⟩
          · rw [List.length_cons, g4'.1, hml]
            have hb : s.data.length - skip + (r - 1) = (s.data.length - (skip + r) + (r - 1)) + 1 * r := by omega
            rw [hb, Nat.add_mul_div_right _ _ (by omega)]
          · intro x hx
            have hpne : pieces ≠ [] := by
              intro h
              rw [h] at g2
              have := congrArg List.length g2
              simp at this
              omega
            rw [List.dropLast_cons_of_ne_nil hpne, List.mem_cons] at hx
            rcases hx with rfl | hx
            · show ((s.data.take m).drop skip).length = r
              rw [hlen]; omega
            · exact g4'.2 x hx
    · rw [StringDVB.splitLoop, if_neg hlt]
      refine ⟨[], by simp, ?_, by simp, fun _ => ⟨?_, by simp⟩⟩
      · rw [List.drop_of_length_le (by omega)]; rfl
      · rw [show s.data.length - skip = 0 by omega, Nat.zero_add, Nat.div_eq_of_lt (by omega)]; rfl

theorem encoding_length_le (cp : UInt8) (data : List UInt8) (n : Nat) (h : data.length ≤ room cp n) (hr : reserved cp ≤ n) :
    (Text.encoding cp.toNat data).length ≤ n := by
  have hs : ∀ cp : UInt8, (Text.selector cp.toNat).length ≤ reserved cp := by decide +kernel
  have hr2 : room cp n + reserved cp = n := by
    revert hr
    rw [room, reserved]; split
    · omega
    · split <;> omega
  cases data with
  | nil => simp [Text.encoding]
  | cons b r =>
    rw [Text.encoding, List.length_append]
    · have := hs cp; omega
    · simp

/-- C30, given room for at least one byte (three for UTF-8) per piece: `split` terminates without panicking; the pieces'
data concatenate to the original; every piece is non-empty, has the string's codepage and assembles to at most `n` bytes.
Except in UTF-8 every piece but the last is filled completely. -/
theorem C30_split_partial (p : Profile) (s : StringDVB) (n : Nat) (hd : s.data ≠ [])
    (hr : reserved s.codepage + 1 ≤ n) (hu : s.codepage.toNat = 21 → 4 ≤ n) :
    ∃ pieces, s.split p n = .ok pieces ∧ (pieces.map (·.data)).flatten = s.data ∧
      (∀ x ∈ pieces, x.codepage = s.codepage ∧ x.data ≠ [] ∧ (x.assemble []).length ≤ n) ∧
      (s.codepage.toNat ≠ 21 → pieces.length = (s.data.length + (n - reserved s.codepage) - 1) / (n - reserved s.codepage) ∧
        ∀ x ∈ pieces.dropLast, x.data.length = n - reserved s.codepage) := by
  have hroom : room s.codepage n = n - reserved s.codepage := by
    rw [room, reserved]; split
    · omega
    · split <;> rfl
  have h21 : s.codepage.toNat = 21 → reserved s.codepage = 1 := by
    have : ∀ cp : UInt8, cp.toNat = 21 → reserved cp = 1 := by decide +kernel
    exact this _
  obtain ⟨pieces, h1, h2, h3, h4⟩ := splitLoop_spec p s (room s.codepage n) (by omega)
    (fun h => by have := hu h; have := h21 h; omega) (s.data.length + 1) 0 [] (by omega) (by omega)
  refine ⟨pieces, ?_, h2, fun x hx => ?_, fun h => ?_⟩
  · rw [StringDVB.split, splitFuel_eq p _ s n (by omega) hd, h1]; rfl
  · obtain ⟨g1, g2, g3⟩ := h3 x hx
    refine ⟨g1, g2, ?_⟩
    rw [C24_assemble, List.nil_append, g1]
    exact encoding_length_le _ _ _ g3 (by omega)
  · obtain ⟨g1, g2⟩ := h4 h
    rw [← hroom]
    refine ⟨?_, g2⟩
    rw [g1]
    refine congrArg (· / _) ?_
    omega

example : StringDVB.split .debug ⟨5, [0x41, 0x42, 0x43, 0x44, 0x45]⟩ 5 =
    .ok [⟨5, [0x41, 0x42]⟩, ⟨5, [0x43, 0x44]⟩, ⟨5, [0x45]⟩] := by decide

/-- C30: the empty string is its own only piece. -/
theorem C30_split_empty (p : Profile) (cp : UInt8) (n : Nat) (h : reserved cp ≤ n) :
    StringDVB.split p ⟨cp, []⟩ n = .ok [⟨cp, []⟩] := by
  simp only [StringDVB.split, StringDVB.splitFuel, reserved, utf8_iff] at *
  by_cases h0 : cp = 0
  · simp [h0]
  · by_cases h1 : cp.toNat = 21
    · simp only [h0, h1, if_true, if_false] at *
      rw [usizeSub_ok p h]; simp
    · simp only [h0, h1, if_false] at *
      rw [usizeSub_ok p h]; simp

/-! #### UTF-8 boundaries -/

theorem utf8_append (a b : List Char) : Text.utf8 (a ++ b) = Text.utf8 a ++ Text.utf8 b := List.flatMap_append

/-- A position in the encoding of a text (of characters up to U+FFFF) that does not hold a continuation byte, or whose
two neighbours to the right are continuation bytes, is a character boundary. -/
theorem utf8_boundary (s : List Char) (m : Nat) (hm : m ≤ (Text.utf8 s).length)
    (h : m = (Text.utf8 s).length ∨ ∃ hm : m < (Text.utf8 s).length, StringDVB.isCont (Text.utf8 s)[m] = false) :
    ∃ a b, s = a ++ b ∧ (Text.utf8 a).length = m := by
  induction s generalizing m with
  | nil =>
    refine ⟨[], [], rfl, ?_⟩
    simp [Text.utf8] at hm ⊢
    omega
  | cons c s ih =>
    by_cases h0 : m = 0
    · exact ⟨[], c :: s, rfl, by rw [h0]; rfl⟩
    have hc : Text.utf8 (c :: s) = String.utf8EncodeChar c ++ Text.utf8 s := List.flatMap_cons
    obtain ⟨b, bs, e, -, hcont, -⟩ := utf8_shape c
    by_cases hin : m < (String.utf8EncodeChar c).length
    · exfalso
      rcases h with h | ⟨hlt, h⟩
      · rw [hc, List.length_append] at h; omega
      · simp only [hc] at h
        rw [List.getElem_append_left hin] at h
        simp only [e] at h hin
        obtain ⟨k, rfl⟩ : ∃ k, m = k + 1 := ⟨m - 1, by omega⟩
        rw [List.getElem_cons_succ, hcont _ (List.getElem_mem _)] at h
        cases h
    · obtain ⟨a, b', h1, h2⟩ := ih (m - (String.utf8EncodeChar c).length)
        (by rw [hc, List.length_append] at hm; omega)
        (by
          rcases h with h | ⟨hlt, h⟩
          · left; rw [hc, List.length_append] at h; omega
          · right
            rw [hc, List.length_append] at hlt
            refine ⟨by omega, ?_⟩
            simp only [hc] at h
            rw [List.getElem_append_right (by omega)] at h
            exact h)
      refine ⟨c :: a, b', by rw [h1]; rfl, ?_⟩
      rw [Text.utf8, List.flatMap_cons, List.length_append]
      change _ + (Text.utf8 a).length = _
      omega

/-- In a text of characters up to U+FFFF three consecutive continuation bytes do not occur. -/
theorem utf8_three (s : List Char) (hs : ∀ c ∈ s, c.val.toNat < 0x10000) (m : Nat) (h2 : m + 2 < (Text.utf8 s).length)
    (h1 : StringDVB.isCont (Text.utf8 s)[m + 1] = true) (h3 : StringDVB.isCont (Text.utf8 s)[m + 2] = true) :
    StringDVB.isCont (Text.utf8 s)[m] = false := by
  induction s generalizing m with
  | nil => simp [Text.utf8] at h2
  | cons c s ih =>
    have hc : Text.utf8 (c :: s) = String.utf8EncodeChar c ++ Text.utf8 s := List.flatMap_cons
    obtain ⟨b, bs, e, hb, hcont, -, hl, -⟩ := utf8_shape c
    have hl := hl (hs c (by simp))
    have hel : (String.utf8EncodeChar c).length = bs.length + 1 := by rw [e]; rfl
    -- the first byte of what follows is not a continuation byte
    have hfirst : ∀ h0 : 0 < (Text.utf8 s).length, StringDVB.isCont (Text.utf8 s)[0] = false := by
      intro h0
      cases s with
      | nil => simp [Text.utf8] at h0
      | cons d s =>
        obtain ⟨b', bs', e', hb', -⟩ := utf8_shape d
        have : Text.utf8 (d :: s) = b' :: (bs' ++ Text.utf8 s) := by
          rw [Text.utf8, List.flatMap_cons, e']; rfl
        simp only [this, List.getElem_cons_zero]; exact hb'
    by_cases hin : m < (String.utf8EncodeChar c).length
    · by_cases hz : m = 0
      · subst hz
        simp only [hc]
        rw [List.getElem_append_left hin]
        simp only [e, List.getElem_cons_zero]; exact hb
      · -- then byte m+1 or m+2 starts the next character
        exfalso
        by_cases hm1 : m + 1 = (String.utf8EncodeChar c).length
        · simp only [hc] at h1
          rw [List.getElem_append_right (by omega)] at h1
          have h0 : 0 < (Text.utf8 s).length := by rw [hc, List.length_append] at h2; omega
          have := hfirst h0
          simp only [hm1, Nat.sub_self] at h1
          rw [this] at h1; cases h1
        · have hm2 : m + 2 = (String.utf8EncodeChar c).length := by omega
          simp only [hc] at h3
          rw [List.getElem_append_right (by omega)] at h3
          have h0 : 0 < (Text.utf8 s).length := by rw [hc, List.length_append] at h2; omega
          have := hfirst h0
          simp only [hm2, Nat.sub_self] at h3
          rw [this] at h3; cases h3
    · obtain ⟨k, rfl⟩ : ∃ k, m = (String.utf8EncodeChar c).length + k := ⟨m - (String.utf8EncodeChar c).length, by omega⟩
      simp only [hc] at h1 h3 ⊢
      rw [List.getElem_append_right (by omega)] at h1 h3 ⊢
      rw [hc, List.length_append] at h2
      have ee : ∀ j, (String.utf8EncodeChar c).length + k + j - (String.utf8EncodeChar c).length = k + j := by intro j; omega
      simp only [ee] at h1 h3
      have e0 := ee 0
      simp only [Nat.add_zero] at e0
      simp only [e0]
      exact ih (fun d hd => hs d (by simp [hd])) k (by omega) h1 h3

/-- Loop invariant for UTF-8 texts of characters up to U+FFFF. -/
theorem splitLoop_utf8 (p : Profile) (s done rest : List Char) (hs : ∀ c ∈ s, c.val.toNat < 0x10000) (he : s = done ++ rest)
    (r : Nat) (hr : 3 ≤ r) (fuel : Nat) (out : List StringDVB)
    (hf : (Text.utf8 rest).length < fuel) :
    ∃ parts : List (List Char), StringDVB.splitLoop p ⟨21, Text.utf8 s⟩ r fuel (Text.utf8 done).length out =
        .ok (out ++ parts.map fun t => ⟨21, Text.utf8 t⟩) ∧ parts.flatten = rest := by
  induction fuel generalizing done rest out with
  | zero => omega
  | succ fuel ih =>
    have hl : (Text.utf8 s).length = (Text.utf8 done).length + (Text.utf8 rest).length := by
      rw [he, utf8_append, List.length_append]
    by_cases hlt : (Text.utf8 done).length < (Text.utf8 s).length
    · have hnext : ∃ m, (if (21 : UInt8) = UTF8 ∧ min (Text.utf8 s).length ((Text.utf8 done).length + r) < (Text.utf8 s).length
          then StringDVB.splitBack p (Text.utf8 s) 2 (min (Text.utf8 s).length ((Text.utf8 done).length + r))
          else pure (min (Text.utf8 s).length ((Text.utf8 done).length + r))) = .ok m ∧
          (Text.utf8 done).length < m ∧ m ≤ (Text.utf8 s).length ∧
          (m = (Text.utf8 s).length ∨ ∃ hm : m < (Text.utf8 s).length, StringDVB.isCont (Text.utf8 s)[m] = false) := by
        by_cases hc : (21 : UInt8) = UTF8 ∧ min (Text.utf8 s).length ((Text.utf8 done).length + r) < (Text.utf8 s).length
        · rw [if_pos hc]
          obtain ⟨m, h1, h2, h3, h4, h5⟩ := splitBack_spec p (Text.utf8 s) 2 _ hc.2 (by omega)
          refine ⟨m, h1, by omega, by omega, .inr ?_⟩
          rcases h5 with h5 | h5
          · have g : m + 2 < (Text.utf8 s).length := by omega
            exact ⟨by omega, utf8_three s hs m g (h4 (m + 1) (by omega) (by omega) (by omega)) (h4 (m + 2) (by omega) (by omega) (by omega))⟩
          · exact h5
        · rw [if_neg hc]
          refine ⟨_, rfl, by omega, by omega, .inl ?_⟩
          have : ¬ min (Text.utf8 s).length ((Text.utf8 done).length + r) < (Text.utf8 s).length := fun h => hc ⟨rfl, h⟩
          omega
      obtain ⟨m, hm, h1, h2, h3⟩ := hnext
      rw [splitLoop_step p ⟨21, Text.utf8 s⟩ r fuel _ out hlt m hm, slice, if_pos ⟨by omega, h2⟩]
      simp only [ok_bind]
      -- the cut is at a character boundary of `rest`
      have hb : ∃ a b, rest = a ++ b ∧ (Text.utf8 a).length = m - (Text.utf8 done).length := by
        apply utf8_boundary rest _ (by omega)
        rcases h3 with h3 | ⟨g1, g2⟩
        · left; omega
        · right
          have hsr : Text.utf8 s = Text.utf8 done ++ Text.utf8 rest := by rw [he, utf8_append]
          refine ⟨by omega, ?_⟩
          simp only [hsr] at g2
          rw [List.getElem_append_right (by omega)] at g2
          exact g2
      obtain ⟨a, b, hab, hal⟩ := hb
      have hm' : m = (Text.utf8 (done ++ a)).length := by rw [utf8_append, List.length_append]; omega
      have hab' : Text.utf8 rest = Text.utf8 a ++ Text.utf8 b := by rw [hab, utf8_append]
      have hrl : (Text.utf8 rest).length = (Text.utf8 a).length + (Text.utf8 b).length := by rw [hab', List.length_append]
      have hpiece : ((Text.utf8 s).take m).drop (Text.utf8 done).length = Text.utf8 a := by
        have e1 : Text.utf8 s = Text.utf8 (done ++ a) ++ Text.utf8 b := by
          rw [he, hab, ← List.append_assoc, utf8_append]
        rw [e1, hm', List.take_left, utf8_append, List.drop_left]
      obtain ⟨parts, g1, g2⟩ := ih (done ++ a) b (by rw [he, hab, List.append_assoc]) (out ++ [⟨21, Text.utf8 a⟩]) (by omega)
      refine ⟨a :: parts, ?_, by rw [List.flatten_cons, g2, hab]⟩
      rw [hpiece, hm', g1]
      simp
    · rw [StringDVB.splitLoop, if_neg hlt]
      have h0 : Text.utf8 rest = [] := List.length_eq_zero_iff.1 (by omega)
      refine ⟨[], by simp, ?_⟩
      have := lossy_utf8 rest
      rw [h0] at this
      rw [← this]; rfl

/-- C30: a UTF-8 text of characters up to U+FFFF is cut between characters: each piece is the UTF-8 encoding of a part of
the text, and the parts in order are the text. -/
theorem C30_utf8_partial (p : Profile) (s : List Char) (hs : ∀ c ∈ s, c.val.toNat < 0x10000) (n : Nat) (hn : 4 ≤ n) (hne : s ≠ []) :
    ∃ parts : List (List Char), (StringDVB.fromStr s 21).split p n = .ok (parts.map fun t => StringDVB.fromStr t 21) ∧
      parts.flatten = s := by
  have hd : Text.utf8 s ≠ [] := by
    intro h
    have := lossy_utf8 s
    rw [h] at this
    exact hne this.symm
  obtain ⟨parts, h1, h2⟩ := splitLoop_utf8 p s [] s hs rfl (n - 1) (by omega) ((Text.utf8 s).length + 1) [] (by omega)
  refine ⟨parts, ?_, h2⟩
  simp only [C27_utf8]
  have := splitFuel_eq p ((Text.utf8 s).length + 1) ⟨21, Text.utf8 s⟩ n (by show 1 ≤ n; omega) hd
  rw [StringDVB.split, this]
  exact h1

example : (StringDVB.fromStr ['П', 'р', '€'] 21).split .debug 4 =
    .ok [StringDVB.fromStr ['П'] 21, StringDVB.fromStr ['р'] 21, StringDVB.fromStr ['€'] 21] := by decide +kernel

/-- C30 is false for characters beyond U+FFFF: the search for a boundary gives up after two bytes, so a text whose
`n - 1` byte limit falls on the last byte of such a character is cut after that character's first byte. -/
theorem C30_utf8_refuted (p : Profile) (a b : List Char) (c : Char) (hc : 0x10000 ≤ c.val.toNat) :
    ∃ lead tail rest, String.utf8EncodeChar c = lead :: tail ∧ tail.length = 3 ∧
      ((StringDVB.fromStr (a ++ c :: b) 21).split p ((Text.utf8 a).length + 4) = .ok (⟨21, Text.utf8 a ++ [lead]⟩ :: rest)) := by
  obtain ⟨lead, tail, e, hlead, hcont, -, -, h3⟩ := utf8_shape c
  have h3 := h3 hc
  match tail, h3 with
  | [x, y, z], _ =>
  have hd : Text.utf8 (a ++ c :: b) = Text.utf8 a ++ (lead :: x :: y :: z :: Text.utf8 b) := by
    rw [utf8_append, Text.utf8, Text.utf8, List.flatMap_cons, e]; rfl
  have hne : Text.utf8 (a ++ c :: b) ≠ [] := by rw [hd]; simp
  have hlen : (Text.utf8 (a ++ c :: b)).length = (Text.utf8 a).length + (Text.utf8 b).length + 4 := by
    rw [hd]; simp only [List.length_append, List.length_cons]; omega
  have hk := splitFuel_eq p ((Text.utf8 (a ++ c :: b)).length + 1) ⟨21, Text.utf8 (a ++ c :: b)⟩ ((Text.utf8 a).length + 4)
    (by show 1 ≤ _; omega) hne
  have hx : ∀ v ∈ [x, y, z], ((v &&& 0xC0) != 0x80) = false := by
    intro v hv
    have := hcont v hv
    simpa [StringDVB.isCont] using this
  have hxx := hx x (by simp)
  have hyy := hx y (by simp)
  have hzz := hx z (by simp)
  have hback : StringDVB.splitBack p (Text.utf8 (a ++ c :: b)) 2 ((Text.utf8 a).length + 3) = .ok ((Text.utf8 a).length + 1) := by
    rw [hd, StringDVB.splitBack, idx_append_add]
    simp only [idx_succ, idx_zero, ok_bind, hzz]
    rw [usizeSub_ok p (by omega)]
    simp only [Bool.false_eq_true, if_false, ok_bind]
    rw [StringDVB.splitBack, show (Text.utf8 a).length + 3 - 1 = (Text.utf8 a).length + 2 by omega, idx_append_add]
    simp only [idx_succ, idx_zero, ok_bind, hyy]
    rw [usizeSub_ok p (by omega)]
    rfl
  have hslice : slice (Text.utf8 (a ++ c :: b)) 0 ((Text.utf8 a).length + 1) = .ok (Text.utf8 a ++ [lead]) := by
    rw [slice, if_pos ⟨by omega, by omega⟩, List.drop_zero, hd]
    refine congrArg Except.ok ?_
    rw [List.take_append, List.take_of_length_le (by omega), Nat.add_sub_cancel_left]
    rfl
  have hroom : room 21 ((Text.utf8 a).length + 4) = (Text.utf8 a).length + 3 := by
    rw [room, if_neg (by decide), if_pos (by decide)]; omega
  obtain ⟨rest, g1, -⟩ := splitLoop_spec p ⟨21, Text.utf8 (a ++ c :: b)⟩ ((Text.utf8 a).length + 3) (by omega) (by omega)
    (Text.utf8 (a ++ c :: b)).length ((Text.utf8 a).length + 1) [⟨21, Text.utf8 a ++ [lead]⟩]
    (by simp only; omega) (by simp only; omega)
  refine ⟨lead, [x, y, z], rest, e, rfl, ?_⟩
  simp only [C27_utf8]
  rw [StringDVB.split, hk]
  simp only [hroom]
  have hmin : min (Text.utf8 (a ++ c :: b)).length (0 + ((Text.utf8 a).length + 3)) = (Text.utf8 a).length + 3 := by omega
  rw [splitLoop_step p ⟨21, Text.utf8 (a ++ c :: b)⟩ _ _ 0 [] (by simp only; omega) ((Text.utf8 a).length + 1)
    (by simp only [hmin]; rw [if_pos ⟨rfl, by omega⟩, hback])]
  simp only [ok_bind, hslice, List.nil_append]
  rw [g1]; rfl

example : (StringDVB.fromStr ['A', Char.ofNat 0x1F600, 'B'] 21).split .debug 5 =
    .ok [⟨21, [0x41, 0xF0]⟩, ⟨21, [0x9F, 0x98, 0x80, 0x42]⟩] := by decide +kernel

/-- C30 is false when the limit leaves no room for characters: outside UTF-8 (and for UTF-8 data starting with a
character) `split` then runs forever. -/
theorem C30_no_room_refuted (p : Profile) (s : StringDVB) (b : UInt8) (l : List UInt8) (hd : s.data = b :: l)
    (hb : s.codepage.toNat = 21 → StringDVB.isCont b = false) (fuel : Nat) :
    s.splitFuel p fuel (reserved s.codepage) = .error .diverge := by
  have hr : room s.codepage (reserved s.codepage) = 0 := by
    have : ∀ cp : UInt8, room cp (reserved cp) = 0 := by decide +kernel
    exact this _
  rw [splitFuel_eq p fuel s _ (Nat.le_refl _) (by rw [hd]; simp), hr]
  generalize hout : ([] : List StringDVB) = out
  clear hout
  induction fuel generalizing out with
  | zero => rfl
  | succ fuel ih =>
    rw [StringDVB.splitLoop, if_pos (by rw [hd]; simp)]
    have hm : min s.data.length (0 + 0) = 0 := by omega
    simp only [hm]
    by_cases hc : s.codepage = UTF8 ∧ 0 < s.data.length
    · rw [if_pos hc]
      have hcb := hb ((utf8_iff _).1 hc.1)
      have hcb' : ((b &&& 0xC0) != 0x80) = true := by
        simpa [StringDVB.isCont] using hcb
      rw [StringDVB.splitBack, hd, idx_zero]
      simp only [ok_bind, hcb', if_true, pure_eq_ok, slice, Nat.le_refl, Nat.zero_le, and_self]
      exact ih _
    · rw [if_neg hc]
      simp only [pure_eq_ok, ok_bind, slice, Nat.le_refl, Nat.zero_le, and_self, if_true]
      exact ih _

/-- C30 is false when the limit is smaller than the reserved selector: the subtraction overflows; with overflow checks
that is a panic, without them the whole string is returned as one piece, whatever its length. -/
theorem C30_underflow_refuted (s : StringDVB) (n : Nat) (h : n < reserved s.codepage) (hd : s.data ≠ [])
    (hl : s.data.length < 2 ^ 63) :
    s.split .debug n = panic ∧ s.split .release n = .ok [s] ∧
    (2 ≤ s.data.length → n < (s.assemble []).length) := by
  have he : s.data.isEmpty = false := by rw [List.isEmpty_eq_false_iff]; exact hd
  have hpos : 0 < s.data.length := List.length_pos_iff.2 hd
  have hloop : ∀ r, s.data.length ≤ r → s.splitLoop .release r (s.data.length + 1) 0 [] = .ok [s] := by
    intro r hr
    obtain ⟨k, hk⟩ : ∃ k, s.data.length = k + 1 := ⟨s.data.length - 1, by omega⟩
    rw [StringDVB.splitLoop, if_pos hpos]
    have hm : min s.data.length (0 + r) = s.data.length := by omega
    simp only [hm, Nat.lt_irrefl, and_false, if_false, pure_eq_ok, ok_bind, slice, Nat.zero_le, Nat.le_refl, and_self, if_true,
      List.take_length, List.drop_zero, List.nil_append]
    rw [hk, StringDVB.splitLoop, if_neg (by omega)]
  have hres : reserved s.codepage ≤ 3 := by
    rw [reserved]
    repeat' split
    all_goals omega
  refine ⟨?_, ?_, ?_⟩
  · rw [StringDVB.split, StringDVB.splitFuel]
    simp only [reserved, utf8_iff] at h ⊢
    by_cases h0 : s.codepage = 0
    · rw [if_pos h0] at h; omega
    · rw [if_neg h0] at h ⊢
      by_cases h1 : s.codepage.toNat = 21
      · rw [if_pos h1] at h ⊢
        rw [usizeSub, if_neg (by omega)]; rfl
      · rw [if_neg h1] at h ⊢
        rw [usizeSub, if_neg (by omega)]; rfl
  · rw [StringDVB.split, StringDVB.splitFuel]
    simp only [reserved, utf8_iff] at h ⊢
    by_cases h0 : s.codepage = 0
    · rw [if_pos h0] at h; omega
    · rw [if_neg h0] at h ⊢
      by_cases h1 : s.codepage.toNat = 21
      · rw [if_pos h1] at h ⊢
        rw [usizeSub, if_neg (by omega)]
        simp only [Profile.overflow, ok_bind, he, Bool.false_eq_true, if_false]
        exact hloop _ (by omega)
      · rw [if_neg h1] at h ⊢
        rw [usizeSub, if_neg (by omega)]
        simp only [Profile.overflow, ok_bind, he, Bool.false_eq_true, if_false]
        exact hloop _ (by omega)
  · rw [C24_assemble, List.nil_append]
    have hs : ∀ cp : UInt8, (Text.selector cp.toNat).length + 2 ≥ reserved cp ∧ (reserved cp = 1 → (Text.selector cp.toNat).length = 1) ∧
      (reserved cp ≠ 0 → 1 ≤ (Text.selector cp.toNat).length) := by decide +kernel
    have := hs s.codepage
    revert hpos
    intro _ h2
    revert h2
    cases hdd : s.data with
    | nil => simp
    | cons b r =>
      intro h2
      rw [List.length_cons] at h2
      rw [Text.encoding, List.length_append, List.length_cons]
      · omega
      · simp

end Mpegts
