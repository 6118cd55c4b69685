import Verif.Lemmas.Basic
import Verif.Model.Text
import Verif.Spec.Text

/-! # C23-C26: DVB strings on the wire -/

namespace Mpegts
open Spec

/-- The selector the code writes is the one of the standard. -/
theorem selector_eq (cp : UInt8) : Text.selector cp.toNat =
    if cp = ISO6937 then [] else if cp ≤ ISO8859_4 then [0x10, 0x00, cp]
    else if cp ≤ ISO8859_15 then [cp - 4] else [cp] := by
  revert cp; decide +kernel

/-- C24: `assemble` appends the encoding of the text and leaves everything before it alone. -/
theorem C24_assemble (s : StringDVB) (dst : List UInt8) :
    s.assemble dst = dst ++ Text.encoding s.codepage.toNat s.data := by
  obtain ⟨cp, data⟩ := s
  cases data with
  | nil => simp [StringDVB.assemble, Text.encoding]
  | cons d ds =>
    simp only [StringDVB.assemble, Text.encoding, List.isEmpty_cons, selector_eq]
    simp only [Bool.false_eq_true, if_false]
    repeat' split
    all_goals simp

/-- C24: `assemble_sized` puts one length byte (the length modulo 256) in front. -/
theorem C24_assemble_sized (s : StringDVB) (dst : List UInt8) :
    s.assembleSized dst = .ok (dst ++ UInt8.ofNat (Text.encoding s.codepage.toNat s.data).length ::
      Text.encoding s.codepage.toNat s.data) := by
  simp only [StringDVB.assembleSized, C24_assemble, List.append_assoc, List.singleton_append, setIdx_append,
    List.length_append, List.length_cons]
  refine congrArg (fun n => Except.ok (dst ++ UInt8.ofNat n :: _)) ?_
  omega

example : Text.encoding 5 [0xB0, 0xB1] = [0x01, 0xB0, 0xB1] ∧ Text.encoding 2 [0x41] = [0x10, 0x00, 0x02, 0x41]
    ∧ Text.encoding 21 [0x41] = [0x15, 0x41] ∧ Text.encoding 0 [0x41] = [0x41] := by decide

/-- C23: `size()` is the number of bytes `assemble` appends. -/
theorem C23_size (s : StringDVB) (dst : List UInt8) :
    (s.assemble dst).length = dst.length + s.size := by
  rw [C24_assemble, List.length_append]
  refine congrArg (dst.length + ·) ?_
  obtain ⟨cp, data⟩ := s
  cases data with
  | nil => rfl
  | cons d ds =>
    simp only [StringDVB.size, Text.encoding, List.isEmpty_cons, selector_eq, List.length_append, Bool.false_eq_true,
      if_false]
    repeat' split
    all_goals simp [Nat.add_comm]

/-- C23: and that is the length of the standard's encoding. -/
theorem C23_size_encoding (s : StringDVB) : s.size = (Text.encoding s.codepage.toNat s.data).length := by
  have := C23_size s []
  rw [C24_assemble] at this
  simpa using this.symm

example : StringDVB.size ⟨4, [0x41, 0x42]⟩ = 5 ∧ StringDVB.size ⟨5, [0x41, 0x42]⟩ = 3 ∧ StringDVB.size ⟨9, []⟩ = 0 := by
  decide

theorem ofBytes_cons (b : UInt8) (r : List UInt8) : StringDVB.ofBytes (b :: r) =
    if b = 0x15 then ⟨0x15, r⟩ else if b ≥ 0x20 then ⟨0, b :: r⟩ else if b < 0x10 then ⟨b + 4, r⟩
    else if b = 0x10 ∧ (b :: r).length ≥ 3 then ⟨(b :: r).getD 2 0, (b :: r).drop 3⟩ else ⟨0, [0x3F]⟩ := rfl

/-- Which strings survive being assembled and read back: the ones of C25, and the default empty string. -/
def roundTrips (s : StringDVB) : Prop :=
  (s.data = [] ∧ s.codepage = 0) ∨
  (s.data ≠ [] ∧ ((s.codepage = 0 ∧ 0x20 ≤ (s.data.headD 0).toNat) ∨
    (1 ≤ s.codepage.toNat ∧ s.codepage.toNat ≤ 15) ∨ s.codepage.toNat = 21))

/-- C25 (and its converse): reading the assembled bytes gives the string back exactly for these strings. -/
theorem C25_round_trip_iff (s : StringDVB) :
    StringDVB.ofBytes (s.assemble []) = s ↔ roundTrips s := by
  rw [C24_assemble, List.nil_append]
  obtain ⟨cp, data⟩ := s
  cases data with
  | nil =>
    simp [Text.encoding, roundTrips, StringDVB.ofBytes, StringDVB.default, eq_comm]
  | cons d ds =>
    simp only [Text.encoding, roundTrips, selector_eq, List.headD_cons, reduceCtorEq, false_and, ne_eq, not_false_eq_true,
      true_and, false_or]
    by_cases h0 : cp = ISO6937
    · rw [if_pos h0, List.nil_append, ofBytes_cons]
      subst h0
      have h15 : d = 0x15 → ¬ 0x20 ≤ d.toNat := by revert d; decide +kernel
      have h20 : d ≥ 0x20 ↔ 0x20 ≤ d.toNat := Iff.rfl
      have h21 : d < 0x10 → d + 4 ≠ 0 := by revert d; decide +kernel
      simp only [ISO6937, show ((0:UInt8).toNat) = 0 from rfl, true_and]
      rw [← h20] at h15 ⊢
      by_cases e1 : d = 0x15
      · rw [if_pos e1]
        have := h15 e1
        simp [this]
      · rw [if_neg e1]
        by_cases e2 : d ≥ 0x20
        · simp [e2]
        · rw [if_neg e2]
          by_cases e3 : d < 0x10
          · have := h21 e3
            rw [if_pos e3]
            simp [e2, this]
          · rw [if_neg e3]
            split
            · rename_i e4
              simp only [e2, false_or, show ¬ (1 ≤ 0 ∧ 0 ≤ 15 ∨ 0 = 21) by decide, iff_false]
              intro h
              have h' := congrArg (List.length ∘ StringDVB.data) h
              simp at h'
              omega
            · have : d ≠ 0x3F := by intro h; subst h; exact e2 (by decide)
              simp [e2, Ne.symm this]
    · rw [if_neg h0]
      have h0' : cp ≠ 0 := h0
      simp only [h0', false_and, false_or]
      by_cases h1 : cp ≤ ISO8859_4
      · rw [if_pos h1]
        have : 1 ≤ cp.toNat ∧ cp.toNat ≤ 15 := by revert cp; decide +kernel
        simp [ofBytes_cons, this]
      · rw [if_neg h1]
        by_cases h2 : cp ≤ ISO8859_15
        · rw [if_pos h2]
          have h3 : 1 ≤ cp.toNat ∧ cp.toNat ≤ 15 := by revert cp; decide +kernel
          have h4 : cp - 4 ≠ 0x15 ∧ ¬ cp - 4 ≥ 0x20 ∧ cp - 4 < 0x10 ∧ cp - 4 + 4 = cp := by
            revert cp; decide +kernel
          rw [List.singleton_append, ofBytes_cons, if_neg h4.1, if_neg h4.2.1, if_pos h4.2.2.1, h4.2.2.2]
          simp [h3]
        · rw [if_neg h2, List.singleton_append, ofBytes_cons]
          have h3 : ¬ (1 ≤ cp.toNat ∧ cp.toNat ≤ 15) := by revert cp; decide +kernel
          have h4 : cp.toNat = 21 ↔ cp = 0x15 := by revert cp; decide +kernel
          have h5 : ¬ cp < 0x10 := by revert cp; decide +kernel
          simp only [h3, false_or, h4]
          by_cases e1 : cp = 0x15
          · rw [if_pos e1, e1]; simp
          · rw [if_neg e1, if_neg h5]
            simp only [e1, iff_false]
            intro h
            have hc := congrArg StringDVB.codepage h
            have hd := congrArg (List.length ∘ StringDVB.data) h
            split at h
            · exact h0' (congrArg StringDVB.codepage h).symm
            · split at h
              · have := congrArg (List.length ∘ StringDVB.data) h
                simp at this
              · exact h0' (congrArg StringDVB.codepage h).symm

/-- C25, as listed. -/
theorem C25_round_trip (s : StringDVB) (hne : s.data ≠ [])
    (h : (s.codepage = 0 ∧ 0x20 ≤ (s.data.headD 0).toNat) ∨ (1 ≤ s.codepage.toNat ∧ s.codepage.toNat ≤ 15) ∨
      s.codepage.toNat = 21) :
    StringDVB.ofBytes (s.assemble []) = s :=
  (C25_round_trip_iff s).2 (.inr ⟨hne, h⟩)

example : roundTrips ⟨5, [0x01, 0x02]⟩ ∧ roundTrips ⟨0, [0x41]⟩ ∧ roundTrips ⟨21, [0xD0, 0x90]⟩ ∧ ¬ roundTrips ⟨0, [0x10]⟩ :=
  ⟨by right; simp, by right; simp, by right; simp, by simp [roundTrips]⟩

/-- The bytes that reading and re-assembling turns `l` into: what the library does with each first byte. -/
def normalized : List UInt8 → List UInt8
  | [] => []
  | b :: r =>
    if 0x20 ≤ b.toNat then b :: r                                     -- default table
    else if b.toNat = 0x15 then Text.encoding 21 r                    -- UTF-8
    else if b.toNat < 0x10 then Text.encoding (b.toNat + 4) r          -- ISO 8859-5 …
    else if b.toNat = 0x10 then
      match r with
      | _ :: n :: t => Text.encoding n.toNat t                       -- `10 xx nn`: `xx` is ignored
      | _ => [0x3F]
    else [0x3F]                                                     -- not supported

/-- C26: what reading arbitrary bytes and assembling them again gives, for every byte string. -/
theorem C26_foreign (l : List UInt8) : (StringDVB.ofBytes l).assemble [] = normalized l := by
  rw [C24_assemble, List.nil_append]
  cases l with
  | nil => rfl
  | cons b r =>
    rw [ofBytes_cons]
    simp only [normalized]
    have h15 : (b = 0x15) ↔ b.toNat = 0x15 := by revert b; decide +kernel
    have h15' : b = 0x15 → ¬ 0x20 ≤ b.toNat := by revert b; decide +kernel
    have h20 : b ≥ 0x20 ↔ 0x20 ≤ b.toNat := Iff.rfl
    have h10 : b < 0x10 ↔ b.toNat < 0x10 := Iff.rfl
    have h10' : b = 0x10 ↔ b.toNat = 0x10 := by revert b; decide +kernel
    by_cases e1 : b = 0x15
    · rw [if_pos e1, if_neg (h15' e1), if_pos (h15.1 e1)]
      rfl
    · rw [if_neg e1]
      by_cases e2 : b ≥ 0x20
      · rw [if_pos e2, if_pos (h20.1 e2)]
        rfl
      · rw [if_neg e2, if_neg (fun h => e2 (h20.2 h)), if_neg (fun h => e1 (h15.2 h))]
        by_cases e3 : b < 0x10
        · rw [if_pos e3, if_pos (h10.1 e3)]
          have : (b + 4).toNat = b.toNat + 4 := by revert b; decide +kernel
          simp only [this]
        · rw [if_neg e3, if_neg (fun h => e3 (h10.2 h))]
          by_cases e4 : b = 0x10
          · rw [if_pos (h10'.1 e4)]
            match r with
            | [] => simp [Text.encoding, Text.selector]
            | [_] => simp [Text.encoding, Text.selector]
            | _ :: n :: t => simp [e4]
          · rw [if_neg (fun h => e4 h.1), if_neg (fun h => e4 (h10'.2 h))]
            rfl

/-- The byte strings that are reproduced unchanged: the empty one; default-table text; a one-byte selector for
ISO 8859-5 to -15 or UTF-8 with at least one character; `10 00 nn` for ISO 8859-1 to -4 with at least one character. -/
def Kept : List UInt8 → Prop
  | [] => True
  | b :: r => 0x20 ≤ b.toNat ∨ (r ≠ [] ∧ ((1 ≤ b.toNat ∧ b.toNat ≤ 11) ∨ b.toNat = 0x15)) ∨
    (b.toNat = 0x10 ∧ ∃ n t, r = 0 :: n :: t ∧ t ≠ [] ∧ 1 ≤ n.toNat ∧ n.toNat ≤ 4)

theorem selector_byte : ∀ n : UInt8, Text.selector n.toNat = if n.toNat = 0 then [] else if n.toNat ≤ 4 then [0x10, 0, n]
    else if n.toNat ≤ 15 then [n - 4] else [n] := by decide +kernel

theorem selector_byte4 : ∀ b : UInt8, b.toNat < 0x10 → Text.selector (b.toNat + 4) =
    if b.toNat = 0 then [0x10, 0, 4] else if b.toNat ≤ 11 then [b] else [b + 4] := by decide +kernel

theorem ne_of_length {α : Type} {a b : List α} (h : a.length ≠ b.length) : a ≠ b := fun e => h (congrArg _ e)

/-- C26: exactly these byte strings are reproduced unchanged. -/
theorem C26_kept_iff (l : List UInt8) : (StringDVB.ofBytes l).assemble [] = l ↔ Kept l := by
  rw [C26_foreign]
  cases l with
  | nil => simp [normalized, Kept]
  | cons b r =>
    simp only [normalized, Kept]
    by_cases e1 : 0x20 ≤ b.toNat
    · rw [if_pos e1]; simp [e1]
    rw [if_neg e1]
    simp only [e1, false_or]
    by_cases e2 : b.toNat = 0x15
    · have n2 : b = 0x15 := UInt8.toNat_inj.1 e2
      rw [if_pos e2]
      simp only [e2, or_true, and_true]
      subst n2
      cases r with
      | nil => simp [Text.encoding]
      | cons x xs => simp [Text.encoding, Text.selector]
    rw [if_neg e2]
    by_cases e3 : b.toNat < 0x10
    · rw [if_pos e3]
      have n2 : b.toNat ≠ 0x10 := by omega
      simp only [n2, e2, false_and, or_false]
      cases r with
      | nil => simp [Text.encoding]
      | cons x xs =>
        simp only [Text.encoding, selector_byte4 b e3]
        by_cases z : b.toNat = 0
        · rw [if_pos z]
          simp only [z]
          refine ⟨fun h => absurd h (ne_of_length (by simp; omega)), fun h => absurd h.2.1 (by omega)⟩
        rw [if_neg z]
        by_cases z2 : b.toNat ≤ 11
        · rw [if_pos z2]
          simp only [z2, and_true, List.cons_append, List.nil_append, true_iff]
          exact ⟨by simp, by omega⟩
        · rw [if_neg z2]
          simp only [z2, and_false, iff_false, List.cons_append, List.nil_append, List.cons.injEq, and_true]
          intro h
          have h' := congrArg UInt8.toNat h
          rw [UInt8.toNat_add, show (4 : UInt8).toNat = 4 from rfl] at h'
          omega
    rw [if_neg e3]
    have n3 : ¬ (1 ≤ b.toNat ∧ b.toNat ≤ 11 ∨ b.toNat = 21) := by omega
    simp only [n3, and_false, false_or]
    by_cases e4 : b.toNat = 0x10
    · rw [if_pos e4]
      have hb : b = 0x10 := UInt8.toNat_inj.1 e4
      simp only [e4, true_and]
      subst hb
      match r with
      | [] => simp
      | [_] => simp
      | x :: n :: t =>
        cases t with
        | nil =>
          simp only [Text.encoding, reduceCtorEq, false_iff]
          rintro ⟨n', t, h, ht, -⟩
          simp only [List.cons.injEq] at h
          exact ht h.2.2.symm
        | cons y ys =>
          simp only [Text.encoding, selector_byte]
          have eqv : (∃ n' t, x :: n :: y :: ys = 0 :: n' :: t ∧ t ≠ [] ∧ 1 ≤ n'.toNat ∧ n'.toNat ≤ 4) ↔
              (x = 0 ∧ 1 ≤ n.toNat ∧ n.toNat ≤ 4) := by
            constructor
            · rintro ⟨n', t, h, -, h1⟩
              simp only [List.cons.injEq] at h
              rw [h.2.1]
              exact ⟨h.1, h1⟩
            · rintro ⟨rfl, h1⟩
              exact ⟨n, y :: ys, rfl, by simp, h1⟩
          rw [eqv]
          by_cases z : n.toNat = 0
          · rw [if_pos z]
            exact ⟨fun h => absurd h (ne_of_length (by simp)), fun h => absurd h.2.1 (by omega)⟩
          rw [if_neg z]
          by_cases z1 : n.toNat ≤ 4
          · rw [if_pos z1]
            simp only [List.cons_append, List.nil_append, List.cons.injEq, and_true, true_and]
            exact ⟨fun h => ⟨h.symm, by omega, z1⟩, fun h => h.1.symm⟩
          · rw [if_neg z1]
            refine ⟨fun h => ?_, fun h => absurd h.2.2 z1⟩
            split at h
            · exact absurd h (ne_of_length (by simp))
            · exact absurd h (ne_of_length (by simp))
    · rw [if_neg e4]
      simp only [e4, false_and, iff_false]
      intro h
      simp only [List.cons.injEq] at h
      exact e1 (by rw [← h.1]; decide)

example : (StringDVB.ofBytes [0x01, 0xB0]).assemble [] = [0x01, 0xB0]
    ∧ (StringDVB.ofBytes [0x00, 0x41]).assemble [] = [0x10, 0x00, 0x04, 0x41]
    ∧ (StringDVB.ofBytes [0x11, 0x41]).assemble [] = [0x3F]
    ∧ (StringDVB.ofBytes [0x10, 0x00, 0x05, 0x41]).assemble [] = [0x01, 0x41] := by decide

end Mpegts
