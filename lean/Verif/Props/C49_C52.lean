import Verif.Lemmas.PsiCheck
import Verif.Lemmas.PsiDemux
import Verif.Spec.Section

/-! # C49-C52: finalising, checking, comparing and creating sections -/

namespace Mpegts
open Spec

theorem len_field (b : UInt8) (n : Nat) (h : n + 1 < 4096) :
    (((b &&& (0xF0 : UInt8)).toUInt16 <<< 8) ||| UInt16.ofNat (n + 4 - 3)).toNat = b.toNat / 16 * 4096 + (n + 1) := by
  have key : ∀ b : UInt8, ((b &&& (0xF0 : UInt8)).toUInt16 <<< 8).toNat = b.toNat / 16 * 4096 := by decide +kernel
  rw [UInt16.toNat_or, key, UInt16.toNat_ofNat_of_lt' (by show _ < 2^16; omega), show n + 4 - 3 = n + 1 by omega]
  exact nat_mul_or _ _ 4096 12 rfl h

theorem complete_length {body : List UInt8} (h3 : 3 ≤ body.length) : (complete body).length = body.length + 4 := by
  simp only [complete, List.length_append, beBytes_length, List.length_take, List.length_drop]
  omega

theorem complete_isSection {body : List UInt8} (h3 : 3 ≤ body.length) (h : body.length ≤ 4094) :
    IsSection (complete body) := by
  refine ⟨by rw [complete_length h3]; omega, ?_⟩
  rw [complete_length h3]
  obtain ⟨a, b, c, r, rfl⟩ := exists_cons3 h3
  have : (complete (a :: b :: c :: r)).drop 1 = beBytes 2 (b.toNat / 16 * 4096 + ((a :: b :: c :: r).length - 3 + 4)) ++
      (r ++ beBytes 4 (crc32 ([a] ++ beBytes 2 (b.toNat / 16 * 4096 + ((a :: b :: c :: r).length - 3 + 4)) ++ r)).toNat) := by
    simp only [complete, List.getD_cons_succ, List.getD_cons_zero, List.take_succ_cons, List.take_zero, List.drop_succ_cons,
      List.drop_zero, List.append_assoc, List.cons_append, List.nil_append]
  have hb := b.toNat_lt
  rw [this, List.take_left' (beBytes_length _ _), beNat_beBytes]
  simp only [List.length_cons] at h ⊢
  norm_num only
  omega

/-- C49: `finalize` of a section under construction makes it complete: the length field is set, the CRC appended,
nothing else changes. -/
theorem C49_finalize (p : Profile) (s : Psi) (h0 : s.size = 0) (h3 : 3 ≤ s.buffer.length) (h : s.buffer.length ≤ 4094) :
    s.finalize p = .ok { s with buffer := complete s.buffer, size := s.buffer.length + 4 } := by
  obtain ⟨buffer, size, pid, cc⟩ := s
  simp only at h0 h3 h ⊢
  subst h0
  obtain ⟨a, b, c, r, rfl⟩ := exists_cons3 h3
  have hlen : (a :: b :: c :: r).length = r.length + 3 := rfl
  rw [Psi.finalize]
  simp only [if_true, resize_extend]
  have hbuf : a :: b :: c :: r ++ List.replicate 4 (0 : UInt8) = a :: b :: c :: (r ++ List.replicate 4 0) := rfl
  rw [hbuf, idx_succ, idx_zero, ok_bind]
  rw [setU16At_ok _ (by simp)]
  simp only [ok_bind, pure_eq_ok]
  rw [len_field b _ (by omega)]
  have hval : b.toNat / 16 * 4096 + ((a :: b :: c :: r).length + 1) =
      ((a :: b :: c :: r).getD 1 0).toNat / 16 * 4096 + ((a :: b :: c :: r).length - 3 + 4) := by
    rw [List.getD_cons_succ, List.getD_cons_zero]; omega
  rw [hval, complete]
  generalize ((a :: b :: c :: r).getD 1 0).toNat / 16 * 4096 + ((a :: b :: c :: r).length - 3 + 4) = x
  have hd : List.take 1 (a :: b :: c :: (r ++ List.replicate 4 (0 : UInt8))) ++ beBytes 2 x ++
      List.drop (1 + 2) (a :: b :: c :: (r ++ List.replicate 4 0)) =
      (List.take 1 (a :: b :: c :: r) ++ beBytes 2 x ++ List.drop 3 (a :: b :: c :: r)) ++ List.replicate 4 0 := by
    simp only [List.take_succ_cons, List.take_zero, show 1 + 2 = 3 from rfl, List.drop_succ_cons, List.drop_zero,
      List.append_assoc]
  have hhl : (List.take 1 (a :: b :: c :: r) ++ beBytes 2 x ++ List.drop 3 (a :: b :: c :: r)).length =
      (a :: b :: c :: r).length := by
    simp only [List.length_append, beBytes_length, List.length_take, List.length_drop, hlen]; omega
  rw [hd]
  generalize List.take 1 (a :: b :: c :: r) ++ beBytes 2 x ++ List.drop 3 (a :: b :: c :: r) = hd at hhl ⊢
  rw [usizeSub_ok p (by omega), ok_bind, Nat.add_sub_cancel, ← hhl, sliceTo_append, ok_bind, crc32b_eq, ok_bind]
  have := setU32At_append hd (List.replicate 4 0) 0 (crc32 hd)
  rw [Nat.add_zero] at this
  rw [this, setU32At_ok _ (by simp)]
  simp only [map_ok, ok_bind, pure_eq_ok, List.take_zero, List.nil_append, Nat.zero_add]
  rw [List.drop_of_length_le (by simp), List.append_nil]

/-- C49: a finalised section is a section by its own length field, and `check` accepts it. -/
theorem C49_check (p : Profile) (s : Psi) (h0 : s.size = 0) (h4 : 4 ≤ s.buffer.length) (h : s.buffer.length ≤ 4094) :
    ∃ s', s.finalize p = .ok s' ∧ s'.buffer.length = s.buffer.length + 4 ∧ s'.size = s'.buffer.length ∧
      IsSection s'.buffer ∧ s'.check p = .ok true := by
  have hl := complete_length (show 3 ≤ s.buffer.length by omega)
  refine ⟨_, C49_finalize p s h0 (by omega) h, hl, hl.symm, complete_isSection (by omega) h, ?_⟩
  rw [Psi.check_eq]
  simp only
  refine congrArg Except.ok (decide_eq_true ⟨by omega, by omega, ?_⟩)
  rw [← hl, List.take_length, complete]
  exact crc32_append_self _

/-- C49: `finalize` of a section whose size is set already only recomputes the CRC (the last four bytes). -/
theorem C49_refinalize (p : Profile) (s : Psi) (h4 : 4 ≤ s.size) (hl : s.size ≤ s.buffer.length) :
    s.finalize p = .ok { s with
      buffer := s.buffer.take (s.size - 4) ++ beBytes 4 (crc32 (s.buffer.take (s.size - 4))).toNat ++ s.buffer.drop s.size } := by
  rw [Psi.finalize]
  simp only [if_neg (show ¬ s.size = 0 by omega), pure_eq_ok, ok_bind]
  rw [usizeSub_ok p h4, ok_bind, sliceTo, if_pos (by omega), ok_bind, crc32b_eq, ok_bind, setU32At_ok _ (by omega), ok_bind,
    Nat.sub_add_cancel h4]

/-- The length field `finalize` writes for a section under construction of `n` bytes, whatever `n` is. -/
theorem len_field_any (b : UInt8) (n : Nat) :
    (((b &&& (0xF0 : UInt8)).toUInt16 <<< 8) ||| UInt16.ofNat (n + 4 - 3)).toNat =
      b.toNat / 16 * 4096 ||| (n + 1) % 65536 := by
  have key : ∀ b : UInt8, ((b &&& (0xF0 : UInt8)).toUInt16 <<< 8).toNat = b.toNat / 16 * 4096 := by decide +kernel
  rw [UInt16.toNat_or, key, UInt16.toNat_ofNat', show n + 4 - 3 = n + 1 by omega]

/-- C49, any section under construction, also an unfinished header or one too large for a section: the value written as
length field is the upper half of the second byte and the number of bytes from the fourth on (CRC included) *or*-ed
together, and the CRC of what is then there is appended. -/
theorem C49_finalize_any (p : Profile) (s : Psi) (h0 : s.size = 0) :
    let field := (s.buffer.getD 1 0).toNat / 16 * 4096 ||| (s.buffer.length + 1) % 65536
    let head := (s.buffer.take 1 ++ beBytes 2 field ++ s.buffer.drop 3).take s.buffer.length
    s.finalize p = .ok { s with buffer := head ++ beBytes 4 (crc32 head).toNat, size := s.buffer.length + 4 } := by
  obtain ⟨buffer, size, pid, cc⟩ := s
  simp only at h0 ⊢
  subst h0
  rw [Psi.finalize]
  simp only [if_true, resize_extend]
  have hi : idx (buffer ++ List.replicate 4 (0 : UInt8)) 1 = .ok (buffer.getD 1 0) := by
    match buffer with
    | [] => rfl
    | [a] => rfl
    | a :: b :: r => rfl
  rw [hi, ok_bind, setU16At_ok _ (by simp)]
  simp only [ok_bind, pure_eq_ok]
  rw [len_field_any]
  generalize (buffer.getD 1 0).toNat / 16 * 4096 ||| (buffer.length + 1) % 65536 = x
  have hd : List.take 1 (buffer ++ List.replicate 4 (0 : UInt8)) ++ beBytes 2 x ++
      List.drop (1 + 2) (buffer ++ List.replicate 4 (0 : UInt8)) =
      (buffer.take 1 ++ beBytes 2 x ++ buffer.drop 3).take buffer.length ++
        (List.take 1 (buffer ++ List.replicate 4 (0 : UInt8)) ++ beBytes 2 x ++
          List.drop (1 + 2) (buffer ++ List.replicate 4 (0 : UInt8))).drop buffer.length := by
    refine (List.take_append_drop buffer.length _).symm.trans (congrArg (· ++ _) ?_)
    match buffer with
    | [] => rfl
    | [a] => rfl
    | [a, b] => simp [beBytes]
    | a :: b :: c :: r =>
      simp only [List.cons_append, List.take_succ_cons, List.take_zero, show 1 + 2 = 3 from rfl, List.drop_succ_cons,
        List.drop_zero, List.nil_append]
      rw [← List.append_assoc, ← List.cons_append, List.take_append_of_le_length]
      simp [beBytes_length]; omega
  have htl : ((List.take 1 (buffer ++ List.replicate 4 (0 : UInt8)) ++ beBytes 2 x ++
          List.drop (1 + 2) (buffer ++ List.replicate 4 (0 : UInt8))).drop buffer.length).length = 4 := by
    simp only [List.length_drop, List.length_append, beBytes_length, List.length_take, List.length_replicate]
    omega
  have hhl : ((buffer.take 1 ++ beBytes 2 x ++ buffer.drop 3).take buffer.length).length = buffer.length := by
    simp only [List.length_append, beBytes_length, List.length_take, List.length_drop]; omega
  rw [hd]
  generalize (List.take 1 (buffer ++ List.replicate 4 (0 : UInt8)) ++ beBytes 2 x ++
          List.drop (1 + 2) (buffer ++ List.replicate 4 (0 : UInt8))).drop buffer.length = tl at htl ⊢
  generalize (buffer.take 1 ++ beBytes 2 x ++ buffer.drop 3).take buffer.length = hd at hhl ⊢
  rw [usizeSub_ok p (by omega), ok_bind, Nat.add_sub_cancel, ← hhl, sliceTo_append, ok_bind, crc32b_eq, ok_bind]
  have := setU32At_append hd tl 0 (crc32 hd)
  rw [Nat.add_zero] at this
  rw [this, setU32At_ok _ (by omega)]
  simp only [map_ok, ok_bind, pure_eq_ok, List.take_zero, List.nil_append, Nat.zero_add]
  rw [List.drop_of_length_le (by omega), List.append_nil]

/-- C49, boundary: `finalize` panics exactly if the size is set but has no room for a CRC, or the section is not all
there (also in release builds, where the subtraction wraps). -/
theorem C49_finalize_panics (p : Profile) (s : Psi) (hb : s.buffer.length < 2 ^ 63) :
    s.finalize p = panic ↔ s.size ≠ 0 ∧ (s.size < 4 ∨ s.buffer.length < s.size) := by
  by_cases h0 : s.size = 0
  · rw [C49_finalize_any p s h0]
    exact ⟨fun h => (nomatch h), fun h => absurd h0 h.1⟩
  · by_cases hc : 4 ≤ s.size ∧ s.size ≤ s.buffer.length
    · rw [C49_refinalize p s hc.1 hc.2]
      exact ⟨fun h => (nomatch h), fun h => by omega⟩
    · refine ⟨fun _ => ⟨h0, by omega⟩, fun _ => ?_⟩
      rw [Psi.finalize]
      simp only [if_neg h0, pure_eq_ok, ok_bind]
      by_cases h4 : 4 ≤ s.size
      · rw [usizeSub_ok p h4, ok_bind, sliceTo]
        split
        · rw [ok_bind, crc32b_eq, ok_bind, setU32At, atOff]
          by_cases hl : s.size - 4 ≤ s.buffer.length
          · rw [sliceFrom_ok hl, ok_bind]
            have : setU32 (s.buffer.drop (s.size - 4)) (crc32 (s.buffer.take (s.size - 4))) = panic := by
              exact setU32_short _ (by rw [List.length_drop]; omega)
            rw [this]; rfl
          · omega
        · rfl
      · cases p
        · rw [usizeSub, if_neg (by omega)]; rfl
        · rw [usizeSub, if_neg (by omega)]
          simp only [Profile.overflow, ok_bind]
          rw [sliceTo, if_neg (by omega)]; rfl

/-- C50: `check` never panics and accepts exactly the sections of more than 7 bytes that are completely there and
whose last four bytes are the CRC of the bytes before. -/
theorem C50_check (p : Profile) (s : Psi) : ∃ b, s.check p = .ok b ∧
    (b = true ↔ 7 < s.size ∧ s.size ≤ s.buffer.length ∧
      ((s.buffer.take s.size).drop (s.size - 4)) = beBytes 4 (crc32 (s.buffer.take (s.size - 4))).toNat) := by
  refine ⟨_, Psi.check_eq p s, ?_⟩
  rw [decide_eq_true_iff]
  refine and_congr_right fun h7 => and_congr_right fun hl => ?_
  have hsplit : s.buffer.take s.size = s.buffer.take (s.size - 4) ++ (s.buffer.take s.size).drop (s.size - 4) := by
    conv_lhs => rw [← List.take_append_drop (s.size - 4) (s.buffer.take s.size), List.take_take, Nat.min_eq_left (by omega)]
  have hlen : ((s.buffer.take s.size).drop (s.size - 4)).length = 4 := by
    rw [List.length_drop, List.length_take]; omega
  constructor
  · intro h
    rw [hsplit] at h
    exact crc32_append_eq_zero _ _ hlen h
  · intro h
    rw [hsplit, h]
    exact crc32_append_self _

/-- C51: comparing sections: different sizes are unequal; equal sizes compare the CRC fields; no panic on complete
sections. -/
theorem C51_eq (p : Profile) (s t : Psi) (hs : 4 ≤ s.size) (hsl : s.size ≤ s.buffer.length) (ht : 4 ≤ t.size)
    (htl : t.size ≤ t.buffer.length) :
    s.eq p t = .ok (decide (s.size = t.size ∧
      (s.buffer.take s.size).drop (s.size - 4) = (t.buffer.take t.size).drop (t.size - 4))) := by
  unfold Psi.eq
  by_cases h : s.size = t.size
  · rw [if_neg (by simp [h]), Psi.getCrc32_ok p s hs hsl, Psi.getCrc32_ok p t ht htl, ok_bind, ok_bind, pure_eq_ok]
    refine congrArg Except.ok ?_
    rw [Bool.eq_iff_iff, beq_iff_eq, decide_eq_true_iff]
    have l1 : ((s.buffer.take s.size).drop (s.size - 4)).length = 4 := by rw [List.length_drop, List.length_take]; omega
    have l2 : ((t.buffer.take t.size).drop (t.size - 4)).length = 4 := by rw [List.length_drop, List.length_take]; omega
    generalize (s.buffer.take s.size).drop (s.size - 4) = x at l1 ⊢
    generalize (t.buffer.take t.size).drop (t.size - 4) = y at l2 ⊢
    constructor
    · intro he
      refine ⟨h, ?_⟩
      have b1 := beNat_lt x
      have b2 := beNat_lt y
      rw [l1] at b1
      rw [l2] at b2
      have he := congrArg UInt32.toNat he
      rw [UInt32.toNat_ofNat_of_lt' (by exact b1), UInt32.toNat_ofNat_of_lt' (by exact b2)] at he
      rw [← beBytes_beNat x, ← beBytes_beNat y, l1, l2, he]
    · rintro ⟨-, he⟩; rw [he]
  · rw [if_pos (by simp [h])]
    simp [h]

/-- C51, boundary: sections of equal size are compared by reading both CRC fields, so comparing panics exactly if the
sizes are equal and leave no room for a CRC or one of the two sections is not all there (in both profiles). -/
theorem C51_panics (p : Profile) (s t : Psi) (hs : s.buffer.length < 2 ^ 63) :
    s.eq p t = panic ↔
      s.size = t.size ∧ (s.size < 4 ∨ s.buffer.length < s.size ∨ t.buffer.length < t.size) := by
  have hp : ∀ s : Psi, s.buffer.length < 2 ^ 63 → (s.size < 4 ∨ s.buffer.length < s.size) → s.getCrc32 p = panic := by
    intro s hb hs
    unfold Psi.getCrc32
    by_cases h4 : 4 ≤ s.size
    · rw [usizeSub_ok p h4, ok_bind, getU32At, sliceFrom]
      split
      · rw [ok_bind, getU32_short]; rw [List.length_drop]; omega
      · rfl
    · rw [usizeSub, if_neg h4]
      cases p
      · rfl
      · simp only [Profile.overflow, ok_bind]
        rw [getU32At, sliceFrom, if_neg (by omega)]; rfl
  have hp' : ∀ s : Psi, 4 ≤ s.size → s.buffer.length < s.size → s.getCrc32 p = panic := by
    intro s h4 hs
    unfold Psi.getCrc32
    rw [usizeSub_ok p h4, ok_bind, getU32At, sliceFrom]
    split
    · rw [ok_bind, getU32_short]; rw [List.length_drop]; omega
    · rfl
  by_cases he : s.size = t.size
  · by_cases h1 : s.size < 4 ∨ s.buffer.length < s.size
    · refine ⟨fun _ => ⟨he, h1.imp id Or.inl⟩, fun _ => ?_⟩
      unfold Psi.eq
      rw [if_neg (by simp [he]), hp s hs h1]; rfl
    · by_cases h2 : t.buffer.length < t.size
      · refine ⟨fun _ => ⟨he, .inr (.inr h2)⟩, fun _ => ?_⟩
        unfold Psi.eq
        rw [if_neg (by simp [he]), Psi.getCrc32_ok p s (by omega) (by omega), ok_bind, hp' t (by omega) h2]; rfl
      · rw [C51_eq p s t (by omega) (by omega) (by omega) (by omega)]
        exact ⟨fun h => (nomatch h), fun h => by omega⟩
  · refine ⟨fun h => ?_, fun h => absurd h.1 he⟩
    unfold Psi.eq at h
    rw [if_pos (by simp [he])] at h
    exact nomatch h

/-- C51: sections of different size are unequal, whatever is there of them. -/
theorem C51_sizes (p : Profile) (s t : Psi) (h : s.size ≠ t.size) : s.eq p t = .ok false := by
  unfold Psi.eq
  rw [if_pos (by simp [h])]; rfl

/-- C52: a new section has the given number of bytes, all zero except the table id, the syntax bits and (from six
bytes on) version and current_next_indicator; it is under construction (size 0). -/
theorem C52_new (p : Profile) (tableId version : UInt8) (size : Nat) (h : 3 ≤ size) :
    ∃ s, Psi.new p tableId size version = .ok s ∧ s.size = 0 ∧ s.pid = 0 ∧ s.cc = 0 ∧ s.buffer.length = size ∧
      ∀ i, s.buffer.getD i 0 = if i = 0 then tableId else if i = 1 then 0xB0
        else if i = 5 ∧ 6 ≤ size then UInt8.ofNat (192 + version.toNat % 32 * 2 + 1) else 0 := by
  have hver : ∀ v : UInt8, ((0xC0 : UInt8) ||| ((v <<< 1) &&& (0x3E : UInt8)) ||| (0x01 : UInt8)) =
      UInt8.ofNat (192 + v.toNat % 32 * 2 + 1) := by decide +kernel
  have hget : ∀ n i, (List.replicate n (0 : UInt8)).getD i 0 = 0 := by
    intro n i
    rw [List.getD_eq_getElem?_getD, List.getElem?_replicate]
    split <;> rfl
  unfold Psi.new
  rw [show decide (size ≥ 3) = true by simpa using h, debugAssert_true, ok_bind]
  have hr : resize ([] : List UInt8) size 0 = List.replicate size 0 := by
    have := resize_extend ([] : List UInt8) size 0
    rw [List.length_nil, Nat.zero_add, List.nil_append] at this
    exact this
  simp only [hr, hver]
  by_cases h6 : 6 ≤ size
  · obtain ⟨k, rfl⟩ := Nat.exists_eq_add_of_le' h6
    simp only [List.replicate_succ, setIdx_zero, setIdx_succ, ok_bind, map_ok, if_pos h6, pure_eq_ok]
    refine ⟨_, rfl, rfl, rfl, rfl, by simp, ?_⟩
    intro i
    simp only [h6, and_true]
    match i with
    | 0 => rfl
    | 1 => rfl
    | 2 => rfl
    | 3 => rfl
    | 4 => rfl
    | 5 => rfl
    | i + 6 =>
      simp only [List.getD_cons_succ, hget]
      rw [if_neg (by omega), if_neg (by omega), if_neg (by omega)]
  · obtain ⟨k, rfl⟩ := Nat.exists_eq_add_of_le' h
    simp only [List.replicate_succ, setIdx_zero, setIdx_succ, ok_bind, map_ok, if_neg h6, pure_eq_ok]
    refine ⟨_, rfl, rfl, rfl, rfl, by simp, ?_⟩
    intro i
    simp only [h6, and_false, if_false]
    match i with
    | 0 => rfl
    | 1 => rfl
    | 2 => rfl
    | i + 3 =>
      simp only [List.getD_cons_succ, hget]
      rw [if_neg (by omega), if_neg (by omega)]

/-- C52, boundary: fewer than three bytes are refused in debug builds; release builds refuse fewer than two and hand
out a two-byte section. -/
theorem C52_new_short (tableId version : UInt8) (size : Nat) (h : size < 3) :
    Psi.new .debug tableId size version = panic ∧
      Psi.new .release tableId size version =
        if size = 2 then .ok { buffer := [tableId, 0xB0], size := 0, pid := 0, cc := 0 } else panic := by
  constructor
  · unfold Psi.new
    rw [show decide (size ≥ 3) = false by simp; omega]; rfl
  · match size, h with
    | 0, _ => rfl
    | 1, _ => rfl
    | 2, _ => rfl

/-! Concrete cases. -/
/-- A section of 4096 bytes before its CRC: the length field says 1 (4097 spills into the reserved bits, which are set already). -/
example (p : Profile) (c : UInt8) (r : List UInt8) (hr : r.length = 4093) :
    ∃ s', Psi.finalize p { buffer := 0x73 :: 0x70 :: c :: r, size := 0, pid := 0, cc := 0 } = .ok s' ∧
      s'.size = 4100 ∧ (s'.buffer.drop 1).take 2 = [0x70, 0x01] := by
  refine ⟨_, C49_finalize_any p _ rfl, by simp [hr], ?_⟩
  simp [hr, beBytes]
example : Psi.finalize .release { buffer := [1, 2], size := 3, pid := 0, cc := 0 } = panic := by decide +kernel
example : Psi.eq .release { buffer := [], size := 3, pid := 0, cc := 0 } { buffer := [], size := 3, pid := 0, cc := 0 } = panic := by
  decide +kernel
example : (do let s ← Psi.new .debug 0x00 8 3; let s ← s.finalize .debug; s.check .debug) = .ok true := by decide +kernel
example : Psi.new .debug 0x42 8 33 = .ok { Psi.default with buffer := [0x42, 0xB0, 0, 0, 0, 0xC3, 0, 0] } := by
  decide +kernel

end Mpegts
