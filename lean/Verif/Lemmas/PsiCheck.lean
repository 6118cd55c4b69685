import Verif.Lemmas.Crc
import Verif.Model.Psi

/-! # Helper lemmas: CRC checks of sections -/

namespace Mpegts
open Spec

theorem bits_append (a b : List UInt8) : bits (a ++ b) = bits a ++ bits b := by simp [bits]

theorem byteBits_length (b : UInt8) : (byteBits b).length = 8 := rfl

theorem bits_length (l : List UInt8) : (bits l).length = 8 * l.length := by
  induction l with
  | nil => rfl
  | cons b l ih => rw [bits, List.flatMap_cons, List.length_append, byteBits_length]; unfold bits at ih; rw [ih]; simp; omega

theorem byteBits_inj : ∀ a b : UInt8, byteBits a = byteBits b → a = b := by
  intro a b h
  apply UInt8.toNat_inj.1
  apply Nat.eq_of_testBit_eq
  intro i
  simp only [byteBits, List.map_cons, List.map_nil, List.cons.injEq, and_true] at h
  obtain ⟨h7, h6, h5, h4, h3, h2, h1, h0⟩ := h
  by_cases hi : i < 8
  · interval_cases i <;> assumption
  · rw [Nat.testBit_lt_two_pow, Nat.testBit_lt_two_pow]
    · exact Nat.lt_of_lt_of_le b.toNat_lt (Nat.pow_le_pow_right (by omega) (by omega))
    · exact Nat.lt_of_lt_of_le a.toNat_lt (Nat.pow_le_pow_right (by omega) (by omega))

theorem bits_inj (a b : List UInt8) (h : bits a = bits b) : a = b := by
  induction a generalizing b with
  | nil =>
    match b with
    | [] => rfl
    | x :: b => have := congrArg List.length h; rw [bits_length, bits_length] at this; simp at this
  | cons x a ih =>
    match b with
    | [] => have := congrArg List.length h; rw [bits_length, bits_length] at this; simp at this
    | y :: b =>
      simp only [bits, List.flatMap_cons] at h
      obtain ⟨h1, h2⟩ := List.append_inj h rfl
      rw [byteBits_inj x y h1, ih b h2]

theorem crc32_append_self (l : List UInt8) : crc32 (l ++ beBytes 4 (crc32 l).toNat) = 0 := by
  rw [crc32, bits_append, List.foldl_append]
  exact foldl_self _

theorem crc32_append_eq_zero (l t : List UInt8) (ht : t.length = 4) (h : crc32 (l ++ t) = 0) :
    t = beBytes 4 (crc32 l).toNat := by
  have h2 := crc32_append_self l
  rw [crc32, bits_append, List.foldl_append] at h h2
  apply bits_inj
  apply foldl_window_inj _ _ ((bits l).foldl crcBit 0xFFFFFFFF)
  · rw [bits_length, bits_length, ht, beBytes_length]
  · rw [bits_length, ht]
  · rw [h, h2]

namespace Psi

theorem getCrc32_ok (p : Profile) (s : Psi) (h4 : 4 ≤ s.size) (hl : s.size ≤ s.buffer.length) :
    s.getCrc32 p = .ok (UInt32.ofNat (beNat ((s.buffer.take s.size).drop (s.size - 4)))) := by
  rw [getCrc32, usizeSub_ok p h4, ok_bind, getU32At_ok (by omega)]
  congr 3
  rw [List.drop_take]
  congr 1
  omega

theorem calcCrc32_ok (p : Profile) (s : Psi) (h4 : 4 ≤ s.size) (hl : s.size ≤ s.buffer.length) :
    s.calcCrc32 p = .ok (crc32 (s.buffer.take (s.size - 4))) := by
  rw [calcCrc32, usizeSub_ok p h4, ok_bind, sliceTo, if_pos (by omega), ok_bind, crc32b_eq]

/-- The stored CRC equals the computed one iff the CRC over everything is zero. -/
theorem stored_eq_iff (s : Psi) (h4 : 4 ≤ s.size) (hl : s.size ≤ s.buffer.length) :
    UInt32.ofNat (beNat ((s.buffer.take s.size).drop (s.size - 4))) = crc32 (s.buffer.take (s.size - 4)) ↔
      crc32 (s.buffer.take s.size) = 0 := by
  have hsplit : s.buffer.take s.size = s.buffer.take (s.size - 4) ++ (s.buffer.take s.size).drop (s.size - 4) := by
    conv_lhs => rw [← List.take_append_drop (s.size - 4) (s.buffer.take s.size)]
    rw [List.take_take, Nat.min_eq_left (by omega)]
  have hlen : ((s.buffer.take s.size).drop (s.size - 4)).length = 4 := by simp; omega
  generalize (s.buffer.take s.size).drop (s.size - 4) = t at *
  constructor
  · intro h
    rw [hsplit]
    have ht : t = beBytes 4 (crc32 (s.buffer.take (s.size - 4))).toNat := by
      rw [← h]
      have hb := beNat_lt t
      rw [hlen] at hb
      rw [UInt32.toNat_ofNat', Nat.mod_eq_of_lt (by omega)]
      have := beBytes_beNat t
      rw [hlen] at this
      exact this.symm
    rw [ht]
    exact crc32_append_self _
  · intro h
    rw [hsplit] at h
    rw [crc32_append_eq_zero _ t hlen h, beNat_beBytes]
    apply UInt32.toNat_inj.1
    have := (crc32 (s.buffer.take (s.size - 4))).toNat_lt
    rw [UInt32.toNat_ofNat']
    omega

theorem checkCrc32_ok (p : Profile) (s : Psi) (h4 : 4 ≤ s.size) (hl : s.size ≤ s.buffer.length) :
    s.checkCrc32 p = .ok (decide (crc32 (s.buffer.take s.size) = 0)) := by
  rw [checkCrc32, getCrc32_ok p s h4 hl, calcCrc32_ok p s h4 hl, ok_bind, ok_bind, pure_eq_ok]
  congr 1
  rw [Bool.eq_iff_iff, beq_iff_eq, decide_eq_true_iff]
  exact stored_eq_iff s h4 hl

/-- `check` in one formula. -/
theorem check_eq (p : Profile) (s : Psi) :
    s.check p = .ok (decide (7 < s.size ∧ s.size ≤ s.buffer.length ∧ crc32 (s.buffer.take s.size) = 0)) := by
  unfold check
  by_cases h1 : 7 < s.size
  · by_cases h2 : s.size ≤ s.buffer.length
    · simp only [gt_iff_lt, h1, decide_true, Bool.not_true, Bool.false_eq_true, if_false, ge_iff_le, h2]
      rw [checkCrc32_ok p s (by omega) h2]
      simp
    · simp [h1, h2]
  · simp [h1]

end Psi
end Mpegts
