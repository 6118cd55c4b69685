import Verif.Lemmas.Basic
import Verif.Model.Text
import Verif.Spec.Text

/-! # Lemmas: UTF-8 encoding and the lossy decoder -/

namespace Mpegts
open Spec

theorem isCont_iff : ∀ b : UInt8, StringDVB.isCont b = true ↔ (0x80 ≤ b.toNat ∧ b.toNat < 0xC0) := by decide +kernel

theorem u8n (n : Nat) (h : n < 256) : (UInt8.ofNat n).toNat = n := UInt8.toNat_ofNat_of_lt' h

theorem char_valid (c : Char) : c.val.toNat < 0xD800 ∨ (0xDFFF < c.val.toNat ∧ c.val.toNat < 0x110000) := c.valid

theorem char_ofNat (c : Char) (n : Nat) (h : n = c.val.toNat) : Char.ofNat n = c := by
  subst h
  exact Char.ofNat_toNat c

theorem second3_iff (b0 b1 : UInt8) : StringDVB.second3 b0 b1 = true ↔
    ((b0.toNat = 0xE0 ∧ 0xA0 ≤ b1.toNat ∧ b1.toNat ≤ 0xBF) ∨ (0xE1 ≤ b0.toNat ∧ b0.toNat ≤ 0xEC ∧ 0x80 ≤ b1.toNat ∧ b1.toNat ≤ 0xBF) ∨
    (b0.toNat = 0xED ∧ 0x80 ≤ b1.toNat ∧ b1.toNat ≤ 0x9F) ∨ (0xEE ≤ b0.toNat ∧ b0.toNat ≤ 0xEF ∧ 0x80 ≤ b1.toNat ∧ b1.toNat ≤ 0xBF)) := by
  simp only [StringDVB.second3, Bool.or_eq_true, Bool.and_eq_true, beq_iff_eq, decide_eq_true_eq, ← UInt8.toNat_inj,
    UInt8.le_iff_toNat_le]
  simp only [UInt8.reduceToNat]
  omega

theorem second4_iff (b0 b1 : UInt8) : StringDVB.second4 b0 b1 = true ↔
    ((b0.toNat = 0xF0 ∧ 0x90 ≤ b1.toNat ∧ b1.toNat ≤ 0xBF) ∨ (0xF1 ≤ b0.toNat ∧ b0.toNat ≤ 0xF3 ∧ 0x80 ≤ b1.toNat ∧ b1.toNat ≤ 0xBF) ∨
    (b0.toNat = 0xF4 ∧ 0x80 ≤ b1.toNat ∧ b1.toNat ≤ 0x8F)) := by
  simp only [StringDVB.second4, Bool.or_eq_true, Bool.and_eq_true, beq_iff_eq, decide_eq_true_eq, ← UInt8.toNat_inj,
    UInt8.le_iff_toNat_le]
  simp only [UInt8.reduceToNat]
  omega

/-- Shape of the UTF-8 encoding of one character: a lead byte and at most three continuation bytes. -/
theorem utf8_shape (c : Char) : ∃ b bs, String.utf8EncodeChar c = b :: bs ∧ StringDVB.isCont b = false ∧
    (∀ x ∈ bs, StringDVB.isCont x = true) ∧ bs.length ≤ 3 ∧ (c.val.toNat < 0x10000 → bs.length ≤ 2) ∧
    (0x10000 ≤ c.val.toNat → bs.length = 3) := by
  have hv := char_valid c
  rw [String.utf8EncodeChar.eq_1]
  generalize c.val.toNat = v at *
  have nc : ∀ b : UInt8, (b.toNat < 0x80 ∨ 0xC0 ≤ b.toNat) → StringDVB.isCont b = false := by
    intro b h
    rw [← Bool.not_eq_true, isCont_iff]; omega
  have cc : ∀ n, StringDVB.isCont (UInt8.ofNat (n % 64 + 128)) = true := by
    intro n
    rw [isCont_iff, u8n _ (by omega)]; omega
  split
  · refine ⟨_, [], rfl, nc _ ?_, by simp, by simp, by simp, by omega⟩
    rw [u8n _ (by omega)]; omega
  split
  · refine ⟨_, _, rfl, nc _ ?_, ?_, by simp, by simp, by omega⟩
    · rw [u8n _ (by omega)]; omega
    · simp only [List.mem_cons, List.not_mem_nil, or_false, forall_eq_or_imp, forall_eq, cc, and_self]
  split
  · refine ⟨_, _, rfl, nc _ ?_, ?_, by simp, by simp, by omega⟩
    · rw [u8n _ (by omega)]; omega
    · simp only [List.mem_cons, List.not_mem_nil, or_false, forall_eq_or_imp, forall_eq, cc, and_self]
  · refine ⟨_, _, rfl, nc _ ?_, ?_, by simp, by omega, by simp⟩
    · rw [u8n _ (by omega)]; omega
    · simp only [List.mem_cons, List.not_mem_nil, or_false, forall_eq_or_imp, forall_eq, cc, and_self]

/-- The lossy decoder reads one encoded character. -/
theorem lossyStep_encode (c : Char) (rest : List UInt8) : ∃ b bs, String.utf8EncodeChar c = b :: bs ∧
    StringDVB.lossyStep b (bs ++ rest) = (c, bs.length + 1) := by
  have hv := char_valid c
  rw [String.utf8EncodeChar.eq_1]
  have cc : ∀ n, StringDVB.isCont (UInt8.ofNat (n % 64 + 128)) = true := by
    intro n
    rw [isCont_iff, u8n _ (by omega)]; omega
  split
  · refine ⟨_, [], rfl, ?_⟩
    have h : UInt8.ofNat c.val.toNat < 0x80 := by
      rw [UInt8.lt_iff_toNat_lt, u8n _ (by omega)]; simp only [UInt8.reduceToNat]; omega
    rw [StringDVB.lossyStep.eq_def, if_pos h, u8n _ (by omega), char_ofNat c _ rfl]
    rfl
  split
  · refine ⟨_, _, rfl, ?_⟩
    have e : (UInt8.ofNat (c.val.toNat / 64 % 32 + 192)).toNat = c.val.toNat / 64 % 32 + 192 := u8n _ (by omega)
    have h1 : ¬ UInt8.ofNat (c.val.toNat / 64 % 32 + 192) < 0x80 := by
      rw [UInt8.lt_iff_toNat_lt, e]; simp only [UInt8.reduceToNat]; omega
    have h2 : 0xC2 ≤ UInt8.ofNat (c.val.toNat / 64 % 32 + 192) ∧ UInt8.ofNat (c.val.toNat / 64 % 32 + 192) ≤ 0xDF := by
      rw [UInt8.le_iff_toNat_le, UInt8.le_iff_toNat_le, e]; simp only [UInt8.reduceToNat]; omega
    rw [StringDVB.lossyStep.eq_def, if_neg h1, if_pos h2]
    simp only [List.cons_append, List.nil_append, cc, if_true]
    rw [e, u8n _ (by omega), char_ofNat c _ (by omega)]
    rfl
  split
  · refine ⟨_, _, rfl, ?_⟩
    have e : (UInt8.ofNat (c.val.toNat / 4096 % 16 + 224)).toNat = c.val.toNat / 4096 % 16 + 224 := u8n _ (by omega)
    have e1 : (UInt8.ofNat (c.val.toNat / 64 % 64 + 128)).toNat = c.val.toNat / 64 % 64 + 128 := u8n _ (by omega)
    have h1 : ¬ UInt8.ofNat (c.val.toNat / 4096 % 16 + 224) < 0x80 := by
      rw [UInt8.lt_iff_toNat_lt, e]; simp only [UInt8.reduceToNat]; omega
    have h2 : ¬ (0xC2 ≤ UInt8.ofNat (c.val.toNat / 4096 % 16 + 224) ∧ UInt8.ofNat (c.val.toNat / 4096 % 16 + 224) ≤ 0xDF) := by
      rw [UInt8.le_iff_toNat_le, UInt8.le_iff_toNat_le, e]; simp only [UInt8.reduceToNat]; omega
    have h3 : (0xE0 ≤ UInt8.ofNat (c.val.toNat / 4096 % 16 + 224) ∧ UInt8.ofNat (c.val.toNat / 4096 % 16 + 224) ≤ 0xEF) := by
      rw [UInt8.le_iff_toNat_le, UInt8.le_iff_toNat_le, e]; simp only [UInt8.reduceToNat]; omega
    have h4 : StringDVB.second3 (UInt8.ofNat (c.val.toNat / 4096 % 16 + 224)) (UInt8.ofNat (c.val.toNat / 64 % 64 + 128)) = true := by
      rw [second3_iff, e, e1]; omega
    rw [StringDVB.lossyStep.eq_def, if_neg h1, if_neg h2, if_pos h3]
    simp only [List.cons_append, List.nil_append, cc, h4, if_true]
    rw [e, e1, u8n _ (by omega), char_ofNat c _ (by omega)]
    rfl
  · refine ⟨_, _, rfl, ?_⟩
    have e : (UInt8.ofNat (c.val.toNat / 262144 % 8 + 240)).toNat = c.val.toNat / 262144 % 8 + 240 := u8n _ (by omega)
    have e1 : (UInt8.ofNat (c.val.toNat / 4096 % 64 + 128)).toNat = c.val.toNat / 4096 % 64 + 128 := u8n _ (by omega)
    have e2 : (UInt8.ofNat (c.val.toNat / 64 % 64 + 128)).toNat = c.val.toNat / 64 % 64 + 128 := u8n _ (by omega)
    have h1 : ¬ UInt8.ofNat (c.val.toNat / 262144 % 8 + 240) < 0x80 := by
      rw [UInt8.lt_iff_toNat_lt, e]; simp only [UInt8.reduceToNat]; omega
    have h2 : ¬ (0xC2 ≤ UInt8.ofNat (c.val.toNat / 262144 % 8 + 240) ∧ UInt8.ofNat (c.val.toNat / 262144 % 8 + 240) ≤ 0xDF) := by
      rw [UInt8.le_iff_toNat_le, UInt8.le_iff_toNat_le, e]; simp only [UInt8.reduceToNat]; omega
    have h3 : ¬ (0xE0 ≤ UInt8.ofNat (c.val.toNat / 262144 % 8 + 240) ∧ UInt8.ofNat (c.val.toNat / 262144 % 8 + 240) ≤ 0xEF) := by
      rw [UInt8.le_iff_toNat_le, UInt8.le_iff_toNat_le, e]; simp only [UInt8.reduceToNat]; omega
    have h3' : (0xF0 ≤ UInt8.ofNat (c.val.toNat / 262144 % 8 + 240) ∧ UInt8.ofNat (c.val.toNat / 262144 % 8 + 240) ≤ 0xF4) := by
      rw [UInt8.le_iff_toNat_le, UInt8.le_iff_toNat_le, e]; simp only [UInt8.reduceToNat]; omega
    have h4 : StringDVB.second4 (UInt8.ofNat (c.val.toNat / 262144 % 8 + 240)) (UInt8.ofNat (c.val.toNat / 4096 % 64 + 128)) = true := by
      rw [second4_iff, e, e1]; omega
    rw [StringDVB.lossyStep.eq_def, if_neg h1, if_neg h2, if_neg h3, if_pos h3']
    simp only [List.cons_append, List.nil_append, cc, h4, if_true]
    rw [e, e1, e2, u8n _ (by omega), char_ofNat c _ (by omega)]
    rfl

theorem lossyLoop_skip (bs rest : List UInt8) :
    StringDVB.lossyLoop bs.length (bs ++ rest) = StringDVB.lossyLoop 0 rest := by
  induction bs with
  | nil => rfl
  | cons b bs ih =>
    rw [List.length_cons, List.cons_append]
    rw [StringDVB.lossyLoop.eq_def]
    exact ih

/-- Decoding a UTF-8 encoded character and whatever follows. -/
theorem lossy_char (c : Char) (rest : List UInt8) :
    StringDVB.fromUtf8Lossy (String.utf8EncodeChar c ++ rest) = c :: StringDVB.fromUtf8Lossy rest := by
  obtain ⟨b, bs, h1, h2⟩ := lossyStep_encode c rest
  rw [h1, StringDVB.fromUtf8Lossy, List.cons_append]
  rw [StringDVB.lossyLoop.eq_def]
  simp only [h2, Nat.add_sub_cancel, lossyLoop_skip]
  rfl

/-- Decoding the UTF-8 encoding of a text gives the text. -/
theorem lossy_utf8 (s : List Char) : StringDVB.fromUtf8Lossy (Text.utf8 s) = s := by
  induction s with
  | nil => rfl
  | cons c s ih => rw [Text.utf8, List.flatMap_cons, lossy_char]; exact congrArg _ ih

end Mpegts
