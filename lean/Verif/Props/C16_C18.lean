import Verif.Lemmas.PsiCheck

/-! # C16-C18: the section CRC -/

namespace Mpegts
open Spec

/-- C16: the table-driven checksum is the bitwise CRC-32/MPEG-2, for every byte string, and never panics. -/
theorem C16_crc (l : List UInt8) : crc32b l = .ok (crc32 l) := crc32b_eq l

/-- C17: appending the CRC makes the CRC zero, and no other four bytes do. -/
theorem C17_residue (l t : List UInt8) (ht : t.length = 4) :
    crc32b (l ++ t) = .ok 0 ↔ ∃ c, crc32b l = .ok c ∧ t = beBytes 4 c.toNat := by
  simp only [crc32b_eq, Except.ok.injEq, exists_eq_left']
  constructor
  · exact crc32_append_eq_zero l t ht
  · rintro rfl; exact crc32_append_self l

/-- C18: two byte strings whose bits differ only inside a window of at most 32 consecutive bits have different
CRCs. -/
theorem C18_burst (a b : List UInt8) (pre w w' post : List Bool)
    (ha : bits a = pre ++ w ++ post) (hb : bits b = pre ++ w' ++ post)
    (hlen : w.length = w'.length) (hk : w.length ≤ 32) (hne : w ≠ w') : crc32b a ≠ crc32b b := by
  rw [crc32b_eq, crc32b_eq]
  intro h
  have h' : crc32 a = crc32 b := by injection h
  unfold crc32 at h'
  rw [ha, hb] at h'
  simp only [List.foldl_append] at h'
  exact hne (foldl_window_inj w w' _ hlen hk (foldl_inj post _ _ h'))

/-- C18: a section accepted by `check` is rejected after any such burst inside it. -/
theorem C18_burst_check (p : Profile) (s s' : Psi) (hs : s.check p = .ok true) (hsize : s'.size = s.size)
    (pre w w' post : List Bool)
    (ha : bits (s.buffer.take s.size) = pre ++ w ++ post) (hb : bits (s'.buffer.take s.size) = pre ++ w' ++ post)
    (hlen : w.length = w'.length) (hk : w.length ≤ 32) (hne : w ≠ w') : s'.check p = .ok false := by
  rw [Psi.check_eq] at hs ⊢
  have hs' : 7 < s.size ∧ s.size ≤ s.buffer.length ∧ crc32 (s.buffer.take s.size) = 0 := by simpa using hs
  have := C18_burst _ _ pre w w' post ha hb hlen hk hne
  rw [crc32b_eq, crc32b_eq, hs'.2.2] at this
  have h0 : ¬ crc32 (s'.buffer.take s'.size) = 0 := by
    rw [hsize]; intro h; rw [h] at this; exact this rfl
  simp [h0]

/-- The bits determine the bytes, so "the bits differ" is "the byte strings differ"; 8 bits per byte. -/
theorem bits_faithful (a b : List UInt8) : (bits a = bits b → a = b) ∧ (bits a).length = 8 * a.length :=
  ⟨bits_inj a b, bits_length a⟩

/-! A valid section, and a burst of one bit hitting it. -/
example : (Psi.mk ([0x00, 0xB0, 0x05, 0x00] ++ beBytes 4 (crc32 [0x00, 0xB0, 0x05, 0x00]).toNat) 8 0 0).check .debug =
    .ok true := by decide +kernel
example : (Psi.mk ([0x80, 0xB0, 0x05, 0x00] ++ beBytes 4 (crc32 [0x00, 0xB0, 0x05, 0x00]).toNat) 8 0 0).check .debug =
    .ok false := by decide +kernel
example : crc32b [0x31, 0x32, 0x33, 0x34, 0x35, 0x36, 0x37, 0x38, 0x39] = .ok 0x0376E6E7 := by decide +kernel
example : bits [0x80, 0x01] = [] ++ [true] ++ (bits [0x80, 0x01]).drop 1 ∧
    bits [0x00, 0x01] = [] ++ [false] ++ (bits [0x80, 0x01]).drop 1 := by decide

end Mpegts
