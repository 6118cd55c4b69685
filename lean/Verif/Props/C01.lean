import Verif.Lemmas.Bytes

/-! # C01: big-endian integer accessors are exact -/

namespace Mpegts
open Spec

/-- Reading: exactly the big-endian value of the leading bytes; a short slice panics. -/
theorem C01_get_u16 (s : List UInt8) :
    (2 ≤ s.length → ∃ v, getU16 s = .ok v ∧ v.toNat = beNat (s.take 2)) ∧
    (s.length < 2 → getU16 s = panic) := by
  refine ⟨fun h => ⟨_, getU16_ok h, ?_⟩, getU16_short⟩
  have := beNat_lt (s.take 2)
  rw [List.length_take, Nat.min_eq_left h] at this
  simp; omega

theorem C01_get_u24 (s : List UInt8) :
    (3 ≤ s.length → ∃ v, getU24 s = .ok v ∧ v.toNat = beNat (s.take 3)) ∧
    (s.length < 3 → getU24 s = panic) := by
  refine ⟨fun h => ⟨_, getU24_ok h, ?_⟩, getU24_short⟩
  have := beNat_lt (s.take 3)
  rw [List.length_take, Nat.min_eq_left h] at this
  simp; omega

theorem C01_get_u32 (s : List UInt8) :
    (4 ≤ s.length → ∃ v, getU32 s = .ok v ∧ v.toNat = beNat (s.take 4)) ∧
    (s.length < 4 → getU32 s = panic) := by
  refine ⟨fun h => ⟨_, getU32_ok h, ?_⟩, getU32_short⟩
  have := beNat_lt (s.take 4)
  rw [List.length_take, Nat.min_eq_left h] at this
  simp; omega

/-- Writing: the big-endian digits of the value replace the leading bytes, every other byte is kept; a
short slice panics. -/
theorem C01_set_u16 (s : List UInt8) (v : UInt16) :
    (2 ≤ s.length → setU16 s v = .ok (beBytes 2 v.toNat ++ s.drop 2)) ∧
    (s.length < 2 → setU16 s v = panic) := ⟨setU16_ok v, setU16_short v⟩

/-- `set_u24` stores the low 24 bits. -/
theorem C01_set_u24 (s : List UInt8) (v : UInt32) :
    (3 ≤ s.length → setU24 s v = .ok (beBytes 3 (v.toNat % 2 ^ 24) ++ s.drop 3)) ∧
    (s.length < 3 → setU24 s v = panic) := by
  refine ⟨fun h => ?_, setU24_short v⟩
  rw [setU24_ok v h, beBytes_mod 3 _ (2 ^ 24) (by decide)]

theorem C01_set_u32 (s : List UInt8) (v : UInt32) :
    (4 ≤ s.length → setU32 s v = .ok (beBytes 4 v.toNat ++ s.drop 4)) ∧
    (s.length < 4 → setU32 s v = panic) := ⟨setU32_ok v, setU32_short v⟩

/-- The specification's digits really are digits: the big-endian value of `beBytes n v` is `v`, and the
length is `n`. -/
theorem beBytes_digits (n v : Nat) (h : v < 256 ^ n) : (beBytes n v).length = n ∧ beNat (beBytes n v) = v :=
  ⟨beBytes_length n v, by rw [beNat_beBytes, Nat.mod_eq_of_lt h]⟩

/-- Reading back what was written gives the value, and writing does not change the length. -/
theorem C01_round_trip (s : List UInt8) :
    (∀ v, 2 ≤ s.length → ∃ s', setU16 s v = .ok s' ∧ s'.length = s.length ∧ getU16 s' = .ok v) ∧
    (∀ v : UInt32, 3 ≤ s.length → v.toNat < 2 ^ 24 →
      ∃ s', setU24 s v = .ok s' ∧ s'.length = s.length ∧ getU24 s' = .ok v) ∧
    (∀ v, 4 ≤ s.length → ∃ s', setU32 s v = .ok s' ∧ s'.length = s.length ∧ getU32 s' = .ok v) := by
  refine ⟨fun v h => ⟨_, setU16_ok v h, by simp; omega, ?_⟩, fun v h hv => ⟨_, setU24_ok v h, by simp; omega, ?_⟩,
    fun v h => ⟨_, setU32_ok v h, by simp; omega, ?_⟩⟩
  · rw [getU16_ok (by simp), List.take_left' (beBytes_length ..), beNat_beBytes,
      Nat.mod_eq_of_lt (by have := v.toNat_lt; omega)]
    simp
  · rw [getU24_ok (by simp), List.take_left' (beBytes_length ..), beNat_beBytes,
      Nat.mod_eq_of_lt (by omega)]
    simp
  · rw [getU32_ok (by simp), List.take_left' (beBytes_length ..), beNat_beBytes,
      Nat.mod_eq_of_lt (by have := v.toNat_lt; omega)]
    simp

/-- The same accessors on `buf[off ..]`: they read and write at the offset and nowhere else. -/
theorem C01_at_offset (s : List UInt8) (off : Nat) :
    (∀ v, off + 2 ≤ s.length → setU16At s off v = .ok (s.take off ++ beBytes 2 v.toNat ++ s.drop (off + 2))) ∧
    (∀ v, off + 3 ≤ s.length → setU24At s off v = .ok (s.take off ++ beBytes 3 v.toNat ++ s.drop (off + 3))) ∧
    (∀ v, off + 4 ≤ s.length → setU32At s off v = .ok (s.take off ++ beBytes 4 v.toNat ++ s.drop (off + 4))) ∧
    (off + 2 ≤ s.length → getU16At s off = .ok (UInt16.ofNat (beNat ((s.drop off).take 2)))) ∧
    (off + 3 ≤ s.length → getU24At s off = .ok (UInt32.ofNat (beNat ((s.drop off).take 3)))) ∧
    (off + 4 ≤ s.length → getU32At s off = .ok (UInt32.ofNat (beNat ((s.drop off).take 4)))) :=
  ⟨fun v => setU16At_ok v, fun v => setU24At_ok v, fun v => setU32At_ok v, getU16At_ok, getU24At_ok, getU32At_ok⟩

/-! Concrete cases. -/
example : getU16 [0x12, 0x34, 0x56] = .ok 0x1234 := by decide
example : setU24 [0, 0, 0, 7] 0x1234AB = .ok [0x12, 0x34, 0xAB, 7] := by decide
example : ∃ v, getU32 [0xFF, 0x34, 0xAB, 0xCD, 9] = .ok v ∧ v.toNat = beNat [0xFF, 0x34, 0xAB, 0xCD] :=
  (C01_get_u32 _).1 (by decide)
example : setU16At [1, 2, 3, 4] 1 0xAABB = .ok [1, 0xAA, 0xBB, 4] := by decide

end Mpegts
