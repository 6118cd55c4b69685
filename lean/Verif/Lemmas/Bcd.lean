import Mathlib.Tactic.NormNum
import Verif.Lemmas.Bytes
import Verif.Lemmas.Clock
import Verif.Model.Bcd
import Verif.Spec.Bcd

/-! # Helper lemmas: BCD -/

namespace Mpegts
open Spec

theorem toBcd8_tab : ∀ x : UInt8, x.toNat < 100 → toBcd8 .debug x = .ok (UInt8.ofNat (bcd 2 x.toNat)) ∧
    toBcd8 .release x = .ok (UInt8.ofNat (bcd 2 x.toNat)) := by decide +kernel
theorem fromBcd8_tab : ∀ x : UInt8, ValidBcd 2 x.toNat → fromBcd8 .debug x = .ok (UInt8.ofNat (unbcd 2 x.toNat)) ∧
    fromBcd8 .release x = .ok (UInt8.ofNat (unbcd 2 x.toNat)) := by decide +kernel

theorem bcd2_lt (n : Nat) : bcd 2 n < 256 := by simp only [bcd]; omega
theorem unbcd2_lt (n : Nat) (h : ValidBcd 2 n) : unbcd 2 n < 100 := by simp only [unbcd, ValidBcd] at *; omega

theorem toBcd8_ok (p : Profile) (x : UInt8) (h : x.toNat < 100) :
    ∃ v, toBcd8 p x = .ok v ∧ v.toNat = bcd 2 x.toNat := by
  refine ⟨UInt8.ofNat (bcd 2 x.toNat), ?_, ?_⟩
  · cases p
    · exact (toBcd8_tab x h).1
    · exact (toBcd8_tab x h).2
  · have := bcd2_lt x.toNat
    rw [UInt8.toNat_ofNat']; omega

theorem fromBcd8_ok (p : Profile) (x : UInt8) (h : ValidBcd 2 x.toNat) :
    ∃ v, fromBcd8 p x = .ok v ∧ v.toNat = unbcd 2 x.toNat := by
  refine ⟨UInt8.ofNat (unbcd 2 x.toNat), ?_, ?_⟩
  · cases p
    · exact (fromBcd8_tab x h).1
    · exact (fromBcd8_tab x h).2
  · have := unbcd2_lt x.toNat h
    rw [UInt8.toNat_ofNat']; omega

theorem fromBcd8_release : ∀ x : UInt8, fromBcd8 .release x = .ok (UInt8.ofNat (unbcd 2 x.toNat)) := by decide +kernel
theorem fromBcd8_invalid : ∀ x : UInt8, ¬ ValidBcd 2 x.toNat → fromBcd8 .debug x = panic := by decide +kernel
theorem toBcd8_invalid : ∀ x : UInt8, ¬ x.toNat < 100 → toBcd8 .debug x = panic := by decide +kernel

theorem bcd_add (j k n : Nat) : bcd (j + k) n = bcd j (n / 10 ^ k) * 16 ^ k + bcd k n := by
  induction k generalizing n with
  | zero => simp [bcd]
  | succ k ih =>
    rw [← Nat.add_assoc, bcd, ih, bcd, Nat.div_div_eq_div_mul, ← Nat.pow_succ', Nat.add_mul, Nat.pow_succ 16, Nat.mul_assoc,
      Nat.add_assoc]

theorem unbcd_add (j k x : Nat) : unbcd (j + k) x = unbcd j (x / 16 ^ k) * 10 ^ k + unbcd k x := by
  induction k generalizing x with
  | zero => simp [unbcd]
  | succ k ih =>
    rw [← Nat.add_assoc, unbcd, ih, unbcd, Nat.div_div_eq_div_mul, ← Nat.pow_succ', Nat.add_mul, Nat.pow_succ 10, Nat.mul_assoc,
      Nat.add_assoc]

theorem validBcd_add (j k x : Nat) : ValidBcd (j + k) x ↔ ValidBcd j (x / 16 ^ k) ∧ ValidBcd k x := by
  induction k generalizing x with
  | zero => simp [ValidBcd]
  | succ k ih =>
    rw [← Nat.add_assoc, ValidBcd, ih, ValidBcd, Nat.div_div_eq_div_mul, ← Nat.pow_succ']
    constructor
    · rintro ⟨a, b, c⟩; exact ⟨b, a, c⟩
    · rintro ⟨a, b, c⟩; exact ⟨b, a, c⟩

theorem bcd_mod (k n : Nat) : bcd k (n % 10 ^ k) = bcd k n := by
  induction k generalizing n with
  | zero => rfl
  | succ k ih =>
    rw [bcd, bcd, Nat.pow_succ', Nat.mod_mul_right_div_self, ih, Nat.mod_mul_right_mod]

theorem unbcd_mod (k n : Nat) : unbcd k (n % 16 ^ k) = unbcd k n := by
  induction k generalizing n with
  | zero => rfl
  | succ k ih =>
    rw [unbcd, unbcd, Nat.pow_succ', Nat.mod_mul_right_div_self, ih, Nat.mod_mul_right_mod]

theorem validBcd_mod (k n : Nat) : ValidBcd k (n % 16 ^ k) ↔ ValidBcd k n := by
  induction k generalizing n with
  | zero => rfl
  | succ k ih =>
    rw [ValidBcd, ValidBcd, Nat.pow_succ', Nat.mod_mul_right_div_self, ih, Nat.mod_mul_right_mod]

theorem bcd4_split (n : Nat) : bcd 4 n = bcd 2 (n / 100) * 256 + bcd 2 (n % 100) := by
  rw [show 4 = 2 + 2 from rfl, bcd_add, ← bcd_mod 2 n]
  norm_num only
theorem unbcd4_split (n : Nat) : unbcd 4 n = unbcd 2 (n / 256) * 100 + unbcd 2 (n % 256) := by
  rw [show 4 = 2 + 2 from rfl, unbcd_add, ← unbcd_mod 2 n]
  norm_num only
theorem validBcd4_split (n : Nat) : ValidBcd 4 n ↔ ValidBcd 2 (n / 256) ∧ ValidBcd 2 (n % 256) := by
  rw [show 4 = 2 + 2 from rfl, validBcd_add, ← validBcd_mod 2 n]
  norm_num only
theorem bcd8_split (n : Nat) : bcd 8 n = bcd 4 (n / 10000) * 65536 + bcd 4 (n % 10000) := by
  rw [show 8 = 4 + 4 from rfl, bcd_add, ← bcd_mod 4 n]
  norm_num only
theorem unbcd8_split (n : Nat) : unbcd 8 n = unbcd 4 (n / 65536) * 10000 + unbcd 4 (n % 65536) := by
  rw [show 8 = 4 + 4 from rfl, unbcd_add, ← unbcd_mod 4 n]
  norm_num only
theorem validBcd8_split (n : Nat) : ValidBcd 8 n ↔ ValidBcd 4 (n / 65536) ∧ ValidBcd 4 (n % 65536) := by
  rw [show 8 = 4 + 4 from rfl, validBcd_add, ← validBcd_mod 4 n]
  norm_num only

theorem toBcd16_ok (p : Profile) (x : UInt16) (h : x.toNat < 10000) :
    ∃ v, toBcd16 p x = .ok v ∧ v.toNat = bcd 4 x.toNat := by
  have e1 : (x / 100).toUInt8.toNat = x.toNat / 100 := by
    rw [UInt16.toNat_toUInt8, UInt16.toNat_div]
    rw [show (100 : UInt16).toNat = 100 from rfl]
    omega
  have e2 : (x % 100).toUInt8.toNat = x.toNat % 100 := by
    rw [UInt16.toNat_toUInt8, UInt16.toNat_mod]
    rw [show (100 : UInt16).toNat = 100 from rfl]
    omega
  obtain ⟨hi, h1, h1'⟩ := toBcd8_ok p (x / 100).toUInt8 (by omega)
  obtain ⟨lo, h2, h2'⟩ := toBcd8_ok p (x % 100).toUInt8 (by omega)
  refine ⟨(hi.toUInt16 <<< 8) + lo.toUInt16, by simp only [toBcd16, h1, h2, ok_bind, pure_eq_ok], ?_⟩
  have hb := hi.toNat_lt; have lb := lo.toNat_lt
  rw [UInt16.toNat_add, UInt16.toNat_shiftLeft]
  simp only [UInt8.toNat_toUInt16, UInt16.reduceToNat, Nat.reduceMod, Nat.shiftLeft_eq, h1', h2', e1, e2]
  have b1 := bcd2_lt (x.toNat / 100); have b2 := bcd2_lt (x.toNat % 100)
  rw [bcd4_split]
  omega

theorem fromBcd16_ok (p : Profile) (x : UInt16) (h : ValidBcd 4 x.toNat) :
    ∃ v, fromBcd16 p x = .ok v ∧ v.toNat = unbcd 4 x.toNat := by
  have e1 : (x >>> 8).toUInt8.toNat = x.toNat / 256 := by
    rw [u16_shr_toUInt8, UInt8.toNat_ofNat']; have := x.toNat_lt; omega
  have e2 : x.toUInt8.toNat = x.toNat % 256 := by simp
  have v1 : ValidBcd 2 (x >>> 8).toUInt8.toNat := by rw [e1]; exact ((validBcd4_split _).1 h).1
  have v2 : ValidBcd 2 x.toUInt8.toNat := by rw [e2]; exact ((validBcd4_split _).1 h).2
  obtain ⟨hi, h1, h1'⟩ := fromBcd8_ok p _ v1
  obtain ⟨lo, h2, h2'⟩ := fromBcd8_ok p _ v2
  refine ⟨hi.toUInt16 * 100 + lo.toUInt16, by simp only [fromBcd16, h1, h2, ok_bind, pure_eq_ok], ?_⟩
  have u1 := unbcd2_lt _ v1; have u2 := unbcd2_lt _ v2
  rw [UInt16.toNat_add, UInt16.toNat_mul]
  have : (100 : UInt16).toNat = 100 := rfl
  simp only [UInt8.toNat_toUInt16, h1', h2', e1, e2, this] at *
  rw [unbcd4_split]
  omega

theorem bcd4_lt (n : Nat) : bcd 4 n < 65536 := by
  have := bcd2_lt (n / 100); have := bcd2_lt (n % 100); rw [bcd4_split]; omega
theorem unbcd4_lt (n : Nat) (h : ValidBcd 4 n) : unbcd 4 n < 10000 := by
  rw [validBcd4_split] at h
  have := unbcd2_lt _ h.1; have := unbcd2_lt _ h.2; rw [unbcd4_split]; omega

theorem toBcd32_ok (p : Profile) (x : UInt32) (h : x.toNat < 100000000) :
    ∃ v, toBcd32 p x = .ok v ∧ v.toNat = bcd 8 x.toNat := by
  have e1 : (x / 10000).toUInt16.toNat = x.toNat / 10000 := by
    rw [UInt32.toNat_toUInt16, UInt32.toNat_div]
    rw [show (10000 : UInt32).toNat = 10000 from rfl]
    omega
  have e2 : (x % 10000).toUInt16.toNat = x.toNat % 10000 := by
    rw [UInt32.toNat_toUInt16, UInt32.toNat_mod]
    rw [show (10000 : UInt32).toNat = 10000 from rfl]
    omega
  obtain ⟨hi, h1, h1'⟩ := toBcd16_ok p (x / 10000).toUInt16 (by omega)
  obtain ⟨lo, h2, h2'⟩ := toBcd16_ok p (x % 10000).toUInt16 (by omega)
  refine ⟨(hi.toUInt32 <<< 16) + lo.toUInt32, by simp only [toBcd32, h1, h2, ok_bind, pure_eq_ok], ?_⟩
  have hb := hi.toNat_lt; have lb := lo.toNat_lt
  rw [UInt32.toNat_add, UInt32.toNat_shiftLeft]
  simp only [UInt16.toNat_toUInt32, UInt32.reduceToNat, Nat.reduceMod, Nat.shiftLeft_eq]
  rw [Nat.mod_eq_of_lt (a := hi.toNat * 2 ^ 16) (by omega), Nat.mod_eq_of_lt (by omega)]
  rw [h1', h2', e1, e2]
  rw [bcd8_split]

theorem fromBcd32_ok (p : Profile) (x : UInt32) (h : ValidBcd 8 x.toNat) :
    ∃ v, fromBcd32 p x = .ok v ∧ v.toNat = unbcd 8 x.toNat := by
  have e1 : (x >>> 16).toUInt16.toNat = x.toNat / 65536 := by
    have := x.toNat_lt
    rw [UInt32.toNat_toUInt16, UInt32.toNat_shiftRight]; simp [Nat.shiftRight_eq_div_pow]; omega
  have e2 : x.toUInt16.toNat = x.toNat % 65536 := by simp
  have v1 : ValidBcd 4 (x >>> 16).toUInt16.toNat := by rw [e1]; exact ((validBcd8_split _).1 h).1
  have v2 : ValidBcd 4 x.toUInt16.toNat := by rw [e2]; exact ((validBcd8_split _).1 h).2
  obtain ⟨hi, h1, h1'⟩ := fromBcd16_ok p _ v1
  obtain ⟨lo, h2, h2'⟩ := fromBcd16_ok p _ v2
  refine ⟨hi.toUInt32 * 10000 + lo.toUInt32, by simp only [fromBcd32, h1, h2, ok_bind, pure_eq_ok], ?_⟩
  have u1 := unbcd4_lt _ v1; have u2 := unbcd4_lt _ v2
  have u8 := unbcd8_split x.toNat
  rw [UInt32.toNat_add, UInt32.toNat_mul]
  have : (10000 : UInt32).toNat = 10000 := rfl
  simp only [UInt16.toNat_toUInt32, h1', h2', e1, e2, this, u8] at *
  omega

theorem validBcd_bcd (k n : Nat) : ValidBcd k (bcd k n) := by
  induction k generalizing n with
  | zero => trivial
  | succ k ih =>
    refine ⟨by simp only [bcd]; omega, ?_⟩
    have : bcd (k + 1) n / 16 = bcd k (n / 10) := by simp only [bcd]; omega
    rw [this]; exact ih _

theorem unbcd_bcd (k n : Nat) : unbcd k (bcd k n) = n % 10 ^ k := by
  induction k generalizing n with
  | zero => simp [unbcd, Nat.mod_one]
  | succ k ih =>
    have h1 : bcd (k + 1) n / 16 = bcd k (n / 10) := by simp only [bcd]; omega
    have h2 : bcd (k + 1) n % 16 = n % 10 := by simp only [bcd]; omega
    rw [unbcd, h1, h2, ih, Nat.pow_succ, Nat.mul_comm (10 ^ k) 10, Nat.mod_mul]
    omega

end Mpegts
