import Verif.Lemmas.Verdict
import Verif.Props.C19_C22
import Verif.Props.C102

/-! # C104: decimal numbers, times and dates for arbitrary arguments -/

namespace Mpegts

open Spec

/-- Two decimal digits with the first taken modulo 16: what a release build makes of a byte. -/
def digits2 (n : Nat) : Nat := n / 10 % 16 * 16 + n % 10

theorem digits2_lt (n : Nat) : digits2 n < 256 := by unfold digits2; omega

theorem toBcd8_release : ∀ x : UInt8, toBcd8 .release x = .ok (UInt8.ofNat (digits2 x.toNat)) := by decide +kernel

theorem digits2_bcd (n : Nat) (h : n < 100) : digits2 n = bcd 2 n := by
  simp only [digits2, bcd]; omega

/-- What a release build writes for any number of 16 bits. -/
theorem toBcd16_release (x : UInt16) : ∃ v, toBcd16 .release x = .ok v ∧
    v.toNat = digits2 (x.toNat / 100 % 256) * 256 + bcd 2 x.toNat := by
  have h1 : (x / 100).toUInt8.toNat = x.toNat / 100 % 256 := by simp
  have h2 : (x % 100).toUInt8.toNat = x.toNat % 100 := by simp; omega
  refine ⟨_, by unfold toBcd16; rw [toBcd8_release, ok_bind, toBcd8_release, ok_bind]; rfl, ?_⟩
  rw [h1, h2]
  have e : bcd 2 x.toNat = digits2 (x.toNat % 100) := by
    rw [digits2_bcd _ (by omega)]; exact (bcd_mod 2 x.toNat).symm
  rw [e]
  have := digits2_lt (x.toNat / 100 % 256)
  have := digits2_lt (x.toNat % 100)
  generalize digits2 (x.toNat / 100 % 256) = a at *
  generalize digits2 (x.toNat % 100) = b at *
  simp [UInt16.toNat_add, Nat.shiftLeft_eq]
  omega

theorem toBcd32_release (x : UInt32) : ∃ v, toBcd32 .release x = .ok v ∧
    v.toNat = digits2 (x.toNat / 10000 % 65536 / 100 % 256) * 2 ^ 24 + bcd 2 (x.toNat / 10000 % 65536) * 2 ^ 16 + bcd 4 x.toNat := by
  have h1 : (x / 10000).toUInt16.toNat = x.toNat / 10000 % 65536 := by simp
  have h2 : (x % 10000).toUInt16.toNat = x.toNat % 10000 := by simp; omega
  obtain ⟨v, hv, e1⟩ := toBcd16_release (x / 10000).toUInt16
  obtain ⟨w, hw, e2⟩ := toBcd16_ok .release (x % 10000).toUInt16 (by rw [h2]; omega)
  refine ⟨_, by unfold toBcd32; rw [hv, ok_bind, hw, ok_bind]; rfl, ?_⟩
  rw [h1] at e1
  rw [h2, show bcd 4 (x.toNat % 10000) = bcd 4 x.toNat from bcd_mod 4 x.toNat] at e2
  have := digits2_lt (x.toNat / 10000 % 65536 / 100 % 256)
  have := bcd2_lt (x.toNat / 10000 % 65536)
  have := bcd4_lt x.toNat
  generalize digits2 (x.toNat / 10000 % 65536 / 100 % 256) = a at *
  generalize bcd 2 (x.toNat / 10000 % 65536) = b at *
  generalize bcd 4 x.toNat = c at *
  simp [UInt32.toNat_add, Nat.shiftLeft_eq, e1, e2]
  omega

/-- C104: the exact condition for a panic of `to_bcd`: only in a debug build, and only if the first two digits, as the
conversions to smaller types leave them, make 100 or more. -/
theorem C104_to_bcd_panics (p : Profile) :
    (∀ x : UInt8, toBcd8 p x = panic ↔ p = .debug ∧ 100 ≤ x.toNat) ∧
    (∀ x : UInt16, toBcd16 p x = panic ↔ p = .debug ∧ 100 ≤ x.toNat / 100 % 256) ∧
    (∀ x : UInt32, toBcd32 p x = panic ↔ p = .debug ∧ 100 ≤ x.toNat / 10000 % 65536 / 100 % 256) :=
  ⟨fun x => (out_toBcd8 x).panic_iff, fun x => (out_toBcd16 x).panic_iff, fun x => (out_toBcd32 x).panic_iff⟩

/-- C104: what a release build returns for every number. -/
theorem C104_to_bcd_release :
    (∀ x : UInt8, ∃ v, toBcd8 .release x = .ok v ∧ v.toNat = digits2 x.toNat) ∧
    (∀ x : UInt16, ∃ v, toBcd16 .release x = .ok v ∧ v.toNat = digits2 (x.toNat / 100 % 256) * 2 ^ 8 + bcd 2 x.toNat) ∧
    (∀ x : UInt32, ∃ v, toBcd32 .release x = .ok v ∧
      v.toNat = digits2 (x.toNat / 10000 % 65536 / 100 % 256) * 2 ^ 24 + bcd 2 (x.toNat / 10000 % 65536) * 2 ^ 16 + bcd 4 x.toNat) := by
  refine ⟨fun x => ⟨_, toBcd8_release x, ?_⟩, toBcd16_release, toBcd32_release⟩
  rw [UInt8.toNat_ofNat', Nat.mod_eq_of_lt (digits2_lt _)]

/-- C104 fails: numbers with too many digits are not always refused by a debug build.  A number of 16 bits whose hundreds are
less than 100 modulo 256 (25600 to 35599 and 51200 to 61199) is written by both builds, as that number modulo 25600; in a number of
32 bits the same happens to the digits before the last four, after a conversion to 16 bits. -/
theorem C104_silent_refuted (p : Profile) :
    (∀ x : UInt16, x.toNat / 100 % 256 < 100 → ∃ v, toBcd16 p x = .ok v ∧ v.toNat = bcd 4 (x.toNat % 25600)) ∧
    (∀ x : UInt32, x.toNat / 10000 % 65536 / 100 % 256 < 100 → ∃ v, toBcd32 p x = .ok v ∧
      v.toNat = bcd 4 (x.toNat / 10000 % 65536 % 25600) * 2 ^ 16 + bcd 4 x.toNat) := by
  have h16 : ∀ x : UInt16, x.toNat / 100 % 256 < 100 → ∃ v, toBcd16 p x = .ok v ∧ v.toNat = bcd 4 (x.toNat % 25600) := by
    intro x h
    obtain ⟨v, hv, e⟩ := toBcd16_release x
    refine ⟨v, ?_, ?_⟩
    · cases p
      · rcases out_toBcd16 (p := .debug) x with ⟨-, h', -⟩ | ⟨-, w, hw, -⟩
        · exact absurd h (by unfold refused4 at h'; omega)
        · have := agree_toBcd16 x
          rw [hw, hv] at this
          rcases this with h | h
          · cases h
          · rw [hw, h]
      · exact hv
    · rw [e, digits2_bcd _ h, bcd4_split]
      have e1 : x.toNat % 25600 / 100 = x.toNat / 100 % 256 := by omega
      have e2 : x.toNat % 25600 % 100 = x.toNat % 100 := by omega
      rw [e1, e2, show bcd 2 (x.toNat % 100) = bcd 2 x.toNat from bcd_mod 2 x.toNat]
  refine ⟨h16, fun x h => ?_⟩
  have h1 : (x / 10000).toUInt16.toNat = x.toNat / 10000 % 65536 := by simp
  have h2 : (x % 10000).toUInt16.toNat = x.toNat % 10000 := by simp; omega
  obtain ⟨v, hv, e1⟩ := h16 (x / 10000).toUInt16 (by rw [h1]; exact h)
  obtain ⟨w, hw, e2⟩ := toBcd16_ok p (x % 10000).toUInt16 (by rw [h2]; omega)
  refine ⟨_, by unfold toBcd32; rw [hv, ok_bind, hw, ok_bind]; rfl, ?_⟩
  rw [h1] at e1
  rw [h2, show bcd 4 (x.toNat % 10000) = bcd 4 x.toNat from bcd_mod 4 x.toNat] at e2
  have := bcd4_lt (x.toNat / 10000 % 65536 % 25600)
  have := bcd4_lt x.toNat
  generalize bcd 4 (x.toNat / 10000 % 65536 % 25600) = a at *
  generalize bcd 4 x.toNat = c at *
  simp [UInt32.toNat_add, Nat.shiftLeft_eq, e1, e2]
  omega

/-- Reading a byte: the exact outcome. -/
theorem verdict_fromBcd8 (p : Profile) (x : UInt8) :
    Verdict p (¬ ValidBcd 2 x.toNat) (fromBcd8 p x) fun v => v.toNat = unbcd 2 x.toNat := by
  by_cases h : ValidBcd 2 x.toNat
  · obtain ⟨v, hv, e⟩ := fromBcd8_ok p x h
    exact .inr ⟨fun k => k.2 h, v, hv, e⟩
  · cases p
    · exact .inl ⟨rfl, h, fromBcd8_invalid x h⟩
    · refine .inr ⟨fun k => (nomatch k.1), _, fromBcd8_release x, ?_⟩
      show (UInt8.ofNat _).toNat = _
      rw [UInt8.toNat_ofNat']
      have := x.toNat_lt
      simp only [unbcd]; omega

theorem verdict_fromBcd16 (p : Profile) (x : UInt16) :
    Verdict p (¬ ValidBcd 4 x.toNat) (fromBcd16 p x) fun v => v.toNat = unbcd 4 x.toNat := by
  have h1 : (x >>> 8).toUInt8.toNat = x.toNat / 256 := by
    have := x.toNat_lt
    simp [Nat.shiftRight_eq_div_pow]; omega
  have h2 : x.toUInt8.toNat = x.toNat % 256 := by simp
  unfold fromBcd16
  refine .congr ?_ (.bind (verdict_fromBcd8 p _) fun a ha => .bind (verdict_fromBcd8 p _) fun b hb => .ok ?_)
  · rw [h1, h2, validBcd4_split, or_false]; exact not_and_or.symm
  · rw [h1] at ha
    rw [h2] at hb
    rw [unbcd4_split, ← ha, ← hb]
    have := a.toNat_lt
    have := b.toNat_lt
    simp [UInt16.toNat_add, UInt16.toNat_mul]
    omega

theorem verdict_fromBcd32 (p : Profile) (x : UInt32) :
    Verdict p (¬ ValidBcd 8 x.toNat) (fromBcd32 p x) fun v => v.toNat = unbcd 8 x.toNat := by
  have h1 : (x >>> 16).toUInt16.toNat = x.toNat / 65536 := by
    have := x.toNat_lt
    simp [Nat.shiftRight_eq_div_pow]; omega
  have h2 : x.toUInt16.toNat = x.toNat % 65536 := by simp
  unfold fromBcd32
  refine .congr ?_ (.bind (verdict_fromBcd16 p _) fun a ha => .bind (verdict_fromBcd16 p _) fun b hb => .ok ?_)
  · rw [h1, h2, validBcd8_split, or_false]; exact not_and_or.symm
  · rw [h1] at ha
    rw [h2] at hb
    rw [unbcd8_split, ← ha, ← hb]
    have := a.toNat_lt
    have := b.toNat_lt
    simp [UInt32.toNat_add, UInt32.toNat_mul]
    omega

/-- C104: the exact condition for a panic of `from_bcd`: a debug build and a digit that is not decimal. -/
theorem C104_from_bcd_panics (p : Profile) :
    (∀ x : UInt8, fromBcd8 p x = panic ↔ p = .debug ∧ ¬ ValidBcd 2 x.toNat) ∧
    (∀ x : UInt16, fromBcd16 p x = panic ↔ p = .debug ∧ ¬ ValidBcd 4 x.toNat) ∧
    (∀ x : UInt32, fromBcd32 p x = panic ↔ p = .debug ∧ ¬ ValidBcd 8 x.toNat) :=
  ⟨fun x => (verdict_fromBcd8 p x).panic_iff, fun x => (verdict_fromBcd16 p x).panic_iff, fun x => (verdict_fromBcd32 p x).panic_iff⟩

/-- C104: a release build reads any digits, 10 to 15 included, by their value and place. -/
theorem C104_from_bcd_release :
    (∀ x : UInt8, ∃ v, fromBcd8 .release x = .ok v ∧ v.toNat = unbcd 2 x.toNat) ∧
    (∀ x : UInt16, ∃ v, fromBcd16 .release x = .ok v ∧ v.toNat = unbcd 4 x.toNat) ∧
    (∀ x : UInt32, ∃ v, fromBcd32 .release x = .ok v ∧ v.toNat = unbcd 8 x.toNat) :=
  ⟨fun x => (verdict_fromBcd8 _ x).release, fun x => (verdict_fromBcd16 _ x).release, fun x => (verdict_fromBcd32 _ x).release⟩

/-- C104: a time of three bytes: a debug build panics exactly if a digit of hours, minutes or seconds is not decimal, and no
range is checked (24:60:60 and more are read); a release build reads everything. -/
theorem C104_time (p : Profile) (x : UInt32) :
    (fromBcdTime32 p x = panic ↔ p = .debug ∧ ¬ ValidBcd 6 x.toNat) ∧
    (¬ (p = .debug ∧ ¬ ValidBcd 6 x.toNat) → ∃ v, fromBcdTime32 p x = .ok v ∧
      v.toNat = unbcd 2 (x.toNat / 2 ^ 16) * 3600 + unbcd 2 (x.toNat / 2 ^ 8) * 60 + unbcd 2 x.toNat) := by
  have h1 : (x >>> 16).toUInt8.toNat = x.toNat / 65536 % 256 := by simp [Nat.shiftRight_eq_div_pow]
  have h2 : (x >>> 8).toUInt8.toNat = x.toNat / 256 % 256 := by simp [Nat.shiftRight_eq_div_pow]
  have h3 : x.toUInt8.toNat = x.toNat % 256 := by simp
  have m : ∀ n, ValidBcd 2 (n % 256) ↔ ValidBcd 2 n := fun n => validBcd_mod 2 n
  have u : ∀ n, unbcd 2 (n % 256) = unbcd 2 n := fun n => unbcd_mod 2 n
  have key : Verdict p (¬ ValidBcd 6 x.toNat) (fromBcdTime32 p x) fun v =>
      v.toNat = unbcd 2 (x.toNat / 2 ^ 16) * 3600 + unbcd 2 (x.toNat / 2 ^ 8) * 60 + unbcd 2 x.toNat := by
    unfold fromBcdTime32
    refine .congr ?_ (.bind (verdict_fromBcd8 p _) fun a ha => .bind (verdict_fromBcd8 p _) fun b hb =>
      .bind (verdict_fromBcd8 p _) fun c hc => .ok ?_)
    · rw [h1, h2, h3, m, m, m, or_false, show (6 : Nat) = 4 + 2 by rfl, validBcd_add 4 2, show (4 : Nat) = 2 + 2 by rfl, validBcd_add 2 2,
        Nat.div_div_eq_div_mul, show 16 ^ 2 * 16 ^ 2 = 65536 by rfl, show 16 ^ 2 = 256 by rfl, not_and_or, not_and_or, or_assoc]
    · rw [h1, u] at ha
      rw [h2, u] at hb
      rw [h3, u] at hc
      rw [show 2 ^ 16 = 65536 by rfl, show 2 ^ 8 = 256 by rfl, ← ha, ← hb, ← hc]
      have := a.toNat_lt
      have := b.toNat_lt
      have := c.toNat_lt
      simp [UInt32.toNat_add, UInt32.toNat_mul]
      omega
  refine ⟨key.panic_iff, fun hn => ?_⟩
  rcases key with ⟨h1, h2, -⟩ | ⟨-, h⟩
  · exact absurd ⟨h1, h2⟩ hn
  · exact h

/-- C104: a time of two bytes (see C21): a debug build panics exactly if a digit is not decimal or the hours are five or
more; a release build takes 60 times the hours modulo 256. -/
theorem C104_short_time (p : Profile) (x : UInt16) :
    (fromBcdTime16 p x = panic ↔ p = .debug ∧ (¬ ValidBcd 4 x.toNat ∨ 5 ≤ unbcd 2 (x.toNat / 256))) ∧
    (∃ v, fromBcdTime16 .release x = .ok v ∧ v.toNat = unbcd 2 (x.toNat / 256) * 60 % 256 + unbcd 2 x.toNat) := by
  have h1 : (x >>> 8).toUInt8.toNat = x.toNat / 256 := by
    have := x.toNat_lt
    simp [Nat.shiftRight_eq_div_pow]; omega
  have h2 : x.toUInt8.toNat = x.toNat % 256 := by simp
  have key : ∀ p, Verdict p (¬ ValidBcd 4 x.toNat ∨ 5 ≤ unbcd 2 (x.toNat / 256)) (fromBcdTime16 p x) fun v =>
      v.toNat = unbcd 2 (x.toNat / 256) * 60 % 256 + unbcd 2 x.toNat := by
    intro p
    have mul : ∀ a : UInt8, Verdict p (5 ≤ a.toNat) (mulU8 p a 60) fun v => v.toNat = a.toNat * 60 % 256 := by
      intro a
      unfold mulU8
      split
      · next h =>
        refine .inr ⟨fun k => ?_, _, rfl, UInt8.toNat_mul a 60⟩
        have h : a.toNat * 60 < 256 := h
        omega
      · next h =>
        have h : ¬ a.toNat * 60 < 256 := h
        cases p
        · exact .inl ⟨rfl, by omega, rfl⟩
        · exact .inr ⟨fun k => (nomatch k.1), _, rfl, UInt8.toNat_mul a 60⟩
    unfold fromBcdTime16
    refine .congr ?_ (.bind (b2 := 5 ≤ unbcd 2 (x.toNat / 256) ∨ ¬ ValidBcd 2 (x.toNat % 256)) (verdict_fromBcd8 p _) fun a ha => ?_)
    · rw [h1, validBcd4_split, not_and_or, or_assoc]
      exact or_congr_right or_comm
    · rw [h1] at ha
      refine .congr ?_ (.bind (mul a) fun b hb => .bind (verdict_fromBcd8 p _) fun c hc => .ok ?_)
      · rw [ha, h2, or_false]
      · rw [h2, show unbcd 2 (x.toNat % 256) = unbcd 2 x.toNat from unbcd_mod 2 x.toNat] at hc
        rw [← hc, ← ha, ← hb]
        have := b.toNat_lt
        have := c.toNat_lt
        simp [UInt16.toNat_add]
        omega
  exact ⟨(key p).panic_iff, (key .release).release⟩

theorem fromMjd_release (d : UInt16) : fromMjd .release d = .ok ((d.toUInt64 - 40587) * 86400) := by
  unfold fromMjd
  rw [show ∀ b, debugAssert .release b = .ok () by decide, ok_bind]
  have h1 : ∀ a b, subU64 .release a b = .ok (a - b) := by intro a b; unfold subU64; split <;> rfl
  have h2 : ∀ a b, mulU64 .release a b = .ok (a * b) := by intro a b; unfold mulU64; split <;> rfl
  rw [h1, ok_bind, h2]

/-- C104: dates before 1970: a debug build panics for exactly these; a release build returns the time modulo 2^64. -/
theorem C104_date (p : Profile) (d : UInt16) :
    (fromMjd p d = panic ↔ p = .debug ∧ d.toNat < unixEpochMjd) ∧
    (d.toNat < unixEpochMjd → ∃ v, fromMjd .release d = .ok v ∧ v.toNat + (unixEpochMjd - d.toNat) * 86400 = 2 ^ 64) := by
  have e : unixEpochMjd = 40587 := rfl
  constructor
  · by_cases h : d.toNat < unixEpochMjd
    · cases p
      · exact ⟨fun _ => ⟨rfl, h⟩, fun _ => C22_from_mjd_early d h⟩
      · rw [fromMjd_release]
        exact ⟨fun k => (nomatch k), fun k => (nomatch k.1)⟩
    · obtain ⟨v, hv, -⟩ := C22_from_mjd p d (by omega)
      rw [hv]
      exact ⟨fun k => (nomatch k), fun k => absurd k.2 h⟩
  · intro h
    refine ⟨_, fromMjd_release d, ?_⟩
    rw [UInt64.toNat_mul, UInt64.toNat_sub]
    have hd : d.toUInt64.toNat = d.toNat := by simp
    rw [hd, show (40587 : UInt64).toNat = 40587 by rfl, show (86400 : UInt64).toNat = 86400 by rfl]
    omega

/-! ## Examples -/

/-- 25712 has five digits; it is written as 0112, in both builds. -/
example (p : Profile) : toBcd16 p 25712 = .ok 0x0112 := by cases p <;> decide +kernel
example : (25712 : UInt16).toNat / 100 % 256 < 100 := by decide
example : (2560000123 : UInt32).toNat / 10000 % 65536 / 100 % 256 < 100 := by decide
/-- 12345 is refused by a debug build; a release build writes C345. -/
example : toBcd16 .debug 12345 = panic ∧ toBcd16 .release 12345 = .ok 0xC345 := by decide +kernel
example : ¬ ValidBcd 4 0x1A05 ∧ fromBcd16 .release 0x1A05 = .ok 2005 := by decide +kernel
/-- 99:99:99 is read as 362439 seconds. -/
example (p : Profile) : fromBcdTime32 p 0x999999 = .ok 362439 := by cases p <;> decide +kernel
example : fromBcdTime16 .debug 0x0500 = panic ∧ fromBcdTime16 .release 0x0500 = .ok 44 := by decide +kernel

end Mpegts
