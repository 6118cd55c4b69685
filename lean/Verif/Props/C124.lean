import Verif.Spec.Reading
import Verif.Props.C81
import Verif.Props.C104
import Verif.Props.C117
import Mathlib.Tactic.Ring
import Mathlib.Tactic.Positivity

/-! # C124: what is read from any descriptor -/

namespace Mpegts
open Spec Spec.Table Spec.Reading

namespace AnyRead

theorem beNat_append' (a b : List UInt8) : beNat (a ++ b) = beNat a * 256 ^ b.length + beNat b := by
  induction a with
  | nil => simp [beNat]
  | cons x a ih => simp only [List.cons_append, beNat, ih, List.length_append, pow_add]; ring

/-- Bits inside `n` bytes. -/
theorem bits_field (s : List UInt8) (i n start width : Nat) (h1 : i + n ≤ s.length) (h2 : 8 * i ≤ start) (h3 : start + width ≤ 8 * (i + n)) :
    bitsAt s start width = field s i n / 2 ^ (8 * (i + n) - start - width) % 2 ^ width := by
  unfold bitsAt field
  generalize hx : (s.drop i).take n = x
  have hxl : x.length = n := by rw [← hx, List.length_take, List.length_drop]; omega
  have e : s = s.take i ++ (x ++ s.drop (i + n)) := by
    rw [← hx, ← List.drop_drop, List.take_append_drop, List.take_append_drop]
  have hl : (s.drop (i + n)).length = s.length - (i + n) := List.length_drop
  have hlt := beNat_lt (s.drop (i + n))
  generalize hy : s.drop (i + n) = y at *
  have hb : beNat s = (beNat (s.take i) * 256 ^ n + beNat x) * 256 ^ y.length + beNat y := by
    conv_lhs => rw [e]
    rw [beNat_append', beNat_append', List.length_append, hxl, pow_add]; ring
  have h256 : ∀ k, (256 : Nat) ^ k = 2 ^ (8 * k) := fun k => by rw [pow_mul, show (2 : Nat) ^ 8 = 256 from rfl]
  obtain ⟨k, hk⟩ : ∃ k, 8 * (i + n) - start - width = k := ⟨_, rfl⟩
  have hs : 8 * s.length - start - width = 8 * y.length + k := by omega
  rw [hb, hs, hk, pow_add, ← Nat.div_div_eq_div_mul, ← h256, Nat.mul_comm _ (256 ^ y.length), Nat.mul_add_div (by positivity),
    Nat.div_eq_of_lt hlt, Nat.add_zero]
  obtain ⟨j, hj⟩ : ∃ j, 8 * n = k + width + j := ⟨start - 8 * i, by omega⟩
  rw [h256, hj, pow_add, pow_add, show beNat (s.take i) * (2 ^ k * 2 ^ width * 2 ^ j) + beNat x = 2 ^ k * (2 ^ width * (beNat (s.take i) * 2 ^ j)) + beNat x by ring,
    Nat.mul_add_div (by positivity), Nat.mul_add_mod]

theorem bits_whole (s : List UInt8) (i n : Nat) (h : i + n ≤ s.length) : bitsAt s (8 * i) (8 * n) = field s i n := by
  rw [bits_field s i n _ _ h (by omega) (by omega), show 8 * (i + n) - 8 * i - 8 * n = 0 by omega, pow_zero, Nat.div_one, Nat.mod_eq_of_lt]
  have := field_lt s i n
  rwa [show (256 : Nat) = 2 ^ 8 from rfl, ← pow_mul] at this

theorem mul16_value {p : Profile} {a b v : UInt16} (h : mulU16 p a b = .ok v) : v = a * b := by
  unfold mulU16 at h
  split at h
  · exact (Except.ok.inj h).symm
  · cases p with
    | debug => cases h
    | release => exact (Except.ok.inj h).symm
theorem mul32_value {p : Profile} {a b v : UInt32} (h : mulU32 p a b = .ok v) : v = a * b := by
  unfold mulU32 at h
  split at h
  · exact (Except.ok.inj h).symm
  · cases p with
    | debug => cases h
    | release => exact (Except.ok.inj h).symm
theorem mul8_value {p : Profile} {a b v : UInt8} (h : mulU8 p a b = .ok v) : v = a * b := by
  unfold mulU8 at h
  split at h
  · exact (Except.ok.inj h).symm
  · cases p with
    | debug => cases h
    | release => exact (Except.ok.inj h).symm
theorem mul64_value {p : Profile} {a b v : UInt64} (h : mulU64 p a b = .ok v) : v = a * b := by
  unfold mulU64 at h
  split at h
  · exact (Except.ok.inj h).symm
  · cases p with
    | debug => cases h
    | release => exact (Except.ok.inj h).symm
theorem sub64_value {p : Profile} {a b v : UInt64} (h : subU64 p a b = .ok v) : v = a - b := by
  unfold subU64 at h
  split at h
  · exact (Except.ok.inj h).symm
  · cases p with
    | debug => cases h
    | release => exact (Except.ok.inj h).symm
theorem add64_value {p : Profile} {a b v : UInt64} (h : addU64 p a b = .ok v) : v = a + b := by
  unfold addU64 at h
  split at h
  · exact (Except.ok.inj h).symm
  · cases p with
    | debug => cases h
    | release => exact (Except.ok.inj h).symm

theorem bcd32_value {p : Profile} {x v : UInt32} (h : fromBcd32 p x = .ok v) : v = .ofNat (unbcd 8 x.toNat) := by
  rw [← ((C117_from_bcd p).2.2 x).2 v h, UInt32.ofNat_toNat]
theorem bcd16_value {p : Profile} {x v : UInt16} (h : fromBcd16 p x = .ok v) : v = .ofNat (unbcd 4 x.toNat) := by
  rw [← ((C117_from_bcd p).2.1 x).2 v h, UInt16.ofNat_toNat]
theorem bcd8_value {p : Profile} {x v : UInt8} (h : fromBcd8 p x = .ok v) : v.toNat = unbcd 2 x.toNat :=
  ((C117_from_bcd p).1 x).2 v h

theorem unbcd2_lt (x : Nat) : unbcd 2 x < 166 := by simp only [unbcd]; omega
theorem unbcd2_mod (x : Nat) : unbcd 2 (x % 256) = unbcd 2 x := by simp only [unbcd]; omega

theorem time16_value {p : Profile} {x v : UInt16} (h : fromBcdTime16 p x = .ok v) : v = .ofNat (minutes x.toNat) := by
  simp only [fromBcdTime16, bind_eq_ok] at h
  obtain ⟨a, ha, b, hb, c, hc, hd⟩ := h
  rw [pure_eq_ok] at hd
  have ea := bcd8_value ha
  have eb := mul8_value hb
  have ec := bcd8_value hc
  have e1 : (x >>> 8).toUInt8.toNat = x.toNat / 256 := by
    rw [u16_shr_toUInt8, UInt8.toNat_ofNat']; have := x.toNat_lt; omega
  have e2 : x.toUInt8.toNat = x.toNat % 256 := by simp
  rw [e1] at ea
  rw [e2, unbcd2_mod] at ec
  have l := unbcd2_lt x.toNat
  subst eb
  rw [← Except.ok.inj hd]
  apply UInt16.toNat.inj
  have em : (a * 60 : UInt8).toNat = unbcd 2 (x.toNat / 256) * 60 % 256 := by rw [UInt8.toNat_mul, ea]; rfl
  rw [UInt16.toNat_add, UInt8.toNat_toUInt16, UInt8.toNat_toUInt16, em, ec, UInt16.toNat_ofNat']
  unfold minutes
  norm_num only

theorem time32_value {p : Profile} {x v : UInt32} (h : fromBcdTime32 p x = .ok v) : v.toNat = Table.seconds x.toNat := by
  simp only [fromBcdTime32, bind_eq_ok] at h
  obtain ⟨a, ha, b, hb, c, hc, hd⟩ := h
  rw [pure_eq_ok] at hd
  have ea := bcd8_value ha
  have eb := bcd8_value hb
  have ec := bcd8_value hc
  have e1 : (x >>> 16).toUInt8.toNat = x.toNat / 65536 % 256 := by rw [u32_shr16_toUInt8, UInt8.toNat_ofNat']
  have e2 : (x >>> 8).toUInt8.toNat = x.toNat / 256 % 256 := by rw [u32_shr8_toUInt8, UInt8.toNat_ofNat']
  have e3 : x.toUInt8.toNat = x.toNat % 256 := by simp
  rw [e1, unbcd2_mod] at ea
  rw [e2, unbcd2_mod] at eb
  rw [e3, unbcd2_mod] at ec
  have l1 := unbcd2_lt (x.toNat / 65536)
  have l2 := unbcd2_lt (x.toNat / 256)
  have l3 := unbcd2_lt x.toNat
  rw [← Except.ok.inj hd]
  rw [UInt32.toNat_add, UInt32.toNat_add, UInt32.toNat_mul, UInt32.toNat_mul, UInt8.toNat_toUInt32, UInt8.toNat_toUInt32, UInt8.toNat_toUInt32,
    ea, eb, ec, show (3600 : UInt32).toNat = 3600 from rfl, show (60 : UInt32).toNat = 60 from rfl]
  unfold Table.seconds
  rw [unbcd2_mod, unbcd2_mod]
  omega

theorem mjd_value {p : Profile} {x : UInt16} {v : UInt64} (h : fromMjd p x = .ok v) :
    v = .ofNat ((2 ^ 64 + x.toNat - unixEpochMjd) * 86400) := by
  simp only [fromMjd, bind_eq_ok] at h
  obtain ⟨-, -, a, ha, hb⟩ := h
  rw [mul64_value hb, sub64_value ha]
  apply UInt64.toNat.inj
  have := x.toNat_lt
  rw [UInt64.toNat_mul, UInt64.toNat_sub, UInt16.toNat_toUInt64, UInt64.toNat_ofNat', show (40587 : UInt64).toNat = 40587 from rfl,
    show (86400 : UInt64).toNat = 86400 from rfl]
  unfold unixEpochMjd
  omega

/-! Bit fields of a byte. -/

theorem m80 : ∀ b : UInt8, (b &&& 0b10000000) >>> 7 = .ofNat (b.toNat / 2 ^ 7 % 2 ^ 1) := by decide +kernel
theorem m60 : ∀ b : UInt8, (b &&& 0b01100000) >>> 5 = .ofNat (b.toNat / 2 ^ 5 % 2 ^ 2) := by decide +kernel
theorem m18 : ∀ b : UInt8, (b &&& 0b00011000) >>> 3 = .ofNat (b.toNat / 2 ^ 3 % 2 ^ 2) := by decide +kernel
theorem m04 : ∀ b : UInt8, (b &&& 0b00000100) >>> 2 = .ofNat (b.toNat / 2 ^ 2 % 2 ^ 1) := by decide +kernel
theorem m03 : ∀ b : UInt8, b &&& 0b00000011 = .ofNat (b.toNat / 2 ^ 0 % 2 ^ 2) := by decide +kernel
theorem m0F : ∀ b : UInt8, b &&& 0x0F = .ofNat (b.toNat / 2 ^ 0 % 2 ^ 4) := by decide +kernel
theorem mE0 : ∀ b : UInt8, (b &&& 0b11100000) >>> 5 = .ofNat (b.toNat / 2 ^ 5 % 2 ^ 3) := by decide +kernel
theorem m10 : ∀ b : UInt8, (b &&& 0b00010000) >>> 4 = .ofNat (b.toNat / 2 ^ 4 % 2 ^ 1) := by decide +kernel
theorem m08 : ∀ b : UInt8, (b &&& 0b00001000) >>> 3 = .ofNat (b.toNat / 2 ^ 3 % 2 ^ 1) := by decide +kernel
theorem mC0 : ∀ b : UInt8, (b &&& 0b11000000) >>> 6 = .ofNat (b.toNat / 2 ^ 6 % 2 ^ 2) := by decide +kernel
theorem m38 : ∀ b : UInt8, (b &&& 0b00111000) >>> 3 = .ofNat (b.toNat / 2 ^ 3 % 2 ^ 3) := by decide +kernel
theorem m07 : ∀ b : UInt8, b &&& 0b00000111 = .ofNat (b.toNat / 2 ^ 0 % 2 ^ 3) := by decide +kernel
theorem m06 : ∀ b : UInt8, (b &&& 0b00000110) >>> 1 = .ofNat (b.toNat / 2 ^ 1 % 2 ^ 2) := by decide +kernel
theorem m01 : ∀ b : UInt8, b &&& 0b00000001 = .ofNat (b.toNat / 2 ^ 0 % 2 ^ 1) := by decide +kernel
theorem s7 : ∀ b : UInt8, b >>> 7 = .ofNat (b.toNat / 2 ^ 7 % 2 ^ 1) := by decide +kernel
theorem s4 : ∀ b : UInt8, b >>> 4 = .ofNat (b.toNat / 2 ^ 4 % 2 ^ 4) := by decide +kernel
theorem s2 : ∀ b : UInt8, b >>> 2 = .ofNat (b.toNat / 2 ^ 2 % 2 ^ 6) := by decide +kernel

variable (p : Profile) (t n : UInt8) (body : List UInt8)

theorem idx_body (i : Nat) (h : i < body.length) : idx (t :: n :: body) (i + 2) = .ok (.ofNat (field body i 1)) := by
  rw [field_one _ _ (by simp; omega), field_cons2]
theorem get16_body (i : Nat) (h : i + 2 ≤ body.length) : getU16At (t :: n :: body) (i + 2) = .ok (.ofNat (field body i 2)) := by
  rw [get16 (by simp; omega), field_cons2]
theorem get24_body (i : Nat) (h : i + 3 ≤ body.length) : getU24At (t :: n :: body) (i + 2) = .ok (.ofNat (field body i 3)) := by
  rw [get24 (by simp; omega), field_cons2]
theorem get32_body (i : Nat) (h : i + 4 ≤ body.length) : getU32At (t :: n :: body) (i + 2) = .ok (.ofNat (field body i 4)) := by
  rw [get32 (by simp; omega), field_cons2]

theorem byteBits (i x w : Nat) (h : i < body.length) (h1 : 8 * i ≤ x) (h2 : x + w ≤ 8 * i + 8) :
    bitsAt body x w = field body i 1 / 2 ^ (8 * i + 8 - x - w) % 2 ^ w :=
  bits_field body i 1 x w (by omega) (by omega) (by omega)

theorem byteWhole (i : Nat) (h : i < body.length) : bitsAt body (8 * i) 8 = field body i 1 := bits_whole body i 1 (by omega)

theorem value43 (h : body.length = 11) {d : Desc43} (hd : Desc43.parse p (t :: n :: body) = .ok d) : Desc.d43 d = Reading.decode 0x43 body := by
  simp only [Desc43.parse, get32_body t n body 0 (by omega), get16_body t n body 4 (by omega), idx_body t n body 6 (by omega),
    get24_body t n body 7 (by omega), idx_body t n body 10 (by omega), ok_bind, bind_eq_ok] at hd
  obtain ⟨a, ha, b, hb, c, hc, e, he, f, hf, hd⟩ := hd
  rw [pure_eq_ok] at hd
  have e8 : unbcd 8 (field body 7 3) = unbcd 6 (field body 7 3) := by
    have := field_lt body 7 3
    rw [show unbcd 8 (field body 7 3) = unbcd 6 (field body 7 3) + unbcd 2 (field body 7 3 / 16 ^ 6) * 10 ^ 6 by simp only [unbcd]; omega,
      show field body 7 3 / 16 ^ 6 = 0 by omega]
    rfl
  rw [← Except.ok.inj hd, mul32_value hb, bcd32_value ha, mul16_value he, bcd16_value hc, bcd32_value hf, u32_field, u16_field, u24_field, e8]
  have w1 : bitsAt body 0 32 = field body 0 4 := bits_whole body 0 4 (by omega)
  have w2 : bitsAt body 32 16 = field body 4 2 := bits_whole body 4 2 (by omega)
  have w3 : bitsAt body 56 24 = field body 7 3 := bits_whole body 7 3 (by omega)
  have hh : Reading.decode 0x43 body = .d43
      { frequency := .ofNat (unbcd 8 (bitsAt body 0 32) * 10), orbitalPosition := .ofNat (unbcd 4 (bitsAt body 32 16) * 6), westEastFlag := .ofNat (bitsAt body 48 1)
        polarization := .ofNat (bitsAt body 49 2), rof := .ofNat (bitsAt body 51 2), s2 := .ofNat (bitsAt body 53 1), modulation := .ofNat (bitsAt body 54 2)
        symbolRate := .ofNat (unbcd 6 (bitsAt body 56 24)), fec := .ofNat (bitsAt body 84 4) } := by
    simp [Reading.decode, h]
  rw [hh, w1, w2, w3, byteBits body 6 48 1 (by omega) (by omega) (by omega), byteBits body 6 49 2 (by omega) (by omega) (by omega),
    byteBits body 6 51 2 (by omega) (by omega) (by omega), byteBits body 6 53 1 (by omega) (by omega) (by omega),
    byteBits body 6 54 2 (by omega) (by omega) (by omega), byteBits body 10 84 4 (by omega) (by omega) (by omega),
    m80, m60, m18, m04, m03, m0F, u8_field, u8_field, UInt32.ofNat_mul, UInt16.ofNat_mul]
  rfl

theorem six_eight (x : Nat) (h : x < 256 ^ 3) : unbcd 8 x = unbcd 6 x := by
  rw [show unbcd 8 x = unbcd 6 x + unbcd 2 (x / 16 ^ 6) * 10 ^ 6 by simp only [unbcd]; omega, show x / 16 ^ 6 = 0 by omega]
  rfl

theorem value44 (h : body.length = 11) {d : Desc44} (hd : Desc44.parse p (t :: n :: body) = .ok d) : Desc.d44 d = Reading.decode 0x44 body := by
  simp only [Desc44.parse, get32_body t n body 0 (by omega), idx_body t n body 5 (by omega), idx_body t n body 6 (by omega),
    get24_body t n body 7 (by omega), idx_body t n body 10 (by omega), ok_bind, bind_eq_ok] at hd
  obtain ⟨a, ha, b, hb, f, hf, hd⟩ := hd
  rw [pure_eq_ok] at hd
  rw [← Except.ok.inj hd, mul32_value hb, bcd32_value ha, bcd32_value hf, u32_field, u24_field, six_eight _ (field_lt ..)]
  have w1 : bitsAt body 0 32 = field body 0 4 := bits_whole body 0 4 (by omega)
  have w2 : bitsAt body 48 8 = field body 6 1 := bits_whole body 6 1 (by omega)
  have w3 : bitsAt body 56 24 = field body 7 3 := bits_whole body 7 3 (by omega)
  have hh : Reading.decode 0x44 body = .d44
      { frequency := .ofNat (unbcd 8 (bitsAt body 0 32) * 100), fecOuter := .ofNat (bitsAt body 44 4), modulation := .ofNat (bitsAt body 48 8)
        symbolRate := .ofNat (unbcd 6 (bitsAt body 56 24)), fec := .ofNat (bitsAt body 84 4) } := by
    simp [Reading.decode, h]
  rw [hh, w1, w2, w3, byteBits body 5 44 4 (by omega) (by omega) (by omega), byteBits body 10 84 4 (by omega) (by omega) (by omega),
    m0F, m0F, u8_field, u8_field, UInt32.ofNat_mul]
  rfl

theorem value5A (h : body.length = 11) {d : Desc5A} (hd : Desc5A.parse p (t :: n :: body) = .ok d) : Desc.d5A d = Reading.decode 0x5A body := by
  simp only [Desc5A.parse, get32_body t n body 0 (by omega), idx_body t n body 4 (by omega), idx_body t n body 5 (by omega),
    idx_body t n body 6 (by omega), ok_bind, bind_eq_ok] at hd
  obtain ⟨b, hb, hd⟩ := hd
  rw [pure_eq_ok] at hd
  rw [← Except.ok.inj hd, mul32_value hb]
  have w1 : bitsAt body 0 32 = field body 0 4 := bits_whole body 0 4 (by omega)
  have hh : Reading.decode 0x5A body = .d5A
      { frequency := .ofNat (bitsAt body 0 32 * 10), bandwidth := .ofNat (bitsAt body 32 3), priority := .ofNat (bitsAt body 35 1)
        timeSlicing := .ofNat (bitsAt body 36 1), mpeFec := .ofNat (bitsAt body 37 1), modulation := .ofNat (bitsAt body 40 2)
        hierarchy := .ofNat (bitsAt body 42 3), codeRateHp := .ofNat (bitsAt body 45 3), codeRateLp := .ofNat (bitsAt body 48 3)
        guardInterval := .ofNat (bitsAt body 51 2), transmission := .ofNat (bitsAt body 53 2), otherFrequencyFlag := .ofNat (bitsAt body 55 1) } := by
    simp [Reading.decode, h]
  rw [hh, w1, byteBits body 4 32 3 (by omega) (by omega) (by omega), byteBits body 4 35 1 (by omega) (by omega) (by omega),
    byteBits body 4 36 1 (by omega) (by omega) (by omega), byteBits body 4 37 1 (by omega) (by omega) (by omega),
    byteBits body 5 40 2 (by omega) (by omega) (by omega), byteBits body 5 42 3 (by omega) (by omega) (by omega),
    byteBits body 5 45 3 (by omega) (by omega) (by omega), byteBits body 6 48 3 (by omega) (by omega) (by omega),
    byteBits body 6 51 2 (by omega) (by omega) (by omega), byteBits body 6 53 2 (by omega) (by omega) (by omega),
    byteBits body 6 55 1 (by omega) (by omega) (by omega),
    mE0, m10, m08, m04, mC0, m38, m07, mE0, m18, m06, m01, u8_field, u8_field, u8_field, UInt32.ofNat_mul]
  rfl

theorem slice_body (i j : Nat) (h : i ≤ j) (hj : j ≤ body.length) :
    slice (t :: n :: body) (i + 2) (j + 2) = .ok ((body.drop i).take (j - i)) := by
  rw [slice, if_pos (by simp; omega)]
  simp [List.drop_take]

theorem value09 (h : 4 ≤ body.length) {d : Desc09} (hd : Desc09.parse (t :: n :: body) = .ok d) : Desc.d09 d = Reading.decode 0x09 body := by
  simp only [Desc09.parse, get16_body t n body 0 (by omega), get16_body t n body 2 (by omega), ok_bind,
    sliceFrom_ok (show 6 ≤ (t :: n :: body).length by simp; omega), pure_eq_ok] at hd
  have w1 : bitsAt body 0 16 = field body 0 2 := bits_whole body 0 2 (by omega)
  have w2 : bitsAt body 19 13 = field body 2 2 / 2 ^ 0 % 2 ^ 13 := bits_field body 2 2 19 13 (by omega) (by omega) (by omega)
  have hh : Reading.decode 0x09 body = .d09 ⟨.ofNat (bitsAt body 0 16), .ofNat (bitsAt body 19 13), body.drop 4⟩ := by
    simp [Reading.decode, h]
  have m : UInt16.ofNat (field body 2 2) &&& 0x1FFF = .ofNat (field body 2 2 / 2 ^ 0 % 2 ^ 13) := by
    apply UInt16.toNat.inj
    rw [UInt16.toNat_and, u16_field, show (0x1FFF : UInt16).toNat = 2 ^ 13 - 1 from rfl, Nat.and_two_pow_sub_one_eq_mod, UInt16.toNat_ofNat']
    omega
  rw [← Except.ok.inj hd, hh, w1, w2, m]
  rfl

theorem value0E (h : body.length = 3) {d : Desc0E} (hd : Desc0E.parse (t :: n :: body) = .ok d) : Desc.d0E d = Reading.decode 0x0E body := by
  simp only [Desc0E.parse, get24_body t n body 0 (by omega), ok_bind, pure_eq_ok] at hd
  have w2 : bitsAt body 2 22 = field body 0 3 / 2 ^ 0 % 2 ^ 22 := bits_field body 0 3 2 22 (by omega) (by omega) (by omega)
  have hh : Reading.decode 0x0E body = .d0E ⟨.ofNat (bitsAt body 2 22)⟩ := by
    simp [Reading.decode, h]
  have m : UInt32.ofNat (field body 0 3) &&& 0x003FFFFF = .ofNat (field body 0 3 / 2 ^ 0 % 2 ^ 22) := by
    apply UInt32.toNat.inj
    rw [UInt32.toNat_and, u24_field, show (0x003FFFFF : UInt32).toNat = 2 ^ 22 - 1 from rfl, Nat.and_two_pow_sub_one_eq_mod, UInt32.toNat_ofNat']
    omega
  rw [← Except.ok.inj hd, hh, w2, m]

theorem value40 {d : Desc40} (hd : Desc40.parse (t :: n :: body) = .ok d) : Desc.d40 d = Reading.decode 0x40 body := by
  simp only [Desc40.parse, sliceFrom_ok (show 2 ≤ (t :: n :: body).length by simp), ok_bind, pure_eq_ok] at hd
  rw [← Except.ok.inj hd]
  simp [Reading.decode, Reading.text]

theorem value52 (h : body.length = 1) {d : Desc52} (hd : Desc52.parse (t :: n :: body) = .ok d) : Desc.d52 d = Reading.decode 0x52 body := by
  simp only [Desc52.parse, idx_body t n body 0 (by omega), ok_bind, pure_eq_ok] at hd
  have hh : Reading.decode 0x52 body = .d52 ⟨.ofNat (bitsAt body 0 8)⟩ := by
    simp [Reading.decode, h]
  have w : bitsAt body 0 8 = field body 0 1 := bits_whole body 0 1 (by omega)
  rw [← Except.ok.inj hd, hh, w]

theorem take_self {l : List UInt8} {k : Nat} (h : l.length = k) : l.take k = l := by rw [← h, List.take_length]

theorem value48 (h : 3 ≤ body.length) (h2 : body.length = 3 + field body 1 1 + field body (2 + field body 1 1) 1)
    {d : Desc48} (hd : Desc48.parse (t :: n :: body) = .ok d) : Desc.d48 d = Reading.decode 0x48 body := by
  have w1 : bitsAt body 8 8 = field body 1 1 := bits_whole body 1 1 (by omega)
  have w2 : bitsAt body (16 + 8 * field body 1 1) 8 = field body (2 + field body 1 1) 1 := by
    rw [← bits_whole body (2 + field body 1 1) 1 (by omega)]; congr 1; omega
  have w0 : bitsAt body 0 8 = field body 0 1 := bits_whole body 0 1 (by omega)
  have hh : Reading.decode 0x48 body = .d48 ⟨.ofNat (field body 0 1), Reading.text ((body.drop 2).take (field body 1 1)),
      Reading.text (body.drop (3 + field body 1 1))⟩ := by
    unfold Reading.decode
    simp only [w1, w2, w0]
    rw [if_neg (by decide), if_neg (by decide), if_neg (by decide), if_neg (by decide), if_neg (by decide), if_neg (by decide), if_neg (by decide),
      if_pos trivial, if_pos ⟨h, h2⟩]
  rw [hh]
  have e1 := idx_body t n body 1 (by omega)
  have e0 := idx_body t n body 0 (by omega)
  simp only [Desc48.parse, e1, e0, ok_bind, u8_field] at hd
  have e2 := idx_body t n body (2 + field body 1 1) (by omega)
  rw [show 2 + field body 1 1 + 2 = 4 + field body 1 1 by omega] at e2
  simp only [e2, ok_bind, u8_field] at hd
  have e3 := slice_body t n body 2 (2 + field body 1 1) (by omega) (by omega)
  rw [show 2 + field body 1 1 + 2 = 4 + field body 1 1 by omega] at e3
  have e4 := slice_body t n body (3 + field body 1 1) body.length (by omega) (by omega)
  rw [show 3 + field body 1 1 + 2 = 4 + field body 1 1 + 1 by omega,
    show body.length + 2 = 4 + field body 1 1 + 1 + field body (2 + field body 1 1) 1 by omega] at e4
  simp only [e3, e4, ok_bind, pure_eq_ok] at hd
  rw [← Except.ok.inj hd, show 2 + field body 1 1 - 2 = field body 1 1 by omega,
    take_self (l := body.drop (3 + field body 1 1)) (by simp)]
  rfl

theorem value4D (h : 5 ≤ body.length) (h2 : body.length = 5 + field body 3 1 + field body (4 + field body 3 1) 1)
    {d : Desc4D} (hd : Desc4D.parse (t :: n :: body) = .ok d) : Desc.d4D d = Reading.decode 0x4D body := by
  have w1 : bitsAt body 24 8 = field body 3 1 := bits_whole body 3 1 (by omega)
  have w2 : bitsAt body (32 + 8 * field body 3 1) 8 = field body (4 + field body 3 1) 1 := by
    rw [← bits_whole body (4 + field body 3 1) 1 (by omega)]; congr 1; omega
  have hh : Reading.decode 0x4D body = .d4D ⟨Reading.text (body.take 3), Reading.text ((body.drop 4).take (field body 3 1)),
      Reading.text (body.drop (5 + field body 3 1))⟩ := by
    unfold Reading.decode
    simp only [w1, w2]
    rw [if_neg (by decide), if_neg (by decide), if_neg (by decide), if_neg (by decide), if_neg (by decide), if_neg (by decide), if_neg (by decide),
      if_neg (by decide), if_pos trivial, if_pos ⟨h, h2⟩]
  rw [hh]
  have e1 := idx_body t n body 3 (by omega)
  simp only [Desc4D.parse, e1, ok_bind, u8_field] at hd
  have e2 := idx_body t n body (4 + field body 3 1) (by omega)
  rw [show 4 + field body 3 1 + 2 = 6 + field body 3 1 by omega] at e2
  simp only [e2, ok_bind, u8_field] at hd
  have e0 := slice_body t n body 0 3 (by omega) (by omega)
  have e3 := slice_body t n body 4 (4 + field body 3 1) (by omega) (by omega)
  rw [show 4 + field body 3 1 + 2 = 6 + field body 3 1 by omega] at e3
  have e4 := slice_body t n body (5 + field body 3 1) body.length (by omega) (by omega)
  rw [show 5 + field body 3 1 + 2 = 6 + field body 3 1 + 1 by omega,
    show body.length + 2 = 6 + field body 3 1 + 1 + field body (4 + field body 3 1) 1 by omega] at e4
  simp only [e0, e3, e4, ok_bind, pure_eq_ok] at hd
  rw [← Except.ok.inj hd, show 4 + field body 3 1 - 4 = field body 3 1 by omega,
    take_self (l := body.drop (5 + field body 3 1)) (by simp)]
  rfl

/-! Lists of items. -/

theorem chunks_step (k : Nat) (hk : 0 < k) (s : List UInt8) (skip : Nat) (h : skip + k ≤ s.length) :
    chunks k (s.drop skip) = (s.drop skip).take k :: chunks k (s.drop (skip + k)) := by
  rw [chunks, dif_pos ⟨hk, by simp; omega⟩, List.drop_drop]
theorem chunks_end (k : Nat) (s : List UInt8) (skip : Nat) (h : s.length < skip + k) : chunks k (s.drop skip) = [] := by
  rw [chunks, dif_neg (by simp; omega)]

theorem field_chunk (s : List UInt8) (skip k off m : Nat) (h : off + m ≤ k) :
    field ((s.drop skip).take k) off m = field s (skip + off) m := by
  simp only [field, List.drop_take, List.take_take, List.drop_drop]
  congr 2; omega

theorem chunk_len (s : List UInt8) (skip k : Nat) (h : skip + k ≤ s.length) : ((s.drop skip).take k).length = k := by simp; omega

theorem loop41 (s : List UInt8) (k skip fuel : Nat) (out r : List Desc41i) (h : s.length = skip + 3 * k) (hr : Desc41.parseLoop s fuel skip out = .ok r) :
    r = out ++ (chunks 3 (s.drop skip)).map fun i => ⟨.ofNat (bitsAt i 0 16), .ofNat (bitsAt i 16 8)⟩ := by
  induction k generalizing skip fuel out with
  | zero =>
    cases fuel with
    | zero => cases hr
    | succ f =>
      rw [Desc41.parseLoop, if_neg (by omega)] at hr
      rw [chunks_end _ _ _ (by omega), ← Except.ok.inj hr]; simp
  | succ k ih =>
    cases fuel with
    | zero => cases hr
    | succ f =>
      rw [Desc41.parseLoop, if_pos (by omega), get16 (by omega), ok_bind, field_one _ _ (by omega), ok_bind] at hr
      have := ih (skip + 3) f _ (by omega) hr
      have l := chunk_len s skip 3 (by omega)
      have w1 := bits_whole ((s.drop skip).take 3) 0 2 (by omega)
      have w2 := bits_whole ((s.drop skip).take 3) 2 1 (by omega)
      rw [field_chunk _ _ _ _ _ (by omega)] at w1 w2
      rw [this, chunks_step 3 (by omega) s skip (by omega), List.map_cons, w1, w2, List.append_assoc]
      rfl

theorem loop0A (s : List UInt8) (k skip fuel : Nat) (out r : List Desc0Ai) (h : s.length = skip + 4 * k) (hr : Desc0A.parseLoop s fuel skip out = .ok r) :
    r = out ++ (chunks 4 (s.drop skip)).map fun i => ⟨Reading.text (i.take 3), .ofNat (bitsAt i 24 8)⟩ := by
  induction k generalizing skip fuel out with
  | zero =>
    cases fuel with
    | zero => cases hr
    | succ f =>
      rw [Desc0A.parseLoop, if_neg (by omega)] at hr
      rw [chunks_end _ _ _ (by omega), ← Except.ok.inj hr]; simp
  | succ k ih =>
    cases fuel with
    | zero => cases hr
    | succ f =>
      rw [Desc0A.parseLoop, if_pos (by omega), slice, if_pos (by omega), ok_bind, field_one _ _ (by omega), ok_bind] at hr
      have := ih (skip + 4) f _ (by omega) hr
      have l := chunk_len s skip 4 (by omega)
      have w2 := bits_whole ((s.drop skip).take 4) 3 1 (by omega)
      rw [field_chunk _ _ _ _ _ (by omega)] at w2
      rw [this, chunks_step 4 (by omega) s skip (by omega), List.map_cons, w2, List.append_assoc, List.take_take,
        List.drop_take, show skip + 3 - skip = 3 by omega]
      rfl

theorem loop83 (s : List UInt8) (k skip fuel : Nat) (out r : List Desc83i) (h : s.length = skip + 4 * k) (hr : Desc83.parseLoop s fuel skip out = .ok r) :
    r = out ++ (chunks 4 (s.drop skip)).map fun i => ⟨.ofNat (bitsAt i 0 16), .ofNat (bitsAt i 16 1), .ofNat (bitsAt i 22 10)⟩ := by
  induction k generalizing skip fuel out with
  | zero =>
    cases fuel with
    | zero => cases hr
    | succ f =>
      rw [Desc83.parseLoop, if_neg (by omega)] at hr
      rw [chunks_end _ _ _ (by omega), ← Except.ok.inj hr]; simp
  | succ k ih =>
    cases fuel with
    | zero => cases hr
    | succ f =>
      rw [Desc83.parseLoop, if_pos (by omega), get16 (by omega), ok_bind, field_one _ _ (by omega), ok_bind, get16 (by omega), ok_bind] at hr
      have := ih (skip + 4) f _ (by omega) hr
      have l := chunk_len s skip 4 (by omega)
      have w1 := bits_whole ((s.drop skip).take 4) 0 2 (by omega)
      have w2 := byteBits ((s.drop skip).take 4) 2 16 1 (by omega) (by omega) (by omega)
      have w3 := bits_field ((s.drop skip).take 4) 2 2 22 10 (by omega) (by omega) (by omega)
      rw [field_chunk _ _ _ _ _ (by omega)] at w1 w2 w3
      have m : UInt16.ofNat (field s (skip + 2) 2) &&& 0x03FF = .ofNat (field s (skip + 2) 2 / 2 ^ 0 % 2 ^ 10) := by
        apply UInt16.toNat.inj
        rw [UInt16.toNat_and, u16_field, show (0x03FF : UInt16).toNat = 2 ^ 10 - 1 from rfl, Nat.and_two_pow_sub_one_eq_mod, UInt16.toNat_ofNat']
        omega
      rw [this, chunks_step 4 (by omega) s skip (by omega), List.map_cons, w1, w2, w3, List.append_assoc, m, s7, u8_field]
      rfl

theorem loop58 (s : List UInt8) (k skip fuel : Nat) (out r : List Desc58i) (h : s.length = skip + 13 * k) (hr : Desc58.parseLoop p s fuel skip out = .ok r) :
    r = out ++ (chunks 13 (s.drop skip)).map fun i =>
      { countryCode := Reading.text (i.take 3), regionId := .ofNat (bitsAt i 24 6), offsetPolarity := .ofNat (bitsAt i 31 1)
        offset := .ofNat (minutes (bitsAt i 32 16)), timeOfChange := .ofNat (Reading.time (bitsAt i 48 16) (bitsAt i 64 24))
        nextOffset := .ofNat (minutes (bitsAt i 88 16)) } := by
  induction k generalizing skip fuel out with
  | zero =>
    cases fuel with
    | zero => cases hr
    | succ f =>
      rw [Desc58.parseLoop, if_neg (by omega)] at hr
      rw [chunks_end _ _ _ (by omega), ← Except.ok.inj hr]; simp
  | succ k ih =>
    cases fuel with
    | zero => cases hr
    | succ f =>
      rw [Desc58.parseLoop, if_pos (by omega), slice, if_pos (by omega)] at hr
      simp only [get16 (show skip + 4 + 2 ≤ s.length by omega), get16 (show skip + 6 + 2 ≤ s.length by omega),
        get24 (show skip + 8 + 3 ≤ s.length by omega), get16 (show skip + 11 + 2 ≤ s.length by omega),
        field_one s (skip + 3) (by omega), ok_bind, bind_eq_ok] at hr
      obtain ⟨a, ha, b, hb, c, hc, e, he, f', hf', hr⟩ := hr
      have := ih (skip + 13) f _ (by omega) hr
      have l := chunk_len s skip 13 (by omega)
      have w1 := byteBits ((s.drop skip).take 13) 3 24 6 (by omega) (by omega) (by omega)
      have w2 := byteBits ((s.drop skip).take 13) 3 31 1 (by omega) (by omega) (by omega)
      have w3 := bits_whole ((s.drop skip).take 13) 4 2 (by omega)
      have w4 := bits_whole ((s.drop skip).take 13) 6 2 (by omega)
      have w5 := bits_whole ((s.drop skip).take 13) 8 3 (by omega)
      have w6 := bits_whole ((s.drop skip).take 13) 11 2 (by omega)
      rw [field_chunk _ _ _ _ _ (by omega)] at w1 w2 w3 w4 w5 w6
      have et : e = .ofNat (Reading.time (field s (skip + 6) 2) (field s (skip + 8) 3)) := by
        have x1 := mjd_value hb
        have x2 := time32_value hc
        rw [u16_field] at x1
        rw [u24_field] at x2
        rw [add64_value he, x1, ← UInt64.ofNat_toNat (x := c.toUInt64), UInt32.toNat_toUInt64, x2, ← UInt64.ofNat_add]
        rfl
      rw [this, chunks_step 13 (by omega) s skip (by omega), List.map_cons, w1, w2, w3, w4, w5, w6, List.append_assoc, List.take_take, s2, m01, u8_field,
        time16_value ha, time16_value hf', u16_field, u16_field, et, List.drop_take, show skip + 3 - skip = 3 by omega]
      rfl

theorem loop4E (s : List UInt8) (itemsE : Nat) (hE : itemsE < s.length) (fuel itemsS : Nat) (out r : List (StringDVB × StringDVB))
    (hS : itemsS ≤ s.length) (hr : Desc4E.parseLoop s itemsE fuel itemsS out = .ok r) :
    r = out ++ pairs (itemsE - itemsS) (s.drop itemsS) := by
  induction fuel generalizing itemsS out with
  | zero => cases hr
  | succ f ih =>
    rw [Desc4E.parseLoop] at hr
    by_cases hlt : itemsS < itemsE
    · have hl : itemsS < s.length := by omega
      rw [if_pos hlt, idx_ok hl, ok_bind] at hr
      simp only [bind_eq_ok] at hr
      rw [List.drop_eq_getElem_cons hl, pairs, if_neg (by omega)]
      generalize s[itemsS] = c at hr ⊢
      obtain ⟨x, hx, d, hd, e, he, hr⟩ := hr
      by_cases b1 : s.length ≤ itemsS + 1 + c.toNat
      · rw [idx_panic b1] at hx; cases hx
      rw [field_one _ _ (by omega)] at hx
      have hx := Except.ok.inj hx
      have vx : x.toNat = field s (itemsS + 1 + c.toNat) 1 := by rw [← hx, u8_field]
      have w : bitsAt (s.drop (itemsS + 1)) (8 * c.toNat) 8 = x.toNat := by
        rw [byteWhole _ _ (by simp; omega), vx]; simp only [field, List.drop_drop]
      rw [slice, if_pos (by omega)] at hd
      have hd := Except.ok.inj hd
      rw [slice] at he
      split at he
      · next hb =>
        have he := Except.ok.inj he
        have := ih _ _ (by omega) hr
        rw [this]
        simp only [w, List.append_assoc]
        rw [List.drop_drop, List.drop_drop, ← hd, ← he, show itemsE - itemsS - (2 + c.toNat + x.toNat) = itemsE - (itemsS + 1 + c.toNat + 1 + x.toNat) by omega,
          show itemsS + 1 + (c.toNat + 1 + x.toNat) = itemsS + 1 + c.toNat + 1 + x.toNat by omega,
          show itemsS + 1 + (c.toNat + 1) = itemsS + 1 + c.toNat + 1 by omega,
          List.drop_take, List.drop_take, show itemsS + 1 + c.toNat - (itemsS + 1) = c.toNat by omega,
          show itemsS + 1 + c.toNat + 1 + x.toNat - (itemsS + 1 + c.toNat + 1) = x.toNat by omega]
        rfl
      · cases he
    · rw [if_neg hlt] at hr
      rw [← Except.ok.inj hr, show itemsE - itemsS = 0 by omega]
      cases s.drop itemsS with
      | nil => simp [pairs]
      | cons a b => rw [pairs]; simp

theorem value4E (h : 6 ≤ body.length) (h2 : body.length = 6 + field body 4 1 + field body (5 + field body 4 1) 1)
    {d : Desc4E} (hd : Desc4E.parse (t :: n :: body) = .ok d) : Desc.d4E d = Reading.decode 0x4E body := by
  have w1 : bitsAt body 32 8 = field body 4 1 := bits_whole body 4 1 (by omega)
  have w2 : bitsAt body (40 + 8 * field body 4 1) 8 = field body (5 + field body 4 1) 1 := by
    rw [← bits_whole body (5 + field body 4 1) 1 (by omega)]; congr 1; omega
  have w3 := byteBits body 0 0 4 (by omega) (by omega) (by omega)
  have w4 := byteBits body 0 4 4 (by omega) (by omega) (by omega)
  have hh : Reading.decode 0x4E body = .d4E
      { number := .ofNat (bitsAt body 0 4), lastNumber := .ofNat (bitsAt body 4 4), lang := Reading.text ((body.drop 1).take 3)
        items := pairs (field body 4 1) (body.drop 5), text := Reading.text (body.drop (6 + field body 4 1)) } := by
    unfold Reading.decode
    simp only [w1, w2]
    rw [if_neg (by decide), if_neg (by decide), if_neg (by decide), if_neg (by decide), if_neg (by decide), if_neg (by decide), if_neg (by decide),
      if_neg (by decide), if_neg (by decide), if_pos trivial, if_pos ⟨h, h2⟩]
  rw [hh, w3, w4]
  have e1 := idx_body t n body 4 (by omega)
  have e5 := idx_body t n body 0 (by omega)
  simp only [Desc4E.parse, e1, ok_bind, u8_field] at hd
  have e2 := idx_body t n body (5 + field body 4 1) (by omega)
  rw [show 5 + field body 4 1 + 2 = 7 + field body 4 1 by omega] at e2
  simp only [e2, e5, ok_bind, u8_field] at hd
  have e0 := slice_body t n body 1 4 (by omega) (by omega)
  have e4 := slice_body t n body (6 + field body 4 1) body.length (by omega) (by omega)
  rw [show 6 + field body 4 1 + 2 = 7 + field body 4 1 + 1 by omega,
    show body.length + 2 = 7 + field body 4 1 + 1 + field body (5 + field body 4 1) 1 by omega] at e4
  simp only [e0, e4, ok_bind, bind_eq_ok, pure_eq_ok] at hd
  obtain ⟨items, hi, hd⟩ := hd
  have := loop4E _ _ (by simp; omega) _ _ _ _ (by simp; omega) hi
  rw [show 7 + field body 4 1 - 7 = field body 4 1 by omega] at this
  rw [← Except.ok.inj hd, take_self (l := body.drop (6 + field body 4 1)) (by simp), this, s4, m0F, u8_field]
  rfl

theorem value41 (h : 3 ∣ body.length) {d : Desc41} (hd : Desc41.parse (t :: n :: body) = .ok d) : Desc.d41 d = Reading.decode 0x41 body := by
  simp only [Desc41.parse, bind_eq_ok, pure_eq_ok] at hd
  obtain ⟨r, hr, hd⟩ := hd
  obtain ⟨k, hk⟩ := h
  rw [← Except.ok.inj hd, loop41 _ k _ _ _ _ (by simp; omega) hr]
  simp [Reading.decode, hk]

theorem value0A (h : 4 ∣ body.length) {d : Desc0A} (hd : Desc0A.parse (t :: n :: body) = .ok d) : Desc.d0A d = Reading.decode 0x0A body := by
  simp only [Desc0A.parse, bind_eq_ok, pure_eq_ok] at hd
  obtain ⟨r, hr, hd⟩ := hd
  obtain ⟨k, hk⟩ := h
  rw [← Except.ok.inj hd, loop0A _ k _ _ _ _ (by simp; omega) hr]
  simp [Reading.decode, hk]

theorem value83 (h : 4 ∣ body.length) {d : Desc83} (hd : Desc83.parse (t :: n :: body) = .ok d) : Desc.d83 d = Reading.decode 0x83 body := by
  simp only [Desc83.parse, bind_eq_ok, pure_eq_ok] at hd
  obtain ⟨r, hr, hd⟩ := hd
  obtain ⟨k, hk⟩ := h
  rw [← Except.ok.inj hd, loop83 _ k _ _ _ _ (by simp; omega) hr]
  simp [Reading.decode, hk]

theorem value58 (h : 13 ∣ body.length) {d : Desc58} (hd : Desc58.parse p (t :: n :: body) = .ok d) : Desc.d58 d = Reading.decode 0x58 body := by
  simp only [Desc58.parse, bind_eq_ok, pure_eq_ok] at hd
  obtain ⟨r, hr, hd⟩ := hd
  obtain ⟨k, hk⟩ := h
  rw [← Except.ok.inj hd, loop58 p _ k _ _ _ _ (by simp; omega) hr]
  simp [Reading.decode, hk]

theorem map_ok_inv {α β : Type} {f : α → β} {x : R α} {v : β} (h : (f <$> x) = .ok v) : ∃ a, x = .ok a ∧ f a = v := by
  cases x with
  | error e => cases h
  | ok a => exact ⟨a, rfl, Except.ok.inj h⟩

theorem raw_value (hn : n.toNat = body.length) {d : Desc} (h : Desc.parseRaw (t :: n :: body) = .ok d) : d = .raw ⟨t, body⟩ := by
  have := parseRaw_ok t n body [] hn
  rw [List.append_nil] at this
  rw [this] at h
  exact (Except.ok.inj h).symm

theorem value (hn : n.toNat = body.length) {d : Desc} (hd : Desc.parse p (t :: n :: body) = .ok d) : d = Reading.decode t body := by
  have l : (t :: n :: body).length = body.length + 2 := by simp
  have l2 : body.length + 2 - 2 = body.length := by omega
  by_cases c43 : t = 0x43
  · subst c43; rw [parse_43] at hd
    simp only [Desc43.check, pure_eq_ok, ok_bind, l, beq_iff_eq] at hd
    by_cases hl : body.length = 11
    · rw [if_pos (by simp [hl])] at hd
      obtain ⟨a, ha, rfl⟩ := map_ok_inv hd
      exact value43 p _ n body hl ha
    · rw [if_neg (by simp; omega)] at hd; rw [raw_value _ n body hn hd]; simp [Reading.decode, hl]
  by_cases c44 : t = 0x44
  · subst c44; rw [parse_44] at hd
    simp only [Desc44.check, pure_eq_ok, ok_bind, l, beq_iff_eq] at hd
    by_cases hl : body.length = 11
    · rw [if_pos (by simp [hl])] at hd
      obtain ⟨a, ha, rfl⟩ := map_ok_inv hd
      exact value44 p _ n body hl ha
    · rw [if_neg (by simp; omega)] at hd; rw [raw_value _ n body hn hd]; simp [Reading.decode, hl]
  by_cases c5A : t = 0x5A
  · subst c5A; rw [parse_5A] at hd
    simp only [Desc5A.check, pure_eq_ok, ok_bind, l, beq_iff_eq] at hd
    by_cases hl : body.length = 11
    · rw [if_pos (by simp [hl])] at hd
      obtain ⟨a, ha, rfl⟩ := map_ok_inv hd
      exact value5A p _ n body hl ha
    · rw [if_neg (by simp; omega)] at hd; rw [raw_value _ n body hn hd]; simp [Reading.decode, hl]
  by_cases c58 : t = 0x58
  · subst c58; rw [parse_58] at hd
    simp only [Desc58.check, pure_eq_ok, ok_bind, l, l2] at hd
    by_cases hl : 13 ∣ body.length
    · rw [if_pos (by simp; omega)] at hd
      obtain ⟨a, ha, rfl⟩ := map_ok_inv hd
      exact value58 p _ n body hl ha
    · rw [if_neg (by simp; omega)] at hd; rw [raw_value _ n body hn hd]; simp [Reading.decode, hl]
  by_cases c09 : t = 0x09
  · subst c09; rw [parse_09] at hd
    simp only [Desc09.check, pure_eq_ok, ok_bind, l] at hd
    by_cases hl : 4 ≤ body.length
    · rw [if_pos (by simp; omega)] at hd
      obtain ⟨a, ha, rfl⟩ := map_ok_inv hd
      exact value09 _ n body hl ha
    · rw [if_neg (by simp; omega)] at hd; rw [raw_value _ n body hn hd]; simp [Reading.decode, hl]
  by_cases c0A : t = 0x0A
  · subst c0A; rw [parse_0A] at hd
    simp only [Desc0A.check, pure_eq_ok, ok_bind, l, l2] at hd
    by_cases hl : 4 ∣ body.length
    · rw [if_pos (by simp; omega)] at hd
      obtain ⟨a, ha, rfl⟩ := map_ok_inv hd
      exact value0A _ n body hl ha
    · rw [if_neg (by simp; omega)] at hd; rw [raw_value _ n body hn hd]; simp [Reading.decode, hl]
  by_cases c0E : t = 0x0E
  · subst c0E; rw [parse_0E] at hd
    simp only [Desc0E.check, pure_eq_ok, ok_bind, l] at hd
    by_cases hl : body.length = 3
    · rw [if_pos (by simp; omega)] at hd
      obtain ⟨a, ha, rfl⟩ := map_ok_inv hd
      exact value0E _ n body hl ha
    · rw [if_neg (by simp; omega)] at hd; rw [raw_value _ n body hn hd]; simp [Reading.decode, hl]
  by_cases c40 : t = 0x40
  · subst c40; rw [parse_40] at hd
    simp only [Desc40.check, pure_eq_ok, ok_bind, l] at hd
    rw [if_pos (by simp)] at hd
    obtain ⟨a, ha, rfl⟩ := map_ok_inv hd
    exact value40 _ n body ha
  by_cases c41 : t = 0x41
  · subst c41; rw [parse_41] at hd
    simp only [Desc41.check, pure_eq_ok, ok_bind, l, l2] at hd
    by_cases hl : 3 ∣ body.length
    · rw [if_pos (by simp; omega)] at hd
      obtain ⟨a, ha, rfl⟩ := map_ok_inv hd
      exact value41 _ n body hl ha
    · rw [if_neg (by simp; omega)] at hd; rw [raw_value _ n body hn hd]; simp [Reading.decode, hl]
  by_cases c52 : t = 0x52
  · subst c52; rw [parse_52] at hd
    simp only [Desc52.check, pure_eq_ok, ok_bind, l] at hd
    by_cases hl : body.length = 1
    · rw [if_pos (by simp; omega)] at hd
      obtain ⟨a, ha, rfl⟩ := map_ok_inv hd
      exact value52 _ n body hl ha
    · rw [if_neg (by simp; omega)] at hd; rw [raw_value _ n body hn hd]; simp [Reading.decode, hl]
  by_cases c83 : t = 0x83
  · subst c83; rw [parse_83] at hd
    simp only [Desc83.check, pure_eq_ok, ok_bind, l, l2] at hd
    by_cases hl : 4 ∣ body.length
    · rw [if_pos (by simp; omega)] at hd
      obtain ⟨a, ha, rfl⟩ := map_ok_inv hd
      exact value83 _ n body hl ha
    · rw [if_neg (by simp; omega)] at hd; rw [raw_value _ n body hn hd]; simp [Reading.decode, hl]
  by_cases c48 : t = 0x48
  · subst c48; rw [parse_48] at hd
    by_cases hl : body.length < 3
    · rw [Desc48.check, if_pos (by rw [l]; omega), pure_eq_ok, ok_bind, if_neg (by decide)] at hd
      rw [raw_value _ n body hn hd]; simp [Reading.decode, show ¬ 3 ≤ body.length by omega]
    have i1 : idx (0x48 :: n :: body) 1 = .ok n := rfl
    have i3 := idx_body 0x48 n body 1 (by omega)
    rw [Desc48.check, if_neg (by rw [l]; omega)] at hd
    simp only [i3, ok_bind, u8_field] at hd
    have w1 : bitsAt body 8 8 = field body 1 1 := bits_whole body 1 1 (by omega)
    by_cases h2 : body.length ≤ 2 + field body 1 1
    · rw [idx_panic (show (0x48 :: n :: body).length ≤ 4 + field body 1 1 by rw [l]; omega)] at hd; cases hd
    have w2 : bitsAt body (16 + 8 * field body 1 1) 8 = field body (2 + field body 1 1) 1 := by
      rw [← bits_whole body (2 + field body 1 1) 1 (by omega)]; congr 1; omega
    have ia := idx_body 0x48 n body (2 + field body 1 1) (by omega)
    rw [show 2 + field body 1 1 + 2 = 4 + field body 1 1 by omega] at ia
    simp only [ia, ok_bind, i1, u8_field, pure_eq_ok, hn] at hd
    by_cases e : body.length = 3 + field body 1 1 + field body (2 + field body 1 1) 1
    · rw [if_pos (by simpa using e)] at hd
      obtain ⟨a, ha, rfl⟩ := map_ok_inv hd
      exact value48 _ n body (by omega) e ha
    · rw [if_neg (by simpa using e)] at hd
      rw [raw_value _ n body hn hd]; simp [Reading.decode, w1, w2, e]
  by_cases c4D : t = 0x4D
  · subst c4D; rw [parse_4D] at hd
    by_cases hl : body.length < 5
    · rw [Desc4D.check, if_pos (by rw [l]; omega), pure_eq_ok, ok_bind, if_neg (by decide)] at hd
      rw [raw_value _ n body hn hd]; simp [Reading.decode, show ¬ 5 ≤ body.length by omega]
    have i1 : idx (0x4D :: n :: body) 1 = .ok n := rfl
    have i3 := idx_body 0x4D n body 3 (by omega)
    rw [Desc4D.check, if_neg (by rw [l]; omega)] at hd
    simp only [i3, ok_bind, u8_field] at hd
    have w1 : bitsAt body 24 8 = field body 3 1 := bits_whole body 3 1 (by omega)
    by_cases h2 : body.length ≤ 4 + field body 3 1
    · rw [idx_panic (show (0x4D :: n :: body).length ≤ 6 + field body 3 1 by rw [l]; omega)] at hd; cases hd
    have w2 : bitsAt body (32 + 8 * field body 3 1) 8 = field body (4 + field body 3 1) 1 := by
      rw [← bits_whole body (4 + field body 3 1) 1 (by omega)]; congr 1; omega
    have ia := idx_body 0x4D n body (4 + field body 3 1) (by omega)
    rw [show 4 + field body 3 1 + 2 = 6 + field body 3 1 by omega] at ia
    simp only [ia, ok_bind, i1, u8_field, pure_eq_ok, hn] at hd
    by_cases e : body.length = 5 + field body 3 1 + field body (4 + field body 3 1) 1
    · rw [if_pos (by simpa using e)] at hd
      obtain ⟨a, ha, rfl⟩ := map_ok_inv hd
      exact value4D _ n body (by omega) e ha
    · rw [if_neg (by simpa using e)] at hd
      rw [raw_value _ n body hn hd]; simp [Reading.decode, w1, w2, e]
  by_cases c4E : t = 0x4E
  · subst c4E; rw [parse_4E] at hd
    by_cases hl : body.length < 6
    · rw [Desc4E.check, if_pos (by rw [l]; omega), pure_eq_ok, ok_bind, if_neg (by decide)] at hd
      rw [raw_value _ n body hn hd]; simp [Reading.decode, show ¬ 6 ≤ body.length by omega]
    have i1 : idx (0x4E :: n :: body) 1 = .ok n := rfl
    have i3 := idx_body 0x4E n body 4 (by omega)
    rw [Desc4E.check, if_neg (by rw [l]; omega)] at hd
    simp only [i3, ok_bind, u8_field] at hd
    have w1 : bitsAt body 32 8 = field body 4 1 := bits_whole body 4 1 (by omega)
    by_cases h2 : body.length ≤ 5 + field body 4 1
    · rw [idx_panic (show (0x4E :: n :: body).length ≤ 7 + field body 4 1 by rw [l]; omega)] at hd; cases hd
    have w2 : bitsAt body (40 + 8 * field body 4 1) 8 = field body (5 + field body 4 1) 1 := by
      rw [← bits_whole body (5 + field body 4 1) 1 (by omega)]; congr 1; omega
    have ia := idx_body 0x4E n body (5 + field body 4 1) (by omega)
    rw [show 5 + field body 4 1 + 2 = 7 + field body 4 1 by omega] at ia
    simp only [ia, ok_bind, i1, u8_field, pure_eq_ok, hn] at hd
    by_cases e : body.length = 6 + field body 4 1 + field body (5 + field body 4 1) 1
    · rw [if_pos (by simpa using e)] at hd
      obtain ⟨a, ha, rfl⟩ := map_ok_inv hd
      exact value4E _ n body (by omega) e ha
    · rw [if_neg (by simpa using e)] at hd
      rw [raw_value _ n body hn hd]; simp [Reading.decode, w1, w2, e]
  rw [parse_unknown] at hd
  · rw [raw_value _ n body hn hd]; simp [Reading.decode, c09, c0A, c0E, c40, c41, c43, c44, c48, c4D, c4E, c52, c58, c5A, c83]
  · simp only [knownTags, List.mem_cons, List.not_mem_nil, or_false, not_or]
    exact ⟨c09, c0A, c0E, c40, c41, c43, c44, c48, c4D, c4E, c52, c58, c5A, c83⟩

end AnyRead

/-- C124: for every tag, every body with its length byte, in both profiles: unless parsing panics (the condition of C38), the value is the one
the syntax tables give for these bytes. -/
theorem C124_descriptor (p : Profile) (t n : UInt8) (body : List UInt8) (hn : n.toNat = body.length) :
    (Panics p t body → Desc.parse p (t :: n :: body) = panic) ∧
    (¬ Panics p t body → Desc.parse p (t :: n :: body) = .ok (Reading.decode t body)) := by
  obtain ⟨h1, h2⟩ := C38_exact_partial p t n body hn
  refine ⟨h1, fun h => ?_⟩
  obtain ⟨d, hd⟩ := h2 h
  rw [hd, AnyRead.value p t n body hn hd]

/-- C124 for a loop of descriptors: unless one of its complete descriptors makes parsing panic, the values of all of them are added in order. -/
theorem C124_loop (p : Profile) (ds : Descriptors) (s : List UInt8) :
    ((∃ t n body, t :: n :: body ∈ Descriptor.frames s ∧ Panics p t body) → Descriptors.parse p ds s = panic) ∧
    ((∀ t n body, t :: n :: body ∈ Descriptor.frames s → ¬ Panics p t body) → Descriptors.parse p ds s = .ok (ds ++ Reading.descriptors s)) := by
  refine ⟨(C38_loop_partial p ds s).1, fun h => ?_⟩
  have key : ∀ k, ∀ s : List UInt8, s.length ≤ k → (∀ t n body, t :: n :: body ∈ Descriptor.frames s → ¬ Panics p t body) →
      (Descriptor.frames s).mapM (Desc.parse p) = .ok (Reading.descriptors s) := by
    intro k
    induction k with
    | zero =>
      intro s hk _
      obtain rfl := List.length_eq_zero_iff.1 (Nat.le_zero.1 hk)
      rw [Descriptor.frames, Reading.descriptors] <;> simp
    | succ k ih =>
      intro s hk h
      match s with
      | [] => rw [Descriptor.frames, Reading.descriptors] <;> simp
      | [a] => rw [Descriptor.frames, Reading.descriptors] <;> simp
      | t :: n :: r =>
        rw [Descriptor.frames] at h ⊢
        rw [Reading.descriptors]
        by_cases hle : n.toNat ≤ r.length
        · rw [if_pos hle] at h ⊢
          rw [if_pos hle, List.mapM_cons, (C124_descriptor p t n _ (by simp; omega)).2 (h t n _ List.mem_cons_self), ok_bind,
            ih (r.drop n.toNat) (by simp at hk ⊢; omega) (fun t' n' b' hm => h t' n' b' (List.mem_cons_of_mem _ hm))]
          rfl
        · rw [if_neg hle, if_neg hle]; rfl
  rw [C37_frames, key s.length s (Nat.le_refl _) h]
  rfl

/-! Concrete cases: reserved bits cleared, hexadecimal digits in a release build, and a wrong length. -/

example : Desc.parse .debug [0x43, 11, 0x01, 0x17, 0x27, 0x50, 0x01, 0x92, 0xA1, 0x02, 0x75, 0x00, 0x03] =
    .ok (Reading.decode 0x43 [0x01, 0x17, 0x27, 0x50, 0x01, 0x92, 0xA1, 0x02, 0x75, 0x00, 0x03]) :=
  (C124_descriptor .debug 0x43 11 _ rfl).2 (by
    simp only [Panics, if_true]
    rintro ⟨-, -, h⟩
    exact h ⟨by decide, by decide, by decide⟩)
example : Reading.decode 0x43 [0x01, 0x17, 0x27, 0x50, 0x01, 0x92, 0xA1, 0x02, 0x75, 0x00, 0x03] = .d43
    { frequency := 11727500, orbitalPosition := 1152, westEastFlag := 1, polarization := 1, rof := 0, s2 := 0, modulation := 1,
      symbolRate := 27500, fec := 3 } := by decide +kernel
example : Desc.parse .release [0x5A, 2, 0xFF, 0xFF] = .ok (.raw ⟨0x5A, [0xFF, 0xFF]⟩) :=
  (C124_descriptor .release 0x5A 2 _ rfl).2 (by simp [Panics])
example (p : Profile) : Desc.parse p [0x48, 3, 1, 1, 1] = panic :=
  (C124_descriptor p 0x48 3 _ rfl).1 (by simp [Panics, field, beNat])
example (p : Profile) : Descriptors.parse p [] [0x52, 1, 7, 0x83, 4, 0x01, 0x02, 0x00, 0x09, 0x40] =
    .ok [.d52 ⟨7⟩, .d83 ⟨[⟨0x0102, 0, 9⟩]⟩] := by
  have f : Descriptor.frames [0x52, 1, 7, 0x83, 4, 0x01, 0x02, 0x00, 0x09, 0x40] = [[0x52, 1, 7], [0x83, 4, 0x01, 0x02, 0x00, 0x09]] := by
    decide +kernel
  have v : Reading.descriptors [0x52, 1, 7, 0x83, 4, 0x01, 0x02, 0x00, 0x09, 0x40] = [.d52 ⟨7⟩, .d83 ⟨[⟨0x0102, 0, 9⟩]⟩] := by decide +kernel
  rw [(C124_loop p [] _).2 (by
    intro t n body hm
    rw [f] at hm
    simp only [List.mem_cons, List.cons.injEq, List.not_mem_nil, or_false] at hm
    rcases hm with ⟨rfl, -, rfl⟩ | ⟨rfl, -, rfl⟩ <;> simp [Panics]), v]
  rfl

end Mpegts
