import Verif.Lemmas.Ts
import Verif.Spec.Clock
import Verif.Model.Pes

/-! # Helper lemmas: PCR, PTS -/

namespace Mpegts
open Spec

theorem u64_of8_shl (a : UInt8) (k : UInt64) (n : Nat) (hk : k.toNat = n) (hn : n ≤ 56) :
    (a.toUInt64 <<< k).toNat = a.toNat * 2 ^ n := by
  have ha := a.toNat_lt
  rw [UInt64.toNat_shiftLeft, hk, Nat.mod_eq_of_lt (by omega : n < 64), Nat.shiftLeft_eq, UInt8.toNat_toUInt64]
  apply Nat.mod_eq_of_lt
  calc a.toNat * 2 ^ n < 2 ^ 8 * 2 ^ n := Nat.mul_lt_mul_of_pos_right ha (Nat.pow_pos (by omega))
    _ = 2 ^ (8 + n) := by rw [Nat.pow_add]
    _ ≤ 2 ^ 64 := Nat.pow_le_pow_right (by omega) (by omega)

theorem u64_shr_byte (x k : UInt64) (n : Nat) (hk : k.toNat = n) (hn : n < 64) :
    ((x >>> k) &&& 0xFF).toUInt8 = UInt8.ofNat (x.toNat / 2 ^ n) := by
  apply UInt8.toNat_inj.1
  have : (255 : UInt64).toNat = 2 ^ 8 - 1 := rfl
  simp only [UInt64.toNat_toUInt8, UInt64.toNat_and, UInt64.toNat_shiftRight, hk, Nat.mod_eq_of_lt hn, this,
    Nat.and_two_pow_sub_one_eq_mod, Nat.shiftRight_eq_div_pow, UInt8.toNat_ofNat', Nat.mod_mod]

theorem u64_byte (x : UInt64) : (x &&& 0xFF).toUInt8 = UInt8.ofNat x.toNat := by
  apply UInt8.toNat_inj.1
  have : (255 : UInt64).toNat = 2 ^ 8 - 1 := rfl
  simp only [UInt64.toNat_toUInt8, UInt64.toNat_and, this,
    Nat.and_two_pow_sub_one_eq_mod, UInt8.toNat_ofNat', Nat.mod_mod]

theorem u64_bit0 (x : UInt64) : ((x <<< 7) &&& 0x80).toUInt8 = UInt8.ofNat (x.toNat % 2 * 128) := by
  apply UInt8.toBitVec_inj.1
  apply BitVec.eq_of_getLsbD_eq
  intro i hi
  have hx : x.toNat % 2 = if x.toBitVec.getLsbD 0 then 1 else 0 := by
    rw [BitVec.getLsbD, Nat.testBit_zero]
    have : x.toBitVec.toNat = x.toNat := rfl
    rw [this]; by_cases h : x.toNat % 2 = 1 <;> simp [h]; omega
  rw [hx]
  simp only [UInt64.toBitVec_toUInt8, UInt64.toBitVec_and, UInt64.toBitVec_shiftLeft,
    BitVec.getLsbD_setWidth, BitVec.getLsbD_and]
  by_cases h : x.toBitVec.getLsbD 0 <;> interval_cases i <;> simp_all

theorem u64_bit8 (x : UInt64) : ((x >>> 8) &&& 0x01).toUInt8 = UInt8.ofNat (x.toNat / 256 % 2) := by
  apply UInt8.toNat_inj.1
  have h1 : (1 : UInt64).toNat = 2 ^ 1 - 1 := rfl
  have h8 : (8 : UInt64).toNat = 8 := rfl
  simp only [UInt64.toNat_toUInt8, UInt64.toNat_and, UInt64.toNat_shiftRight, h8, h1,
    Nat.and_two_pow_sub_one_eq_mod, Nat.shiftRight_eq_div_pow, UInt8.toNat_ofNat', Nat.reduceMod]

theorem pcr_mid : ∀ x y : Nat, x < 2 → y < 2 →
    UInt8.ofNat (x * 128) ||| 0x7E ||| UInt8.ofNat y = UInt8.ofNat (x * 128 + 126 + y) := by
  intro x y hx hy
  interval_cases x <;> interval_cases y <;> decide

theorem exists_cons12 {l : List UInt8} (h : 12 ≤ l.length) : ∃ a0 a1 a2 a3 a4 a5 a6 a7 a8 a9 a10 a11 r,
    l = a0 :: a1 :: a2 :: a3 :: a4 :: a5 :: a6 :: a7 :: a8 :: a9 :: a10 :: a11 :: r := by
  match l, h with
  | a0 :: a1 :: a2 :: a3 :: a4 :: a5 :: a6 :: a7 :: a8 :: a9 :: a10 :: a11 :: r, _ =>
    exact ⟨a0, a1, a2, a3, a4, a5, a6, a7, a8, a9, a10, a11, r, rfl⟩

theorem setPcr_eq (packet : List UInt8) (pcr : UInt64) (hl : 12 ≤ packet.length) :
    Ts.setPcr packet pcr = .ok (packet.take 6 ++ pcrField (pcr.toNat / 300) 63 (pcr.toNat % 300) ++ packet.drop 12) := by
  obtain ⟨a0, a1, a2, a3, a4, a5, a6, a7, a8, a9, a10, a11, r, rfl⟩ := exists_cons12 hl
  have hb : (pcr / 300).toNat = pcr.toNat / 300 := by rw [UInt64.toNat_div]; rfl
  have he : (pcr % 300).toNat = pcr.toNat % 300 := by rw [UInt64.toNat_mod]; rfl
  simp only [Ts.setPcr, setIdx_zero, setIdx_succ, map_ok, ok_bind]
  rw [u64_shr_byte _ 25 25 rfl (by omega), u64_shr_byte _ 17 17 rfl (by omega), u64_shr_byte _ 9 9 rfl (by omega),
    u64_shr_byte _ 1 1 rfl (by omega), u64_byte, u64_bit0, u64_bit8, hb, he, pcr_mid _ _ (by omega) (by omega)]
  simp only [pcrField, beBytes, List.take, List.drop, List.cons_append, List.nil_append, Nat.reducePow, Nat.div_one]
  simp only [Except.ok.injEq, List.cons.injEq, and_true, true_and]
  generalize pcr.toNat / 300 = b
  have : pcr.toNat % 300 < 300 := Nat.mod_lt _ (by decide)
  generalize pcr.toNat % 300 = e at *
  refine ⟨?_, ?_, ?_, ?_, ?_, ?_⟩ <;> apply UInt8.ofNat_congr <;> omega

theorem nat_or_add (a b c k : Nat) (ha : a = c * 2 ^ k) (hb : b < 2 ^ k) : a ||| b = a + b := by
  subst ha; exact nat_shl_or c b k hb

theorem getPcr_eq (packet : List UInt8) (hl : 12 ≤ packet.length) :
    ∃ v, Ts.getPcr packet = .ok v ∧ v.toNat =
      beNat ((packet.drop 6).take 6) / 2 ^ 15 * 300 + beNat ((packet.drop 6).take 6) % 2 ^ 9 := by
  obtain ⟨a0, a1, a2, a3, a4, a5, a, b, c, d, e, f, r, rfl⟩ := exists_cons12 hl
  refine ⟨_, by simp only [Ts.getPcr, idx_zero, idx_succ, ok_bind]; rfl, ?_⟩
  have ha := a.toNat_lt; have hb := b.toNat_lt; have hc := c.toNat_lt; have hd := d.toNat_lt
  have he := e.toNat_lt; have hf := f.toNat_lt
  have e1 : (e.toUInt64 >>> 7).toNat = e.toNat / 128 := by
    rw [UInt64.toNat_shiftRight, UInt8.toNat_toUInt64]; simp [Nat.shiftRight_eq_div_pow]
  have e2 : (e &&& 1).toNat = e.toNat % 2 := u8_and_mask e 1 1 rfl
  have base : (a.toUInt64 <<< 25 ||| b.toUInt64 <<< 17 ||| c.toUInt64 <<< 9 ||| d.toUInt64 <<< 1 |||
      e.toUInt64 >>> 7).toNat =
      a.toNat * 33554432 + b.toNat * 131072 + c.toNat * 512 + d.toNat * 2 + e.toNat / 128 := by
    simp only [UInt64.toNat_or, u64_of8_shl a 25 25 rfl (by omega), u64_of8_shl b 17 17 rfl (by omega),
      u64_of8_shl c 9 9 rfl (by omega), u64_of8_shl d 1 1 rfl (by omega), e1]
    rw [nat_or_add (a.toNat * 2 ^ 25) (b.toNat * 2 ^ 17) a.toNat 25 rfl (by omega),
      nat_or_add _ (c.toNat * 2 ^ 9) (a.toNat * 256 + b.toNat) 17 (by omega) (by omega),
      nat_or_add _ (d.toNat * 2 ^ 1) (a.toNat * 65536 + b.toNat * 256 + c.toNat) 9 (by omega) (by omega),
      nat_or_add _ (e.toNat / 128) (a.toNat * 16777216 + b.toNat * 65536 + c.toNat * 256 + d.toNat) 1
        (by omega) (by omega)]
    omega
  have ext : ((e &&& 1).toUInt64 <<< 8 ||| f.toUInt64).toNat = e.toNat % 2 * 256 + f.toNat := by
    rw [UInt64.toNat_or, u64_of8_shl _ 8 8 rfl (by omega), e2, UInt8.toNat_toUInt64]
    exact nat_shl_or _ _ 8 hf
  rw [UInt64.toNat_add, UInt64.toNat_mul, base, ext]
  have h300 : (300 : UInt64).toNat = 300 := rfl
  simp only [h300, List.drop, List.take]
  have hw : beNat [a, b, c, d, e, f] / 2 ^ 15 = a.toNat * 33554432 + b.toNat * 131072 + c.toNat * 512 +
      d.toNat * 2 + e.toNat / 128 ∧ beNat [a, b, c, d, e, f] % 2 ^ 9 = e.toNat % 2 * 256 + f.toNat := by
    simp only [beNat, List.length_cons, List.length_nil]
    generalize a.toNat = a at *; generalize b.toNat = b at *; generalize c.toNat = c at *
    generalize d.toNat = d at *; generalize e.toNat = e at *; generalize f.toNat = f at *
    constructor <;> omega
  rw [hw.1, hw.2]
  generalize a.toNat = a at *; generalize b.toNat = b at *; generalize c.toNat = c at *
  generalize d.toNat = d at *; generalize e.toNat = e at *; generalize f.toNat = f at *
  omega

theorem mask0E : ∀ b : UInt8, (b &&& 0x0E).toNat = b.toNat / 2 % 8 * 2 := by decide +kernel
theorem maskFE : ∀ b : UInt8, (b &&& 0xFE).toNat = b.toNat / 2 * 2 := by decide +kernel

/-- The five-byte timestamp expression of `get_pts`/`get_dts`. -/
theorem ts5_eq (a b c d e : UInt8) :
    (((a &&& 0x0E).toUInt64 <<< 29) ||| (b.toUInt64 <<< 22) ||| ((c &&& 0xFE).toUInt64 <<< 14) |||
      (d.toUInt64 <<< 7) ||| (e.toUInt64 >>> 1)).toNat =
    beNat [a, b, c, d, e] / 2 ^ 33 % 2 ^ 3 * 2 ^ 30 + beNat [a, b, c, d, e] / 2 ^ 17 % 2 ^ 15 * 2 ^ 15 +
      beNat [a, b, c, d, e] / 2 % 2 ^ 15 := by
  have ha := a.toNat_lt; have hb := b.toNat_lt; have hc := c.toNat_lt; have hd := d.toNat_lt
  have he := e.toNat_lt
  have e1 : (e.toUInt64 >>> 1).toNat = e.toNat / 2 := by
    rw [UInt64.toNat_shiftRight, UInt8.toNat_toUInt64]; simp [Nat.shiftRight_eq_div_pow]
  have key : (((a &&& 0x0E).toUInt64 <<< 29) ||| (b.toUInt64 <<< 22) ||| ((c &&& 0xFE).toUInt64 <<< 14) |||
      (d.toUInt64 <<< 7) ||| (e.toUInt64 >>> 1)).toNat =
      a.toNat / 2 % 8 * 1073741824 + b.toNat * 4194304 + c.toNat / 2 * 32768 + d.toNat * 128 + e.toNat / 2 := by
    simp only [UInt64.toNat_or, u64_of8_shl _ 29 29 rfl (by omega), u64_of8_shl b 22 22 rfl (by omega),
      u64_of8_shl _ 14 14 rfl (by omega), u64_of8_shl d 7 7 rfl (by omega), e1, mask0E, maskFE]
    generalize a.toNat = a at *; generalize b.toNat = b at *; generalize c.toNat = c at *
    generalize d.toNat = d at *; generalize e.toNat = e at *
    rw [nat_or_add (a / 2 % 8 * 2 * 2 ^ 29) (b * 2 ^ 22) (a / 2 % 8) 30 (by omega) (by omega),
      nat_or_add _ (c / 2 * 2 * 2 ^ 14) (a / 2 % 8 * 256 + b) 22 (by omega) (by omega),
      nat_or_add _ (d * 2 ^ 7) (a / 2 % 8 * 32768 + b * 128 + c / 2) 15 (by omega) (by omega),
      nat_or_add _ (e / 2) (a / 2 % 8 * 8388608 + b * 32768 + c / 2 * 256 + d) 7 (by omega) (by omega)]
    omega
  rw [key]
  simp only [beNat, List.length_cons, List.length_nil]
  generalize a.toNat = a at *; generalize b.toNat = b at *; generalize c.toNat = c at *
  generalize d.toNat = d at *; generalize e.toNat = e at *
  have h1 : (a * 256 ^ (0 + 1 + 1 + 1 + 1) + (b * 256 ^ (0 + 1 + 1 + 1) + (c * 256 ^ (0 + 1 + 1) + (d * 256 ^ (0 + 1) +
    (e * 256 ^ 0 + 0))))) / 2 ^ 33 % 2 ^ 3 = a / 2 % 8 := by omega
  have h2 : (a * 256 ^ (0 + 1 + 1 + 1 + 1) + (b * 256 ^ (0 + 1 + 1 + 1) + (c * 256 ^ (0 + 1 + 1) + (d * 256 ^ (0 + 1) +
    (e * 256 ^ 0 + 0))))) / 2 ^ 17 % 2 ^ 15 = b * 128 + c / 2 := by omega
  have h3 : (a * 256 ^ (0 + 1 + 1 + 1 + 1) + (b * 256 ^ (0 + 1 + 1 + 1) + (c * 256 ^ (0 + 1 + 1) + (d * 256 ^ (0 + 1) +
    (e * 256 ^ 0 + 0))))) / 2 % 2 ^ 15 = d * 128 + e / 2 := by omega
  rw [h1, h2, h3]
  omega

/-- Decoding the specification's timestamp field. -/
theorem tsField_decode (pre : Nat) (m1 m2 m3 : Bool) (ts : Nat) (hp : pre < 16) (ht : ts < 2 ^ 33) :
    beNat (tsField pre m1 m2 m3 ts) / 2 ^ 33 % 2 ^ 3 * 2 ^ 30 + beNat (tsField pre m1 m2 m3 ts) / 2 ^ 17 % 2 ^ 15 * 2 ^ 15 +
      beNat (tsField pre m1 m2 m3 ts) / 2 % 2 ^ 15 = ts := by
  have := bit_lt m1; have := bit_lt m2; have := bit_lt m3
  rw [tsField, beNat_beBytes]
  generalize bit m1 = x at *; generalize bit m2 = y at *; generalize bit m3 = z at *
  have h0 : ts = ts / 2 ^ 30 * 2 ^ 30 + ts / 2 ^ 15 % 2 ^ 15 * 2 ^ 15 + ts % 2 ^ 15 := by omega
  have k0 : ts / 2 ^ 30 < 8 := by omega
  have k1 : ts / 2 ^ 15 % 2 ^ 15 < 2 ^ 15 := by omega
  have k2 : ts % 2 ^ 15 < 2 ^ 15 := by omega
  have a0 : (pre * 2 ^ 36 + ts / 2 ^ 30 * 2 ^ 33 + x * 2 ^ 32 + ts / 2 ^ 15 % 2 ^ 15 * 2 ^ 17 + y * 2 ^ 16 +
      ts % 2 ^ 15 * 2 + z) < 256 ^ 5 := by
    generalize ts / 2 ^ 30 = u at *; generalize ts / 2 ^ 15 % 2 ^ 15 = v at *; generalize ts % 2 ^ 15 = w at *
    omega
  rw [Nat.mod_eq_of_lt a0]
  have b1 : (pre * 2 ^ 36 + ts / 2 ^ 30 * 2 ^ 33 + x * 2 ^ 32 + ts / 2 ^ 15 % 2 ^ 15 * 2 ^ 17 + y * 2 ^ 16 +
      ts % 2 ^ 15 * 2 + z) / 2 ^ 33 = pre * 8 + ts / 2 ^ 30 := by
    generalize ts / 2 ^ 30 = u at *; generalize ts / 2 ^ 15 % 2 ^ 15 = v at *; generalize ts % 2 ^ 15 = w at *
    omega
  have b2 : (pre * 2 ^ 36 + ts / 2 ^ 30 * 2 ^ 33 + x * 2 ^ 32 + ts / 2 ^ 15 % 2 ^ 15 * 2 ^ 17 + y * 2 ^ 16 +
      ts % 2 ^ 15 * 2 + z) / 2 ^ 17 = (pre * 8 + ts / 2 ^ 30) * 2 ^ 16 + x * 2 ^ 15 + ts / 2 ^ 15 % 2 ^ 15 := by
    generalize ts / 2 ^ 30 = u at *; generalize ts / 2 ^ 15 % 2 ^ 15 = v at *; generalize ts % 2 ^ 15 = w at *
    omega
  have b3 : (pre * 2 ^ 36 + ts / 2 ^ 30 * 2 ^ 33 + x * 2 ^ 32 + ts / 2 ^ 15 % 2 ^ 15 * 2 ^ 17 + y * 2 ^ 16 +
      ts % 2 ^ 15 * 2 + z) / 2 = ((pre * 8 + ts / 2 ^ 30) * 2 ^ 16 + x * 2 ^ 15 + ts / 2 ^ 15 % 2 ^ 15) * 2 ^ 16 + y * 2 ^ 15 + ts % 2 ^ 15 := by
    generalize ts / 2 ^ 30 = u at *; generalize ts / 2 ^ 15 % 2 ^ 15 = v at *; generalize ts % 2 ^ 15 = w at *
    omega
  rw [b1, b2, b3]
  clear b1 b2 b3 a0
  have a1 : (pre * 8 + ts / 2 ^ 30) % 2 ^ 3 = ts / 2 ^ 30 := by omega
  have a2 : ((pre * 8 + ts / 2 ^ 30) * 2 ^ 16 + x * 2 ^ 15 + ts / 2 ^ 15 % 2 ^ 15) % 2 ^ 15 = ts / 2 ^ 15 % 2 ^ 15 := by
    generalize ts / 2 ^ 30 = u at *; generalize ts / 2 ^ 15 % 2 ^ 15 = v at *; omega
  have a3 : (((pre * 8 + ts / 2 ^ 30) * 2 ^ 16 + x * 2 ^ 15 + ts / 2 ^ 15 % 2 ^ 15) * 2 ^ 16 + y * 2 ^ 15 + ts % 2 ^ 15) %
      2 ^ 15 = ts % 2 ^ 15 := by
    have aux : ∀ A B w : Nat, w < 2 ^ 15 → (A * 2 ^ 16 + B * 2 ^ 15 + w) % 2 ^ 15 = w := by
      clear a1 a2 h0 k0 k1 k2; intros; omega
    exact aux _ _ _ k2
  rw [a1, a2, a3, ← h0]

theorem exists_five (l : List UInt8) (h : l.length = 5) : ∃ a b c d e, l = [a, b, c, d, e] := by
  match l, h with
  | [a, b, c, d, e], _ => exact ⟨a, b, c, d, e, rfl⟩

theorem subU64_ok {a b : UInt64} (p : Profile) (h : b.toNat ≤ a.toNat) :
    subU64 p a b = .ok (a - b) ∧ (a - b).toNat = a.toNat - b.toNat :=
  ⟨by simp [subU64, h], UInt64.toNat_sub_of_le a b h⟩

theorem addU64_ok {a b : UInt64} (p : Profile) (h : a.toNat + b.toNat < 2 ^ 64) :
    addU64 p a b = .ok (a + b) ∧ (a + b).toNat = a.toNat + b.toNat :=
  ⟨by simp only [addU64, h, if_true], by rw [UInt64.toNat_add, Nat.mod_eq_of_lt h]⟩

theorem mulU64_ok {a b : UInt64} (p : Profile) (h : a.toNat * b.toNat < 2 ^ 64) :
    mulU64 p a b = .ok (a * b) ∧ (a * b).toNat = a.toNat * b.toNat :=
  ⟨by simp only [mulU64, h, if_true], by rw [UInt64.toNat_mul, Nat.mod_eq_of_lt h]⟩

end Mpegts
