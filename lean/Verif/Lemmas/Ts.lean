import Verif.Lemmas.Bytes
import Verif.Model.Pcr
import Verif.Spec.Packet

/-! # Helper lemmas: packet header -/

namespace Mpegts
open Spec

/-! Masks, by evaluation over all bytes. -/
theorem mask80 : ∀ b : UInt8, ((b &&& 0x80) != 0x00) = decide (b.toNat / 128 % 2 = 1) := by decide +kernel
theorem mask40 : ∀ b : UInt8, ((b &&& 0x40) != 0x00) = decide (b.toNat / 64 % 2 = 1) := by decide +kernel
theorem mask20 : ∀ b : UInt8, ((b &&& 0x20) != 0x00) = decide (b.toNat / 32 % 2 = 1) := by decide +kernel
theorem mask10 : ∀ b : UInt8, ((b &&& 0x10) != 0x00) = decide (b.toNat / 16 % 2 = 1) := by decide +kernel
theorem maskC0 : ∀ b : UInt8, ((b &&& 0xC0) != 0) = decide (b.toNat / 64 ≠ 0) := by decide +kernel
theorem mask0F : ∀ b : UInt8, (b &&& 0x0F).toNat = b.toNat % 16 := by decide +kernel
theorem mask1F : ∀ b : UInt8, (b &&& 0x1F).toNat = b.toNat % 32 := by decide +kernel
theorem maskE0 : ∀ b : UInt8, (b &&& 0xE0).toNat = b.toNat / 32 * 32 := by decide +kernel
theorem maskF0 : ∀ b : UInt8, (b &&& 0xF0).toNat = b.toNat / 16 * 16 := by decide +kernel
theorem clear10 : ∀ b : UInt8, (b &&& (~~~0x10 : UInt8)).toNat = b.toNat / 32 * 32 + b.toNat % 16 := by
  decide +kernel
theorem clear40 : ∀ b : UInt8, (b &&& (~~~0x40 : UInt8)).toNat = b.toNat / 128 * 128 + b.toNat % 64 := by
  decide +kernel
theorem or10 : ∀ b : UInt8, (b ||| 0x10).toNat = b.toNat / 32 * 32 + 16 + b.toNat % 16 := by decide +kernel
theorem or40 : ∀ b : UInt8, (b ||| 0x40).toNat = b.toNat / 128 * 128 + 64 + b.toNat % 64 := by decide +kernel

theorem maskE0_or (b c : UInt8) (hc : c.toNat < 32) : ((b &&& 0xE0) ||| c).toNat = b.toNat / 32 * 32 + c.toNat := by
  rw [UInt8.toNat_or, maskE0]
  exact nat_shl_or (b.toNat / 32) c.toNat 5 hc

theorem maskF0_or (b c : UInt8) : ((b &&& 0xF0) ||| (c &&& 0x0F)).toNat = b.toNat / 16 * 16 + c.toNat % 16 := by
  rw [UInt8.toNat_or, maskF0, mask0F]
  exact nat_shl_or (b.toNat / 16) (c.toNat % 16) 4 (by omega)

theorem bit_lt (b : Bool) : bit b < 2 := by cases b <;> simp [bit]
theorem bit_eq_one (b : Bool) : decide (bit b = 1) = b := by cases b <;> simp [bit]

/-- Byte 0 of a header. -/
def hdr0 (h : Header) : UInt8 := UInt8.ofNat h.sync
/-- Byte 1 of a header. -/
def hdr1 (h : Header) : UInt8 := UInt8.ofNat (bit h.tei * 128 + bit h.pusi * 64 + bit h.priority * 32 + h.pid / 256)
/-- Byte 2 of a header. -/
def hdr2 (h : Header) : UInt8 := UInt8.ofNat h.pid
/-- Byte 3 of a header. -/
def hdr3 (h : Header) : UInt8 := UInt8.ofNat (h.scrambling * 64 + bit h.adaptation * 32 + bit h.payload * 16 + h.cc)

theorem UInt8.ofNat_congr {a b : Nat} (h : a % 256 = b % 256) : UInt8.ofNat a = UInt8.ofNat b := by
  apply UInt8.toNat_inj.1
  simpa using h

theorem header_encode {h : Header} (hv : h.Valid) : h.encode = [hdr0 h, hdr1 h, hdr2 h, hdr3 h] := by
  obtain ⟨h1, h2, h3, h4⟩ := hv
  have := bit_lt h.tei; have := bit_lt h.pusi; have := bit_lt h.priority
  have := bit_lt h.adaptation; have := bit_lt h.payload
  simp only [Header.encode, Header.word, beBytes, hdr0, hdr1, hdr2, hdr3, Nat.reducePow, Nat.div_one]
  simp only [List.cons.injEq, and_true]
  refine ⟨?_, ?_, ?_, ?_⟩ <;> apply UInt8.ofNat_congr <;> omega

theorem hdr1_toNat {h : Header} (hv : h.Valid) :
    (hdr1 h).toNat = bit h.tei * 128 + bit h.pusi * 64 + bit h.priority * 32 + h.pid / 256 := by
  obtain ⟨h1, h2, h3, h4⟩ := hv
  have := bit_lt h.tei; have := bit_lt h.pusi; have := bit_lt h.priority
  simp only [hdr1, UInt8.toNat_ofNat', Nat.reducePow]
  omega

theorem hdr3_toNat {h : Header} (hv : h.Valid) :
    (hdr3 h).toNat = h.scrambling * 64 + bit h.adaptation * 32 + bit h.payload * 16 + h.cc := by
  obtain ⟨h1, h2, h3, h4⟩ := hv
  have := bit_lt h.adaptation; have := bit_lt h.payload
  simp only [hdr3, UInt8.toNat_ofNat', Nat.reducePow]
  omega

theorem hdr2_toNat (h : Header) : (hdr2 h).toNat = h.pid % 256 := by simp [hdr2]

theorem hdr0_toNat {h : Header} (hv : h.Valid) : (hdr0 h).toNat = h.sync := by
  obtain ⟨h1, h2, h3, h4⟩ := hv
  simp only [hdr0, UInt8.toNat_ofNat', Nat.reducePow]
  omega

/-- Every four bytes are the header of valid fields. -/
theorem header_surj (a b c d : UInt8) : ∃ h : Header, h.Valid ∧ h.encode = [a, b, c, d] := by
  have ha := a.toNat_lt; have hb := b.toNat_lt; have hc := c.toNat_lt; have hd := d.toNat_lt
  let h : Header := { sync := a.toNat, tei := decide (b.toNat / 128 % 2 = 1), pusi := decide (b.toNat / 64 % 2 = 1)
                      priority := decide (b.toNat / 32 % 2 = 1), pid := b.toNat % 32 * 256 + c.toNat
                      scrambling := d.toNat / 64, adaptation := decide (d.toNat / 32 % 2 = 1)
                      payload := decide (d.toNat / 16 % 2 = 1), cc := d.toNat % 16 }
  have hv : h.Valid := by
    refine ⟨?_, ?_, ?_, ?_⟩ <;> (simp only [h]; omega)
  have hbit : ∀ n : Nat, bit (decide (n % 2 = 1)) = n % 2 := by
    intro n; by_cases hn : n % 2 = 1 <;> simp [bit, hn] <;> omega
  refine ⟨h, hv, ?_⟩
  rw [header_encode hv]
  simp only [List.cons.injEq, and_true]
  refine ⟨?_, ?_, ?_, ?_⟩ <;> apply UInt8.toNat_inj.1
  · rw [hdr0_toNat hv]
  · rw [hdr1_toNat hv]; simp only [h, hbit]; omega
  · rw [hdr2_toNat]; simp only [h]; omega
  · rw [hdr3_toNat hv]; simp only [h, hbit]; omega

end Mpegts
