import Verif.Props.C19_C22
import Verif.Props.C38

/-! # C117: decimal and date conversions of arbitrary values -/

namespace Mpegts
open Spec

/-- C117: `from_bcd` panics exactly in a debug build on digits that are not decimal; otherwise every value is read digit by digit, a digit
`A` to `F` counting 10 to 15. -/
theorem C117_from_bcd (p : Profile) :
    (∀ x : UInt8, (fromBcd8 p x = panic ↔ p = .debug ∧ ¬ ValidBcd 2 x.toNat) ∧
      ∀ v, fromBcd8 p x = .ok v → v.toNat = unbcd 2 x.toNat) ∧
    (∀ x : UInt16, (fromBcd16 p x = panic ↔ p = .debug ∧ ¬ ValidBcd 4 x.toNat) ∧
      ∀ v, fromBcd16 p x = .ok v → v.toNat = unbcd 4 x.toNat) ∧
    (∀ x : UInt32, (fromBcd32 p x = panic ↔ p = .debug ∧ ¬ ValidBcd 8 x.toNat) ∧
      ∀ v, fromBcd32 p x = .ok v → v.toNat = unbcd 8 x.toNat) := by
  have b8 : ∀ x : UInt8, ∀ v, fromBcd8 p x = .ok v → v.toNat = unbcd 2 x.toNat ∧ v.toNat ≤ 165 := by
    intro x v hv
    have hx := x.toNat_lt
    have hu : unbcd 2 x.toNat ≤ 165 := by simp only [unbcd]; omega
    suffices v.toNat = unbcd 2 x.toNat from ⟨this, this ▸ hu⟩
    cases p with
    | release =>
      rw [fromBcd8_release] at hv
      rw [← Except.ok.inj hv, UInt8.toNat_ofNat', Nat.mod_eq_of_lt (by omega)]
    | debug =>
      by_cases h : ValidBcd 2 x.toNat
      · obtain ⟨w, h1, h2⟩ := fromBcd8_ok .debug x h
        rw [h1] at hv
        rw [← Except.ok.inj hv, h2]
      · rw [fromBcd8_invalid x h] at hv; cases hv
  have b16 : ∀ x : UInt16, ∀ v, fromBcd16 p x = .ok v → v.toNat = unbcd 4 x.toNat ∧ v.toNat ≤ 16665 := by
    intro x v hv
    have e1 : (x >>> 8).toUInt8.toNat = x.toNat / 256 := by
      rw [u16_shr_toUInt8, UInt8.toNat_ofNat']; have := x.toNat_lt; omega
    have e2 : x.toUInt8.toNat = x.toNat % 256 := by simp
    unfold fromBcd16 at hv
    obtain ⟨a, ha, hv⟩ := bind_eq_ok.1 hv
    obtain ⟨b, hb, hv⟩ := bind_eq_ok.1 hv
    have ⟨a1, a2⟩ := b8 _ _ ha
    have ⟨b1, b2⟩ := b8 _ _ hb
    rw [← Except.ok.inj hv, UInt16.toNat_add, UInt16.toNat_mul]
    simp only [UInt8.toNat_toUInt16, UInt16.reduceToNat]
    rw [unbcd4_split, ← e1, ← e2, ← a1, ← b1]
    generalize a.toNat = a at *
    generalize b.toNat = b at *
    have : (a * 100 % 2 ^ 16 + b) % 2 ^ 16 = a * 100 + b := by
      rw [Nat.mod_eq_of_lt (show a * 100 < 2 ^ 16 by omega), Nat.mod_eq_of_lt (by omega)]
    rw [this]
    exact ⟨rfl, by omega⟩
  have b32 : ∀ x : UInt32, ∀ v, fromBcd32 p x = .ok v → v.toNat = unbcd 8 x.toNat := by
    intro x v hv
    have e1 : (x >>> 16).toUInt16.toNat = x.toNat / 65536 := by
      have := x.toNat_lt
      rw [UInt32.toNat_toUInt16, UInt32.toNat_shiftRight]; simp [Nat.shiftRight_eq_div_pow]; omega
    have e2 : x.toUInt16.toNat = x.toNat % 65536 := by simp
    unfold fromBcd32 at hv
    obtain ⟨a, ha, hv⟩ := bind_eq_ok.1 hv
    obtain ⟨b, hb, hv⟩ := bind_eq_ok.1 hv
    have ⟨a1, a2⟩ := b16 _ _ ha
    have ⟨b1, b2⟩ := b16 _ _ hb
    rw [← Except.ok.inj hv, UInt32.toNat_add, UInt32.toNat_mul]
    simp only [UInt16.toNat_toUInt32, UInt32.reduceToNat]
    rw [unbcd8_split, ← e1, ← e2, ← a1, ← b1]
    omega
  have pan : ∀ {α : Type} {r : R α} {P : Prop}, Outcome r P → (r = panic ↔ P) := by
    intro α r P h
    refine ⟨fun hr => ?_, h.1⟩
    by_cases hp : P
    · exact hp
    · obtain ⟨v, hv⟩ := h.2 hp
      rw [hv] at hr; cases hr
  exact ⟨fun x => ⟨pan (fromBcd8_outcome p x), fun v hv => (b8 x v hv).1⟩,
    fun x => ⟨pan (fromBcd16_outcome p x), fun v hv => (b16 x v hv).1⟩,
    fun x => ⟨pan (fromBcd32_outcome p x), fun v hv => b32 x v hv⟩⟩

/-- C117: `to_bcd` of one byte from 100 on: a debug build panics, a release build adds six per ten modulo 256. -/
theorem C117_to_bcd8 (x : UInt8) (h : 100 ≤ x.toNat) :
    toBcd8 .debug x = panic ∧ ∃ v, toBcd8 .release x = .ok v ∧ v.toNat = (x.toNat + x.toNat / 10 * 6) % 256 := by
  refine ⟨toBcd8_invalid x (by omega), ?_⟩
  have key : ∀ x : UInt8, toBcd8 .release x = .ok (UInt8.ofNat ((x.toNat + x.toNat / 10 * 6) % 256)) := by decide +kernel
  refine ⟨_, key x, ?_⟩
  rw [UInt8.toNat_ofNat', Nat.mod_mod]

/-- C117: numbers of more digits than fit are not all refused: the upper digits are cut to a byte (16 bits) first, so that in a debug
build `to_bcd` panics exactly when what is left of them has more digits than fit, and otherwise gives the digits of what is left. -/
theorem C117_to_bcd_wide :
    (∀ x : UInt16, (toBcd16 .debug x = panic ↔ 100 ≤ x.toNat / 100 % 256) ∧
      (x.toNat / 100 % 256 < 100 → ∀ p, ∃ v, toBcd16 p x = .ok v ∧
        v.toNat = bcd 4 (x.toNat / 100 % 256 * 100 + x.toNat % 100))) ∧
    (∀ x : UInt32, (toBcd32 .debug x = panic ↔ 100 ≤ x.toNat / 10000 % 65536 / 100 % 256) ∧
      (x.toNat / 10000 % 65536 / 100 % 256 < 100 → ∀ p, ∃ v, toBcd32 p x = .ok v ∧
        v.toNat = bcd 8 (x.toNat / 10000 % 65536 % 25600 * 10000 + x.toNat % 10000))) := by
  have k16 : ∀ x : UInt16, (100 ≤ x.toNat / 100 % 256 → toBcd16 .debug x = panic) ∧
      (x.toNat / 100 % 256 < 100 → ∀ p, ∃ v, toBcd16 p x = .ok v ∧
        v.toNat = bcd 4 (x.toNat / 100 % 256 * 100 + x.toNat % 100)) := by
    intro x
    have c1 : (100 : UInt16).toNat = 100 := rfl
    have e1 : (x / 100).toUInt8.toNat = x.toNat / 100 % 256 := by
      rw [UInt16.toNat_toUInt8, UInt16.toNat_div, c1]
    have e2 : (x % 100).toUInt8.toNat = x.toNat % 100 := by
      rw [UInt16.toNat_toUInt8, UInt16.toNat_mod, c1]; omega
    constructor
    · intro h
      unfold toBcd16
      rw [toBcd8_invalid _ (by rw [e1]; omega)]
      rfl
    · intro h p
      obtain ⟨a, h1, h1'⟩ := toBcd8_ok p (x / 100).toUInt8 (by rw [e1]; omega)
      obtain ⟨b, h2, h2'⟩ := toBcd8_ok p (x % 100).toUInt8 (by rw [e2]; omega)
      refine ⟨_, by simp only [toBcd16, h1, h2, ok_bind, pure_eq_ok]; rfl, ?_⟩
      rw [bcd4_split, Nat.add_comm (x.toNat / 100 % 256 * 100), Nat.add_mul_div_right _ _ (by decide), Nat.add_mul_mod_self_right,
        Nat.div_eq_of_lt (Nat.mod_lt _ (by decide)), Nat.zero_add, Nat.mod_mod, ← e1, ← e2, ← h1', ← h2']
      have ha := a.toNat_lt; have hb := b.toNat_lt
      rw [UInt16.toNat_add, UInt16.toNat_shiftLeft]
      simp only [UInt8.toNat_toUInt16, UInt16.reduceToNat, Nat.reduceMod, Nat.shiftLeft_eq]
      omega
  have iff16 : ∀ x : UInt16, toBcd16 .debug x = panic ↔ 100 ≤ x.toNat / 100 % 256 := by
    intro x
    refine ⟨fun h => ?_, (k16 x).1⟩
    by_cases hh : 100 ≤ x.toNat / 100 % 256
    · exact hh
    · obtain ⟨v, hv, _⟩ := (k16 x).2 (by omega) .debug
      rw [hv] at h; cases h
  refine ⟨fun x => ⟨iff16 x, (k16 x).2⟩, fun x => ?_⟩
  have c1 : (10000 : UInt32).toNat = 10000 := rfl
  have e1 : (x / 10000).toUInt16.toNat = x.toNat / 10000 % 65536 := by
    rw [UInt32.toNat_toUInt16, UInt32.toNat_div, c1]
  have e2 : (x % 10000).toUInt16.toNat = x.toNat % 10000 := by
    rw [UInt32.toNat_toUInt16, UInt32.toNat_mod, c1]; omega
  have ok : x.toNat / 10000 % 65536 / 100 % 256 < 100 → ∀ p, ∃ v, toBcd32 p x = .ok v ∧
        v.toNat = bcd 8 (x.toNat / 10000 % 65536 % 25600 * 10000 + x.toNat % 10000) := by
    intro h p
    obtain ⟨a, h1, h1'⟩ := (k16 (x / 10000).toUInt16).2 (by rw [e1]; exact h) p
    obtain ⟨b, h2, h2'⟩ := toBcd16_ok p (x % 10000).toUInt16 (by rw [e2]; omega)
    refine ⟨_, by simp only [toBcd32, h1, h2, ok_bind, pure_eq_ok]; rfl, ?_⟩
    rw [bcd8_split, Nat.add_comm (x.toNat / 10000 % 65536 % 25600 * 10000), Nat.add_mul_div_right _ _ (by decide),
      Nat.add_mul_mod_self_right, Nat.div_eq_of_lt (Nat.mod_lt _ (by decide)), Nat.zero_add, Nat.mod_mod, ← e2, ← h2']
    have : x.toNat / 10000 % 65536 % 25600 = (x.toNat / 10000 % 65536) / 100 % 256 * 100 + (x.toNat / 10000 % 65536) % 100 := by
      omega
    rw [this, ← e1, ← h1']
    have ha := a.toNat_lt; have hb := b.toNat_lt
    rw [UInt32.toNat_add, UInt32.toNat_shiftLeft]
    simp only [UInt16.toNat_toUInt32, UInt32.reduceToNat, Nat.reduceMod, Nat.shiftLeft_eq]
    omega
  refine ⟨⟨fun h => ?_, fun h => ?_⟩, ok⟩
  · by_cases hh : 100 ≤ x.toNat / 10000 % 65536 / 100 % 256
    · exact hh
    · obtain ⟨v, hv, _⟩ := ok (by omega) .debug
      rw [hv] at h; cases h
  · unfold toBcd32
    rw [(k16 _).1 (by rw [e1]; exact h)]
    rfl

/-- C117: dates before 1970: a debug build panics, a release build gives the time modulo 2^64 seconds (so that adding it to another
time modulo 2^64 is right). -/
theorem C117_from_mjd (d : UInt16) (h : d.toNat < unixEpochMjd) :
    fromMjd .debug d = panic ∧
    ∃ t, fromMjd .release d = .ok t ∧ t.toNat + (unixEpochMjd - d.toNat) * 86400 = 2 ^ 64 := by
  refine ⟨C22_from_mjd_early d h, ?_⟩
  unfold unixEpochMjd at *
  have e : fromMjd .release d = .ok ((d.toUInt64 - 40587) * 86400) := by
    unfold fromMjd debugAssert subU64 mulU64
    simp only [Profile.overflow, ok_bind]
    split <;> rw [ok_bind] <;> split <;> rfl
  refine ⟨_, e, ?_⟩
  rw [UInt64.toNat_mul, UInt64.toNat_sub]
  simp only [UInt16.toNat_toUInt64, UInt64.reduceToNat]
  omega

/-- A five-digit number that a debug build takes without complaint. -/
example : toBcd16 .debug 25678 = .ok 0x0078 := by decide +kernel
example : toBcd16 .debug 12345 = panic := by decide +kernel
example : fromBcd16 .release 0xFFFF = .ok 16665 := by decide +kernel

end Mpegts
