import Verif.Props.Eit
import Verif.Props.Tdt
import Verif.Props.C117

/-! # C66: dates and times that are none, in a release build -/

namespace Mpegts
open Spec

theorem fromBcdTime32_release (x : UInt32) (hx : x.toNat < 2 ^ 24) :
    ∃ v, fromBcdTime32 .release x = .ok v ∧ v.toNat = Table.seconds x.toNat := by
  have e1 : (x >>> 16).toUInt8.toNat = x.toNat / 65536 := by rw [u32_shr16_toUInt8, UInt8.toNat_ofNat']; omega
  have e2 : (x >>> 8).toUInt8.toNat = x.toNat / 256 % 256 := by rw [u32_shr8_toUInt8, UInt8.toNat_ofNat']
  have e3 : x.toUInt8.toNat = x.toNat % 256 := by simp
  have hu : ∀ n : Nat, n < 256 → unbcd 2 n ≤ 165 := by intro n hn; simp only [unbcd]; omega
  have h1 := hu (x.toNat / 65536) (by omega)
  have h2 := hu (x.toNat / 256 % 256) (by omega)
  have h3 := hu (x.toNat % 256) (by omega)
  have c1 : (3600 : UInt32).toNat = 3600 := rfl
  have c2 : (60 : UInt32).toNat = 60 := rfl
  refine ⟨_, by simp only [fromBcdTime32, fromBcd8_release, ok_bind, pure_eq_ok]; rfl, ?_⟩
  rw [UInt32.toNat_add, UInt32.toNat_add, UInt32.toNat_mul, UInt32.toNat_mul]
  simp only [UInt8.toNat_toUInt32, UInt8.toNat_ofNat', c1, c2, e1, e2, e3, Table.seconds]
  generalize unbcd 2 (x.toNat / 65536) = a at *
  generalize unbcd 2 (x.toNat / 256 % 256) = b at *
  generalize unbcd 2 (x.toNat % 256) = c at *
  clear e1 e2 e3 hu c1 c2 hx
  have m1 : a % 2 ^ 8 = a := by omega
  have m2 : b % 2 ^ 8 = b := by omega
  have m3 : c % 2 ^ 8 = c := by omega
  rw [m1, m2, m3]
  have m4 : a * 3600 % 2 ^ 32 = a * 3600 := by omega
  have m5 : b * 60 % 2 ^ 32 = b * 60 := by omega
  rw [m4, m5]
  omega

theorem readUtc_release (d : UInt16) (x : UInt32) (hx : x.toNat < 2 ^ 24) :
    ∃ v, readUtc .release d x = .ok v ∧
      (v.toNat + unixEpochMjd * 86400) % 2 ^ 64 = d.toNat * 86400 + Table.seconds x.toNat := by
  obtain ⟨w, w1, w2⟩ := fromBcdTime32_release x hx
  have e : fromMjd .release d = .ok ((d.toUInt64 - 40587) * 86400) := by
    unfold fromMjd debugAssert subU64 mulU64
    simp only [Profile.overflow, ok_bind]
    split <;> rw [ok_bind] <;> split <;> rfl
  have add : ∀ a b : UInt64, addU64 .release a b = .ok (a + b) := by
    intro a b; unfold addU64; split <;> rfl
  refine ⟨(d.toUInt64 - 40587) * 86400 + w.toUInt64, by rw [readUtc, e, ok_bind, w1, ok_bind, add], ?_⟩
  rw [UInt64.toNat_add, UInt64.toNat_mul, UInt64.toNat_sub]
  simp only [UInt16.toNat_toUInt64, UInt32.toNat_toUInt64, UInt64.reduceToNat, unixEpochMjd]
  rw [← w2]
  have := d.toNat_lt
  have := w.toNat_lt
  omega

/-- C66, in a release build, for every event entry: the date counts from 1970 backwards too (modulo 2^64 seconds), and digits of the
times count by their value, also those from `A` to `F`. -/
theorem C66_eit_event_release (e : List UInt8) :
    ∃ (start : UInt64) (duration : UInt32),
      (start.toNat + unixEpochMjd * 86400) % 2 ^ 64 = field e 2 2 * 86400 + Table.seconds (field e 4 3) ∧
      duration.toNat = Table.seconds (field e 7 3) ∧
      Eit.readItem .release e = (fun ds =>
        { eventId := UInt16.ofNat (field e 0 2), start := start, duration := duration,
          status := UInt8.ofNat (field e 10 1 / 32), caMode := UInt8.ofNat (field e 10 1 / 16 % 2), descriptors := ds }) <$>
          (Descriptor.frames (e.drop 12)).mapM (Desc.parse .release) := by
  have f3 := field_lt e 4 3
  have f4 := field_lt e 7 3
  obtain ⟨v, v1, v2⟩ := readUtc_release (UInt16.ofNat (field e 2 2)) (UInt32.ofNat (field e 4 3)) (by rw [u24_field]; omega)
  obtain ⟨w, w1, w2⟩ := fromBcdTime32_release (UInt32.ofNat (field e 7 3)) (by rw [u24_field]; omega)
  rw [u16_field, u24_field] at v2
  rw [u24_field] at w2
  refine ⟨v, w, v2, w2, ?_⟩
  rw [Eit.readItem, v1, ok_bind, w1, ok_bind]
  cases (Descriptor.frames (e.drop 12)).mapM (Desc.parse .release) <;> rfl

/-- C66, in a release build: the time of an accepted TDT section, whatever its date and digits. -/
theorem C66_tdt_release (t : Tdt) (psi : Psi) (h : Tdt.Accepts psi) (hl : 8 ≤ psi.buffer.length) :
    ∃ v : UInt64, t.parse .release psi = .ok { time := v } ∧
      (v.toNat + unixEpochMjd * 86400) % 2 ^ 64 = field psi.buffer 3 2 * 86400 + Table.seconds (field psi.buffer 5 3) := by
  have f3 := field_lt psi.buffer 5 3
  obtain ⟨v, v1, v2⟩ := readUtc_release (UInt16.ofNat (field psi.buffer 3 2)) (UInt32.ofNat (field psi.buffer 5 3)) (by rw [u24_field]; omega)
  rw [u16_field, u24_field] at v2
  exact ⟨v, by rw [Tdt.parse_accepted .release t psi h hl, v1]; rfl, v2⟩

/-- C66, in a release build: the time of an accepted TOT section, whatever its date and digits. -/
theorem C66_tot_release (t : Tot) (psi : Psi) (h : Tot.Accepts psi) (hl : 10 + Tot.loopLength psi ≤ psi.buffer.length) :
    ∃ v : UInt64, (v.toNat + unixEpochMjd * 86400) % 2 ^ 64 = field psi.buffer 3 2 * 86400 + Table.seconds (field psi.buffer 5 3) ∧
      t.parse .release psi = (do
        let ds ← (Descriptor.frames (Tot.loop psi)).mapM (Desc.parse .release)
        .ok { time := v, descriptors := t.descriptors ++ ds }) := by
  have f3 := field_lt psi.buffer 5 3
  obtain ⟨v, v1, v2⟩ := readUtc_release (UInt16.ofNat (field psi.buffer 3 2)) (UInt32.ofNat (field psi.buffer 5 3)) (by rw [u24_field]; omega)
  rw [u16_field, u24_field] at v2
  refine ⟨v, v2, ?_⟩
  have hs1 : slice psi.buffer 10 (10 + Tot.loopLength psi) = .ok (Tot.loop psi) := by
    rw [slice, if_pos (by omega), Tot.loop, List.drop_take, Nat.add_sub_cancel_left]
  rw [Tot.parse_accepted .release t psi h, v1, ok_bind, hs1, ok_bind]

end Mpegts
