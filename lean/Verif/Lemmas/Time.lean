import Verif.Lemmas.TableLoops

/-! # Helper lemmas: UTC times in tables -/

namespace Mpegts
open Spec Spec.Table

/-- The way all tables decode a date and a time of day. -/
def readUtc (p : Profile) (d : UInt16) (b : UInt32) : R UInt64 := do
  let date ← fromMjd p d
  let time ← fromBcdTime32 p b
  addU64 p date time.toUInt64

theorem validBcd6_split (x : Nat) : ValidBcd 6 x ↔ ValidBcd 2 (x / 65536) ∧ ValidBcd 2 (x / 256 % 256) ∧ ValidBcd 2 (x % 256) := by
  rw [show 6 = 4 + 2 from rfl, validBcd_add, validBcd4_split, ← validBcd_mod 2 x]
  norm_num only
  rw [Nat.div_div_eq_div_mul, and_assoc]

theorem fromBcdTime32_seconds (p : Profile) (x : UInt32) (hx : x.toNat < 2 ^ 24) (h : ValidBcd 6 x.toNat) :
    ∃ v, fromBcdTime32 p x = .ok v ∧ v.toNat = seconds x.toNat := by
  obtain ⟨h1, h2, h3⟩ := (validBcd6_split _).1 h
  have e : x.toNat / 2 ^ 16 % 256 = x.toNat / 65536 := by omega
  obtain ⟨v, e1, e2⟩ := C20_from_bcd_time p x (by rw [e]; exact h1) h2 h3
  exact ⟨v, e1, by rw [e2, e]; rfl⟩

theorem readUtc_ok (p : Profile) (d : UInt16) (b : UInt32) (hd : unixEpochMjd ≤ d.toNat) (hx : b.toNat < 2 ^ 24) (hb : ValidBcd 6 b.toNat) :
    ∃ v, readUtc p d b = .ok v ∧ v.toNat = instant d.toNat b.toNat := by
  obtain ⟨v, v1, v2⟩ := C22_from_mjd p d hd
  obtain ⟨w, w1, w2⟩ := fromBcdTime32_seconds p b hx hb
  have := d.toNat_lt
  have := w.toNat_lt
  have hs : v.toNat + w.toUInt64.toNat < 2 ^ 64 := by rw [UInt32.toNat_toUInt64, v2]; unfold unixEpochMjd; omega
  refine ⟨v + w.toUInt64, ?_, ?_⟩
  · rw [readUtc, v1, ok_bind, w1, ok_bind, addU64, if_pos hs]
  · rw [UInt64.toNat_add, Nat.mod_eq_of_lt hs, v2, UInt32.toNat_toUInt64, w2]; rfl

theorem readUtc_outcome (p : Profile) (d : UInt16) (b : UInt32) (hx : b.toNat < 2 ^ 24) :
    Outcome (readUtc p d b) (p = .debug ∧ (d.toNat < unixEpochMjd ∨ ¬ ValidBcd 6 b.toNat)) := by
  refine ((fromMjd_outcome p d).bind fun v hv => (fromBcdTime32_outcome p b hx).bind fun t ht =>
    addU64_outcome p v t.toUInt64 ?_).congr ?_
  · rintro rfl
    have := fromMjd_debug _ _ hv
    have := t.toNat_lt
    rw [UInt32.toNat_toUInt64]; omega
  · simp only [or_false]
    exact ⟨fun h => h.elim (fun h => ⟨h.1, .inl h.2⟩) fun h => ⟨h.1, .inr h.2⟩, fun h => h.2.elim (fun x => .inl ⟨h.1, x⟩) fun x => .inr ⟨h.1, x⟩⟩

theorem hhmmss_lt (s : Nat) : Descriptor.hhmmss s < 2 ^ 24 := by
  have b := bcd_lt 6 (s / 3600 * 10000 + s / 60 % 60 * 100 + s % 60)
  have b : Descriptor.hhmmss s < 16 ^ 6 := b
  omega

/-- What is written for a time is read back. -/
theorem readUtc_utc (p : Profile) (t : Nat) (h : unixEpochMjd + t / 86400 < 2 ^ 16) :
    readUtc p (UInt16.ofNat (unixEpochMjd + t / 86400)) (UInt32.ofNat (Descriptor.hhmmss (t % 86400))) = .ok (UInt64.ofNat t) := by
  have f := fromBcdTime32_at p (t % 86400) (by omega)
  rw [Nat.mod_eq_of_lt (hhmmss_lt _)] at f
  have u1 : (UInt64.ofNat (t / 86400 * 86400)).toNat = t / 86400 * 86400 := by
    rw [UInt64.toNat_ofNat']; unfold unixEpochMjd at h; omega
  have u2 : (UInt32.ofNat (t % 86400)).toUInt64.toNat = t % 86400 := by
    rw [UInt32.toNat_toUInt64, UInt32.toNat_ofNat']; omega
  rw [readUtc, fromMjd_at p t h, ok_bind, f, ok_bind, addU64, u1, u2, if_pos (by unfold unixEpochMjd at h; omega)]
  refine congrArg _ (UInt64.toNat_inj.1 ?_)
  rw [UInt64.toNat_add, u1, u2, UInt64.toNat_ofNat']
  omega

/-- The two fields written for a time. -/
theorem write_utc (p : Profile) (t : UInt64) (h : unixEpochMjd + t.toNat / 86400 < 2 ^ 16) :
    (toMjd t).toNat = unixEpochMjd + t.toNat / 86400 ∧
    ∃ v, toBcdTime32 p t.toUInt32 = .ok v ∧ v.toNat = Descriptor.hhmmss (t.toNat % 86400) := by
  obtain ⟨v, e3, f3⟩ := C20_to_bcd_time p t.toUInt32
  rw [u64_mod_day _ h] at f3
  exact ⟨C22_to_mjd t (by omega), v, e3, by rw [f3, bcd_hhmmss]⟩

theorem field_utc (t : Nat) (r : List UInt8) (h : unixEpochMjd + t / 86400 < 2 ^ 16) : field (Descriptor.utc t ++ r) 0 2 = unixEpochMjd + t / 86400 ∧
    field (Descriptor.utc t ++ r) 2 3 = Descriptor.hhmmss (t % 86400) := by
  have := hhmmss_lt (t % 86400)
  constructor
  · rw [field, List.drop_zero, Descriptor.utc, List.append_assoc, List.take_left' (beBytes_length _ _), beNat_beBytes, Nat.mod_eq_of_lt (by omega)]
  · rw [field, Descriptor.utc, List.append_assoc, List.drop_left' (beBytes_length _ _), List.take_left' (beBytes_length _ _), beNat_beBytes,
      Nat.mod_eq_of_lt (by omega)]

@[simp] theorem utc_length (t : Nat) : (Descriptor.utc t).length = 5 := by simp [Descriptor.utc]

theorem getU16At_outcome (s : List UInt8) (n : Nat) : Outcome (getU16At s n) (s.length < n + 2) := by
  refine ⟨fun h => ?_, fun h => ⟨_, getU16At_ok (by omega)⟩⟩
  rw [getU16At, sliceFrom]
  split
  · rw [ok_bind, getU16]
    by_cases h1 : s.length < n + 1
    · rw [idx_panic (by rw [List.length_drop]; omega)]; rfl
    · rw [idx_ok (by rw [List.length_drop]; omega), ok_bind, idx_panic (by rw [List.length_drop]; omega)]; rfl
  · rfl

theorem getU24At_outcome (s : List UInt8) (n : Nat) : Outcome (getU24At s n) (s.length < n + 3) := by
  refine ⟨fun h => ?_, fun h => ⟨_, getU24At_ok (by omega)⟩⟩
  rw [getU24At, sliceFrom]
  split
  · rw [ok_bind, getU24]
    by_cases h1 : s.length < n + 1
    · rw [idx_panic (by rw [List.length_drop]; omega)]; rfl
    · rw [idx_ok (by rw [List.length_drop]; omega), ok_bind]
      by_cases h2 : s.length < n + 2
      · rw [idx_panic (by rw [List.length_drop]; omega)]; rfl
      · rw [idx_ok (by rw [List.length_drop]; omega), ok_bind, idx_panic (by rw [List.length_drop]; omega)]; rfl
  · rfl

end Mpegts
