import Verif.Lemmas.Bcd

/-! # C19-C22: BCD numbers, BCD times, dates -/

namespace Mpegts
open Spec

/-- C19: `to_bcd` of an in-range number is its BCD representation. -/
theorem C19_to_bcd (p : Profile) :
    (∀ x : UInt8, x.toNat < 10 ^ 2 → ∃ v, toBcd8 p x = .ok v ∧ v.toNat = bcd 2 x.toNat) ∧
    (∀ x : UInt16, x.toNat < 10 ^ 4 → ∃ v, toBcd16 p x = .ok v ∧ v.toNat = bcd 4 x.toNat) ∧
    (∀ x : UInt32, x.toNat < 10 ^ 8 → ∃ v, toBcd32 p x = .ok v ∧ v.toNat = bcd 8 x.toNat) :=
  ⟨fun x h => toBcd8_ok p x h, fun x h => toBcd16_ok p x h, fun x h => toBcd32_ok p x h⟩

/-- C19: `from_bcd` of valid BCD digits is their decimal reading. -/
theorem C19_from_bcd (p : Profile) :
    (∀ x : UInt8, ValidBcd 2 x.toNat → ∃ v, fromBcd8 p x = .ok v ∧ v.toNat = unbcd 2 x.toNat) ∧
    (∀ x : UInt16, ValidBcd 4 x.toNat → ∃ v, fromBcd16 p x = .ok v ∧ v.toNat = unbcd 4 x.toNat) ∧
    (∀ x : UInt32, ValidBcd 8 x.toNat → ∃ v, fromBcd32 p x = .ok v ∧ v.toNat = unbcd 8 x.toNat) :=
  ⟨fun x h => fromBcd8_ok p x h, fun x h => fromBcd16_ok p x h, fun x h => fromBcd32_ok p x h⟩

/-- C19: the two are inverse on in-range numbers. -/
theorem C19_round_trip (p : Profile) :
    (∀ x : UInt8, x.toNat < 10 ^ 2 → (do fromBcd8 p (← toBcd8 p x)) = .ok x) ∧
    (∀ x : UInt16, x.toNat < 10 ^ 4 → (do fromBcd16 p (← toBcd16 p x)) = .ok x) ∧
    (∀ x : UInt32, x.toNat < 10 ^ 8 → (do fromBcd32 p (← toBcd32 p x)) = .ok x) := by
  refine ⟨fun x h => ?_, fun x h => ?_, fun x h => ?_⟩
  · obtain ⟨v, h1, h2⟩ := toBcd8_ok p x h
    obtain ⟨w, h3, h4⟩ := fromBcd8_ok p v (by rw [h2]; exact validBcd_bcd _ _)
    rw [h1, ok_bind, h3]
    rw [h2, unbcd_bcd, Nat.mod_eq_of_lt h] at h4
    rw [UInt8.toNat_inj.1 h4]
  · obtain ⟨v, h1, h2⟩ := toBcd16_ok p x h
    obtain ⟨w, h3, h4⟩ := fromBcd16_ok p v (by rw [h2]; exact validBcd_bcd _ _)
    rw [h1, ok_bind, h3]
    rw [h2, unbcd_bcd, Nat.mod_eq_of_lt h] at h4
    rw [UInt16.toNat_inj.1 h4]
  · obtain ⟨v, h1, h2⟩ := toBcd32_ok p x h
    obtain ⟨w, h3, h4⟩ := fromBcd32_ok p v (by rw [h2]; exact validBcd_bcd _ _)
    rw [h1, ok_bind, h3]
    rw [h2, unbcd_bcd, Nat.mod_eq_of_lt h] at h4
    rw [UInt32.toNat_inj.1 h4]

/-- C19, outside the range: bytes that are not BCD, and numbers of three digits, panic in a debug build; a release
build reads any byte as `10 * high nibble + low nibble`. -/
theorem C19_out_of_range :
    (∀ x : UInt8, ¬ ValidBcd 2 x.toNat → fromBcd8 .debug x = panic) ∧
    (∀ x : UInt8, 100 ≤ x.toNat → toBcd8 .debug x = panic) ∧
    (∀ x : UInt8, ∃ v, fromBcd8 .release x = .ok v ∧ v.toNat = unbcd 2 x.toNat) := by
  refine ⟨fromBcd8_invalid, fun x h => toBcd8_invalid x (by omega), fun x => ⟨_, fromBcd8_release x, ?_⟩⟩
  rw [UInt8.toNat_ofNat']
  have := x.toNat_lt
  simp only [unbcd]; omega

/-- C20: `to_bcd_time` of seconds is BCD hh:mm:ss of the time of day. -/
theorem C20_to_bcd_time (p : Profile) (t : UInt32) :
    ∃ v, toBcdTime32 p t = .ok v ∧
      v.toNat = bcd 2 (t.toNat % 86400 / 3600) * 2 ^ 16 + bcd 2 (t.toNat % 86400 / 60 % 60) * 2 ^ 8 +
        bcd 2 (t.toNat % 86400 % 60) := by
  have ht := t.toNat_lt
  have c1 : (3600 : UInt32).toNat = 3600 := rfl
  have c2 : (60 : UInt32).toNat = 60 := rfl
  have c3 : (24 : UInt32).toNat = 24 := rfl
  have e1 : (t / 3600 % 24).toUInt8.toNat = t.toNat % 86400 / 3600 := by
    rw [UInt32.toNat_toUInt8, UInt32.toNat_mod, UInt32.toNat_div, c1, c3]; omega
  have e2 : (t / 60 % 60).toUInt8.toNat = t.toNat % 86400 / 60 % 60 := by
    rw [UInt32.toNat_toUInt8, UInt32.toNat_mod, UInt32.toNat_div, c2]; omega
  have e3 : (t % 60).toUInt8.toNat = t.toNat % 86400 % 60 := by
    rw [UInt32.toNat_toUInt8, UInt32.toNat_mod, c2]; omega
  obtain ⟨a, h1, h1'⟩ := toBcd8_ok p _ (by rw [e1]; omega)
  obtain ⟨b, h2, h2'⟩ := toBcd8_ok p _ (by rw [e2]; omega)
  obtain ⟨c, h3, h3'⟩ := toBcd8_ok p _ (by rw [e3]; omega)
  refine ⟨_, by simp only [toBcdTime32, h1, h2, h3, ok_bind, pure_eq_ok]; rfl, ?_⟩
  rw [← e1, ← e2, ← e3, ← h1', ← h2', ← h3']
  have ha := a.toNat_lt; have hb := b.toNat_lt; have hc := c.toNat_lt
  have s1 : (a.toUInt32 <<< 16).toNat = a.toNat * 2 ^ 16 := by
    rw [UInt32.toNat_shiftLeft]
    simp only [UInt8.toNat_toUInt32, UInt32.reduceToNat, Nat.reduceMod, Nat.shiftLeft_eq]
    exact Nat.mod_eq_of_lt (by omega)
  have s2 : (b.toUInt32 <<< 8).toNat = b.toNat * 2 ^ 8 := by
    rw [UInt32.toNat_shiftLeft]
    simp only [UInt8.toNat_toUInt32, UInt32.reduceToNat, Nat.reduceMod, Nat.shiftLeft_eq]
    exact Nat.mod_eq_of_lt (by omega)
  rw [UInt32.toNat_add, UInt32.toNat_add, s1, s2, UInt8.toNat_toUInt32]
  generalize a.toNat = a at *; generalize b.toNat = b at *; generalize c.toNat = c at *
  clear s1 s2
  omega

/-- C20: `from_bcd_time` of valid BCD hh:mm:ss (the low three bytes; the top byte is ignored). -/
theorem C20_from_bcd_time (p : Profile) (x : UInt32) (h : ValidBcd 2 (x.toNat / 2 ^ 16 % 256))
    (m : ValidBcd 2 (x.toNat / 2 ^ 8 % 256)) (s : ValidBcd 2 (x.toNat % 256)) :
    ∃ v, fromBcdTime32 p x = .ok v ∧
      v.toNat = unbcd 2 (x.toNat / 2 ^ 16 % 256) * 3600 + unbcd 2 (x.toNat / 2 ^ 8 % 256) * 60 + unbcd 2 (x.toNat % 256) := by
  have hx := x.toNat_lt
  have e1 : (x >>> 16).toUInt8.toNat = x.toNat / 2 ^ 16 % 256 := by rw [u32_shr16_toUInt8, UInt8.toNat_ofNat']; norm_num only
  have e2 : (x >>> 8).toUInt8.toNat = x.toNat / 2 ^ 8 % 256 := by rw [u32_shr8_toUInt8, UInt8.toNat_ofNat']; norm_num only
  have e3 : x.toUInt8.toNat = x.toNat % 256 := by simp
  obtain ⟨a, h1, h1'⟩ := fromBcd8_ok p (x >>> 16).toUInt8 (by rw [e1]; exact h)
  obtain ⟨b, h2, h2'⟩ := fromBcd8_ok p (x >>> 8).toUInt8 (by rw [e2]; exact m)
  obtain ⟨c, h3, h3'⟩ := fromBcd8_ok p x.toUInt8 (by rw [e3]; exact s)
  refine ⟨a.toUInt32 * 3600 + b.toUInt32 * 60 + c.toUInt32, by simp only [fromBcdTime32, h1, h2, h3, ok_bind, pure_eq_ok], ?_⟩
  rw [← e1, ← e2, ← e3, ← h1', ← h2', ← h3']
  have ha := a.toNat_lt; have hb := b.toNat_lt; have hc := c.toNat_lt
  have c1 : (3600 : UInt32).toNat = 3600 := rfl
  have c2 : (60 : UInt32).toNat = 60 := rfl
  rw [UInt32.toNat_add, UInt32.toNat_add, UInt32.toNat_mul, UInt32.toNat_mul]
  simp only [UInt8.toNat_toUInt32, c1, c2]
  omega

/-- C20: the two are inverse on times of day. -/
theorem C20_round_trip (p : Profile) (t : UInt32) (ht : t.toNat < 86400) :
    (do fromBcdTime32 p (← toBcdTime32 p t)) = .ok t := by
  obtain ⟨v, h1, h2⟩ := C20_to_bcd_time p t
  rw [Nat.mod_eq_of_lt ht] at h2
  have b1 := bcd2_lt (t.toNat / 3600)
  have b2 := bcd2_lt (t.toNat / 60 % 60)
  have b3 := bcd2_lt (t.toNat % 60)
  have v1 := validBcd_bcd 2 (t.toNat / 3600)
  have v2 := validBcd_bcd 2 (t.toNat / 60 % 60)
  have v3 := validBcd_bcd 2 (t.toNat % 60)
  have u1 := unbcd_bcd 2 (t.toNat / 3600)
  have u2 := unbcd_bcd 2 (t.toNat / 60 % 60)
  have u3 := unbcd_bcd 2 (t.toNat % 60)
  have d1 : v.toNat / 2 ^ 16 % 256 = bcd 2 (t.toNat / 3600) := by
    generalize bcd 2 (t.toNat / 3600) = A at *; generalize bcd 2 (t.toNat / 60 % 60) = B at *
    generalize bcd 2 (t.toNat % 60) = C at *
    clear v1 v2 v3 u1 u2 u3 h1; omega
  have d2 : v.toNat / 2 ^ 8 % 256 = bcd 2 (t.toNat / 60 % 60) := by
    generalize bcd 2 (t.toNat / 3600) = A at *; generalize bcd 2 (t.toNat / 60 % 60) = B at *
    generalize bcd 2 (t.toNat % 60) = C at *
    clear v1 v2 v3 u1 u2 u3 h1 d1; omega
  have d3 : v.toNat % 256 = bcd 2 (t.toNat % 60) := by
    generalize bcd 2 (t.toNat / 3600) = A at *; generalize bcd 2 (t.toNat / 60 % 60) = B at *
    generalize bcd 2 (t.toNat % 60) = C at *
    clear v1 v2 v3 u1 u2 u3 h1 d1 d2; omega
  obtain ⟨w, h3, h4⟩ := C20_from_bcd_time p v (by rw [d1]; exact v1) (by rw [d2]; exact v2) (by rw [d3]; exact v3)
  rw [h1, ok_bind, h3]
  congr 1
  apply UInt32.toNat_inj.1
  rw [h4, d1, d2, d3, u1, u2, u3]
  clear d1 d2 d3 v1 v2 v3 u1 u2 u3 b1 b2 b3 h1 h2 h3 h4
  omega

/-- C21: `to_bcd_time` of minutes is BCD hh:mm of the time of day. -/
theorem C21_to_bcd_time (p : Profile) (m : UInt16) :
    ∃ v, toBcdTime16 p m = .ok v ∧
      v.toNat = bcd 2 (m.toNat % 1440 / 60) * 2 ^ 8 + bcd 2 (m.toNat % 1440 % 60) := by
  have hm := m.toNat_lt
  have c2 : (60 : UInt16).toNat = 60 := rfl
  have c3 : (24 : UInt16).toNat = 24 := rfl
  have e2 : (m / 60 % 24).toUInt8.toNat = m.toNat % 1440 / 60 := by
    rw [UInt16.toNat_toUInt8, UInt16.toNat_mod, UInt16.toNat_div, c2, c3]; omega
  have e3 : (m % 60).toUInt8.toNat = m.toNat % 1440 % 60 := by
    rw [UInt16.toNat_toUInt8, UInt16.toNat_mod, c2]; omega
  obtain ⟨b, h2, h2'⟩ := toBcd8_ok p _ (by rw [e2]; omega)
  obtain ⟨c, h3, h3'⟩ := toBcd8_ok p _ (by rw [e3]; omega)
  refine ⟨_, by simp only [toBcdTime16, h2, h3, ok_bind, pure_eq_ok]; rfl, ?_⟩
  rw [← e2, ← e3, ← h2', ← h3']
  have hb := b.toNat_lt; have hc := c.toNat_lt
  rw [UInt16.toNat_add, UInt16.toNat_shiftLeft]
  simp only [UInt8.toNat_toUInt16, UInt16.reduceToNat, Nat.reduceMod, Nat.shiftLeft_eq]
  omega

/-- C21, the part that holds: `from_bcd_time` of valid BCD hh:mm with hh ≤ 4.  (Full property: every valid hh:mm;
missing: hh ≥ 5, where the product `hh * 60` overflows `u8`, see `C21_from_bcd_time_refuted`.) -/
theorem C21_from_bcd_time_partial (p : Profile) (x : UInt16) (hv : ValidBcd 4 x.toNat)
    (h5 : unbcd 2 (x.toNat / 256) < 5) :
    ∃ v, fromBcdTime16 p x = .ok v ∧ v.toNat = unbcd 2 (x.toNat / 256) * 60 + unbcd 2 (x.toNat % 256) := by
  have e1 : (x >>> 8).toUInt8.toNat = x.toNat / 256 := by
    rw [u16_shr_toUInt8, UInt8.toNat_ofNat']; have := x.toNat_lt; omega
  have e2 : x.toUInt8.toNat = x.toNat % 256 := by simp
  have v1 : ValidBcd 2 (x.toNat / 256) := ((validBcd4_split _).1 hv).1
  have v2 : ValidBcd 2 (x.toNat % 256) := ((validBcd4_split _).1 hv).2
  obtain ⟨a, h1, h1'⟩ := fromBcd8_ok p (x >>> 8).toUInt8 (by rw [e1]; exact v1)
  obtain ⟨b, h2, h2'⟩ := fromBcd8_ok p x.toUInt8 (by rw [e2]; exact v2)
  have u2 := unbcd2_lt _ v2
  rw [e1] at h1'; rw [e2] at h2'
  have c60 : (60 : UInt8).toNat = 60 := rfl
  have hm : mulU8 p a 60 = .ok (a * 60) := by simp only [mulU8, c60]; rw [if_pos (by omega)]
  refine ⟨(a * 60).toUInt16 + b.toUInt16, by simp only [fromBcdTime16, h1, h2, hm, ok_bind, pure_eq_ok], ?_⟩
  rw [UInt16.toNat_add, UInt8.toNat_toUInt16, UInt8.toNat_toUInt16, UInt8.toNat_mul, c60, h1', h2']
  rw [Nat.mod_eq_of_lt (a := unbcd 2 (x.toNat / 256) * 60) (by omega), Nat.mod_eq_of_lt (by omega)]

/-- C21 fails from 05:00 on: a debug build panics, a release build returns `(hh * 60) mod 256 + mm`. -/
theorem C21_from_bcd_time_refuted (x : UInt16) (hv : ValidBcd 4 x.toNat) (h5 : 5 ≤ unbcd 2 (x.toNat / 256)) :
    fromBcdTime16 .debug x = panic ∧
    ∃ v, fromBcdTime16 .release x = .ok v ∧
      v.toNat = unbcd 2 (x.toNat / 256) * 60 % 256 + unbcd 2 (x.toNat % 256) := by
  have e1 : (x >>> 8).toUInt8.toNat = x.toNat / 256 := by
    rw [u16_shr_toUInt8, UInt8.toNat_ofNat']; have := x.toNat_lt; omega
  have e2 : x.toUInt8.toNat = x.toNat % 256 := by simp
  have v1 : ValidBcd 2 (x.toNat / 256) := ((validBcd4_split _).1 hv).1
  have v2 : ValidBcd 2 (x.toNat % 256) := ((validBcd4_split _).1 hv).2
  have u2 := unbcd2_lt _ v2
  have c60 : (60 : UInt8).toNat = 60 := rfl
  constructor
  · obtain ⟨a, h1, h1'⟩ := fromBcd8_ok .debug (x >>> 8).toUInt8 (by rw [e1]; exact v1)
    rw [e1] at h1'
    have hm : mulU8 .debug a 60 = panic := by
      simp only [mulU8, c60]; rw [if_neg (by omega)]; rfl
    simp only [fromBcdTime16, h1, hm, ok_bind, error_bind]
  · obtain ⟨a, h1, h1'⟩ := fromBcd8_ok .release (x >>> 8).toUInt8 (by rw [e1]; exact v1)
    obtain ⟨b, h2, h2'⟩ := fromBcd8_ok .release x.toUInt8 (by rw [e2]; exact v2)
    rw [e1] at h1'; rw [e2] at h2'
    have hm : mulU8 .release a 60 = .ok (a * 60) := by
      simp only [mulU8, c60]; rw [if_neg (by omega)]; rfl
    refine ⟨(a * 60).toUInt16 + b.toUInt16, by simp only [fromBcdTime16, h1, h2, hm, ok_bind, pure_eq_ok], ?_⟩
    rw [UInt16.toNat_add, UInt8.toNat_toUInt16, UInt8.toNat_toUInt16, UInt8.toNat_mul, c60, h1', h2']
    omega

/-- C21, the round trip, for times before 05:00 only (see above). -/
theorem C21_round_trip_partial (p : Profile) (m : UInt16) (hm : m.toNat < 300) :
    (do fromBcdTime16 p (← toBcdTime16 p m)) = .ok m := by
  obtain ⟨v, h1, h2⟩ := C21_to_bcd_time p m
  rw [Nat.mod_eq_of_lt (by omega)] at h2
  have b1 := bcd2_lt (m.toNat / 60)
  have b2 := bcd2_lt (m.toNat % 60)
  have v1 := validBcd_bcd 2 (m.toNat / 60)
  have v2 := validBcd_bcd 2 (m.toNat % 60)
  have u1 := unbcd_bcd 2 (m.toNat / 60)
  have u2 := unbcd_bcd 2 (m.toNat % 60)
  have d1 : v.toNat / 256 = bcd 2 (m.toNat / 60) := by omega
  have d2 : v.toNat % 256 = bcd 2 (m.toNat % 60) := by omega
  have hv : ValidBcd 4 v.toNat := by
    rw [← d1] at v1; rw [← d2] at v2
    exact (validBcd4_split _).2 ⟨v1, v2⟩
  obtain ⟨w, h3, h4⟩ := C21_from_bcd_time_partial p v hv (by rw [d1, u1]; omega)
  rw [h1, ok_bind, h3]
  congr 1
  apply UInt16.toNat_inj.1
  rw [h4, d1, d2, u1, u2]
  clear d1 d2 v1 v2 u1 u2 b1 b2 h1 h2 h3 h4
  omega

/-- C22: `to_mjd` is the MJD day number (day 40587 is the Unix epoch), for all times up to MJD 65535. -/
theorem C22_to_mjd (t : UInt64) (h : unixEpochMjd + t.toNat / 86400 ≤ 65535) :
    (toMjd t).toNat = unixEpochMjd + t.toNat / 86400 := by
  unfold unixEpochMjd at *
  have ht := t.toNat_lt
  have c1 : (86400 : UInt64).toNat = 86400 := rfl
  have c2 : (40587 : UInt64).toNat = 40587 := rfl
  rw [toMjd, UInt64.toNat_toUInt16, UInt64.toNat_add, UInt64.toNat_div, c1, c2]
  omega

/-- C22: later times are stored modulo 2^16 days. -/
theorem C22_to_mjd_late (t : UInt64) : (toMjd t).toNat = (unixEpochMjd + t.toNat / 86400) % 2 ^ 16 := by
  unfold unixEpochMjd
  have ht := t.toNat_lt
  have c1 : (86400 : UInt64).toNat = 86400 := rfl
  have c2 : (40587 : UInt64).toNat = 40587 := rfl
  rw [toMjd, UInt64.toNat_toUInt16, UInt64.toNat_add, UInt64.toNat_div, c1, c2]
  omega

/-- C22: `from_mjd` is the Unix time of midnight of that day. -/
theorem C22_from_mjd (p : Profile) (d : UInt16) (h : unixEpochMjd ≤ d.toNat) :
    ∃ t, fromMjd p d = .ok t ∧ t.toNat = (d.toNat - unixEpochMjd) * 86400 := by
  unfold unixEpochMjd at *
  have hd := d.toNat_lt
  have c1 : (86400 : UInt64).toNat = 86400 := rfl
  have c2 : (40587 : UInt64).toNat = 40587 := rfl
  have ha : decide (d ≥ 40587) = true := by simpa [UInt16.le_iff_toNat_le] using h
  obtain ⟨s1, s2⟩ := subU64_ok (a := d.toUInt64) (b := 40587) p (by rw [UInt16.toNat_toUInt64, c2]; omega)
  rw [UInt16.toNat_toUInt64, c2] at s2
  obtain ⟨m1, m2⟩ := mulU64_ok (a := d.toUInt64 - 40587) (b := 86400) p (by rw [s2, c1]; omega)
  refine ⟨_, by simp only [fromMjd, ha, debugAssert_true, ok_bind, s1, m1]; rfl, ?_⟩
  rw [m2, s2, c1]

/-- C22: dates before the Unix epoch panic in a debug build. -/
theorem C22_from_mjd_early (d : UInt16) (h : d.toNat < unixEpochMjd) : fromMjd .debug d = panic := by
  unfold unixEpochMjd at h
  have ha : decide (d ≥ 40587) = false := by simpa [UInt16.lt_iff_toNat_lt] using h
  simp [fromMjd, ha]

/-- C22: the round trip rounds down to midnight. -/
theorem C22_round_trip (p : Profile) (t : UInt64) (h : unixEpochMjd + t.toNat / 86400 ≤ 65535) :
    ∃ v, fromMjd p (toMjd t) = .ok v ∧ v.toNat = t.toNat / 86400 * 86400 := by
  have h1 := C22_to_mjd t h
  obtain ⟨v, h2, h3⟩ := C22_from_mjd p (toMjd t) (by omega)
  exact ⟨v, h2, by rw [h3, h1]; unfold unixEpochMjd; omega⟩

/-! Concrete cases. -/
example : toBcd32 .debug 12345678 = .ok 0x12345678 := by decide +kernel
example : toBcdTime32 .debug 86399 = .ok 0x235959 := by decide +kernel
example : ValidBcd 4 0x0459 ∧ unbcd 2 (0x0459 / 256) < 5 := by decide
example : ValidBcd 4 0x2359 ∧ 5 ≤ unbcd 2 (0x2359 / 256) := by decide
/-- 05:00 reads as 44 minutes in a release build. -/
example : fromBcdTime16 .release 0x0500 = .ok 44 ∧ fromBcdTime16 .debug 0x0500 = panic := by decide +kernel
example : toMjd 1547057412 = 58492 ∧ fromMjd .debug 58492 = .ok 1546992000 := by decide +kernel

end Mpegts
