import Verif.Props.C06_C11
import Verif.Props.C12_C15

/-! # C93: the clock helpers for arguments that are not clock values -/

namespace Mpegts
open Spec

/-- The signed 64-bit number with the same low 64 bits. -/
def signed64 (x : Int) : Int := if x % 2 ^ 64 < 2 ^ 63 then x % 2 ^ 64 else x % 2 ^ 64 - 2 ^ 64

/-- The distance `pcr_delta` and `pcr_jitter_ns` start from, before any overflow: `PCR_MAX` is one less than the period. -/
def rawDistance (last current : Nat) : Int :=
  if last ≤ current then (current : Int) - last else (current : Int) + (pcrPeriod - 1 : Nat) - last

theorem addU64_release (a b : UInt64) : addU64 .release a b = .ok (a + b) := by unfold addU64; split <;> rfl
theorem subU64_release (a b : UInt64) : subU64 .release a b = .ok (a - b) := by unfold subU64; split <;> rfl
theorem mulU64_release (a b : UInt64) : mulU64 .release a b = .ok (a * b) := by unfold mulU64; split <;> rfl

/-- C93: `pcr_delta` never panics in a release build and computes modulo `2^64`. -/
theorem C93_delta_release (last current : UInt64) :
    ∃ d, Ts.pcrDelta .release last current = .ok d ∧ (d.toNat : Int) = rawDistance last.toNat current.toNat % 2 ^ 64 := by
  have hm := PCR_MAX_toNat
  have h1 := last.toNat_lt
  have h2 := current.toNat_lt
  unfold Ts.pcrDelta
  generalize Ts.PCR_MAX = M at *
  by_cases h : last ≤ current
  · have h' : last.toNat ≤ current.toNat := h
    refine ⟨current - last, by rw [if_pos h, subU64_release], ?_⟩
    rw [rawDistance, if_pos h', UInt64.toNat_sub]
    omega
  · have h' : ¬ last.toNat ≤ current.toNat := h
    refine ⟨current + M - last, by rw [if_neg h, addU64_release, ok_bind, subU64_release], ?_⟩
    rw [rawDistance, if_neg h', UInt64.toNat_sub, UInt64.toNat_add, hm]
    unfold pcrPeriod
    omega

/-- C93: in a debug build `pcr_delta` panics exactly when `current` lies before `last` and either the sum with the period does
not fit 64 bits or `last` lies more than a period after `current`. -/
theorem C93_delta_debug (last current : UInt64) :
    (Ts.pcrDelta .debug last current = panic ↔
      current < last ∧ (2 ^ 64 ≤ current.toNat + (pcrPeriod - 1) ∨ rawDistance last.toNat current.toNat < 0)) ∧
    (Ts.pcrDelta .debug last current ≠ panic → Ts.pcrDelta .debug last current = Ts.pcrDelta .release last current) := by
  have hm := PCR_MAX_toNat
  have h1 := last.toNat_lt
  have h2 := current.toNat_lt
  unfold Ts.pcrDelta rawDistance
  generalize Ts.PCR_MAX = M at *
  by_cases h : last ≤ current
  · have h' : last.toNat ≤ current.toNat := h
    have hn : ¬ current < last := by simpa using h
    simp [h, h', hn, subU64]
  · have h' : ¬ last.toNat ≤ current.toNat := h
    have hn : current < last := by simpa using h
    simp only [ge_iff_le, h, if_false, h', hn, true_and]
    have hp : pcrPeriod - 1 = M.toNat := by rw [hm]
    rw [hp]
    by_cases ha : current.toNat + M.toNat < 2 ^ 64
    · have hs : (current + M).toNat = current.toNat + M.toNat := by rw [UInt64.toNat_add, Nat.mod_eq_of_lt ha]
      simp only [addU64, ha, if_true, ok_bind, subU64, hs]
      by_cases hb : last.toNat ≤ current.toNat + M.toNat
      · simp [hb]
        omega
      · simp [hb, Profile.overflow]; omega
    · simp only [addU64, ha, if_false, Profile.overflow, error_bind]
      simp; omega

/-- C93: `pts_delta` in a release build computes modulo `2^64`. -/
theorem C93_pts_delta_release (last current : UInt64) :
    ∃ d, Pes.ptsDelta .release last current = .ok d ∧
      (d.toNat : Int) = (if last ≤ current then (current.toNat : Int) - last.toNat
        else (current.toNat : Int) + (ptsPeriod - 1 : Nat) - last.toNat) % 2 ^ 64 := by
  have hm := PTS_MAX_toNat
  have h1 := last.toNat_lt
  have h2 := current.toNat_lt
  unfold Pes.ptsDelta
  generalize Pes.PTS_MAX = M at *
  by_cases h : last ≤ current
  · have h' : last.toNat ≤ current.toNat := h
    refine ⟨current - last, by rw [if_pos h, subU64_release], ?_⟩
    rw [if_pos h, UInt64.toNat_sub]
    omega
  · have h' : ¬ last.toNat ≤ current.toNat := h
    refine ⟨current + M - last, by rw [if_neg h, addU64_release, ok_bind, subU64_release], ?_⟩
    rw [if_neg h, UInt64.toNat_sub, UInt64.toNat_add, hm]
    unfold ptsPeriod
    omega

/-- C93: in a debug build `pts_delta` panics exactly when `current` lies before `last` and either the sum with the period does
not fit 64 bits or `last` lies more than a period after `current`. -/
theorem C93_pts_delta_debug (last current : UInt64) :
    (Pes.ptsDelta .debug last current = panic ↔
      current < last ∧ (2 ^ 64 ≤ current.toNat + (ptsPeriod - 1) ∨ current.toNat + (ptsPeriod - 1) < last.toNat)) ∧
    (Pes.ptsDelta .debug last current ≠ panic → Pes.ptsDelta .debug last current = Pes.ptsDelta .release last current) := by
  have hm := PTS_MAX_toNat
  have h1 := last.toNat_lt
  have h2 := current.toNat_lt
  unfold Pes.ptsDelta
  generalize Pes.PTS_MAX = M at *
  by_cases h : last ≤ current
  · have h' : last.toNat ≤ current.toNat := h
    have hn : ¬ current < last := by simpa using h
    simp [h, h', hn, subU64]
  · have h' : ¬ last.toNat ≤ current.toNat := h
    have hn : current < last := by simpa using h
    simp only [ge_iff_le, h, if_false, hn, true_and]
    have hp : ptsPeriod - 1 = M.toNat := by rw [hm]
    rw [hp]
    by_cases ha : current.toNat + M.toNat < 2 ^ 64
    · have hs : (current + M).toNat = current.toNat + M.toNat := by rw [UInt64.toNat_add, Nat.mod_eq_of_lt ha]
      simp only [addU64, ha, if_true, ok_bind, subU64, hs]
      by_cases hb : last.toNat ≤ current.toNat + M.toNat
      · simp [hb]
        omega
      · simp [hb, Profile.overflow]; omega
    · simp only [addU64, ha, if_false, Profile.overflow, error_bind]
      simp; omega

/-- C93: `pcr_to_stc` in a release build computes modulo `2^64` at each step, and panics only for `last_bytes = 0`. -/
theorem C93_stc_release (lastPcr bytes lastDelta lastBytes : UInt64) (h : lastBytes ≠ 0) :
    ∃ s, Ts.pcrToStc .release lastPcr bytes lastDelta lastBytes = .ok s ∧
      s.toNat = (lastDelta.toNat * bytes.toNat % 2 ^ 64 / lastBytes.toNat + lastPcr.toNat) % 2 ^ 64 := by
  refine ⟨lastDelta * bytes / lastBytes + lastPcr, ?_, ?_⟩
  · simp only [Ts.pcrToStc, mulU64_release, ok_bind, divU64, h, if_false, addU64_release]
  · rw [UInt64.toNat_add, UInt64.toNat_div, UInt64.toNat_mul]

/-- C93: `pcr_delta_bitrate` in a release build. -/
theorem C93_bitrate_release (delta bytes : UInt64) (h : 27000 ≤ delta.toNat) :
    ∃ r, Ts.pcrDeltaBitrate .release delta bytes = .ok r ∧ r.toNat = 8 * bytes.toNat % 2 ^ 64 / (delta.toNat / 27000) := by
  have hne : Ts.pcrToMs delta ≠ 0 := by
    intro h
    have := (C11_units delta).2.1
    rw [h] at this
    have h0 : (0 : UInt64).toNat = 0 := rfl
    omega
  have h8 : (8 : UInt64).toNat = 8 := rfl
  refine ⟨bytes * 8 / Ts.pcrToMs delta, ?_, ?_⟩
  · simp only [Ts.pcrDeltaBitrate, mulU64_release, ok_bind, divU64, hne, if_false]
  · rw [UInt64.toNat_div, UInt64.toNat_mul, (C11_units delta).2.1, h8, Nat.mul_comm]

theorem i64_release (x : Int) : Ts.i64 .release x = .ok (signed64 x) := by
  unfold Ts.i64 signed64
  by_cases h : -(2 ^ 63) ≤ x ∧ x < 2 ^ 63
  · rw [if_pos h]
    refine congrArg _ ?_
    split <;> omega
  · rw [if_neg h]
    refine congrArg _ ?_
    split <;> omega

theorem i64_debug (x : Int) : Ts.i64 .debug x = if -(2 ^ 63) ≤ x ∧ x < 2 ^ 63 then .ok x else panic := rfl

theorem asI64_eq (x : UInt64) : Ts.asI64 x = signed64 x.toNat := by
  have := x.toNat_lt
  unfold Ts.asI64 signed64
  rw [Int.emod_eq_of_lt (by omega) (by omega)]
  split <;> split <;> omega

theorem signed64_mod (x : Int) : signed64 (x % 2 ^ 64) = signed64 x := by
  unfold signed64
  rw [Int.emod_emod_of_dvd x (dvd_refl _)]

/-- The signed distance `pcr_jitter_ns` scales: more than a second ahead counts as behind. -/
def signedDistance (stc pcr : Nat) : Int :=
  let d := signed64 (rawDistance stc pcr)
  if 27000000 < d then signed64 (d - (pcrPeriod - 1 : Nat)) else d

theorem i64_id (p : Profile) {x : Int} (h : -(2 ^ 63) ≤ x ∧ x < 2 ^ 63) : Ts.i64 p x = .ok x := by rw [Ts.i64, if_pos h]

theorem signed64_range (x : Int) : -(2 ^ 63) ≤ signed64 x ∧ signed64 x < 2 ^ 63 := by
  unfold signed64; split <;> omega

theorem distance_ok (p : Profile) (pcr stc : UInt64)
    (h : p = .release ∨ ¬ (pcr < stc ∧ (2 ^ 64 ≤ pcr.toNat + (pcrPeriod - 1) ∨ rawDistance stc.toNat pcr.toNat < 0))) :
    (pcr < stc → ∃ x u : UInt64, addU64 p pcr Ts.PCR_MAX = .ok x ∧ subU64 p x stc = .ok u ∧ Ts.asI64 u = signed64 (rawDistance stc.toNat pcr.toNat)) ∧
    (¬ pcr < stc → ∃ u : UInt64, subU64 p pcr stc = .ok u ∧ Ts.asI64 u = signed64 (rawDistance stc.toNat pcr.toNat)) := by
  have hm := PCR_MAX_toNat
  have h1 := pcr.toNat_lt
  have h2 := stc.toNat_lt
  generalize Ts.PCR_MAX = M at *
  have hp : pcrPeriod - 1 = M.toNat := by rw [hm]
  constructor
  · intro hlt
    have h' : ¬ stc.toNat ≤ pcr.toNat := by have : pcr.toNat < stc.toNat := hlt; omega
    refine ⟨pcr + M, pcr + M - stc, ?_, ?_, ?_⟩
    · rcases h with rfl | h
      · exact addU64_release _ _
      · simp only [hlt, true_and, not_or] at h
        rw [addU64, if_pos (by omega)]
    · rcases h with rfl | h
      · exact subU64_release _ _
      · simp only [hlt, true_and, not_or, rawDistance, h', if_false] at h
        have : (pcr + M).toNat = pcr.toNat + M.toNat := by rw [UInt64.toNat_add, Nat.mod_eq_of_lt (by omega)]
        rw [subU64, if_pos (by omega)]
    · rw [asI64_eq, rawDistance, if_neg h', ← signed64_mod (_ - _), UInt64.toNat_sub, UInt64.toNat_add, hp]
      refine congrArg _ ?_
      omega
  · intro hlt
    have h' : stc.toNat ≤ pcr.toNat := by have : ¬ pcr.toNat < stc.toNat := hlt; omega
    refine ⟨pcr - stc, by rw [subU64, if_pos h'], ?_⟩
    rw [asI64_eq, rawDistance, if_pos h', ← signed64_mod (_ - _), UInt64.toNat_sub]
    refine congrArg _ ?_
    omega

theorem jitter_eq (p : Profile) (pcr stc : UInt64)
    (h : p = .release ∨ ¬ (pcr < stc ∧ (2 ^ 64 ≤ pcr.toNat + (pcrPeriod - 1) ∨ rawDistance stc.toNat pcr.toNat < 0))) :
    Ts.pcrJitterNs p pcr stc = (do
      let x ← Ts.i64 p (signedDistance stc.toNat pcr.toNat * 1000)
      pure (x.tdiv 27)) := by
  have hc : Ts.asI64 Ts.PCR_SYSTEM_CLOCK = 27000000 := by decide +kernel
  have hm' : Ts.asI64 Ts.PCR_MAX = ((pcrPeriod - 1 : Nat) : Int) := by decide +kernel
  have hu : Ts.asI64 Ts.PCR_CLOCK_US = 27 := by decide +kernel
  have hr := signed64_range (rawDistance stc.toNat pcr.toNat)
  have hsub : 27000000 < signed64 (rawDistance stc.toNat pcr.toNat) → Ts.i64 p (signed64 (rawDistance stc.toNat pcr.toNat) - ((pcrPeriod - 1 : Nat) : Int)) =
      .ok (signed64 (signed64 (rawDistance stc.toNat pcr.toNat) - ((pcrPeriod - 1 : Nat) : Int))) := by
    intro hd
    have hin : -(2 ^ 63) ≤ signed64 (rawDistance stc.toNat pcr.toNat) - ((pcrPeriod - 1 : Nat) : Int) ∧
        signed64 (rawDistance stc.toNat pcr.toNat) - ((pcrPeriod - 1 : Nat) : Int) < 2 ^ 63 := by
      unfold pcrPeriod
      omega
    rw [i64_id p hin, ← i64_id .release hin, i64_release]
  obtain ⟨d1, d2⟩ := distance_ok p pcr stc h
  unfold Ts.pcrJitterNs signedDistance
  by_cases hlt : pcr < stc
  · obtain ⟨x, u, e1, e2, e3⟩ := d1 hlt
    simp only [hlt, if_true, e1, e2, ok_bind, e3, hc, hm', hu, gt_iff_lt]
    by_cases hd : 27000000 < signed64 (rawDistance stc.toNat pcr.toNat)
    · simp only [hd, if_true, hsub hd, ok_bind]
    · simp only [hd, if_false, pure_eq_ok, ok_bind]
  · obtain ⟨u, e2, e3⟩ := d2 hlt
    simp only [hlt, if_false, e2, ok_bind, e3, hc, hm', hu, gt_iff_lt]
    by_cases hd : 27000000 < signed64 (rawDistance stc.toNat pcr.toNat)
    · simp only [hd, if_true, hsub hd, ok_bind]
    · simp only [hd, if_false, pure_eq_ok, ok_bind]

/-- C93: `pcr_jitter_ns` never panics in a release build; all steps are taken modulo `2^64`. -/
theorem C93_jitter_release (pcr stc : UInt64) :
    Ts.pcrJitterNs .release pcr stc = .ok ((signed64 (signedDistance stc.toNat pcr.toNat * 1000)).tdiv 27) := by
  rw [jitter_eq .release pcr stc (.inl rfl), i64_release]; rfl

/-- C93: in a debug build it panics exactly when the distance cannot be formed or a thousand times the distance does not fit 64 bits. -/
theorem C93_jitter_debug (pcr stc : UInt64) :
    (Ts.pcrJitterNs .debug pcr stc = panic ↔
      (pcr < stc ∧ (2 ^ 64 ≤ pcr.toNat + (pcrPeriod - 1) ∨ rawDistance stc.toNat pcr.toNat < 0)) ∨
      signedDistance stc.toNat pcr.toNat * 1000 < -(2 ^ 63) ∨ 2 ^ 63 ≤ signedDistance stc.toNat pcr.toNat * 1000) ∧
    (Ts.pcrJitterNs .debug pcr stc ≠ panic → Ts.pcrJitterNs .debug pcr stc = Ts.pcrJitterNs .release pcr stc) := by
  by_cases h : pcr < stc ∧ (2 ^ 64 ≤ pcr.toNat + (pcrPeriod - 1) ∨ rawDistance stc.toNat pcr.toNat < 0)
  · have hp : Ts.pcrJitterNs .debug pcr stc = panic := by
      obtain ⟨hlt, h⟩ := h
      have hm := PCR_MAX_toNat
      have hp : pcrPeriod - 1 = Ts.PCR_MAX.toNat := by rw [hm]
      have h' : ¬ stc.toNat ≤ pcr.toNat := by have : pcr.toNat < stc.toNat := hlt; omega
      unfold Ts.pcrJitterNs
      by_cases ha : pcr.toNat + Ts.PCR_MAX.toNat < 2 ^ 64
      · have hs : (pcr + Ts.PCR_MAX).toNat = pcr.toNat + Ts.PCR_MAX.toNat := by rw [UInt64.toNat_add, Nat.mod_eq_of_lt ha]
        rw [rawDistance, if_neg h', hp] at h
        have hb : ¬ stc.toNat ≤ pcr.toNat + Ts.PCR_MAX.toNat := by omega
        simp only [hlt, if_true, addU64, ha, ok_bind, subU64, hs, hb, if_false, Profile.overflow, error_bind]
      · simp only [hlt, if_true, addU64, ha, if_false, Profile.overflow, error_bind]
    exact ⟨⟨fun _ => .inl h, fun _ => hp⟩, fun hn => absurd hp hn⟩
  · rw [C93_jitter_release, jitter_eq .debug pcr stc (.inr h)]
    by_cases hr : -(2 ^ 63) ≤ signedDistance stc.toNat pcr.toNat * 1000 ∧ signedDistance stc.toNat pcr.toNat * 1000 < 2 ^ 63
    · rw [i64_id .debug hr, ok_bind]
      have e : signed64 (signedDistance stc.toNat pcr.toNat * 1000) = signedDistance stc.toNat pcr.toNat * 1000 := by
        have := i64_release (signedDistance stc.toNat pcr.toNat * 1000)
        rw [i64_id .release hr] at this
        exact (Except.ok.inj this).symm
      rw [e]
      refine ⟨⟨fun hc => (by cases hc), ?_⟩, fun _ => rfl⟩
      rintro (hc | hc)
      · exact absurd hc h
      · omega
    · rw [i64_debug, if_neg hr]
      refine ⟨⟨fun _ => .inr ?_, fun _ => rfl⟩, fun hn => absurd rfl hn⟩
      omega

/-- C93: for clock values, however far apart, `pcr_jitter_ns` never panics: the distance is taken modulo one tick less than the
period, and counts as negative from one second on. -/
theorem C93_jitter_in_range (p : Profile) (pcr stc : UInt64) (hp : pcr.toNat < pcrPeriod) (hs : stc.toNat < pcrPeriod) :
    Ts.pcrJitterNs p pcr stc =
      .ok (((if 27000000 < rawDistance stc.toNat pcr.toNat then rawDistance stc.toNat pcr.toNat - (pcrPeriod - 1 : Nat)
        else rawDistance stc.toNat pcr.toNat) * 1000).tdiv 27) := by
  have hd : 0 ≤ rawDistance stc.toNat pcr.toNat ∧ rawDistance stc.toNat pcr.toNat < pcrPeriod := by
    unfold rawDistance
    unfold pcrPeriod at *
    split <;> omega
  have he : ∀ x : Int, -(2 ^ 63) ≤ x → x < 2 ^ 63 → signed64 x = x := by
    intro x h1 h2
    have := i64_release x
    rw [i64_id .release ⟨h1, h2⟩] at this
    exact (Except.ok.inj this).symm
  have hp2 : (pcrPeriod : Int) = 2576980377600 := rfl
  have hp3 : ((pcrPeriod - 1 : Nat) : Int) = 2576980377599 := rfl
  rw [jitter_eq p pcr stc (.inr (by rintro ⟨-, h | h⟩ <;> (unfold pcrPeriod at *; omega)))]
  have e : signedDistance stc.toNat pcr.toNat = if 27000000 < rawDistance stc.toNat pcr.toNat then rawDistance stc.toNat pcr.toNat - (pcrPeriod - 1 : Nat)
        else rawDistance stc.toNat pcr.toNat := by
    unfold signedDistance
    rw [he _ (by omega) (by omega)]
    simp only []
    split
    · rw [he _ (by omega) (by omega)]
    · rfl
  rw [← e, i64_id p (by rw [e]; split <;> omega)]
  rfl

/-- Concrete cases: a panic of a debug build; wrapped results of a release build; clock values half a period apart. -/
example : Ts.pcrDelta .debug (2 ^ 63) 5 = panic := by decide +kernel
example : Ts.pcrJitterNs .debug (2 ^ 62) 0 = panic := by decide +kernel
example : Ts.pcrJitterNs .release (2 ^ 62) 0 = .ok (-95443717688851) := by decide +kernel
example : Ts.pcrJitterNs .debug 1288490188800 0 = .ok (-47721858844407) := by decide +kernel

end Mpegts
