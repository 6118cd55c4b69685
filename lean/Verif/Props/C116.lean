import Verif.Props.C06_C11
import Verif.Props.C12_C15

/-! # C116: clock arithmetic on arbitrary values -/

namespace Mpegts
open Spec

/-- C116: `pcr_delta` panics only in a debug build, and exactly when the true value of `current + (period - 1)` leaves 64 bits or
is below `last`; a release build computes modulo 2^64. -/
theorem C116_delta (last current : UInt64) :
    (Ts.pcrDelta .debug last current = panic ↔ current.toNat < last.toNat ∧
      (2 ^ 64 ≤ current.toNat + (pcrPeriod - 1) ∨ current.toNat + (pcrPeriod - 1) < last.toNat)) ∧
    (Ts.pcrDelta .debug last current ≠ panic → Ts.pcrDelta .debug last current = Ts.pcrDelta .release last current) ∧
    (∃ d, Ts.pcrDelta .release last current = .ok d ∧
      d.toNat = (if last.toNat ≤ current.toNat then current.toNat - last.toNat
        else (current.toNat + (pcrPeriod - 1) + 2 ^ 64 - last.toNat) % 2 ^ 64)) := by
  have hm := PCR_MAX_toNat
  have hp : pcrPeriod = 2576980377600 := by norm_num [pcrPeriod]
  rw [hp] at hm ⊢
  have l1 := last.toNat_lt
  have l2 := current.toNat_lt
  unfold Ts.pcrDelta
  generalize Ts.PCR_MAX = M at *
  have sub : (current - last).toNat = (2 ^ 64 - last.toNat + current.toNat) % 2 ^ 64 := UInt64.toNat_sub ..
  have sub2 : (current + M - last).toNat = (2 ^ 64 - last.toNat + (current.toNat + M.toNat) % 2 ^ 64) % 2 ^ 64 := by
    rw [UInt64.toNat_sub, UInt64.toNat_add]
  have add : (current + M).toNat = (current.toNat + M.toNat) % 2 ^ 64 := UInt64.toNat_add ..
  simp only [ge_iff_le, UInt64.le_iff_toNat_le, subU64, addU64]
  have okne : ∀ x : UInt64, (Except.ok x : R UInt64) = panic ↔ False := fun x => ⟨fun h => (by cases h), False.elim⟩
  by_cases h : last.toNat ≤ current.toNat
  · simp only [if_pos h, okne, false_iff]
    exact ⟨by omega, fun _ => trivial, _, rfl, by omega⟩
  · simp only [if_neg h]
    by_cases h1 : current.toNat + M.toNat < 2 ^ 64
    · simp only [if_pos h1, ok_bind, add]
      by_cases h2 : last.toNat ≤ (current.toNat + M.toNat) % 2 ^ 64
      · simp only [if_pos h2, okne, false_iff]
        exact ⟨by omega, fun _ => trivial, _, rfl, by omega⟩
      · simp only [if_neg h2, Profile.overflow, true_iff]
        exact ⟨by omega, fun hh => absurd rfl hh, _, rfl, by omega⟩
    · simp only [if_neg h1, Profile.overflow, error_bind, ok_bind, add, true_iff]
      refine ⟨by omega, fun hh => absurd rfl hh, ?_⟩
      split
      · exact ⟨_, rfl, by omega⟩
      · exact ⟨_, rfl, by omega⟩

/-- C116: the same for `pts_delta`: it panics only in a debug build, and exactly when the true value of `current + (period - 1)` leaves 64 bits or
is below `last`; a release build computes modulo 2^64. -/
theorem C116_pts_delta (last current : UInt64) :
    (Pes.ptsDelta .debug last current = panic ↔ current.toNat < last.toNat ∧
      (2 ^ 64 ≤ current.toNat + (ptsPeriod - 1) ∨ current.toNat + (ptsPeriod - 1) < last.toNat)) ∧
    (Pes.ptsDelta .debug last current ≠ panic → Pes.ptsDelta .debug last current = Pes.ptsDelta .release last current) ∧
    (∃ d, Pes.ptsDelta .release last current = .ok d ∧
      d.toNat = (if last.toNat ≤ current.toNat then current.toNat - last.toNat
        else (current.toNat + (ptsPeriod - 1) + 2 ^ 64 - last.toNat) % 2 ^ 64)) := by
  have hm := PTS_MAX_toNat
  have hp : ptsPeriod = 8589934592 := by norm_num [ptsPeriod]
  rw [hp] at hm ⊢
  have l1 := last.toNat_lt
  have l2 := current.toNat_lt
  unfold Pes.ptsDelta
  generalize Pes.PTS_MAX = M at *
  have sub : (current - last).toNat = (2 ^ 64 - last.toNat + current.toNat) % 2 ^ 64 := UInt64.toNat_sub ..
  have sub2 : (current + M - last).toNat = (2 ^ 64 - last.toNat + (current.toNat + M.toNat) % 2 ^ 64) % 2 ^ 64 := by
    rw [UInt64.toNat_sub, UInt64.toNat_add]
  have add : (current + M).toNat = (current.toNat + M.toNat) % 2 ^ 64 := UInt64.toNat_add ..
  simp only [ge_iff_le, UInt64.le_iff_toNat_le, subU64, addU64]
  have okne : ∀ x : UInt64, (Except.ok x : R UInt64) = panic ↔ False := fun x => ⟨fun h => (by cases h), False.elim⟩
  by_cases h : last.toNat ≤ current.toNat
  · simp only [if_pos h, okne, false_iff]
    exact ⟨by omega, fun _ => trivial, _, rfl, by omega⟩
  · simp only [if_neg h]
    by_cases h1 : current.toNat + M.toNat < 2 ^ 64
    · simp only [if_pos h1, ok_bind, add]
      by_cases h2 : last.toNat ≤ (current.toNat + M.toNat) % 2 ^ 64
      · simp only [if_pos h2, okne, false_iff]
        exact ⟨by omega, fun _ => trivial, _, rfl, by omega⟩
      · simp only [if_neg h2, Profile.overflow, true_iff]
        exact ⟨by omega, fun hh => absurd rfl hh, _, rfl, by omega⟩
    · simp only [if_neg h1, Profile.overflow, error_bind, ok_bind, add, true_iff]
      refine ⟨by omega, fun hh => absurd rfl hh, ?_⟩
      split
      · exact ⟨_, rfl, by omega⟩
      · exact ⟨_, rfl, by omega⟩

/-- C116: what a release build makes of `pcr_to_stc` and `pcr_delta_bitrate` when a product or sum leaves 64 bits: the product and
the sum are taken modulo 2^64, so that the result is wrong without a sign of it. -/
theorem C116_release (lastPcr bytes lastDelta lastBytes delta : UInt64) :
    (lastBytes ≠ 0 → ∃ s, Ts.pcrToStc .release lastPcr bytes lastDelta lastBytes = .ok s ∧
      s.toNat = (lastDelta.toNat * bytes.toNat % 2 ^ 64 / lastBytes.toNat + lastPcr.toNat) % 2 ^ 64) ∧
    (27000 ≤ delta.toNat → ∃ r, Ts.pcrDeltaBitrate .release delta bytes = .ok r ∧
      r.toNat = 8 * bytes.toNat % 2 ^ 64 / (delta.toNat / 27000)) := by
  have mul : ∀ a b : UInt64, mulU64 .release a b = .ok (a * b) := by
    intro a b; unfold mulU64; split <;> rfl
  have add : ∀ a b : UInt64, addU64 .release a b = .ok (a + b) := by
    intro a b; unfold addU64; split <;> rfl
  constructor
  · intro h0
    refine ⟨_, by simp only [Ts.pcrToStc, mul, ok_bind, divU64, h0, if_false, add]; rfl, ?_⟩
    rw [UInt64.toNat_add, UInt64.toNat_div, UInt64.toNat_mul]
  · intro hd
    have hms := (C11_units delta).2.1
    have hne : Ts.pcrToMs delta ≠ 0 := by
      intro e
      rw [e] at hms
      have : 1 ≤ delta.toNat / 27000 := (Nat.le_div_iff_mul_le (by decide)).2 (by omega)
      have z : (0 : UInt64).toNat = 0 := rfl
      omega
    refine ⟨_, by simp only [Ts.pcrDeltaBitrate, mul, ok_bind, divU64, hne, if_false]; rfl, ?_⟩
    rw [UInt64.toNat_div, UInt64.toNat_mul, hms]
    congr 2
    exact Nat.mul_comm ..

/-- C116: the jitter of clock values more than a second apart.  A PCR behind the STC by any distance (up to a second short of the
period) is reported exactly; a PCR more than a second ahead is reported as more than 26 hours behind, up to one tick of the wrap. -/
theorem C116_jitter (p : Profile) (pcr stc : UInt64) (hp : pcr.toNat < pcrPeriod) (hs : stc.toNat < pcrPeriod) :
    (pcr.toNat < stc.toNat → stc.toNat + 27000001 < pcr.toNat + pcrPeriod →
      Ts.pcrJitterNs p pcr stc = .ok ((((pcr.toNat : Int) - stc.toNat) * 1000).tdiv 27)) ∧
    (stc.toNat + 27000000 < pcr.toNat →
      Ts.pcrJitterNs p pcr stc = .ok ((((pcr.toNat : Int) - stc.toNat - (pcrPeriod - 1 : Nat)) * 1000).tdiv 27)) ∧
    (stc.toNat + 27000001 = pcr.toNat + pcrPeriod → Ts.pcrJitterNs p pcr stc = .ok 1000000000) := by
  have hc : Ts.asI64 Ts.PCR_SYSTEM_CLOCK = 27000000 := by decide +kernel
  have hm' : Ts.asI64 Ts.PCR_MAX = (pcrPeriod : Int) - 1 := by decide +kernel
  have hu : Ts.asI64 Ts.PCR_CLOCK_US = 27 := by decide +kernel
  have hm := PCR_MAX_toNat
  unfold Ts.pcrJitterNs
  generalize Ts.PCR_MAX = M at *
  rw [show pcrPeriod = 2576980377600 from by norm_num [pcrPeriod]] at *
  refine ⟨fun hlt' h => ?_, fun h => ?_, fun h => ?_⟩
  · have hlt : pcr < stc := hlt'
    obtain ⟨a1, a2⟩ := addU64_ok (a := pcr) (b := M) p (by omega)
    obtain ⟨s1, s2⟩ := subU64_ok (a := pcr + M) (b := stc) p (by omega)
    have hi : Ts.asI64 (pcr + M - stc) = (pcr.toNat : Int) + (2576980377600 - 1) - stc.toNat := by
      unfold Ts.asI64; rw [if_pos (by omega)]; omega
    simp only [hlt, if_true, a1, ok_bind, s1, hi, hc, hm', hu]
    rw [if_pos (by omega)]
    have e1 : (pcr.toNat : Int) + (2576980377600 - 1) - stc.toNat - (((2576980377600 : Nat) : Int) - 1) =
      (pcr.toNat : Int) - stc.toNat := by omega
    rw [e1]
    simp only [Ts.i64]
    rw [if_pos (by omega), ok_bind, if_pos (by omega), ok_bind, pure_eq_ok]
  · have hlt : ¬ pcr < stc := by rw [UInt64.lt_iff_toNat_lt]; omega
    obtain ⟨s1, s2⟩ := subU64_ok (a := pcr) (b := stc) p (by omega)
    have hi : Ts.asI64 (pcr - stc) = (pcr.toNat : Int) - stc.toNat := by
      unfold Ts.asI64; rw [if_pos (by omega)]; omega
    simp only [hlt, if_false, ok_bind, s1, hi, hc, hm', hu]
    rw [if_pos (by omega)]
    have e1 : (pcr.toNat : Int) - stc.toNat - (((2576980377600 : Nat) : Int) - 1) =
      (pcr.toNat : Int) - stc.toNat - ((2576980377600 - 1 : Nat) : Int) := by omega
    rw [e1]
    simp only [Ts.i64]
    rw [if_pos (by omega), ok_bind, if_pos (by omega), ok_bind, pure_eq_ok]
  · have hlt : pcr < stc := by rw [UInt64.lt_iff_toNat_lt]; omega
    obtain ⟨a1, a2⟩ := addU64_ok (a := pcr) (b := M) p (by omega)
    obtain ⟨s1, s2⟩ := subU64_ok (a := pcr + M) (b := stc) p (by omega)
    have hi : Ts.asI64 (pcr + M - stc) = 27000000 := by
      unfold Ts.asI64; rw [if_pos (by omega)]; omega
    simp only [hlt, if_true, a1, ok_bind, s1, hi, hc, hu]
    rw [if_neg (by omega)]
    rfl

/-- Two seconds ahead: reported as about 26.5 hours behind. -/
example : Ts.pcrJitterNs .debug 54000000 0 = .ok (-95441717688851) := by decide +kernel

example : Ts.pcrDelta .debug 0xFFFFFFFFFFFFFFFF 0 = panic := by decide +kernel

end Mpegts
