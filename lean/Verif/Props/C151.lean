import Verif.Spec.Rate
import Verif.Props.C147
import Mathlib.Tactic.Ring

/-! # C151: measuring the bit rate of a stream

A stream of `bytes` bytes in `ticks` ticks of 27 MHz has `216000 * bytes / ticks` kbit/s. -/

namespace Mpegts
open Spec

theorem pcr_step (p : Profile) (a b : Nat) (hab : a ≤ b) (hb : b < a + pcrPeriod) :
    ∃ d, Ts.pcrDelta p (pcrAt a) (pcrAt b) = .ok d ∧ d.toNat + restarts pcrPeriod a b = b - a :=
  step_eq (Ts.pcrDelta p) pcrPeriod (by decide) pcrPeriod_lt (fun l c h => C08_pcr_delta_partial p l c h)
    (fun l c h h' => C08_pcr_delta_wrap_refuted p l c h h') a b hab hb

theorem restarts_le (a b : Nat) (hb : b < a + pcrPeriod) : restarts pcrPeriod a b ≤ 1 := by
  have hp0 : 0 < pcrPeriod := by decide
  have ea := Nat.div_add_mod a pcrPeriod
  have la := Nat.mod_lt a hp0
  have : b / pcrPeriod < a / pcrPeriod + 2 := by
    rw [Nat.div_lt_iff_lt_mul hp0, Nat.add_mul, Nat.mul_comm]; omega
  unfold restarts
  omega

/-- C151, the part that holds: on a stream of constant rate, whatever the rate and wherever the two PCRs are, if more than a millisecond passes
between them (and less than a day), the measured rate is too high by not more than one part in as many as there are whole milliseconds between
the PCRs, and too low by less than 1 kbit/s; both up to the rounding of the PCRs to whole ticks.  It does not matter that a tick is lost when
the clock starts again.  (Full property: for any two PCRs; false, see `C151_short_refuted`.) -/
theorem C151_rate_partial (p : Profile) (t₀ ticks bytes x₀ x₁ : Nat) (hb : 0 < bytes) (hx : x₀ ≤ x₁) (hn : 8 * (x₁ - x₀) < 2 ^ 64)
    (hlong : passes t₀ ticks bytes x₀ + 27001 ≤ passes t₀ ticks bytes x₁)
    (hday : passes t₀ ticks bytes x₁ < passes t₀ ticks bytes x₀ + pcrPeriod) :
    ∃ rate, measureRate p (pcrAt (passes t₀ ticks bytes x₀)) (pcrAt (passes t₀ ticks bytes x₁)) (UInt64.ofNat (x₁ - x₀)) = .ok rate ∧
      216000 * bytes * (x₁ - x₀) < (rate.toNat + 1) * ((x₁ - x₀) * ticks + bytes) ∧
      ∀ ms, ms = (passes t₀ ticks bytes x₁ - passes t₀ ticks bytes x₀ - 1) / 27000 →
        0 < ms ∧ rate.toNat * ms * ticks < 216000 * bytes * (ms + 1) + 8 * bytes := by
  generalize ha' : passes t₀ ticks bytes x₀ = a at *
  generalize hb' : passes t₀ ticks bytes x₁ = b at *
  obtain ⟨d, hd1, hd2⟩ := pcr_step p a b (by omega) hday
  have hr := restarts_le a b hday
  have hd : 27000 ≤ d.toNat := by omega
  have hu : (UInt64.ofNat (x₁ - x₀)).toNat = x₁ - x₀ := by simp; omega
  obtain ⟨rate, hr1, hr2⟩ := C11_bitrate p d (UInt64.ofNat (x₁ - x₀)) hd (by rw [hu]; omega)
  rw [hu] at hr2
  refine ⟨rate, by rw [measureRate, hd1, ok_bind, hr1], ?_, ?_⟩
  all_goals
    have f0 := Nat.div_add_mod (x₀ * ticks) bytes
    have g0 := Nat.mod_lt (x₀ * ticks) hb
    have f1 := Nat.div_add_mod (x₁ * ticks) bytes
    have g1 := Nat.mod_lt (x₁ * ticks) hb
    have e0 : a = t₀ + x₀ * ticks / bytes := ha'.symm
    have e1 : b = t₀ + x₁ * ticks / bytes := hb'.symm
    generalize x₀ * ticks % bytes = r₀ at *
    generalize x₁ * ticks % bytes = r₁ at *
    generalize x₀ * ticks / bytes = q₀ at *
    generalize x₁ * ticks / bytes = q₁ at *
    obtain ⟨n, rfl⟩ := Nat.exists_eq_add_of_le hx
    obtain ⟨k, rfl⟩ := Nat.exists_eq_add_of_le (show q₀ ≤ q₁ by omega)
    rw [show x₀ + n - x₀ = n by omega] at *
    rw [Nat.add_mul, Nat.mul_add] at f1
    have hk : b - a = k := by omega
    have up : bytes * k < n * ticks + bytes := by omega
    have lo : n * ticks < bytes * k + bytes := by omega
    rw [hk] at *
  · -- not too low
    have h1 := Nat.lt_mul_div_succ (8 * n) (show 0 < d.toNat / 27000 by omega)
    rw [← hr2] at h1
    have h2 : 27000 * (d.toNat / 27000) ≤ k := by have := Nat.mul_div_le d.toNat 27000; omega
    generalize d.toNat / 27000 = m at *
    calc 216000 * bytes * n = 27000 * bytes * (8 * n) := by ring
      _ < 27000 * bytes * (m * (rate.toNat + 1)) := by
        exact Nat.mul_lt_mul_of_pos_left h1 (by omega)
      _ = (rate.toNat + 1) * (bytes * (27000 * m)) := by ring
      _ ≤ (rate.toNat + 1) * (bytes * k) := Nat.mul_le_mul_left _ (Nat.mul_le_mul_left _ h2)
      _ ≤ (rate.toNat + 1) * (n * ticks + bytes) := Nat.mul_le_mul_left _ (by omega)
  · intro ms hms
    have hms0 : 0 < ms := by omega
    have hle : ms ≤ d.toNat / 27000 := by omega
    refine ⟨hms0, ?_⟩
    have h1 : rate.toNat * ms ≤ 8 * n := by
      rw [hr2]
      calc 8 * n / (d.toNat / 27000) * ms ≤ 8 * n / (d.toNat / 27000) * (d.toNat / 27000) := Nat.mul_le_mul_left _ hle
        _ ≤ 8 * n := Nat.div_mul_le_self _ _
    have h2 : k ≤ 27000 * (ms + 1) := by omega
    calc rate.toNat * ms * ticks ≤ 8 * n * ticks := Nat.mul_le_mul_right _ h1
      _ = 8 * (n * ticks) := by ring
      _ < 8 * (bytes * k + bytes) := by omega
      _ ≤ 8 * (bytes * (27000 * (ms + 1)) + bytes) := by
        have := Nat.mul_le_mul_left bytes h2
        omega
      _ = 216000 * bytes * (ms + 1) + 8 * bytes := by ring

/-- C151 fails for PCRs that follow each other within a millisecond (in consecutive packets, from 1.504 Mbit/s on): the receiver panics, in both
builds. -/
theorem C151_short_refuted (p : Profile) (a b : Nat) (bytes : UInt64) (hab : a ≤ b) (hshort : b < a + 27000) :
    measureRate p (pcrAt a) (pcrAt b) bytes = panic := by
  obtain ⟨d, hd1, hd2⟩ := pcr_step p a b hab (by have : 27000 < pcrPeriod := by decide
                                                 omega)
  rw [measureRate, hd1, ok_bind, C11_bitrate_panics]
  exact .inl (by omega)

/-- The hypotheses are met: a stream of 38.0148 Mbit/s, measured over almost 40 ms at the time when the clock starts again, is taken for one of
38.988 Mbit/s, too high by one part in 39; one of 1.504008 Mbit/s with PCRs in consecutive packets makes the receiver panic. -/
example : let t₀ := pcrPeriod - 500000
    passes t₀ 27000000 4751850 0 + 27001 ≤ passes t₀ 27000000 4751850 190068 ∧ passes t₀ 27000000 4751850 190068 = t₀ + 1079965 ∧
    measureRate .debug (pcrAt t₀) (pcrAt (t₀ + 1079965)) 190068 = .ok 38988 := by decide +kernel
example : passes 0 27000000 188001 188 = 26999 ∧ measureRate .release (pcrAt 0) (pcrAt 26999) 188 = panic := by decide +kernel

end Mpegts
