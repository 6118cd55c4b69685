import Verif.Lemmas.Clock
import Verif.Props.C02_C05

/-! # C06-C11: program clock reference -/

namespace Mpegts
open Spec

/-- C06: `set_pcr` writes exactly bytes 6..11, the 48-bit PCR field with reserved bits set. -/
theorem C06_set_pcr (packet : List UInt8) (pcr : UInt64) (hl : 12 ≤ packet.length) :
    Ts.setPcr packet pcr =
      .ok (packet.take 6 ++ pcrField (pcr.toNat / 300) 0x3F (pcr.toNat % 300) ++ packet.drop 12) :=
  setPcr_eq packet pcr hl

/-- C06: `get_pcr` of any field is `base * 300 + extension`, whatever the reserved bits. -/
theorem C06_get_pcr (pre rest : List UInt8) (base reserved ext : Nat) (hpre : pre.length = 6)
    (hb : base < 2 ^ 33) (hr : reserved < 2 ^ 6) (he : ext < 2 ^ 9) :
    ∃ v, Ts.getPcr (pre ++ pcrField base reserved ext ++ rest) = .ok v ∧ v.toNat = base * 300 + ext := by
  obtain ⟨v, h1, h2⟩ := getPcr_eq (pre ++ pcrField base reserved ext ++ rest) (by simp [hpre, pcrField]; omega)
  refine ⟨v, h1, ?_⟩
  have : ((pre ++ pcrField base reserved ext ++ rest).drop 6).take 6 = pcrField base reserved ext := by
    rw [List.append_assoc, List.drop_left' hpre, List.take_left' (by simp [pcrField])]
  rw [h2, this, pcrField, beNat_beBytes]
  have a1 : (base * 2 ^ 15 + reserved * 2 ^ 9 + ext) % 256 ^ 6 / 2 ^ 15 = base := by omega
  have a2 : (base * 2 ^ 15 + reserved * 2 ^ 9 + ext) % 256 ^ 6 % 2 ^ 9 = ext := by omega
  rw [a1, a2]

/-- C06: reading back a written PCR gives it, for every value below the clock period. -/
theorem C06_round_trip (packet : List UInt8) (pcr : UInt64) (hl : 12 ≤ packet.length)
    (hp : pcr.toNat < pcrPeriod) : (do Ts.getPcr (← Ts.setPcr packet pcr)) = .ok pcr := by
  rw [C06_set_pcr packet pcr hl, ok_bind]
  unfold pcrPeriod at hp
  obtain ⟨v, h1, h2⟩ := C06_get_pcr (packet.take 6) (packet.drop 12) (pcr.toNat / 300) 0x3F (pcr.toNat % 300)
    (by simp; omega) (by omega) (by omega) (by omega)
  rw [h1]
  congr 1
  apply UInt64.toNat_inj.1
  omega

/-- C06: out of range values are stored modulo the clock period. -/
theorem C06_round_trip_mod (packet : List UInt8) (pcr : UInt64) (hl : 12 ≤ packet.length) :
    ∃ v, (do Ts.getPcr (← Ts.setPcr packet pcr)) = .ok v ∧ v.toNat = pcr.toNat % pcrPeriod := by
  rw [C06_set_pcr packet pcr hl, ok_bind]
  have hf : pcrField (pcr.toNat / 300) 0x3F (pcr.toNat % 300) =
      pcrField (pcr.toNat / 300 % 2 ^ 33) 0x3F (pcr.toNat % 300) := by
    unfold pcrField
    rw [← beBytes_mod 6 (pcr.toNat / 300 * 2 ^ 15 + 63 * 2 ^ 9 + pcr.toNat % 300) (256 ^ 6) (Nat.dvd_refl _),
      ← beBytes_mod 6 (pcr.toNat / 300 % 2 ^ 33 * 2 ^ 15 + 63 * 2 ^ 9 + pcr.toNat % 300) (256 ^ 6) (Nat.dvd_refl _)]
    refine congrArg (beBytes 6) ?_
    generalize pcr.toNat / 300 = x; generalize pcr.toNat % 300 = y
    omega
  rw [hf]
  obtain ⟨v, h1, h2⟩ := C06_get_pcr (packet.take 6) (packet.drop 12) (pcr.toNat / 300 % 2 ^ 33) 0x3F (pcr.toNat % 300)
    (by simp; omega) (by omega) (by omega) (by omega)
  refine ⟨v, h1, ?_⟩
  rw [h2, pcrPeriod]
  omega

/-- C06: a packet too short for the field panics. -/
theorem C06_short (packet : List UInt8) (pcr : UInt64) (hl : packet.length < 12) :
    Ts.getPcr packet = panic ∧ Ts.setPcr packet pcr = panic := by
  match packet, hl with
  | [], _ => exact ⟨rfl, rfl⟩
  | [_], _ => exact ⟨rfl, rfl⟩
  | [_, _], _ => exact ⟨rfl, rfl⟩
  | [_, _, _], _ => exact ⟨rfl, rfl⟩
  | [_, _, _, _], _ => exact ⟨rfl, rfl⟩
  | [_, _, _, _, _], _ => exact ⟨rfl, rfl⟩
  | [_, _, _, _, _, _], _ => exact ⟨rfl, rfl⟩
  | [_, _, _, _, _, _, _], _ => exact ⟨rfl, rfl⟩
  | [_, _, _, _, _, _, _, _], _ => exact ⟨rfl, rfl⟩
  | [_, _, _, _, _, _, _, _, _], _ => exact ⟨rfl, rfl⟩
  | [_, _, _, _, _, _, _, _, _, _], _ => exact ⟨rfl, rfl⟩
  | [_, _, _, _, _, _, _, _, _, _, _], _ => exact ⟨rfl, rfl⟩

/-- C07: `is_pcr` is "adaptation field present, at least 7 bytes long, PCR flag (bit 4 of its first byte)
set". -/
theorem C07_is_pcr (h : Header) (hv : h.Valid) (len flags : UInt8) (rest : List UInt8) :
    Ts.isPcr (h.encode ++ len :: flags :: rest) =
      .ok (h.adaptation && decide (7 ≤ len.toNat) && decide (flags.toNat / 2 ^ 4 % 2 = 1)) := by
  have ha := (C04_header_fields h hv (len :: flags :: rest)).2.2.2.2.2.1
  have hl : Ts.getAdaptationSize (h.encode ++ len :: flags :: rest) = .ok len := by
    rw [header_encode hv]; rfl
  have hf : idx (h.encode ++ len :: flags :: rest) 5 = .ok flags := by
    rw [header_encode hv]; rfl
  have h7 : (len ≥ 7) = (7 ≤ len.toNat) := rfl
  simp only [Ts.isPcr, ha, hl, hf, ok_bind, mask10, pure_eq_ok, h7, Nat.reducePow]
  cases h.adaptation <;> by_cases h7 : 7 ≤ len.toNat <;> simp [h7]

/-- C07: short packets: without adaptation flag byte 4 is not needed; with it, bytes 4 and (if the length is at
least 7) 5 are, and the call panics without them. -/
theorem C07_is_pcr_short (h : Header) (hv : h.Valid) (len : UInt8) :
    Ts.isPcr h.encode = (if h.adaptation then panic else .ok false) ∧
    Ts.isPcr (h.encode ++ [len]) = (if h.adaptation ∧ 7 ≤ len.toNat then panic else .ok false) := by
  have ha := (C04_header_fields h hv []).2.2.2.2.2.1
  have ha' := (C04_header_fields h hv [len]).2.2.2.2.2.1
  rw [List.append_nil] at ha
  have hl : Ts.getAdaptationSize h.encode = panic := by rw [header_encode hv]; rfl
  have hl' : Ts.getAdaptationSize (h.encode ++ [len]) = .ok len := by rw [header_encode hv]; rfl
  have hf : idx (h.encode ++ [len]) 5 = panic := by rw [header_encode hv]; rfl
  have h7 : (len ≥ 7) = (7 ≤ len.toNat) := rfl
  simp only [Ts.isPcr, ha, ha', hl, hl', hf, ok_bind, pure_eq_ok, h7]
  cases h.adaptation <;> by_cases h7 : 7 ≤ len.toNat <;> simp [h7]

theorem PCR_MAX_toNat : Ts.PCR_MAX.toNat = pcrPeriod - 1 := rfl

/-- C08, the part that holds: without wrap the difference is exact, in both profiles.  (Full property: for all
`last`, `current` below the period the result is `(current - last) mod pcrPeriod`; missing: the wrap.) -/
theorem C08_pcr_delta_partial (p : Profile) (last current : UInt64) (h : last ≤ current) :
    ∃ d, Ts.pcrDelta p last current = .ok d ∧ last.toNat + d.toNat = current.toNat := by
  have h' : last.toNat ≤ current.toNat := h
  obtain ⟨h1, h2⟩ := subU64_ok p h'
  refine ⟨_, by simp only [Ts.pcrDelta, ge_iff_le, h, if_true, h1]; rfl, by rw [h2]; omega⟩

/-- C08 fails on every wrap: the result is one tick less than the true distance
`current + pcrPeriod - last`. -/
theorem C08_pcr_delta_wrap_refuted (p : Profile) (last current : UInt64) (h : current < last)
    (hl : last.toNat < pcrPeriod) :
    ∃ d, Ts.pcrDelta p last current = .ok d ∧ d.toNat + 1 = current.toNat + pcrPeriod - last.toNat := by
  have h' : current.toNat < last.toNat := h
  have hn : ¬ last ≤ current := by simpa using h
  have hm := PCR_MAX_toNat
  unfold pcrPeriod at *
  obtain ⟨a1, a2⟩ := addU64_ok (a := current) (b := Ts.PCR_MAX) p (by omega)
  obtain ⟨s1, s2⟩ := subU64_ok (a := current + Ts.PCR_MAX) (b := last) p (by omega)
  refine ⟨_, by simp only [Ts.pcrDelta, ge_iff_le, hn, if_false, a1, ok_bind, s1]; rfl, by rw [s2]; omega⟩

example : Ts.pcrDelta .debug (Ts.PCR_NONE - 1) 0 = .ok 0 := by decide +kernel

/-- C09: `pcr_to_stc` is `last_pcr + ⌊last_delta * bytes / last_bytes⌋` whenever everything fits 64 bits. -/
theorem C09_pcr_to_stc (p : Profile) (lastPcr bytes lastDelta lastBytes : UInt64) (h0 : lastBytes ≠ 0)
    (h1 : lastDelta.toNat * bytes.toNat < 2 ^ 64)
    (h2 : lastDelta.toNat * bytes.toNat / lastBytes.toNat + lastPcr.toNat < 2 ^ 64) :
    ∃ s, Ts.pcrToStc p lastPcr bytes lastDelta lastBytes = .ok s ∧
      s.toNat = lastPcr.toNat + lastDelta.toNat * bytes.toNat / lastBytes.toNat := by
  obtain ⟨m1, m2⟩ := mulU64_ok p h1
  have hd : (lastDelta * bytes / lastBytes).toNat = lastDelta.toNat * bytes.toNat / lastBytes.toNat := by
    rw [UInt64.toNat_div, m2]
  obtain ⟨a1, a2⟩ := addU64_ok (a := lastDelta * bytes / lastBytes) (b := lastPcr) p (by rw [hd]; exact h2)
  refine ⟨_, by simp only [Ts.pcrToStc, m1, ok_bind, divU64, h0, if_false, a1]; rfl, by rw [a2, hd]; omega⟩

/-- C09: it panics exactly when `last_bytes` is 0 or, in a debug build, the product or the sum overflows. -/
theorem C09_panics (p : Profile) (lastPcr bytes lastDelta lastBytes : UInt64) :
    Ts.pcrToStc p lastPcr bytes lastDelta lastBytes = panic ↔
      lastBytes = 0 ∨ (p = .debug ∧ (2 ^ 64 ≤ lastDelta.toNat * bytes.toNat ∨
        2 ^ 64 ≤ lastDelta.toNat * bytes.toNat / lastBytes.toNat + lastPcr.toNat)) := by
  by_cases h0 : lastBytes = 0
  · subst h0
    simp only [true_or, iff_true]
    by_cases h1 : lastDelta.toNat * bytes.toNat < 2 ^ 64
    · simp only [Ts.pcrToStc, (mulU64_ok p h1).1, ok_bind, divU64, if_true, error_bind]
    · cases p <;> simp only [Ts.pcrToStc, mulU64, h1, if_false, Profile.overflow, ok_bind, divU64, if_true, error_bind]
  · by_cases h1 : lastDelta.toNat * bytes.toNat < 2 ^ 64
    · by_cases h2 : lastDelta.toNat * bytes.toNat / lastBytes.toNat + lastPcr.toNat < 2 ^ 64
      · obtain ⟨s, hs, _⟩ := C09_pcr_to_stc p lastPcr bytes lastDelta lastBytes h0 h1 h2
        rw [hs]
        simp only [h0, false_or, reduceCtorEq, false_iff, not_and, not_or, Nat.not_le]
        exact fun _ => ⟨h1, h2⟩
      · obtain ⟨m1, m2⟩ := mulU64_ok p h1
        have hd : (lastDelta * bytes / lastBytes).toNat = lastDelta.toNat * bytes.toNat / lastBytes.toNat := by
          rw [UInt64.toNat_div, m2]
        simp only [Ts.pcrToStc, m1, ok_bind, divU64, h0, if_false, addU64, hd, h2]
        cases p <;> simp [Profile.overflow]
        right; omega
    · cases p with
      | debug =>
        simp only [Ts.pcrToStc, mulU64, h1, if_false, Profile.overflow, error_bind, true_iff]
        exact Or.inr ⟨trivial, Or.inl (by omega)⟩
      | release =>
        simp only [Ts.pcrToStc, mulU64, h1, if_false, Profile.overflow, ok_bind, divU64, h0, addU64]
        simp only [false_or, reduceCtorEq, false_and, iff_false]
        split <;> simp

/-- C10, the part that holds: when the clocks differ by at most one second and the 33-bit clock does not wrap
between them, the result is the signed difference in nanoseconds, truncated toward zero.  (Full property: also
across the wrap.) -/
theorem C10_jitter_partial (p : Profile) (pcr stc : UInt64) (hp : pcr.toNat < pcrPeriod) (hs : stc.toNat < pcrPeriod)
    (h1 : pcr.toNat ≤ stc.toNat + 27000000) (h2 : stc.toNat ≤ pcr.toNat + 27000000) :
    Ts.pcrJitterNs p pcr stc = .ok ((((pcr.toNat : Int) - stc.toNat) * 1000).tdiv 27) := by
  have hc : Ts.asI64 Ts.PCR_SYSTEM_CLOCK = 27000000 := by decide +kernel
  have hm' : Ts.asI64 Ts.PCR_MAX = (pcrPeriod : Int) - 1 := by decide +kernel
  have hu : Ts.asI64 Ts.PCR_CLOCK_US = 27 := by decide +kernel
  have hm := PCR_MAX_toNat
  unfold Ts.pcrJitterNs
  generalize Ts.PCR_MAX = M at *
  rw [show pcrPeriod = 2576980377600 from by norm_num [pcrPeriod]] at *
  by_cases hlt : pcr < stc
  · have hlt' : pcr.toNat < stc.toNat := hlt
    obtain ⟨a1, a2⟩ := addU64_ok (a := pcr) (b := M) p (by omega)
    obtain ⟨s1, s2⟩ := subU64_ok (a := pcr + M) (b := stc) p (by omega)
    have hi : Ts.asI64 (pcr + M - stc) = (pcr.toNat : Int) + (2576980377600 - 1) - stc.toNat := by
      unfold Ts.asI64; rw [if_pos (by omega)]; omega
    simp only [hlt, if_true, a1, ok_bind, s1, hi, hc, hm', hu]
    rw [if_pos (by omega)]
    have e1 : (pcr.toNat : Int) + (2576980377600 - 1) - stc.toNat - (((2576980377600 : Nat) : Int) - 1) =
      (pcr.toNat : Int) - stc.toNat := by omega
    rw [e1]
    simp only [Ts.i64]
    rw [if_pos (by omega), ok_bind, if_pos (by omega), ok_bind, pure_eq_ok]
  · have hlt' : stc.toNat ≤ pcr.toNat := by
      rw [UInt64.lt_iff_toNat_lt] at hlt; omega
    obtain ⟨s1, s2⟩ := subU64_ok (a := pcr) (b := stc) p (by omega)
    have hi : Ts.asI64 (pcr - stc) = (pcr.toNat : Int) - stc.toNat := by
      unfold Ts.asI64; rw [if_pos (by omega)]; omega
    simp only [hlt, if_false, ok_bind, s1, hi, hc, hu]
    rw [if_neg (by omega)]
    simp only [Ts.i64, pure_eq_ok, ok_bind]
    rw [if_pos (by omega), ok_bind]

/-- C10 fails across the wrap: the tick count is one too close to zero in both directions (`d` is the true signed
distance in ticks). -/
theorem C10_jitter_wrap_refuted (p : Profile) (pcr stc : UInt64) (d : Nat) (hd : 0 < d) (hd' : d ≤ 27000000)
    (hp : pcr.toNat < pcrPeriod) (hs : stc.toNat < pcrPeriod) :
    (stc.toNat + d = pcr.toNat + pcrPeriod →
      Ts.pcrJitterNs p pcr stc = .ok ((((d : Int) - 1) * 1000).tdiv 27)) ∧
    (pcr.toNat + d = stc.toNat + pcrPeriod →
      Ts.pcrJitterNs p pcr stc = .ok (((-(d : Int) + 1) * 1000).tdiv 27)) := by
  have hc : Ts.asI64 Ts.PCR_SYSTEM_CLOCK = 27000000 := by decide +kernel
  have hm' : Ts.asI64 Ts.PCR_MAX = (pcrPeriod : Int) - 1 := by decide +kernel
  have hu : Ts.asI64 Ts.PCR_CLOCK_US = 27 := by decide +kernel
  have hm := PCR_MAX_toNat
  unfold Ts.pcrJitterNs
  generalize Ts.PCR_MAX = M at *
  rw [show pcrPeriod = 2576980377600 from by norm_num [pcrPeriod]] at *
  constructor
  · intro h
    have hlt : pcr < stc := by rw [UInt64.lt_iff_toNat_lt]; omega
    obtain ⟨a1, a2⟩ := addU64_ok (a := pcr) (b := M) p (by omega)
    obtain ⟨s1, s2⟩ := subU64_ok (a := pcr + M) (b := stc) p (by omega)
    have hi : Ts.asI64 (pcr + M - stc) = (d : Int) - 1 := by
      unfold Ts.asI64; rw [if_pos (by omega)]; omega
    simp only [hlt, if_true, a1, ok_bind, s1, hi, hc, hu]
    rw [if_neg (by omega)]
    simp only [Ts.i64, pure_eq_ok, ok_bind]
    rw [if_pos (by omega), ok_bind]
  · intro h
    have hlt : ¬ pcr < stc := by rw [UInt64.lt_iff_toNat_lt]; omega
    obtain ⟨s1, s2⟩ := subU64_ok (a := pcr) (b := stc) p (by omega)
    have hi : Ts.asI64 (pcr - stc) = 2576980377600 - (d : Int) := by
      unfold Ts.asI64; rw [if_pos (by omega)]; omega
    simp only [hlt, if_false, ok_bind, s1, hi, hc, hm', hu]
    rw [if_pos (by omega)]
    have e1 : (2576980377600 : Int) - d - (((2576980377600 : Nat) : Int) - 1) = -(d : Int) + 1 := by omega
    rw [e1]
    simp only [Ts.i64]
    rw [if_pos (by omega), ok_bind, if_pos (by omega), ok_bind, pure_eq_ok]

example : Ts.pcrJitterNs .debug 270 0 = .ok 10000 := by decide +kernel
example : Ts.pcrJitterNs .debug 0 271 = .ok (-10037) := C10_jitter_partial .debug 0 271 (by decide) (by decide)
  (by decide) (by decide)
/-- One tick ahead, across the wrap, reported as no jitter at all. -/
example : Ts.pcrJitterNs .debug 0 (Ts.PCR_NONE - 1) = .ok 0 :=
  (C10_jitter_wrap_refuted .debug 0 (Ts.PCR_NONE - 1) 1 (by decide) (by decide) (by decide) (by decide)).1 (by decide)

/-- C11: unit conversions are floors of the exact quotients. -/
theorem C11_units (t : UInt64) :
    (Ts.pcrToUs t).toNat = t.toNat / 27 ∧ (Ts.pcrToMs t).toNat = t.toNat / 27000 ∧
    (Pes.ptsToMs t).toNat = t.toNat / 90 := by
  refine ⟨?_, ?_, ?_⟩
  · rw [Ts.pcrToUs, UInt64.toNat_div]; rfl
  · rw [Ts.pcrToMs, UInt64.toNat_div]; rfl
  · rw [Pes.ptsToMs, UInt64.toNat_div]; rfl

/-- C11: the bit rate (kbit/s) is `⌊8 * bytes / ⌊delta in ms⌋⌋`. -/
theorem C11_bitrate (p : Profile) (delta bytes : UInt64) (hd : 27000 ≤ delta.toNat) (hb : bytes.toNat * 8 < 2 ^ 64) :
    ∃ r, Ts.pcrDeltaBitrate p delta bytes = .ok r ∧ r.toNat = 8 * bytes.toNat / (delta.toNat / 27000) := by
  have h8 : (8 : UInt64).toNat = 8 := rfl
  obtain ⟨m1, m2⟩ := mulU64_ok (a := bytes) (b := 8) p (by rw [h8]; exact hb)
  have hne : Ts.pcrToMs delta ≠ 0 := by
    intro h
    have := (C11_units delta).2.1
    rw [h] at this
    have h0 : (0 : UInt64).toNat = 0 := rfl
    omega
  refine ⟨_, by simp only [Ts.pcrDeltaBitrate, m1, ok_bind, divU64, hne, if_false]; rfl, ?_⟩
  rw [UInt64.toNat_div, m2, (C11_units delta).2.1, h8, Nat.mul_comm]

/-- C11: it panics exactly for a delta below one millisecond or, in a debug build, when `8 * bytes` overflows. -/
theorem C11_bitrate_panics (p : Profile) (delta bytes : UInt64) :
    Ts.pcrDeltaBitrate p delta bytes = panic ↔
      delta.toNat < 27000 ∨ (p = .debug ∧ 2 ^ 64 ≤ 8 * bytes.toNat) := by
  have h8 : (8 : UInt64).toNat = 8 := rfl
  have h0 : (0 : UInt64).toNat = 0 := rfl
  have hms := (C11_units delta).2.1
  have hz : Ts.pcrToMs delta = 0 ↔ delta.toNat < 27000 := by
    rw [← UInt64.toNat_inj, hms, h0]; omega
  by_cases hb : bytes.toNat * 8 < 2 ^ 64
  · obtain ⟨m1, m2⟩ := mulU64_ok (a := bytes) (b := 8) p (by rw [h8]; exact hb)
    simp only [Ts.pcrDeltaBitrate, m1, ok_bind, divU64, hz]
    by_cases hd : delta.toNat < 27000
    · simp [hd]
    · simp [hd]; omega
  · cases p
    · simp only [Ts.pcrDeltaBitrate, mulU64, h8, hb, if_false, Profile.overflow, error_bind, true_iff]
      right; exact ⟨trivial, by omega⟩
    · simp only [Ts.pcrDeltaBitrate, mulU64, h8, hb, if_false, Profile.overflow, ok_bind, divU64, hz]
      by_cases hd : delta.toNat < 27000 <;> simp [hd]

example : Ts.pcrDeltaBitrate .debug 27000000 1000000 = .ok 8000 := by decide +kernel
example : Ts.pcrToStc .debug 100 50 1000 200 = .ok 350 := by decide +kernel
example : (do Ts.getPcr (← Ts.setPcr (List.replicate 12 0) 2576980377599)) = .ok (2576980377599 : UInt64) := by
  decide +kernel
example : Ts.isPcr [0x47, 0, 0, 0x30, 7, 0x10, 0, 0] = .ok true := by decide

end Mpegts
