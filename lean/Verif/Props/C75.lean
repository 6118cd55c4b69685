import Verif.Model.Debug
import Verif.Props.C06_C11
import Verif.Props.C02_C05
import Verif.Lemmas.TableLoops

/-! # C75: the values shown by the `Debug` impls -/

namespace Mpegts
open Spec

/-- Bit `k` (0 is the least significant) of a byte. -/
def flagBit (b : UInt8) (k : Nat) : Bool := decide (b.toNat / 2 ^ k % 2 = 1)

theorem flag_masks : ∀ b : UInt8, ((b &&& 0x80) != 0) = flagBit b 7 ∧ ((b &&& 0x40) != 0) = flagBit b 6 ∧ ((b &&& 0x20) != 0) = flagBit b 5 ∧
    ((b &&& 0x10) != 0) = flagBit b 4 ∧ ((b &&& 0x08) != 0) = flagBit b 3 ∧ ((b &&& 0x04) != 0) = flagBit b 2 ∧ ((b &&& 0x02) != 0) = flagBit b 1 ∧
    ((b &&& 0x01) != 0) = flagBit b 0 := by decide +kernel

/-- The flags of an adaptation field as ISO/IEC 13818-1 2.4.3.4 orders them, and the PCR if its flag is set. -/
def ShowsFlags (flags : UInt8) (pcrBytes : List UInt8) (f : Ts.AdaptFlags) : Prop :=
  f.discontinuity = flagBit flags 7 ∧ f.randomAccess = flagBit flags 6 ∧ f.esPriority = flagBit flags 5 ∧ f.pcrFlag = flagBit flags 4 ∧
  f.opcrFlag = flagBit flags 3 ∧ f.splicingPoint = flagBit flags 2 ∧ f.privateData = flagBit flags 1 ∧ f.afExtension = flagBit flags 0 ∧
  (flagBit flags 4 = false → f.pcr = none) ∧
  (flagBit flags 4 = true → ∃ v, f.pcr = some v ∧ v.toNat = beNat pcrBytes / 2 ^ 15 * 300 + beNat pcrBytes % 2 ^ 9)

/-- C75: formatting the adaptation field of a packet of 188 bytes (12 suffice) never panics.  It shows that there is none, or
its length, and if the length is not 0 the flags, and the PCR if its flag is set. -/
theorem C75_adaptation (h : Header) (hv : h.Valid) (len flags : UInt8) (rest : List UInt8) (hl : 6 ≤ rest.length) :
    (h.adaptation = false → Ts.adaptationDebug (h.encode ++ len :: flags :: rest) = .ok none) ∧
    (h.adaptation = true → len = 0 → Ts.adaptationDebug (h.encode ++ len :: flags :: rest) = .ok (some (0, none))) ∧
    (h.adaptation = true → len ≠ 0 → ∃ f, Ts.adaptationDebug (h.encode ++ len :: flags :: rest) = .ok (some (len, some f)) ∧
      ShowsFlags flags (rest.take 6) f) := by
  have ha := (C04_header_fields h hv (len :: flags :: rest)).2.2.2.2.2.1
  have hs : Ts.getAdaptationSize (h.encode ++ len :: flags :: rest) = .ok len := by
    rw [header_encode hv]; rfl
  have he : h.encode.length = 4 := by simp [Header.encode]
  unfold Ts.adaptationDebug
  rw [ha, ok_bind]
  refine ⟨fun h0 => by rw [h0]; rfl, fun h1 h2 => ?_, fun h1 h2 => ?_⟩
  · rw [h1, hs, h2]; rfl
  · rw [h1, hs]
    simp only [Bool.not_true, Bool.false_eq_true, if_false, ok_bind, if_neg h2]
    have h5 : sliceFrom (h.encode ++ len :: flags :: rest) 5 = .ok (flags :: rest) := by
      rw [sliceFrom, if_pos (by simp [he]; omega), show (5 : Nat) = h.encode.length + 1 by omega, ← List.drop_drop, List.drop_left' rfl]
      rfl
    rw [h5, ok_bind, idx_zero, ok_bind]
    obtain ⟨m7, m6, m5, m4, m3, m2, m1, m0⟩ := flag_masks flags
    rw [m7, m6, m5, m4, m3, m2, m1, m0]
    cases hp : flagBit flags 4 with
    | false =>
      refine ⟨_, rfl, rfl, rfl, rfl, ?_, rfl, rfl, rfl, rfl, fun _ => rfl, fun h => ?_⟩
      · exact hp.symm
      · rw [hp] at h; cases h
    | true =>
      obtain ⟨v, v1, v2⟩ := getPcr_eq (h.encode ++ len :: flags :: rest) (by simp [he]; omega)
      have e6 : (h.encode ++ len :: flags :: rest).drop 6 = rest := by
        rw [show (6 : Nat) = h.encode.length + 2 by omega, ← List.drop_drop, List.drop_left' rfl]; rfl
      rw [e6] at v2
      rw [v1]
      refine ⟨_, rfl, rfl, rfl, rfl, ?_, rfl, rfl, rfl, rfl, fun h => ?_, fun _ => ⟨v, rfl, v2⟩⟩
      · exact hp.symm
      · rw [hp] at h; cases h

/-- C75: formatting a packet of at least 188 bytes never panics, in both profiles, and shows the header fields. -/
theorem C75_packet (p : Profile) (h : Header) (hv : h.Valid) (rest : List UInt8) (hl : 184 ≤ rest.length) :
    ∃ d a, Ts.packetNew p (h.encode ++ rest) = .ok (h.encode ++ rest) ∧ Ts.adaptationNew p (h.encode ++ rest) = .ok (h.encode ++ rest) ∧
      Ts.packetDebug p (h.encode ++ rest) = .ok d ∧ Ts.adaptationDebug (h.encode ++ rest) = .ok a ∧
      d.sync = decide (h.sync = 0x47) ∧ d.error.toNat = bit h.tei ∧ d.pusi = h.pusi ∧ d.pid.toNat = h.pid ∧ d.scrambling.toNat = h.scrambling ∧
      d.adaptation = a ∧ d.payload = h.payload ∧ d.cc.toNat = h.cc := by
  obtain ⟨f1, -, f3, ⟨pid, f4, f4'⟩, -, -, f7, ⟨cc, f8, f8'⟩⟩ := C04_header_fields h hv rest
  have he : h.encode.length = 4 := by simp [Header.encode]
  have hn : Ts.adaptationNew p (h.encode ++ rest) = .ok (h.encode ++ rest) := by
    have : decide ((h.encode ++ rest).length ≥ Ts.PACKET_SIZE) = true := by simp [he, Ts.PACKET_SIZE]; omega
    rw [Ts.adaptationNew, this, debugAssert_true]; rfl
  have hn' : Ts.packetNew p (h.encode ++ rest) = .ok (h.encode ++ rest) := hn
  have had : ∃ a, Ts.adaptationDebug (h.encode ++ rest) = .ok a := by
    match rest, hl with
    | len :: flags :: r, hl =>
      obtain ⟨a1, a2, a3⟩ := C75_adaptation h hv len flags r (by simp at hl; omega)
      cases hb : h.adaptation with
      | false => exact ⟨_, a1 hb⟩
      | true =>
        by_cases hz : len = 0
        · exact ⟨_, a2 hb hz⟩
        · obtain ⟨f, e, -⟩ := a3 hb hz; exact ⟨_, e⟩
    | [], hl => simp at hl
    | [_], hl => simp at hl
  obtain ⟨a, ha⟩ := had
  have i1 : ∃ b1 : UInt8, idx (h.encode ++ rest) 1 = .ok b1 ∧ ((b1 &&& 0x80) >>> 7).toNat = bit h.tei := by
    refine ⟨hdr1 h, by rw [header_encode hv]; rfl, ?_⟩
    rw [show ∀ b : UInt8, ((b &&& 0x80) >>> 7).toNat = b.toNat / 128 by decide +kernel, hdr1_toNat hv]
    have := bit_lt h.pusi; have := bit_lt h.priority
    have := hv.2.1
    omega
  have i3 : ∃ b3 : UInt8, idx (h.encode ++ rest) 3 = .ok b3 ∧ ((b3 &&& 0xC0) >>> 6).toNat = h.scrambling := by
    refine ⟨hdr3 h, by rw [header_encode hv]; rfl, ?_⟩
    rw [show ∀ b : UInt8, ((b &&& 0xC0) >>> 6).toNat = b.toNat / 64 by decide +kernel, hdr3_toNat hv]
    have := bit_lt h.adaptation; have := bit_lt h.payload
    have := hv.2.2.2
    omega
  obtain ⟨b1, e1, g1⟩ := i1
  obtain ⟨b3, e3, g3⟩ := i3
  refine ⟨⟨decide (h.sync = 0x47), (b1 &&& 0x80) >>> 7, h.pusi, pid, (b3 &&& 0xC0) >>> 6, a, h.payload, cc⟩, a, hn', hn, ?_, ha, rfl, g1, rfl, f4', g3, rfl, rfl, f8'⟩
  unfold Ts.packetDebug
  rw [f1, f3, f4, f7, f8, hn, e1, e3]
  simp only [ok_bind]
  rw [ha]
  rfl

/-- A packet that is too short is rejected by the debug profile and makes formatting panic in the release profile if it has less than
four bytes. -/
theorem C75_short (s : List UInt8) : (s.length < 188 → Ts.packetNew .debug s = panic ∧ Ts.adaptationNew .debug s = panic) ∧
    (s.length < 4 → Ts.packetDebug .release s = panic) := by
  refine ⟨fun h => ?_, fun h => ?_⟩
  · have : decide (s.length ≥ Ts.PACKET_SIZE) = false := by simp [Ts.PACKET_SIZE]; omega
    simp only [Ts.packetNew, Ts.adaptationNew, this]
    exact ⟨rfl, rfl⟩
  · match s, h with
    | [], _ => rfl
    | [_], _ => rfl
    | [_, _], _ => rfl
    | [_, _, _], _ => rfl

example : (Ts.packetDebug .debug ([0x47, 0x41, 0x00, 0x35, 7, 0x10, 0, 0, 0, 0, 0x7E, 5] ++ List.replicate 176 0xFF)) = .ok
    { sync := true, error := 0, pusi := true, pid := 256, scrambling := 0, payload := true, cc := 5
      adaptation := some (7, some ⟨false, false, false, true, false, false, false, false, some 5⟩) } := by decide +kernel

end Mpegts
