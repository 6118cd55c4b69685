import Verif.Spec.ReadingTables
import Verif.Props.C124
import Verif.Props.Pat
import Verif.Props.Pmt
import Verif.Props.Nit
import Verif.Props.Sdt
import Verif.Props.Eit
import Verif.Props.Tdt

/-! # C125: what is read from any section

The complete result of parsing a table from any section: where it panics (C67), that sections which are not accepted change nothing (C65), and
for all others the values at the bit positions of the standards, descriptors included (C124). -/

namespace Mpegts
open Spec Spec.Table Spec.Reading

namespace AnyRead

/-- A loop without a descriptor that panics. -/
theorem frames_value (p : Profile) (s : List UInt8) (h : ¬ LoopPanics p s) :
    (Descriptor.frames s).mapM (Desc.parse p) = .ok (Reading.descriptors s) := by
  have := (C124_loop p [] s).2 (fun t n body hm hp => h ⟨t, n, body, hm, hp⟩)
  rw [C37_frames] at this
  cases hx : (Descriptor.frames s).mapM (Desc.parse p) with
  | error e => rw [hx] at this; cases this
  | ok v => rw [hx] at this; exact this

theorem mapM_value {α β : Type} (f : α → R β) (g : α → β) (l : List α) (h : ∀ a ∈ l, f a = .ok (g a)) : l.mapM f = .ok (l.map g) := by
  induction l with
  | nil => rfl
  | cons a l ih =>
    rw [List.mapM_cons, h a List.mem_cons_self, ok_bind, ih fun x hx => h x (List.mem_cons_of_mem _ hx)]
    rfl

theorem field_take (s : List UInt8) (k off m : Nat) (h : off + m ≤ k) : field (s.take k) off m = field s off m := by
  simp only [field, List.drop_take, List.take_take]
  congr 2; omega

/-- The bits of a section within `n` bytes of the buffer. -/
theorem sect_bits (psi : Psi) (hl : psi.size ≤ psi.buffer.length) (i n x w : Nat) (h : i + n ≤ psi.size) (h1 : 8 * i ≤ x) (h2 : x + w ≤ 8 * (i + n)) :
    bitsAt (psi.buffer.take psi.size) x w = field psi.buffer i n / 2 ^ (8 * (i + n) - x - w) % 2 ^ w := by
  rw [bits_field (psi.buffer.take psi.size) i n x w (by rw [List.length_take]; omega) h1 h2, field_take _ _ _ _ h]

theorem sect_whole (psi : Psi) (hl : psi.size ≤ psi.buffer.length) (i n : Nat) (h : i + n ≤ psi.size) :
    bitsAt (psi.buffer.take psi.size) (8 * i) (8 * n) = field psi.buffer i n := by
  rw [bits_whole (psi.buffer.take psi.size) i n (by rw [List.length_take]; omega), field_take _ _ _ _ h]

theorem sect_inner (psi : Psi) (hl : psi.size ≤ psi.buffer.length) (k : Nat) :
    inner k (psi.buffer.take psi.size) = (psi.buffer.take (psi.size - 4)).drop k := by
  rw [inner, List.take_take, List.length_take]
  congr 2; omega

theorem version_bits (psi : Psi) (hl : psi.size ≤ psi.buffer.length) (h : 6 ≤ psi.size) :
    bitsAt (psi.buffer.take psi.size) 42 5 = field psi.buffer 5 1 / 2 % 32 :=
  sect_bits psi hl 5 1 42 5 (by omega) (by omega) (by omega)

theorem utc_value {p : Profile} {d : UInt16} {b : UInt32} {v : UInt64} (h : readUtc p d b = .ok v) :
    v = .ofNat (Reading.time d.toNat b.toNat) := by
  simp only [readUtc, bind_eq_ok] at h
  obtain ⟨x, hx, y, hy, h⟩ := h
  rw [add64_value h, mjd_value hx, ← UInt64.ofNat_toNat (x := y.toUInt64), UInt32.toNat_toUInt64, time32_value hy, ← UInt64.ofNat_add]
  rfl

theorem dur_value {p : Profile} {b v : UInt32} (h : fromBcdTime32 p b = .ok v) : v = .ofNat (Table.seconds b.toNat) := by
  rw [← time32_value h, UInt32.ofNat_toNat]

end AnyRead

open AnyRead

theorem nonempty_or {psi : Psi} {k : Nat} (h : ¬ (k ≤ psi.size ∧ psi.buffer = [])) : psi.size < k ∨ psi.buffer ≠ [] := by
  by_cases e : psi.buffer = []
  · exact .inl (Nat.lt_of_not_le fun c => h ⟨c, e⟩)
  · exact .inr e

/-- C125 for the PAT. -/
theorem Pat.C125_pat (p : Profile) (t : Pat) (psi : Psi) :
    (12 ≤ psi.size ∧ psi.buffer = [] → t.parse p psi = panic) ∧
    (¬ (12 ≤ psi.size ∧ psi.buffer = []) →
      (Accepts psi → t.parse p psi = .ok (Reading.pat t (psi.buffer.take psi.size))) ∧ (¬ Accepts psi → t.parse p psi = .ok t)) := by
  refine ⟨(C67_pat p t psi).1, fun h => ⟨fun ha => ?_, C65_pat p t psi (nonempty_or h)⟩⟩
  rw [C66_pat p t psi ha]
  obtain ⟨-, hs, hl, -⟩ := ha
  unfold Reading.pat
  have w1 : bitsAt (psi.buffer.take psi.size) 24 16 = field psi.buffer 3 2 := sect_whole psi hl 3 2 (by omega)
  rw [version_bits psi hl (by omega), w1, sect_inner psi hl]
  congr 3
  apply List.map_congr_left
  intro e he
  have l := chunks_length 4 _ e he
  have e1 : bitsAt e 0 16 = field e 0 2 := bits_whole e 0 2 (by omega)
  have e2 : bitsAt e 19 13 = field e 2 2 / 2 ^ 0 % 8192 := bits_field e 2 2 19 13 (by omega) (by omega) (by omega)
  rw [e1, e2, pow_zero, Nat.div_one]

namespace Sdt

/-- The sections that make parsing panic (C67): without any byte, or with a descriptor that does (C38). -/
def SectionPanics (p : Profile) (psi : Psi) : Prop :=
  (15 ≤ psi.size ∧ psi.buffer = []) ∨ (Accepts psi ∧ ∃ e ∈ entries 5 ((psi.buffer.take (psi.size - 4)).drop 11), LoopPanics p (e.drop 5))

/-- C125 for the SDT. -/
theorem C125_sdt (p : Profile) (t : Sdt) (psi : Psi) :
    (SectionPanics p psi → t.parse p psi = panic) ∧
    (¬ SectionPanics p psi →
      (Accepts psi → t.parse p psi = .ok (Reading.sdt t (psi.buffer.take psi.size))) ∧ (¬ Accepts psi → t.parse p psi = .ok t)) := by
  refine ⟨(C67_sdt_partial p t psi).bad, fun h => ⟨fun ha => ?_, C65_sdt p t psi (nonempty_or fun c => h (.inl c))⟩⟩
  have hd : ∀ e ∈ entries 5 ((psi.buffer.take (psi.size - 4)).drop 11), ¬ LoopPanics p (e.drop 5) := fun e he hp => h (.inr ⟨ha, e, he, hp⟩)
  rw [C66_sdt p t psi ha]
  obtain ⟨-, hs, hl, -⟩ := ha
  unfold Reading.sdt
  have w0 : bitsAt (psi.buffer.take psi.size) 0 8 = field psi.buffer 0 1 := sect_whole psi hl 0 1 (by omega)
  have w1 : bitsAt (psi.buffer.take psi.size) 24 16 = field psi.buffer 3 2 := sect_whole psi hl 3 2 (by omega)
  have w2 : bitsAt (psi.buffer.take psi.size) 64 16 = field psi.buffer 8 2 := sect_whole psi hl 8 2 (by omega)
  rw [version_bits psi hl (by omega), w0, w1, w2, sect_inner psi hl, mapM_value _ _ _ fun e he => ?_]
  · rfl
  have l := entries_length 5 _ e he
  have e1 : bitsAt e 0 16 = field e 0 2 := bits_whole e 0 2 (by omega)
  have e2 : bitsAt e 22 1 = field e 2 1 / 2 % 2 := byteBits e 2 22 1 (by omega) (by omega) (by omega)
  have e3 : bitsAt e 23 1 = field e 2 1 / 2 ^ 0 % 2 := byteBits e 2 23 1 (by omega) (by omega) (by omega)
  have e4 : bitsAt e 24 3 = field e 3 1 / 32 % 8 := byteBits e 3 24 3 (by omega) (by omega) (by omega)
  have e5 : bitsAt e 27 1 = field e 3 1 / 16 % 2 := byteBits e 3 27 1 (by omega) (by omega) (by omega)
  have e6 := field_lt e 3 1
  rw [readItem, frames_value p _ (hd e he), e1, e2, e3, e4, e5, pow_zero, Nat.div_one, show field e 3 1 / 32 % 8 = field e 3 1 / 32 by omega]
  rfl

end Sdt

namespace Eit

/-- The sections that make parsing panic (C67): without any byte, or with an event that does. -/
def SectionPanics (p : Profile) (psi : Psi) : Prop :=
  (18 ≤ psi.size ∧ psi.buffer = []) ∨ (Accepts psi ∧ ∃ e ∈ entries 12 ((psi.buffer.take (psi.size - 4)).drop 14), BadEvent p e)

/-- C125 for the EIT. -/
theorem C125_eit (p : Profile) (t : Eit) (psi : Psi) :
    (SectionPanics p psi → t.parse p psi = panic) ∧
    (¬ SectionPanics p psi →
      (Accepts psi → t.parse p psi = .ok (Reading.eit t (psi.buffer.take psi.size))) ∧ (¬ Accepts psi → t.parse p psi = .ok t)) := by
  refine ⟨(C67_eit_partial p t psi).bad, fun h => ⟨fun ha => ?_, C65_eit p t psi (nonempty_or fun c => h (.inl c))⟩⟩
  have hd : ∀ e ∈ entries 12 ((psi.buffer.take (psi.size - 4)).drop 14), ¬ BadEvent p e := fun e he hp => h (.inr ⟨ha, e, he, hp⟩)
  rw [C66_eit p t psi ha]
  obtain ⟨-, hs, hl, -⟩ := ha
  unfold Reading.eit
  have w0 : bitsAt (psi.buffer.take psi.size) 0 8 = field psi.buffer 0 1 := sect_whole psi hl 0 1 (by omega)
  have w1 : bitsAt (psi.buffer.take psi.size) 24 16 = field psi.buffer 3 2 := sect_whole psi hl 3 2 (by omega)
  have w2 : bitsAt (psi.buffer.take psi.size) 64 16 = field psi.buffer 8 2 := sect_whole psi hl 8 2 (by omega)
  have w3 : bitsAt (psi.buffer.take psi.size) 80 16 = field psi.buffer 10 2 := sect_whole psi hl 10 2 (by omega)
  rw [version_bits psi hl (by omega), w0, w1, w2, w3, sect_inner psi hl, mapM_value _ _ _ fun e he => ?_]
  · rfl
  have l := entries_length 12 _ e he
  have e1 : bitsAt e 0 16 = field e 0 2 := bits_whole e 0 2 (by omega)
  have e2 : bitsAt e 16 16 = field e 2 2 := bits_whole e 2 2 (by omega)
  have e3 : bitsAt e 32 24 = field e 4 3 := bits_whole e 4 3 (by omega)
  have e4 : bitsAt e 56 24 = field e 7 3 := bits_whole e 7 3 (by omega)
  have e5 : bitsAt e 80 3 = field e 10 1 / 32 % 8 := byteBits e 10 80 3 (by omega) (by omega) (by omega)
  have e6 : bitsAt e 83 1 = field e 10 1 / 16 % 2 := byteBits e 10 83 1 (by omega) (by omega) (by omega)
  have e7 := field_lt e 10 1
  obtain ⟨v, hv⟩ := (read_outcome p e).good (hd e he)
  rw [hv, e1, e2, e3, e4, e5, e6, show field e 10 1 / 32 % 8 = field e 10 1 / 32 by omega]
  simp only [readItem, frames_value p _ (fun c => hd e he (.inr c)), bind_eq_ok] at hv
  obtain ⟨a, ha, b, hb, c, hc, hv⟩ := hv
  rw [← Except.ok.inj hv, ← Except.ok.inj hc, utc_value ha, u16_field, u24_field, dur_value hb, u24_field]

end Eit

namespace Nit

/-- The sections that make parsing panic (C67): without any byte, with network descriptors that end behind the section, or with a descriptor
that does. -/
def SectionPanics (p : Profile) (psi : Psi) : Prop :=
  (16 ≤ psi.size ∧ psi.buffer = []) ∨ (Accepts psi ∧ (psi.size < 16 + networkLength psi ∨ LoopPanics p (networkLoop psi) ∨
    ∃ e ∈ entries 6 (itemLoop psi), LoopPanics p (e.drop 6)))

/-- C125 for the NIT. -/
theorem C125_nit (p : Profile) (t : Nit) (psi : Psi) :
    (SectionPanics p psi → t.parse p psi = panic) ∧
    (¬ SectionPanics p psi →
      (Accepts psi → t.parse p psi = .ok (Reading.nit t (psi.buffer.take psi.size))) ∧ (¬ Accepts psi → t.parse p psi = .ok t)) := by
  refine ⟨(C67_nit_partial p t psi).bad, fun h => ⟨fun ha => ?_, C65_nit p t psi (nonempty_or fun c => h (.inl c))⟩⟩
  have h1 : 16 + networkLength psi ≤ psi.size := Nat.le_of_not_lt fun c => h (.inr ⟨ha, .inl c⟩)
  have h2 : ¬ LoopPanics p (networkLoop psi) := fun c => h (.inr ⟨ha, .inr (.inl c)⟩)
  have hd : ∀ e ∈ entries 6 (itemLoop psi), ¬ LoopPanics p (e.drop 6) := fun e he hp => h (.inr ⟨ha, .inr (.inr ⟨e, he, hp⟩)⟩)
  rw [C66_nit p t psi ha (by omega)]
  obtain ⟨-, hs, hl, -⟩ := ha
  unfold Reading.nit
  have w0 : bitsAt (psi.buffer.take psi.size) 0 8 = field psi.buffer 0 1 := sect_whole psi hl 0 1 (by omega)
  have w1 : bitsAt (psi.buffer.take psi.size) 24 16 = field psi.buffer 3 2 := sect_whole psi hl 3 2 (by omega)
  have w2 : bitsAt (psi.buffer.take psi.size) 68 12 = networkLength psi := by
    rw [sect_bits psi hl 8 2 68 12 (by omega) (by omega) (by omega)]
    unfold networkLength
    norm_num
  have w3 : ((psi.buffer.take (psi.size - 4)).drop 10).take (networkLength psi) = networkLoop psi := by
    rw [networkLoop, List.drop_take, List.take_take]
    congr 1; omega
  rw [version_bits psi hl (by omega), w0, w1, w2, sect_inner psi hl, sect_inner psi hl, w3, frames_value p _ h2, ok_bind,
    mapM_value _ (fun e => (NitItem.mk (.ofNat (bitsAt e 0 16)) (.ofNat (bitsAt e 16 16)) (Reading.descriptors (e.drop 6)))) _ fun e he => ?_]
  · rfl
  have l := entries_length 6 _ e he
  have e1 : bitsAt e 0 16 = field e 0 2 := bits_whole e 0 2 (by omega)
  have e2 : bitsAt e 16 16 = field e 2 2 := bits_whole e 2 2 (by omega)
  rw [readItem, frames_value p _ (hd e he), e1, e2]
  rfl

end Nit

namespace Pmt

/-- The sections that make parsing panic (C67): without any byte, with program descriptors that end behind the section, or with bytes taken for a
descriptor that does. -/
def SectionPanics (p : Profile) (psi : Psi) : Prop :=
  (16 ≤ psi.size ∧ psi.buffer = []) ∨ (Accepts psi ∧ (psi.size < 16 + programLength psi ∨ LoopPanics p (programLoop psi) ∨
    ∃ e ∈ entries 5 (itemLoop psi), LoopPanics p (e.drop 5)))

/-- C125 for the PMT, what holds: everything but the program descriptors, which are read from one byte too early (C55, C111_pmt_refuted). -/
theorem C125_pmt_partial (p : Profile) (t : Pmt) (psi : Psi) :
    (SectionPanics p psi → t.parse p psi = panic) ∧
    (¬ SectionPanics p psi →
      (Accepts psi → t.parse p psi = .ok { Reading.pmt t (psi.buffer.take psi.size) with
        descriptors := t.descriptors ++ Reading.descriptors ((psi.buffer.drop 11).take (bitsAt (psi.buffer.take psi.size) 84 12)) }) ∧
      (¬ Accepts psi → t.parse p psi = .ok t)) := by
  refine ⟨(C67_pmt_partial p t psi).bad, fun h => ⟨fun ha => ?_, C65_pmt p t psi (nonempty_or fun c => h (.inl c))⟩⟩
  have h1 : 16 + programLength psi ≤ psi.size := Nat.le_of_not_lt fun c => h (.inr ⟨ha, .inl c⟩)
  have h2 : ¬ LoopPanics p (programLoop psi) := fun c => h (.inr ⟨ha, .inr (.inl c)⟩)
  have hd : ∀ e ∈ entries 5 (itemLoop psi), ¬ LoopPanics p (e.drop 5) := fun e he hp => h (.inr ⟨ha, .inr (.inr ⟨e, he, hp⟩)⟩)
  rw [C66_pmt p t psi ha (by omega)]
  obtain ⟨-, hs, hl, -⟩ := ha
  unfold Reading.pmt
  have w1 : bitsAt (psi.buffer.take psi.size) 24 16 = field psi.buffer 3 2 := sect_whole psi hl 3 2 (by omega)
  have w2 : bitsAt (psi.buffer.take psi.size) 84 12 = programLength psi := by
    rw [sect_bits psi hl 10 2 84 12 (by omega) (by omega) (by omega)]
    unfold programLength
    norm_num
  have w3 : bitsAt (psi.buffer.take psi.size) 67 13 = field psi.buffer 8 2 % 8192 := by
    rw [sect_bits psi hl 8 2 67 13 (by omega) (by omega) (by omega)]
    norm_num
  simp only [version_bits psi hl (by omega), w1, w2, w3, sect_inner psi hl]
  rw [frames_value p _ h2, ok_bind,
    mapM_value _ (fun e => (PmtItem.mk (.ofNat (bitsAt e 0 8)) (.ofNat (bitsAt e 11 13)) (Reading.descriptors (e.drop 5)))) _ fun e he => ?_]
  · rfl
  have l := entries_length 5 _ e he
  have e1 : bitsAt e 0 8 = field e 0 1 := bits_whole e 0 1 (by omega)
  have e2 : bitsAt e 11 13 = field e 1 2 / 2 ^ 0 % 8192 := bits_field e 1 2 11 13 (by omega) (by omega) (by omega)
  rw [readItem, frames_value p _ (hd e he), e1, e2, pow_zero, Nat.div_one]
  rfl

/-- C125 for the PMT, where the property holds as stated: sections without program descriptors. -/
theorem C125_pmt_none_partial (p : Profile) (t : Pmt) (psi : Psi) (hn : ¬ SectionPanics p psi) (ha : Accepts psi)
    (h0 : bitsAt (psi.buffer.take psi.size) 84 12 = 0) : t.parse p psi = .ok (Reading.pmt t (psi.buffer.take psi.size)) := by
  rw [((C125_pmt_partial p t psi).2 hn).1 ha, h0]
  unfold Reading.pmt
  rw [h0]
  rfl

end Pmt

/-- C125 for the TDT. -/
theorem Tdt.C125_tdt (p : Profile) (t : Tdt) (psi : Psi) :
    ((psi.size = 8 ∧ psi.buffer = []) ∨ (Accepts psi ∧ (psi.buffer.length < 8 ∨
      p = .debug ∧ (field psi.buffer 3 2 < unixEpochMjd ∨ ¬ ValidBcd 6 (field psi.buffer 5 3)))) → t.parse p psi = panic) ∧
    (¬ ((psi.size = 8 ∧ psi.buffer = []) ∨ (Accepts psi ∧ (psi.buffer.length < 8 ∨
      p = .debug ∧ (field psi.buffer 3 2 < unixEpochMjd ∨ ¬ ValidBcd 6 (field psi.buffer 5 3))))) →
      (Accepts psi → t.parse p psi = .ok (Reading.tdt (psi.buffer.take psi.size))) ∧ (¬ Accepts psi → t.parse p psi = .ok t)) := by
  refine ⟨(C67_tdt_partial p t psi).bad, fun h => ⟨fun ha => ?_, fun ha => ?_⟩⟩
  · obtain ⟨v, hv⟩ := (C67_tdt_partial p t psi).good h
    have hl : 8 ≤ psi.buffer.length := Nat.le_of_not_lt fun c => h (.inr ⟨ha, .inl c⟩)
    rw [hv]
    rw [parse_accepted p t psi ha hl] at hv
    obtain ⟨a, ha', rfl⟩ := map_ok_inv hv
    have w1 : bitsAt (psi.buffer.take psi.size) 24 16 = field psi.buffer 3 2 := sect_whole psi (by rw [ha.1]; exact hl) 3 2 (by rw [ha.1]; omega)
    have w2 : bitsAt (psi.buffer.take psi.size) 40 24 = field psi.buffer 5 3 := sect_whole psi (by rw [ha.1]; exact hl) 5 3 (by rw [ha.1])
    rw [Reading.tdt, w1, w2, utc_value ha', u16_field, u24_field]
  · refine C65_tdt p t psi ?_
    by_cases h8 : psi.size = 8
    · right
      obtain ⟨x, r, hx⟩ := List.exists_cons_of_ne_nil (show psi.buffer ≠ [] from fun e => h (.inl ⟨h8, e⟩))
      refine ⟨x, by rw [hx]; rfl, fun e => ha ⟨h8, ?_⟩⟩
      rw [hx, e]; rfl
    · exact .inl h8

namespace Tot

/-- The sections that make parsing panic (C67): without any byte, in a debug build with a date before 1970 or digits that are not decimal, with
descriptors that end behind the buffer, or with bytes taken for a descriptor that does. -/
def SectionPanics (p : Profile) (psi : Psi) : Prop :=
  (14 ≤ psi.size ∧ psi.buffer = []) ∨
    (Accepts psi ∧ ((p = .debug ∧ (field psi.buffer 3 2 < unixEpochMjd ∨ ¬ ValidBcd 6 (field psi.buffer 5 3))) ∨
      psi.buffer.length < 10 + loopLength psi ∨ LoopPanics p (loop psi)))

/-- C125 for the TOT, what holds for every section: the time, and as descriptors what stands in the buffer, for as long as the section says, even
beyond its end. -/
theorem C125_tot_partial (p : Profile) (t : Tot) (psi : Psi) :
    (SectionPanics p psi → t.parse p psi = panic) ∧
    (¬ SectionPanics p psi →
      (Accepts psi → t.parse p psi = .ok { Reading.tot t (psi.buffer.take psi.size) with
        descriptors := t.descriptors ++ Reading.descriptors ((psi.buffer.drop 10).take (bitsAt (psi.buffer.take psi.size) 68 12)) }) ∧
      (¬ Accepts psi → t.parse p psi = .ok t)) := by
  refine ⟨(C67_tot_partial p t psi).bad, fun h => ⟨fun ha => ?_, C65_tot p t psi (nonempty_or fun c => h (.inl c))⟩⟩
  obtain ⟨v, hv⟩ := (C67_tot_partial p t psi).good h
  have hb : 10 + loopLength psi ≤ psi.buffer.length := Nat.le_of_not_lt fun c => h (.inr ⟨ha, .inr (.inl c)⟩)
  have hp : ¬ LoopPanics p (loop psi) := fun c => h (.inr ⟨ha, .inr (.inr c)⟩)
  rw [hv]
  rw [parse_accepted p t psi ha, slice, if_pos (by omega)] at hv
  have e : (psi.buffer.take (10 + loopLength psi)).drop 10 = loop psi := by
    rw [loop, List.drop_take, Nat.add_sub_cancel_left]
  simp only [ok_bind, e, frames_value p _ hp, bind_eq_ok] at hv
  obtain ⟨a, ha', hv⟩ := hv
  obtain ⟨-, hs, hl, -⟩ := ha
  have w1 : bitsAt (psi.buffer.take psi.size) 24 16 = field psi.buffer 3 2 := sect_whole psi hl 3 2 (by omega)
  have w2 : bitsAt (psi.buffer.take psi.size) 40 24 = field psi.buffer 5 3 := sect_whole psi hl 5 3 (by omega)
  have w3 : bitsAt (psi.buffer.take psi.size) 68 12 = loopLength psi := by
    rw [sect_bits psi hl 8 2 68 12 (by omega) (by omega) (by omega)]
    unfold loopLength
    norm_num
  rw [← Except.ok.inj hv]
  simp only [Reading.tot, w1, w2, w3, utc_value ha', u16_field, u24_field]
  rfl

/-- C125 for the TOT, where the property holds as stated: descriptors that end before the CRC. -/
theorem C125_tot_within_partial (p : Profile) (t : Tot) (psi : Psi) (hn : ¬ SectionPanics p psi) (ha : Accepts psi)
    (h0 : 10 + bitsAt (psi.buffer.take psi.size) 68 12 ≤ psi.size - 4) : t.parse p psi = .ok (Reading.tot t (psi.buffer.take psi.size)) := by
  rw [((C125_tot_partial p t psi).2 hn).1 ha]
  obtain ⟨-, hs, hl, -⟩ := ha
  unfold Reading.tot
  simp only [sect_inner psi hl]
  rw [List.drop_take, List.take_take, Nat.min_eq_left (by omega)]

/-- C125 fails for the TOT: of this intact section, whose length field of the descriptors counts the CRC, the CRC is taken for a descriptor. -/
theorem C125_tot_refuted (p : Profile) (t : Tot) :
    let psi : Psi := { Psi.default with
      buffer := [0x73, 0x70, 0x0B, 0xEB, 0x66, 0x22, 0x05, 0x56, 0xF0, 0x04, 0x27, 0x02, 0xDD, 0xB8], size := 14 }
    Accepts psi ∧ t.parse p psi = .ok { time := 1699999556, descriptors := t.descriptors ++ [.raw ⟨0x27, [0xDD, 0xB8]⟩] } ∧
    Reading.tot t psi.buffer = { time := 1699999556, descriptors := t.descriptors } := by
  intro psi
  have ha : Accepts psi := ⟨by decide +kernel, by decide +kernel⟩
  have hb : bitsAt (psi.buffer.take psi.size) 68 12 = 4 := by decide +kernel
  have hd : Reading.descriptors [0x27, 0x02, 0xDD, 0xB8] = [.raw ⟨0x27, [0xDD, 0xB8]⟩] := by decide +kernel
  have hf : Descriptor.frames (loop psi) = [[0x27, 0x02, 0xDD, 0xB8]] := by decide +kernel
  have ht : (UInt64.ofNat (Reading.time (bitsAt psi.buffer 24 16) (bitsAt psi.buffer 40 24))) = 1699999556 := by decide +kernel
  have hx : (inner 10 psi.buffer).take (bitsAt psi.buffer 68 12) = [] := by decide +kernel
  have hn : ¬ SectionPanics p psi := by
    rintro (h | ⟨-, h | h | ⟨a, b, c, hm, hp⟩⟩)
    · exact absurd h.2 (by decide)
    · rcases h.2 with h | h
      · exact absurd h (by decide +kernel)
      · exact h (by decide +kernel)
    · exact absurd h (by decide +kernel)
    · rw [hf] at hm
      simp only [List.mem_cons, List.cons.injEq, List.not_mem_nil, or_false] at hm
      obtain ⟨rfl, rfl, rfl⟩ := hm
      simp [Panics] at hp
  refine ⟨ha, ?_, ?_⟩
  · rw [((C125_tot_partial p t psi).2 hn).1 ha, hb, show (psi.buffer.drop 10).take 4 = [0x27, 0x02, 0xDD, 0xB8] from rfl, hd, Reading.tot,
      show psi.buffer.take psi.size = psi.buffer from rfl, ht]
  · rw [Reading.tot, hx, ht]
    simp [Reading.descriptors]

end Tot

/-! Concrete cases. -/

/-- A section object that holds these bytes. -/
private def holding (s : List UInt8) : Psi := { Psi.default with buffer := s, size := s.length }

private theorem no_panic {α : Type} {r : R α} {P : Prop} (h : P → r = panic) (ok : r.isOk = true) : ¬ P := by
  intro c
  rw [h c] at ok
  cases ok

private def sdtBytes : List UInt8 := complete (Table.sdt 0x46 0x1234 17 0 0 0xABCD (sdtEntry 1 1 0 4 1 [0x52, 1, 9]))
private def eitBytes : List UInt8 := complete (Table.eit 0x4E 7 17 0 0 1 2 0 0x4E (eitEntry 7 1700000000 3600 4 0 [0x52, 1, 9]))
private def nitBytes : List UInt8 := complete (Table.nit 0x41 7 17 0 0 [0x40, 1, 0x41] (nitEntry 1 2 [0x52, 1, 9]))
private def pmtBytes : List UInt8 := complete (Table.pmt 7 17 0 0 0x1FFF [] (pmtEntry 0x1B 0x100 [0x52, 1, 9]))
private def totBytes : List UInt8 := complete (Table.tot 1700000000 [0x52, 1, 9])

example : Pat.default.parse .debug (holding (complete (Table.pat 1 2 0 0 (patEntry 1 0x100)))) =
    .ok (Reading.pat Pat.default ((holding (complete (Table.pat 1 2 0 0 (patEntry 1 0x100)))).buffer.take 16)) :=
  ((Pat.C125_pat .debug Pat.default _).2 (by decide +kernel)).1 ⟨by decide +kernel, by decide +kernel⟩
example : Sdt.default.parse .debug (holding sdtBytes) = .ok (Reading.sdt Sdt.default ((holding sdtBytes).buffer.take (holding sdtBytes).size)) :=
  ((Sdt.C125_sdt .debug Sdt.default _).2 (no_panic (Sdt.C125_sdt .debug Sdt.default _).1 (by decide +kernel))).1 ⟨by decide +kernel, by decide +kernel⟩
example : (Reading.sdt Sdt.default sdtBytes) =
    { tableId := 0x46, version := 17, tsid := 0x1234, onid := 0xABCD, items := [⟨1, 1, 0, 4, 1, [.d52 ⟨9⟩]⟩] } := by decide +kernel
example : Eit.default.parse .debug (holding eitBytes) = .ok (Reading.eit Eit.default ((holding eitBytes).buffer.take (holding eitBytes).size)) :=
  ((Eit.C125_eit .debug Eit.default _).2 (no_panic (Eit.C125_eit .debug Eit.default _).1 (by decide +kernel))).1
    ⟨⟨0x4E, by decide +kernel, by decide, by decide⟩, by decide +kernel⟩
example : (Reading.eit Eit.default eitBytes).items = [⟨7, 1700000000, 3600, 4, 0, [.d52 ⟨9⟩]⟩] := by decide +kernel
example : Nit.default.parse .debug (holding nitBytes) = .ok (Reading.nit Nit.default ((holding nitBytes).buffer.take (holding nitBytes).size)) :=
  ((Nit.C125_nit .debug Nit.default _).2 (no_panic (Nit.C125_nit .debug Nit.default _).1 (by decide +kernel))).1 ⟨by decide +kernel, by decide +kernel⟩
example : Reading.nit Nit.default nitBytes =
    { tableId := 0x41, version := 17, networkId := 7, descriptors := [.d40 ⟨⟨0, [0x41]⟩⟩], items := [⟨1, 2, [.d52 ⟨9⟩]⟩] } := by decide +kernel
example : Pmt.default.parse .debug (holding pmtBytes) = .ok (Reading.pmt Pmt.default ((holding pmtBytes).buffer.take (holding pmtBytes).size)) :=
  Pmt.C125_pmt_none_partial .debug Pmt.default _ (no_panic (Pmt.C125_pmt_partial .debug Pmt.default _).1 (by decide +kernel))
    ⟨by decide +kernel, by decide +kernel⟩ (by decide +kernel)
example : Reading.pmt Pmt.default pmtBytes = { version := 17, pnr := 7, pcr := 0x1FFF, descriptors := [], items := [⟨0x1B, 0x100, [.d52 ⟨9⟩]⟩] } := by
  decide +kernel
example : Tdt.parse .debug ⟨0⟩ (holding (Table.tdt 1700000000)) = .ok ⟨1700000000⟩ :=
  ((Tdt.C125_tdt .debug ⟨0⟩ _).2 (no_panic (Tdt.C125_tdt .debug ⟨0⟩ _).1 (by decide +kernel))).1 ⟨by decide +kernel, by decide +kernel⟩
example : Tot.parse .debug ⟨0, []⟩ (holding totBytes) = .ok (Reading.tot ⟨0, []⟩ ((holding totBytes).buffer.take (holding totBytes).size)) :=
  Tot.C125_tot_within_partial .debug ⟨0, []⟩ _ (no_panic (Tot.C125_tot_partial .debug ⟨0, []⟩ _).1 (by decide +kernel))
    ⟨by decide +kernel, by decide +kernel⟩ (by decide +kernel)
example : Reading.tot ⟨0, []⟩ totBytes = ⟨1700000000, [.d52 ⟨9⟩]⟩ := by decide +kernel

end Mpegts
