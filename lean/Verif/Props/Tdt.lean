import Verif.Lemmas.Time

/-! # The time and date table and the time offset table: C61, C62, C65-C67 -/

namespace Mpegts
open Spec Spec.Table

/-- Times a 16 bit day number can express: up to 2038-04-22. -/
def TimeInRange (t : UInt64) : Prop := unixEpochMjd + t.toNat / 86400 < 2 ^ 16

theorem timeInRange_iff (t : UInt64) : TimeInRange t ↔ t.toNat < (mjd 2038 4 23 - mjd 1970 1 1) * 86400 := by
  have : mjd 2038 4 23 - mjd 1970 1 1 = 24949 := by decide
  rw [this]; unfold TimeInRange unixEpochMjd; omega

namespace Tdt

theorem psiAssemble_eq (p : Profile) (t : Tdt) (h : TimeInRange t.time) :
    t.psiAssemble p = .ok { Psi.default with buffer := Table.tdt t.time.toNat } := by
  obtain ⟨w1, v, w2, w3⟩ := write_utc p t.time h
  unfold psiAssemble
  have e : Psi.new p 0x70 3 0 = .ok { Psi.default with buffer := [0x70, 0xB0, 0] } := by
    cases p <;> decide
  rw [e, ok_bind]
  simp only [setIdx_succ, setIdx_zero, map_ok, ok_bind]
  rw [show resize [0x70, 0x70, (5 : UInt8)] 8 0x00 = [0x70, 0x70, 5, 0, 0, 0, 0, 0] from rfl]
  rw [setU16At_ok _ (by simp), ok_bind, w2, ok_bind, setU24At_ok _ (by simp), ok_bind, w1, w3]
  simp [Table.tdt, Descriptor.utc, beBytes]

/-- C61: a TDT is sent as the section the standard prescribes, in one packet. -/
theorem C61_wire (p : Profile) (t : Tdt) (h : TimeInRange t.time) (pid : UInt16) (cc : UInt8) (dst : List UInt8) (hp : pid.toNat < 8192)
    (hc : cc.toNat < 16) :
    t.demux p pid cc dst = .ok (UInt8.ofNat ((cc.toNat + 1) % 16), dst ++ (packets pid.toNat cc.toNat (Table.tdt t.time.toNat)).flatten) := by
  unfold demux
  rw [psiAssemble_eq p t h, ok_bind]
  have l : (Table.tdt t.time.toNat).length = 8 := by simp [Table.tdt]
  simp only []
  rw [C40_demux p _ dst (by simp only [l]; omega) (by simp only [l]; omega) (by exact hp) (by exact hc), ok_bind]
  simp only [List.take_length, pure_eq_ok]
  simp only [l, show packetCount 8 = 1 from rfl]

/-- C65: a section that is not 8 bytes long or does not start with 0x70 leaves the table unchanged. -/
theorem C65_tdt (p : Profile) (t : Tdt) (psi : Psi) (h : psi.size ≠ 8 ∨ ∃ b, psi.buffer.head? = some b ∧ b ≠ 0x70) :
    t.parse p psi = .ok t := by
  unfold parse check
  by_cases h8 : psi.size = 8
  · obtain ⟨b, h1, h2⟩ := h.resolve_left (by simpa using h8)
    obtain ⟨x, r, hx⟩ := List.exists_cons_of_ne_nil (show psi.buffer ≠ [] by intro e; rw [e] at h1; cases h1)
    rw [hx] at h1
    obtain rfl : x = b := by simpa using h1
    rw [if_neg (by simpa using h8), hx]
    have i0 : idx (x :: r) 0 = .ok x := rfl
    rw [i0]
    simp [h2]
  · rw [if_pos (by simpa using h8)]
    rfl

/-- A section `Tdt::parse` accepts; the protocol has no CRC here. -/
def Accepts (psi : Psi) : Prop := psi.size = 8 ∧ psi.buffer.head? = some 0x70

theorem parse_accepted (p : Profile) (t : Tdt) (psi : Psi) (h : Accepts psi) (hl : 8 ≤ psi.buffer.length) :
    t.parse p psi = (fun x => { time := x }) <$> readUtc p (UInt16.ofNat (field psi.buffer 3 2)) (UInt32.ofNat (field psi.buffer 5 3)) := by
  obtain ⟨h1, h2⟩ := h
  have i0 : idx psi.buffer 0 = .ok 0x70 := by
    obtain ⟨x, r, hx⟩ := List.exists_cons_of_ne_nil (show psi.buffer ≠ [] by intro e; rw [e] at h2; cases h2)
    rw [hx] at h2 ⊢
    obtain rfl : x = 0x70 := by simpa using h2
    rfl
  unfold parse check
  rw [if_neg (by simpa using h1), i0]
  simp only [ok_bind, pure_eq_ok, readUtc]
  rw [if_neg (by simp), get16 (by omega), ok_bind, get24 (by omega)]
  cases fromMjd p (UInt16.ofNat (field psi.buffer 3 2)) with
  | error => rfl
  | ok d =>
    simp only [ok_bind]
    cases fromBcdTime32 p (UInt32.ofNat (field psi.buffer 5 3)) with
    | error => rfl
    | ok v =>
      simp only [ok_bind]
      cases addU64 p d v.toUInt64 <;> rfl

/-- C66 for the TDT: an accepted section replaces the time by that of the section, for every date since 1970 and every time of
decimal digits. -/
theorem C66_tdt (p : Profile) (t : Tdt) (psi : Psi) (h : Accepts psi) (hl : 8 ≤ psi.buffer.length)
    (hd : unixEpochMjd ≤ field psi.buffer 3 2) (hb : ValidBcd 6 (field psi.buffer 5 3)) :
    ∃ v : UInt64, t.parse p psi = .ok { time := v } ∧ v.toNat = instant (field psi.buffer 3 2) (field psi.buffer 5 3) := by
  have f3 := field_lt psi.buffer 5 3
  obtain ⟨v, v1, v2⟩ := readUtc_ok p (UInt16.ofNat (field psi.buffer 3 2)) (UInt32.ofNat (field psi.buffer 5 3))
    (by rw [u16_field]; exact hd) (by rw [u24_field]; omega) (by rw [u24_field]; exact hb)
  rw [u16_field, u24_field] at v2
  exact ⟨v, by rw [parse_accepted p t psi h hl, v1]; rfl, v2⟩

/-- C67, what holds: parsing panics exactly for an eight-byte section with table id 0x70 of which not all bytes are there, and in
the debug profile for one with a date before 1970 or digits that are not decimal; and for one that claims eight bytes without
having any. -/
theorem C67_tdt_partial (p : Profile) (t : Tdt) (psi : Psi) :
    Outcome (t.parse p psi) ((psi.size = 8 ∧ psi.buffer = []) ∨ (Accepts psi ∧ (psi.buffer.length < 8 ∨
      p = .debug ∧ (field psi.buffer 3 2 < unixEpochMjd ∨ ¬ ValidBcd 6 (field psi.buffer 5 3))))) := by
  by_cases h0 : psi.size = 8 ∧ psi.buffer = []
  · refine ⟨fun _ => ?_, fun hn => (hn (.inl h0)).elim⟩
    unfold parse check
    rw [if_neg (by simpa using h0.1), h0.2]; rfl
  · by_cases ha : Accepts psi
    · by_cases hl : 8 ≤ psi.buffer.length
      · rw [parse_accepted p t psi ha hl]
        have f3 := field_lt psi.buffer 5 3
        refine ((readUtc_outcome p _ _ (by rw [u24_field]; omega)).map _).congr ?_
        rw [u16_field, u24_field]
        have : ¬ psi.buffer.length < 8 := by omega
        simp [ha, h0, this]
      · refine ⟨fun _ => ?_, fun hn => (hn (.inr ⟨ha, .inl (by omega)⟩)).elim⟩
        obtain ⟨h1, h2⟩ := ha
        have i0 : idx psi.buffer 0 = .ok 0x70 := by
          obtain ⟨x, r, hx⟩ := List.exists_cons_of_ne_nil (show psi.buffer ≠ [] by intro e; rw [e] at h2; cases h2)
          rw [hx] at h2 ⊢
          obtain rfl : x = 0x70 := by simpa using h2
          rfl
        unfold parse check
        rw [if_neg (by simpa using h1), i0]
        simp only [ok_bind, pure_eq_ok]
        rw [if_neg (by simp)]
        by_cases h5 : psi.buffer.length < 5
        · rw [(getU16At_outcome _ _).bad (by omega)]; rfl
        · rw [get16 (by omega), ok_bind]
          have ho := fromMjd_outcome p (UInt16.ofNat (field psi.buffer 3 2))
          rcases Classical.em (p = .debug ∧ (UInt16.ofNat (field psi.buffer 3 2)).toNat < unixEpochMjd) with h6 | h6
          · rw [ho.bad h6]; rfl
          · obtain ⟨d, hd⟩ := ho.good h6
            rw [hd, ok_bind, (getU24At_outcome _ _).bad (by omega)]; rfl
    · refine ⟨?_, fun _ => ⟨t, C65_tdt p t psi ?_⟩⟩
      · rintro (h | h)
        · exact (h0 h).elim
        · exact (ha h.1).elim
      · by_cases h8 : psi.size = 8
        · right
          obtain ⟨x, r, hx⟩ := List.exists_cons_of_ne_nil (show psi.buffer ≠ [] from fun e => h0 ⟨h8, e⟩)
          refine ⟨x, by rw [hx]; rfl, fun e => ha ⟨h8, by rw [hx, e]; rfl⟩⟩
        · exact .inl h8

/-- C67 fails: a packet in which a TDT section starts so late that only its first three to seven bytes are in it makes the receiver
panic, although the packet is valid and the rest would follow in the next packet. -/
theorem C67_tdt_refuted (p : Profile) (t : Tdt) (n : Nat) (hn : 3 ≤ n ∧ n < 8) (time : Nat) :
    receive (Tdt.parse p) p t Psi.default [[0x47, 0x40, 0x14, 0x10, UInt8.ofNat (183 - n)] ++ List.replicate (183 - n) 0xFF ++
      (Table.tdt time).take n] = panic := by
  rw [receive_cons]
  have hm : ∃ cc, Psi.default.mux p ([0x47, 0x40, 0x14, 0x10, UInt8.ofNat (183 - n)] ++ List.replicate (183 - n) 0xFF ++
      (Table.tdt time).take n) = .ok { Psi.default with buffer := (Table.tdt time).take n, size := 8, cc := cc } := by
    obtain ⟨a, b, c, d, e, hu⟩ : ∃ a b c d e, Table.tdt time = [0x70, 0x70, 0x05, a, b, c, d, e] := ⟨_, _, _, _, _, rfl⟩
    rw [hu]
    clear hu
    refine ⟨0, ?_⟩
    obtain ⟨k, rfl⟩ : ∃ k, n = 3 + k := ⟨n - 3, by omega⟩
    have hk : k < 5 := by omega
    clear hn
    match k with
    | 0 => cases p <;> rfl
    | 1 => cases p <;> rfl
    | 2 => cases p <;> rfl
    | 3 => cases p <;> rfl
    | 4 => cases p <;> rfl
    | k + 5 => omega
  obtain ⟨cc, hm⟩ := hm
  rw [hm, ok_bind, (C67_tdt_partial p t _).bad (.inr ⟨⟨rfl, ?_⟩, .inl ?_⟩)]
  · rfl
  · obtain ⟨k, rfl⟩ : ∃ k, n = k + 1 := ⟨n - 1, by omega⟩
    rfl
  · simp only [List.length_take]; omega

/-- C61: a TDT is given back by its packet, whatever the reassembler held before and wherever the packet is appended. -/
theorem C61_round_trip (p : Profile) (t u : Tdt) (h : TimeInRange t.time) (pid : UInt16) (cc : UInt8) (dst : List UInt8) (s : Psi)
    (hp : pid.toNat < 8192) (hc : cc.toNat < 16) :
    ∃ cc' pk s', t.demux p pid cc dst = .ok (cc', dst ++ pk) ∧ IsTsPacket pid.toNat pk ∧ receive (Tdt.parse p) p u s [pk] = .ok (t, s') := by
  have l : (Table.tdt t.time.toNat).length = 8 := by simp [Table.tdt]
  have hs : IsSection (Table.tdt t.time.toNat) := by
    refine ⟨by omega, ?_⟩
    rw [l]; simp [Table.tdt]; decide
  have hpk : packets pid.toNat cc.toNat (Table.tdt t.time.toNat) = [packetAt pid.toNat cc.toNat (Table.tdt t.time.toNat) 0] := by
    unfold packets; rw [l]; rfl
  have hr := receive_section (Tdt.parse p) p u s pid.toNat cc.toNat (Table.tdt t.time.toNat) hs hp (by
    intro psi _ h1 h2; omega)
  rw [hpk] at hr
  refine ⟨_, packetAt pid.toNat cc.toNat (Table.tdt t.time.toNat) 0, { s with buffer := Table.tdt t.time.toNat, size := 8, cc := UInt8.ofNat (cc.toNat % 16) },
    by rw [C61_wire p t h pid cc dst hp hc, hpk, List.flatten_singleton], ?_, ?_⟩
  rotate_left
  · rw [hr]
    simp only []
    rw [parse_accepted p u _ ⟨l, by simp [Table.tdt]⟩ (by simp only [l]; omega)]
    have hf := field_utc t.time.toNat [] h
    rw [List.append_nil] at hf
    simp only []
    have e : Table.tdt t.time.toNat = [0x70, 0x70, 0x05] ++ Descriptor.utc t.time.toNat := rfl
    have e1 : field (Table.tdt t.time.toNat) 3 2 = unixEpochMjd + t.time.toNat / 86400 := by
      rw [e, ← hf.1]; exact congrFun (field_append [0x70, 0x70, 0x05] _ 0) 2
    have e2 : field (Table.tdt t.time.toNat) 5 3 = Descriptor.hhmmss (t.time.toNat % 86400) := by
      rw [e, ← hf.2]; exact congrFun (field_append [0x70, 0x70, 0x05] _ 2) 3
    rw [e1, e2, readUtc_utc p _ h]
    simp only [map_ok, ok_bind, UInt64.ofNat_toNat, pure_eq_ok, l]
    rfl
  · exact stream_packets pid.toNat cc.toNat hp [Table.tdt t.time.toNat] _ (by simp [stream, hpk])

end Tdt

namespace Tot

/-- What is needed for a TOT to be sent: the fields of the descriptors fit, and so does the section. -/
structure InRange (t : Tot) : Prop where
  time : TimeInRange t.time
  good : Good t.descriptors
  size : 10 + (t.descriptors.flatMap Desc.wire).length ≤ 4094

/-- The section the standard prescribes. -/
def wire (t : Tot) : List UInt8 := complete (Table.tot t.time.toNat (t.descriptors.flatMap Desc.wire))

theorem tot_length (time : Nat) (D : List UInt8) : (Table.tot time D).length = 10 + D.length := by
  simp [Table.tot, sized12_length]; omega

theorem psiAssemble_eq (p : Profile) (t : Tot) (h : t.InRange) :
    t.psiAssemble p = .ok { Psi.default with buffer := Table.tot t.time.toNat (t.descriptors.flatMap Desc.wire) } := by
  obtain ⟨w1, v, w2, w3⟩ := write_utc p t.time h.time
  have hs := h.size
  unfold psiAssemble
  have e : Psi.new p 0x73 10 0 = .ok { Psi.default with buffer := [0x73, 0xB0, 0, 0, 0, 0xC1, 0, 0, 0, 0] } := by
    cases p <;> decide
  rw [e, ok_bind]
  simp only [setIdx_succ, setIdx_zero, map_ok, ok_bind]
  rw [show resize [0x73, 0x70, 0, 0, 0, 0xC1, 0, 0, 0, (0 : UInt8)] 10 0x00 = [0x73, 0x70, 0, 0, 0, 0xC1, 0, 0, 0, 0] from rfl]
  rw [setU16At_ok _ (by simp), ok_bind, w2, ok_bind, setU24At_ok _ (by simp), ok_bind, w1, w3]
  rw [(C33_list_partial p t.descriptors _ h.good).1]
  simp only [ok_bind]
  rw [setU16At_ok _ (by simp; omega), ok_bind, or_F000 _ (by omega)]
  simp [Table.tot, Descriptor.utc, beBytes, sized12, pure_eq_ok]

/-- C62: a TOT is sent as the section the standard prescribes. -/
theorem C62_wire (p : Profile) (t : Tot) (h : t.InRange) (pid : UInt16) (cc : UInt8) (dst : List UInt8) (hp : pid.toNat < 8192)
    (hc : cc.toNat < 16) :
    t.demux p pid cc dst = .ok (UInt8.ofNat ((cc.toNat + packetCount t.wire.length) % 16),
      dst ++ (packets pid.toNat cc.toNat t.wire).flatten) := by
  have hs := h.size
  have l := tot_length t.time.toNat (t.descriptors.flatMap Desc.wire)
  have lw : t.wire.length = 14 + (t.descriptors.flatMap Desc.wire).length := by
    rw [wire, complete_length (by omega), l]; omega
  unfold demux
  rw [psiAssemble_eq p t h, ok_bind, C49_finalize p _ rfl (by simp only [l]; omega) (by simp only [l]; omega), ok_bind]
  simp only []
  rw [show complete (Table.tot t.time.toNat (t.descriptors.flatMap Desc.wire)) = t.wire from rfl]
  rw [C40_demux p _ dst (by simp only [lw]; omega) (by simp only [lw]; omega) (by exact hp) (by exact hc), ok_bind]
  simp only [List.take_length, pure_eq_ok]

/-- A section `Tot::parse` accepts: table id 0x73, at least 14 bytes, intact. -/
def Accepts (psi : Psi) : Prop := psi.buffer.head? = some 0x73 ∧ Intact 14 psi

theorem accepts_iff (psi : Psi) : Accepts psi ↔ Acceptable 14 (fun b => b == 0x73) psi := by
  unfold Accepts Acceptable
  refine and_congr ⟨fun h => ⟨_, h, by simp⟩, ?_⟩ Iff.rfl
  rintro ⟨b, h, e⟩
  rw [h, beq_iff_eq.1 e]

/-- C65: a section that is not an intact TOT section leaves the table unchanged. -/
theorem C65_tot (p : Profile) (t : Tot) (psi : Psi) (hb : psi.size < 14 ∨ psi.buffer ≠ []) (h : ¬ Accepts psi) :
    t.parse p psi = .ok t := by
  obtain ⟨b, h1, h2⟩ := gCheck_eq p 14 (by omega) (fun b => b == 0x73) psi hb
  unfold parse
  rw [show check p psi = _ from h1, ok_bind, if_pos (by rw [accepts_iff, ← h2] at h; simpa using h)]
  rfl

/-- descriptors_loop_length. -/
def loopLength (psi : Psi) : Nat := field psi.buffer 8 2 % 4096
/-- The descriptors of a section. -/
def loop (psi : Psi) : List UInt8 := (psi.buffer.drop 10).take (loopLength psi)

theorem parse_accepted (p : Profile) (t : Tot) (psi : Psi) (h : Accepts psi) :
    t.parse p psi = (do
      let time ← readUtc p (UInt16.ofNat (field psi.buffer 3 2)) (UInt32.ofNat (field psi.buffer 5 3))
      let s ← slice psi.buffer 10 (10 + loopLength psi)
      let ds ← (Descriptor.frames s).mapM (Desc.parse p)
      .ok { time := time, descriptors := t.descriptors ++ ds }) := by
  have hne : psi.buffer ≠ [] := by intro e; simp [Accepts, e] at h
  obtain ⟨b, h1, h2⟩ := gCheck_eq p 14 (by omega) (fun b => b == 0x73) psi (.inr hne)
  have hb : b = true := h2.2 ((accepts_iff psi).1 h)
  obtain ⟨-, hs, hl, -⟩ := h
  subst hb
  unfold parse readUtc
  have hx : (UInt16.ofNat (field psi.buffer 8 2) &&& (0x0FFF : UInt16)).toNat = loopLength psi := by
    rw [mask0FFF, u16_field]; rfl
  rw [show check p psi = _ from h1, ok_bind, if_neg (by simp), get16 (by omega), ok_bind, get24 (by omega), get16 (by omega)]
  simp only [ok_bind, hx, pure_eq_ok]
  cases fromMjd p (UInt16.ofNat (field psi.buffer 3 2)) with
  | error => rfl
  | ok d =>
    simp only [ok_bind]
    cases fromBcdTime32 p (UInt32.ofNat (field psi.buffer 5 3)) with
    | error => rfl
    | ok v =>
      simp only [ok_bind]
      cases addU64 p d v.toUInt64 with
      | error => rfl
      | ok x =>
        simp only [ok_bind]
        cases slice psi.buffer 10 (10 + loopLength psi) with
        | error => rfl
        | ok s =>
          simp only [ok_bind]
          rw [C37_frames]
          cases (Descriptor.frames s).mapM (Desc.parse p) <;> rfl

/-- C66: an accepted section whose date is not before 1970 and whose time has decimal digits replaces the time, and appends its
descriptors to those already there. -/
theorem C66_tot (p : Profile) (t : Tot) (psi : Psi) (h : Accepts psi) (hd : unixEpochMjd ≤ field psi.buffer 3 2)
    (hb : ValidBcd 6 (field psi.buffer 5 3)) (hl : 10 + loopLength psi ≤ psi.buffer.length) :
    ∃ v : UInt64, v.toNat = instant (field psi.buffer 3 2) (field psi.buffer 5 3) ∧ t.parse p psi = (do
      let ds ← (Descriptor.frames (loop psi)).mapM (Desc.parse p)
      .ok { time := v, descriptors := t.descriptors ++ ds }) := by
  have f3 := field_lt psi.buffer 5 3
  obtain ⟨v, v1, v2⟩ := readUtc_ok p (UInt16.ofNat (field psi.buffer 3 2)) (UInt32.ofNat (field psi.buffer 5 3))
    (by rw [u16_field]; exact hd) (by rw [u24_field]; omega) (by rw [u24_field]; exact hb)
  rw [u16_field, u24_field] at v2
  refine ⟨v, v2, ?_⟩
  have hs1 : slice psi.buffer 10 (10 + loopLength psi) = .ok (loop psi) := by
    rw [slice, if_pos (by omega), loop, List.drop_take, Nat.add_sub_cancel_left]
  rw [parse_accepted p t psi h, v1, ok_bind, hs1, ok_bind]

/-- C67, what holds: parsing panics exactly for an accepted section whose descriptors do not end inside the buffer, or which
contains a descriptor whose parsing panics (C38), or (debug profile) a date before 1970 or a time with digits that are not
decimal; and for one that claims a size without having any byte. -/
theorem C67_tot_partial (p : Profile) (t : Tot) (psi : Psi) :
    Outcome (t.parse p psi) ((14 ≤ psi.size ∧ psi.buffer = []) ∨
      (Accepts psi ∧ ((p = .debug ∧ (field psi.buffer 3 2 < unixEpochMjd ∨ ¬ ValidBcd 6 (field psi.buffer 5 3))) ∨
        psi.buffer.length < 10 + loopLength psi ∨ LoopPanics p (loop psi)))) := by
  by_cases h0 : 14 ≤ psi.size ∧ psi.buffer = []
  · refine ⟨fun _ => ?_, fun hn => (hn (.inl h0)).elim⟩
    unfold parse
    rw [show check p psi = _ from gCheck_panic p 14 _ psi h0.1 h0.2]; rfl
  · by_cases ha : Accepts psi
    · rw [parse_accepted p t psi ha]
      have f3 := field_lt psi.buffer 5 3
      have hu := readUtc_outcome p (UInt16.ofNat (field psi.buffer 3 2)) (UInt32.ofNat (field psi.buffer 5 3)) (by rw [u24_field]; omega)
      rw [u16_field, u24_field] at hu
      have hs : Outcome (slice psi.buffer 10 (10 + loopLength psi)) (psi.buffer.length < 10 + loopLength psi) := by
        unfold slice
        constructor
        · intro h; rw [if_neg (by omega)]
        · intro h; rw [if_pos (by omega)]; exact ⟨_, rfl⟩
      refine (hu.bind (Q := psi.buffer.length < 10 + loopLength psi ∨ LoopPanics p (loop psi)) fun v _ => ?_).congr ?_
      · by_cases hl : psi.buffer.length < 10 + loopLength psi
        · rw [hs.bad hl]
          exact ⟨fun _ => rfl, fun hn => (hn (.inl hl)).elim⟩
        · have hs1 : slice psi.buffer 10 (10 + loopLength psi) = .ok (loop psi) := by
            rw [slice, if_pos (by omega), loop, List.drop_take, Nat.add_sub_cancel_left]
          rw [hs1, ok_bind]
          refine ((loop_outcome p (loop psi)).bind fun ds _ => Outcome.of_ok _).congr ?_
          simp [hl]
      · simp [ha, h0]
    · refine ⟨?_, fun _ => ⟨t, C65_tot p t psi ?_ ha⟩⟩
      · rintro (h | h)
        · exact (h0 h).elim
        · exact (ha h.1).elim
      · by_cases hb : psi.buffer = []
        · exact .inl (by by_contra hc; exact h0 ⟨by omega, hb⟩)
        · exact .inr hb

theorem wire_fields (t : Tot) (h : t.InRange) : t.wire.length = 14 + (t.descriptors.flatMap Desc.wire).length ∧ t.wire.head? = some 0x73 ∧
    field t.wire 3 2 = unixEpochMjd + t.time.toNat / 86400 ∧ field t.wire 5 3 = Descriptor.hhmmss (t.time.toNat % 86400) ∧
    field t.wire 8 2 = 15 * 4096 + (t.descriptors.flatMap Desc.wire).length ∧
    (t.wire.drop 10).take (t.descriptors.flatMap Desc.wire).length = t.descriptors.flatMap Desc.wire := by
  have hs := h.size
  have l := tot_length t.time.toNat (t.descriptors.flatMap Desc.wire)
  obtain ⟨l1, l2, k1, k2, k3, k4, hw⟩ := complete_form 0x73 0x70 0x00 (Descriptor.utc t.time.toNat ++ sized12 0b1111 (t.descriptors.flatMap Desc.wire))
  have hw : t.wire = 0x73 :: l1 :: l2 :: (Descriptor.utc t.time.toNat ++ sized12 0b1111 (t.descriptors.flatMap Desc.wire) ++ [k1, k2, k3, k4]) := by
    rw [← hw, wire]; refine congrArg _ ?_; simp [Table.tot]
  have f := field_utc t.time.toNat (sized12 0b1111 (t.descriptors.flatMap Desc.wire) ++ [k1, k2, k3, k4]) h.time
  refine ⟨by rw [wire, complete_length (by omega), l]; omega, by rw [hw]; rfl, ?_, ?_, ?_, ?_⟩
  · rw [hw, List.append_assoc, ← f.1]; rfl
  · rw [hw, List.append_assoc, ← f.2]; rfl
  · have := congrFun (field_append (0x73 :: l1 :: l2 :: Descriptor.utc t.time.toNat) (sized12 0b1111 (t.descriptors.flatMap Desc.wire) ++ [k1, k2, k3, k4]) 0) 2
    rw [show (0x73 :: l1 :: l2 :: Descriptor.utc t.time.toNat).length + 0 = 8 by simp] at this
    rw [hw, List.append_assoc]
    refine this.trans ?_
    rw [field, List.drop_zero, sized12, List.append_assoc, List.take_left' (beBytes_length _ _), beNat_beBytes]
    simp only [Descriptor.pack, List.foldl_cons, List.foldl_nil]
    omega
  · have e : t.wire = (0x73 :: l1 :: l2 :: (Descriptor.utc t.time.toNat ++ beBytes 2 (Descriptor.pack [(4, 0b1111), (12, (t.descriptors.flatMap Desc.wire).length)]))) ++
        (t.descriptors.flatMap Desc.wire ++ [k1, k2, k3, k4]) := by
      rw [hw]; simp [sized12]
    rw [e, List.drop_left' (by simp), List.take_left]

/-- A TOT is given back by the packets of its section, with any continuity counter. -/
theorem receive_wire (p : Profile) (t u : Tot) (h : t.InRange) (he : ∀ d ∈ t.descriptors, d.Exact) (hu : u.descriptors = []) (pid cc : Nat)
    (s : Psi) (hp : pid < 8192) : ∃ s', receive (Tot.parse p) p u s (packets pid cc t.wire) = .ok (t, s') := by
  have hs := h.size
  have l := tot_length t.time.toNat (t.descriptors.flatMap Desc.wire)
  obtain ⟨f0, f1, f2, f3, f4, f5⟩ := wire_fields t h
  have hr := receive_section (Tot.parse p) p u s pid cc t.wire (complete_isSection (by omega) (by omega)) hp (by
    intro psi h1 h2 h3
    refine C65_tot p u psi (.inr (by intro e; rw [e] at h3; simp at h3)) ?_
    rintro ⟨-, -, h, -⟩
    omega)
  refine ⟨{ s with buffer := t.wire, size := t.wire.length, cc := UInt8.ofNat ((cc + packetCount t.wire.length - 1) % 16) }, ?_⟩
  rw [hr]
  simp only []
  have hacc : Accepts { s with buffer := t.wire, size := t.wire.length, cc := UInt8.ofNat ((cc + packetCount t.wire.length - 1) % 16) } :=
    ⟨f1, complete_intact _ (by omega) _ rfl rfl 14 (by omega)⟩
  have hl : loopLength { s with buffer := t.wire, size := t.wire.length, cc := UInt8.ofNat ((cc + packetCount t.wire.length - 1) % 16) } =
      (t.descriptors.flatMap Desc.wire).length := by
    rw [loopLength]; simp only [f4]; omega
  rw [parse_accepted p u _ hacc]
  simp only [hl, f2, f3]
  rw [readUtc_utc p _ h.time, ok_bind, slice, if_pos (by omega), ok_bind, List.drop_take, Nat.add_sub_cancel_left, f5,
    frames_good p t.descriptors fun d hd => ⟨(h.good d hd).1, he d hd⟩]
  simp only [ok_bind, hu, List.nil_append, UInt64.ofNat_toNat, pure_eq_ok]

/-- C62: a TOT whose descriptors read back exactly (no local time offset of five hours or more) is given back by its packets, to an object that holds no descriptors yet, whatever the reassembler held before. -/
theorem C62_round_trip_partial (p : Profile) (t u : Tot) (h : t.InRange) (he : ∀ d ∈ t.descriptors, d.Exact) (hu : u.descriptors = []) (pid : UInt16)
    (cc : UInt8) (dst : List UInt8) (s : Psi) (hp : pid.toNat < 8192) (hc : cc.toNat < 16) :
    ∃ cc' pks s', t.demux p pid cc dst = .ok (cc', dst ++ pks.flatten) ∧ (∀ pk ∈ pks, IsTsPacket pid.toNat pk) ∧
      receive (Tot.parse p) p u s pks = .ok (t, s') := by
  obtain ⟨s', hr⟩ := receive_wire p t u h he hu pid.toNat cc.toNat s hp
  refine ⟨_, packets pid.toNat cc.toNat t.wire, s', C62_wire p t h pid cc dst hp hc, ?_, hr⟩
  intro pk hpk
  exact stream_packets pid.toNat cc.toNat hp [t.wire] pk (by simpa [stream] using hpk)

end Tot

/-! ## Concrete cases -/

/-- A TOT with a local time offset. -/
def sampleTot : Tot := { time := 1700000000, descriptors := [.d58 ⟨[⟨⟨0, [0x47, 0x42, 0x52]⟩, 1, 0, 60, 1711846800, 120⟩]⟩] }

example : TimeInRange 1700000000 := by unfold TimeInRange unixEpochMjd; decide
example : ¬ TimeInRange 2155593600 := by unfold TimeInRange unixEpochMjd; decide
example : sampleTot.InRange := ⟨by unfold TimeInRange unixEpochMjd; decide, by decide +kernel, by decide +kernel⟩
example : ∀ d ∈ sampleTot.descriptors, d.Exact := by decide +kernel
example : Tot.Accepts { Psi.default with buffer := sampleTot.wire, size := 29 } := by unfold Tot.Accepts; decide +kernel
example : Tdt.Accepts { Psi.default with buffer := Table.tdt 1700000000, size := 8 } := by unfold Tdt.Accepts; decide +kernel

/-- C67 fails: an intact TOT section whose descriptors_loop_length runs past its end makes the parser panic, whatever its time. -/
theorem Tot.C67_tot_refuted (p : Profile) (t : Tot) : t.parse p { Psi.default with
    buffer := complete ([0x73, 0x70, 0x00] ++ Descriptor.utc 1700000000 ++ [0xF0, 0x05]), size := 14 } = panic :=
  (C67_tot_partial p t _).bad (.inr ⟨⟨by decide +kernel, by decide +kernel⟩, .inr (.inl (by decide +kernel))⟩)

/-- C67 fails: in the debug profile an intact TOT section with a time that is not decimal makes the parser panic. -/
theorem Tot.C67_tot_digits_refuted (t : Tot) : t.parse .debug { Psi.default with
    buffer := complete ([0x73, 0x70, 0x00, 0xEB, 0x66, 0x22, 0x13, 0x2A, 0xF0, 0x00]), size := 14 } = panic :=
  (C67_tot_partial .debug t _).bad (.inr ⟨⟨by decide +kernel, by decide +kernel⟩, .inl ⟨rfl, .inr (by decide +kernel)⟩⟩)

end Mpegts
