import Verif.Lemmas.Clock

/-! # C12-C15: PES header, PTS/DTS, null packet -/

namespace Mpegts
open Spec

/-- C12: every 33-bit timestamp in the five-byte layout (any prefix, any marker bits) at offset 9 is returned by
`get_pts`, at offset 14 by `get_dts`. -/
theorem C12_get_pts_dts (pre : Nat) (m1 m2 m3 : Bool) (ts : Nat) (hp : pre < 16) (ht : ts < 2 ^ 33)
    (before after : List UInt8) :
    (before.length = 9 → ∃ v, Pes.getPts (before ++ tsField pre m1 m2 m3 ts ++ after) = .ok v ∧ v.toNat = ts) ∧
    (before.length = 14 → ∃ v, Pes.getDts (before ++ tsField pre m1 m2 m3 ts ++ after) = .ok v ∧ v.toNat = ts) := by
  have hd := tsField_decode pre m1 m2 m3 ts hp ht
  obtain ⟨a, b, c, d, e, he⟩ := exists_five (tsField pre m1 m2 m3 ts) (by simp [tsField])
  rw [he] at hd ⊢
  have hi : ∀ n, idx (before ++ [a, b, c, d, e] ++ after) (before.length + n) = idx ([a, b, c, d, e] ++ after) n := by
    intro n; rw [List.append_assoc, idx_append_add]
  constructor <;> intro hb
  · have i0 := hi 0; have i1 := hi 1; have i2 := hi 2; have i3 := hi 3; have i4 := hi 4
    rw [hb] at i0 i1 i2 i3 i4
    refine ⟨_, by
      simp only [Pes.getPts, i0, i1, i2, i3, i4, List.cons_append, List.nil_append, idx_zero, idx_succ, ok_bind]
      rfl, ?_⟩
    rw [ts5_eq, hd]
  · have i0 := hi 0; have i1 := hi 1; have i2 := hi 2; have i3 := hi 3; have i4 := hi 4
    rw [hb] at i0 i1 i2 i3 i4
    refine ⟨_, by
      simp only [Pes.getDts, i0, i1, i2, i3, i4, List.cons_append, List.nil_append, idx_zero, idx_succ, ok_bind]
      rfl, ?_⟩
    rw [ts5_eq, hd]

/-- C12: `is_pts` and `is_dts` are the two top bits of byte 7 (PTS_DTS_flags). -/
theorem C12_flags (before : List UInt8) (hb : before.length = 7) (flags : UInt8) (rest : List UInt8) :
    Pes.isPts (before ++ flags :: rest) = .ok (decide (flags.toNat / 2 ^ 7 % 2 = 1)) ∧
    Pes.isDts (before ++ flags :: rest) = .ok (decide (flags.toNat / 2 ^ 6 % 2 = 1)) := by
  have hi : idx (before ++ flags :: rest) 7 = .ok flags := by
    have := idx_append_add before (flags :: rest) 0
    rw [hb] at this; exact this
  simp only [Pes.isPts, Pes.isDts, hi, ok_bind, pure_eq_ok, Nat.reducePow]
  exact ⟨congrArg _ (mask80 flags), congrArg _ (mask40 flags)⟩

/-- C12: too short a packet panics. -/
theorem C12_short (pes : List UInt8) :
    (pes.length < 14 → Pes.getPts pes = panic) ∧ (pes.length < 19 → Pes.getDts pes = panic) ∧
    (pes.length < 8 → Pes.isPts pes = panic ∧ Pes.isDts pes = panic) := by
  have ho : ∀ i, idx pes i = panic ∨ ∃ b, idx pes i = .ok b := by
    intro i
    by_cases h : i < pes.length
    · right; exact ⟨_, idx_ok h⟩
    · left; exact idx_panic (by omega)
  refine ⟨fun h => ?_, fun h => ?_, fun h => ?_⟩
  · have h13 : idx pes 13 = panic := idx_panic (by omega)
    unfold Pes.getPts
    rcases ho 9 with e | ⟨_, e⟩ <;> rcases ho 10 with e1 | ⟨_, e1⟩ <;> rcases ho 11 with e2 | ⟨_, e2⟩ <;>
      rcases ho 12 with e3 | ⟨_, e3⟩ <;> simp [e, e1, e2, e3, h13]
  · have h13 : idx pes 18 = panic := idx_panic (by omega)
    unfold Pes.getDts
    rcases ho 14 with e | ⟨_, e⟩ <;> rcases ho 15 with e1 | ⟨_, e1⟩ <;> rcases ho 16 with e2 | ⟨_, e2⟩ <;>
      rcases ho 17 with e3 | ⟨_, e3⟩ <;> simp [e, e1, e2, e3, h13]
  · have h13 : idx pes 7 = panic := idx_panic (by omega)
    simp [Pes.isPts, Pes.isDts, h13]

/-- C13: start code prefix. -/
theorem C13_is_prefix (a b c : UInt8) (rest : List UInt8) :
    Pes.isPrefix (a :: b :: c :: rest) = .ok (decide (beNat [a, b, c] = 1)) := by
  simp only [Pes.isPrefix, idx_zero, idx_succ, ok_bind, pure_eq_ok, beNat_three]
  have ha := a.toNat_lt; have hb := b.toNat_lt; have hc := c.toNat_lt
  have z : ∀ x : UInt8, (x == 0x00) = decide (x.toNat = 0) := by decide +kernel
  have o : ∀ x : UInt8, (x == 0x01) = decide (x.toNat = 1) := by decide +kernel
  rw [z, z, o]
  by_cases h1 : a.toNat = 0
  · by_cases h2 : b.toNat = 0
    · simp [h1, h2]
    · simp [h1, h2]; omega
  · simp [h1]; omega

/-- C13: a packet has the optional PES header unless its stream_id is one of the eight listed in
ISO 13818-1 2.4.3.6. -/
theorem C13_syntax (a b c id : UInt8) (rest : List UInt8) :
    Pes.isSyntaxSpec (a :: b :: c :: id :: rest) =
      .ok (decide (id.toNat ∉ [0xBC, 0xBE, 0xBF, 0xF0, 0xF1, 0xF2, 0xF8, 0xFF])) := by
  simp only [Pes.isSyntaxSpec, idx_zero, idx_succ, ok_bind, pure_eq_ok]
  congr 1
  revert id
  decide +kernel

/-- C13: `PES_packet_length`. -/
theorem C13_length (a b c id l1 l2 : UInt8) (rest : List UInt8) :
    ∃ v, Pes.getLength (a :: b :: c :: id :: l1 :: l2 :: rest) = .ok v ∧ v.toNat = beNat [l1, l2] := by
  refine ⟨_, by simp only [Pes.getLength, idx_zero, idx_succ, ok_bind, pure_eq_ok]; rfl, ?_⟩
  have h1 := l1.toNat_lt; have h2 := l2.toNat_lt
  have : (l1.toUInt16 <<< 8).toNat = l1.toNat * 256 := by
    rw [UInt16.toNat_shiftLeft]
    simp only [UInt8.toNat_toUInt16, UInt16.reduceToNat, Nat.reduceMod, Nat.shiftLeft_eq]
    omega
  rw [UInt16.toNat_add, this, beNat_two, UInt8.toNat_toUInt16]
  omega

/-- C13: payload offset. -/
theorem C13_payload_offset (a b c id l1 l2 f1 f2 hlen : UInt8) (rest : List UInt8) :
    ∃ v, Pes.getPayloadOffset (a :: b :: c :: id :: l1 :: l2 :: f1 :: f2 :: hlen :: rest) = .ok v ∧
      v.toNat = if id.toNat ∈ [0xBC, 0xBE, 0xBF, 0xF0, 0xF1, 0xF2, 0xF8, 0xFF] then 6 else 9 + hlen.toNat := by
  unfold Pes.getPayloadOffset
  rw [C13_syntax, ok_bind]
  have h := hlen.toNat_lt
  by_cases hm : id.toNat ∈ [0xBC, 0xBE, 0xBF, 0xF0, 0xF1, 0xF2, 0xF8, 0xFF]
  · simp only [hm, not_true_eq_false, decide_false, Bool.not_false, if_true, pure_eq_ok]
    exact ⟨6, rfl, rfl⟩
  · simp only [hm, not_false_eq_true, decide_true, Bool.not_true, Bool.false_eq_true, if_false, idx_zero, idx_succ,
      ok_bind, pure_eq_ok]
    refine ⟨_, rfl, ?_⟩
    rw [UInt16.toNat_add, UInt8.toNat_toUInt16]
    have : (6 + 3 : UInt16).toNat = 9 := rfl
    omega

theorem PTS_MAX_toNat : Pes.PTS_MAX.toNat = ptsPeriod - 1 := rfl

/-- C13: what the accessors do with packets that are too short.  `is_prefix` stops at the first byte that differs. -/
theorem C13_short (pes : List UInt8) :
    (pes.length < 4 → Pes.isSyntaxSpec pes = panic ∧ Pes.getPayloadOffset pes = panic) ∧ (pes.length < 6 → Pes.getLength pes = panic) ∧
    (∀ a b c id rest, pes = a :: b :: c :: id :: rest → pes.length < 9 → Pes.getPayloadOffset pes =
      if id.toNat ∈ [0xBC, 0xBE, 0xBF, 0xF0, 0xF1, 0xF2, 0xF8, 0xFF] then .ok 6 else panic) ∧
    (pes = [] → Pes.isPrefix pes = panic) ∧
    (∀ a, pes = [a] → Pes.isPrefix pes = if a = 0 then panic else .ok false) ∧
    (∀ a b, pes = [a, b] → Pes.isPrefix pes = if a = 0 ∧ b = 0 then panic else .ok false) := by
  refine ⟨fun h => ?_, fun h => ?_, ?_, ?_, ?_, ?_⟩
  · have h3 : idx pes 3 = panic := idx_panic (by omega)
    have : Pes.isSyntaxSpec pes = panic := by rw [Pes.isSyntaxSpec, h3]; rfl
    exact ⟨this, by rw [Pes.getPayloadOffset, this]; rfl⟩
  · rw [Pes.getLength]
    by_cases h4 : pes.length ≤ 4
    · rw [idx_panic h4]; rfl
    · rw [idx_ok (show 4 < pes.length by omega), ok_bind, idx_panic (by omega)]; rfl
  · rintro a b c id rest rfl hl
    rw [Pes.getPayloadOffset, C13_syntax, ok_bind]
    by_cases hm : id.toNat ∈ [0xBC, 0xBE, 0xBF, 0xF0, 0xF1, 0xF2, 0xF8, 0xFF]
    · rw [if_pos hm]; simp only [hm, not_true_eq_false, decide_false, Bool.not_false, if_true, pure_eq_ok]
    · rw [if_neg hm]
      simp only [hm, not_false_eq_true, decide_true, Bool.not_true, Bool.false_eq_true, if_false]
      rw [idx_panic (by omega)]; rfl
  · rintro rfl; rfl
  · rintro a rfl
    by_cases ha : a = 0
    · subst ha; rfl
    · rw [if_neg ha]; simp [Pes.isPrefix, idx_zero, ha]
  · rintro a b rfl
    by_cases ha : a = 0
    · subst ha
      by_cases hb : b = 0
      · subst hb; rfl
      · rw [if_neg (by simp [hb])]; simp [Pes.isPrefix, idx_zero, idx_succ, hb]
    · rw [if_neg (by simp [ha])]; simp [Pes.isPrefix, idx_zero, ha]

/-- C14, the part that holds: without wrap the difference is exact.  (Full property: for all `last`, `current`
below the period the result is `(current - last) mod ptsPeriod`; missing: the wrap.) -/
theorem C14_pts_delta_partial (p : Profile) (last current : UInt64) (h : last ≤ current) :
    ∃ d, Pes.ptsDelta p last current = .ok d ∧ last.toNat + d.toNat = current.toNat := by
  have h' : last.toNat ≤ current.toNat := h
  obtain ⟨h1, h2⟩ := subU64_ok p h'
  refine ⟨_, by simp only [Pes.ptsDelta, ge_iff_le, h, if_true, h1]; rfl, by rw [h2]; omega⟩

/-- C14 fails on every wrap: one tick less than the true distance. -/
theorem C14_pts_delta_wrap_refuted (p : Profile) (last current : UInt64) (h : current < last)
    (hl : last.toNat < ptsPeriod) :
    ∃ d, Pes.ptsDelta p last current = .ok d ∧ d.toNat + 1 = current.toNat + ptsPeriod - last.toNat := by
  have h' : current.toNat < last.toNat := h
  have hn : ¬ last ≤ current := by simpa using h
  have hm := PTS_MAX_toNat
  unfold ptsPeriod at *
  obtain ⟨a1, a2⟩ := addU64_ok (a := current) (b := Pes.PTS_MAX) p (by omega)
  obtain ⟨s1, s2⟩ := subU64_ok (a := current + Pes.PTS_MAX) (b := last) p (by omega)
  refine ⟨_, by simp only [Pes.ptsDelta, ge_iff_le, hn, if_false, a1, ok_bind, s1]; rfl, by rw [s2]; omega⟩

/-- C15: the null packet is 188 bytes: the header fields of a synchronised, error-free, unscrambled,
payload-only packet on PID 8191 with counter 0, and 184 stuffing bytes. -/
theorem C15_null_packet :
    Ts.NULL_PACKET = (⟨0x47, false, false, false, 8191, 0, false, true, 0⟩ : Header).encode ++ List.replicate 184 0xFF ∧
    Ts.NULL_PACKET.length = Ts.PACKET_SIZE ∧ Ts.PACKET_SIZE = 188 ∧ Ts.PID_NULL.toNat = 8191 := by
  refine ⟨by decide +kernel, by decide +kernel, rfl, rfl⟩

/-- C15: what the accessors report about it. -/
theorem C15_null_packet_accessors (p : Profile) :
    Ts.isSync Ts.NULL_PACKET = .ok true ∧ Ts.isError Ts.NULL_PACKET = .ok false ∧
    Ts.isPusi Ts.NULL_PACKET = .ok false ∧ Ts.isScrambled Ts.NULL_PACKET = .ok false ∧
    Ts.isAdaptation Ts.NULL_PACKET = .ok false ∧ Ts.isPayload Ts.NULL_PACKET = .ok true ∧
    Ts.getPid Ts.NULL_PACKET = .ok Ts.PID_NULL ∧ Ts.getCc Ts.NULL_PACKET = .ok 0 ∧
    Ts.isPcr Ts.NULL_PACKET = .ok false ∧ Ts.getPayloadOffset p Ts.NULL_PACKET = .ok 4 ∧
    Ts.FILL_PACKET = List.replicate 188 0xFF := by
  cases p <;> decide +kernel

example : tsField 3 true true true 225220 = [0x31, 0x00, 0x0D, 0xDF, 0x89] := by decide
example : Pes.getPayloadOffset [0, 0, 1, 0xE0, 0, 0, 0x80, 0xC0, 10] = .ok 19 := by decide
example : Pes.ptsDelta .debug (Pes.PTS_NONE - 1) 0 = .ok 0 := by decide +kernel

end Mpegts
