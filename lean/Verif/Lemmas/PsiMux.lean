import Verif.Lemmas.PsiDemux

/-! # Helper lemmas: reassembly -/

namespace Mpegts
open Spec

theorem mask0FFF (x : UInt16) : (x &&& 0x0FFF).toNat = x.toNat % 4096 := by
  rw [UInt16.toNat_and]
  exact Nat.and_two_pow_sub_one_eq_mod x.toNat 12

namespace Psi

/-- `push` never fails. -/
def pushed (s : Psi) (b : List UInt8) : Psi :=
  { s with buffer := s.buffer ++ b, size := if s.size = 0 then declaredSize (s.buffer ++ b) else s.size }

theorem push_eq (s : Psi) (b : List UInt8) : s.push b = .ok (s.pushed b) := by
  unfold push pushed
  by_cases h0 : s.size = 0
  · by_cases h3 : 3 ≤ (s.buffer ++ b).length
    · simp only [h0, ge_iff_le, h3, and_self, if_true]
      rw [getU16At_ok (by omega), ok_bind, pure_eq_ok]
      simp only [declaredSize, h3, if_true, mask0FFF, UInt16.toNat_ofNat']
      congr 3
      omega
    · simp only [h0, ge_iff_le, h3, and_false, if_false, if_true, declaredSize, pure_eq_ok]
  · simp [h0]

/-- What `mux` looks at: a 188-byte packet with payload at offset `o` and counter `cc`. -/
structure View (p : Profile) (ts : List UInt8) (o : Nat) (cc : UInt8) (pusi : Bool) : Prop where
  len : ts.length = 188
  payload : Ts.isPayload ts = .ok true
  off : ∃ b, Ts.getPayloadOffset p ts = .ok b ∧ b.toNat = o
  cc : Ts.getCc ts = .ok cc
  pusi : Ts.isPusi ts = .ok pusi

theorem mux_nopay (p : Profile) (s : Psi) (ts : List UInt8) (h : Ts.isPayload ts = .ok false) : s.mux p ts = .ok s := by
  simp [mux, h]

variable {p : Profile} {ts : List UInt8} {o : Nat} {cc : UInt8} {pusi : Bool}

theorem mux_off (v : View p ts o cc pusi) (s : Psi) (ho : 188 ≤ o) : s.mux p ts = .ok s.clear := by
  obtain ⟨b, h1, h2⟩ := v.off
  unfold mux
  simp only [v.payload, h1, h2, ok_bind]
  simp [ho]

theorem cc_ne (a : UInt8) (s : UInt8) : (a != ((s + 1) &&& 0x0F)) = decide (a.toNat ≠ (s.toNat + 1) % 16) := by
  rw [← cc_next', Bool.eq_iff_iff, bne_iff_ne, decide_eq_true_iff, Ne, Ne, UInt8.toNat_inj]

theorem mux_cont_bad (v : View p ts o cc false) (s : Psi) (ho : o < 188) (hs : s.cc.toNat < 255)
    (hc : cc.toNat ≠ (s.cc.toNat + 1) % 16) : s.mux p ts = .ok s.clear := by
  obtain ⟨b, h1, h2⟩ := v.off
  unfold mux
  simp only [v.payload, h1, h2, v.cc, v.pusi, ok_bind, addU8_one p s.cc hs, cc_ne]
  rw [if_neg (by simp), if_neg (by omega), if_neg (by simp), if_pos (by simpa using hc)]
  rfl

theorem slice_to_end {l : List UInt8} {a : Nat} (hl : l.length = 188) (ha : a ≤ 188) : slice l a 188 = .ok (l.drop a) := by
  rw [slice_ok ha (by omega), List.take_of_length_le (by omega)]

theorem mux_cont (v : View p ts o cc false) (s : Psi) (ho : o < 188) (hs : s.cc.toNat < 255)
    (hc : cc.toNat = (s.cc.toNat + 1) % 16) :
    s.mux p ts = .ok { s.pushed (ts.drop o) with buffer := (s.buffer ++ ts.drop o).take (s.pushed (ts.drop o)).size, cc := cc } := by
  obtain ⟨b, h1, h2⟩ := v.off
  unfold mux
  simp only [v.payload, h1, h2, v.cc, v.pusi, ok_bind, addU8_one p s.cc hs, cc_ne]
  rw [if_neg (by simp), if_neg (by omega), if_neg (by simp), if_neg (by simpa using hc),
    slice_to_end v.len (by omega), ok_bind, push_eq, ok_bind]
  by_cases hl : (s.pushed (ts.drop o)).buffer.length > (s.pushed (ts.drop o)).size
  · rw [if_pos hl, resize_shrink _ _ _ (by omega)]
    rfl
  · rw [if_neg hl]
    have : (s.buffer ++ ts.drop o).take (s.pushed (ts.drop o)).size = s.buffer ++ ts.drop o :=
      List.take_of_length_le (by have : (s.pushed (ts.drop o)).buffer = s.buffer ++ ts.drop o := rfl
                                 rw [this] at hl; omega)
    rw [this]
    rfl

theorem mux_pusi_bad (v : View p ts o cc true) (s : Psi) (ho : o < 188) (pf : UInt8) (hpf : ts[o]? = some pf)
    (h : 183 ≤ pf.toNat) : s.mux p ts = .ok s.clear := by
  obtain ⟨b, h1, h2⟩ := v.off
  have hi : idx ts o = .ok pf := by simp [idx, hpf]
  unfold mux
  simp only [v.payload, h1, h2, v.cc, v.pusi, ok_bind, hi]
  rw [if_neg (by simp), if_neg (by omega), if_pos trivial, if_pos (by omega)]
  rfl

/-- The state after a section starts with the bytes `b`. -/
def started (s : Psi) (cc : UInt8) (b : List UInt8) : Psi :=
  { s with buffer := upToEnd b, size := declaredSize b, cc := cc }

theorem start_eq (s : Psi) (cc : UInt8) (b : List UInt8) :
    (do
      let self ← s.clear.push b
      if self.size ≠ 0 ∧ self.buffer.length > self.size then do
          let self ← pure (f := R) { self with buffer := resize self.buffer self.size 0 }
          pure { self with cc := cc }
        else do
          let self ← pure self
          pure { self with cc := cc }) = .ok (s.started cc b) := by
  rw [push_eq, ok_bind]
  have e : s.clear.pushed b = { s with buffer := b, size := declaredSize b } := by simp [pushed, clear]
  rw [e]
  simp only [started, upToEnd]
  by_cases h3 : 3 ≤ b.length
  · have : declaredSize b ≠ 0 := by simp [declaredSize, h3]
    by_cases hl : b.length > declaredSize b
    · rw [if_pos ⟨this, hl⟩, resize_shrink _ _ _ (by omega)]
      simp [h3]
    · rw [if_neg (by omega), if_pos h3, List.take_of_length_le (by omega)]
      rfl
  · have : declaredSize b = 0 := by simp [declaredSize, h3]
    rw [if_neg (by simp [this]), if_neg h3]
    rfl

theorem clear_of_empty (s : Psi) (h : s.buffer = []) (h0 : s.size = 0) : s.clear = s := by
  cases s; simp_all [clear]

theorem mux_pusi_start (v : View p ts o cc true) (s : Psi) (ho : o < 188) (pf : UInt8)
    (hs : pf.toNat ≠ 0 → s.cc.toNat < 255) (hpf : ts[o]? = some pf) (h : pf.toNat < 183)
    (hr : pf.toNat = 0 ∨ cc.toNat ≠ (s.cc.toNat + 1) % 16 ∨ (s.buffer = [] ∧ s.size = 0)) :
    s.mux p ts = if o + 1 + pf.toNat ≤ 188 then .ok (s.started cc (ts.drop (o + 1 + pf.toNat))) else panic := by
  obtain ⟨b, h1, h2⟩ := v.off
  have hi : idx ts o = .ok pf := by simp [idx, hpf]
  have key : ∀ k : Psi → R Psi, (do
          let d ← slice ts (o + 1 + pf.toNat) 188
          let self ← s.clear.push d
          k self) = if o + 1 + pf.toNat ≤ 188 then (do let self ← s.clear.push (ts.drop (o + 1 + pf.toNat)); k self : R Psi)
              else panic := by
    intro k
    split
    · rw [slice_to_end v.len (by assumption), ok_bind]
    · rw [slice_panic (by omega), error_bind]
  unfold mux
  simp only [v.payload, h1, h2, v.cc, v.pusi, ok_bind, hi]
  rw [if_neg (by simp), if_neg (by omega), if_pos trivial, if_neg (by omega)]
  by_cases h0 : pf.toNat = 0
  · rw [if_pos h0, pure_eq_ok, ok_bind]
    simp only [if_true]
    rw [if_pos (by simp [clear]), key, start_eq]
  · rw [if_neg h0, addU8_one p s.cc (hs h0), ok_bind, pure_eq_ok, ok_bind]
    simp only [cc_ne]
    by_cases hc : cc.toNat ≠ (s.cc.toNat + 1) % 16
    · simp only [hc, ne_eq, not_false_eq_true, decide_true, if_true]
      rw [if_pos (by simp [clear]), key, start_eq]
    · have he : s.buffer = [] ∧ s.size = 0 := by
        rcases hr with h | h | h
        · exact absurd h h0
        · exact absurd h hc
        · exact h
      simp only [hc, decide_false, Bool.false_eq_true, if_false]
      rw [if_pos (by simp [he.1])]
      have := clear_of_empty s he.1 he.2
      have se := start_eq s cc (ts.drop (o + 1 + pf.toNat))
      rw [this] at key se
      rw [key, se]

/-- Dropping a completed section when more bytes than it needs are there. -/
def drained (s : Psi) : Psi :=
  if s.size ≠ 0 ∧ s.buffer.length > s.size then { s with buffer := s.buffer.drop s.size, size := 0 } else s

theorem mux_pusi_cont (v : View p ts o cc true) (s : Psi) (ho : o < 188) (hs : s.cc.toNat < 255) (pf : UInt8)
    (hpf : ts[o]? = some pf) (h : pf.toNat < 183) (h0 : pf.toNat ≠ 0) (hc : cc.toNat = (s.cc.toNat + 1) % 16)
    (hb : s.buffer ≠ []) :
    s.mux p ts = .ok { s.drained.pushed (ts.drop (o + 1)) with cc := cc } := by
  obtain ⟨b, h1, h2⟩ := v.off
  have hi : idx ts o = .ok pf := by simp [idx, hpf]
  unfold mux
  simp only [v.payload, h1, h2, v.cc, v.pusi, ok_bind, hi, addU8_one p s.cc hs, cc_ne]
  rw [if_neg (by simp), if_neg (by omega), if_pos trivial, if_neg (by omega), if_neg h0, pure_eq_ok, ok_bind]
  simp only [hc, ne_eq, not_true_eq_false, decide_false, Bool.false_eq_true, if_false]
  rw [if_neg (by simpa using hb), slice_to_end v.len (by omega), ok_bind]
  have : (if s.size ≠ 0 ∧ s.buffer.length > s.size then { s with buffer := s.buffer.drop s.size, size := 0 } else s) = s.drained := rfl
  simp only [ne_eq, gt_iff_lt] at this
  rw [this, push_eq, ok_bind]
  rfl

/-- Where the payload of a packet starts, as the code computes it (modulo 256). -/
def payloadOff (h : Header) (rest : List UInt8) : Nat :=
  if h.adaptation then (5 + (rest.headD 0).toNat) % 256 else 4

theorem view_general (p : Profile) (h : Header) (hv : h.Valid) (rest : List UInt8) (hr : rest.length = 184)
    (hpay : h.payload = true) (hov : p = .release ∨ h.adaptation = false ∨ (rest.headD 0).toNat ≤ 250) :
    View p (h.encode ++ rest) (payloadOff h rest) (UInt8.ofNat h.cc) h.pusi := by
  obtain ⟨f1, f2, f3, f4, f5, f6, f7, c, f8, f9⟩ := C04_header_fields h hv rest
  refine ⟨by rw [List.length_append, encode_length, hr], by rw [f7, hpay], ?_, ?_, f3⟩
  · match rest, hr with
    | len :: rest', hr =>
      simp only [List.headD_cons] at hov
      unfold payloadOff
      cases ha : h.adaptation with
      | false =>
        exact ⟨4, by simp [Ts.getPayloadOffset, f6, ha], rfl⟩
      | true =>
        by_cases hl : len.toNat ≤ 250
        · obtain ⟨b, h1, h2⟩ := (C05_payload_offset_partial p h hv len rest').2.1 ha hl
          exact ⟨b, h1, by rw [h2]; simp only [List.headD_cons, if_true]; omega⟩
        · have hp : p = .release := by
            rcases hov with h | h | h
            · exact h
            · simp [ha] at h
            · exact absurd h hl
          subst hp
          obtain ⟨b, h1, h2⟩ := (C05_payload_offset_overflow_refuted h hv ha len (by omega) rest').2
          have := len.toNat_lt
          exact ⟨b, h1, by rw [h2]; simp only [List.headD_cons, if_true]; omega⟩
  · rw [f8]; congr 1; apply UInt8.toNat_inj.1; rw [f9, UInt8.toNat_ofNat']; have := hv.2.2.2; omega

theorem mux_overflow (h : Header) (hv : h.Valid) (rest : List UInt8) (hr : rest.length = 184) (s : Psi)
    (hpay : h.payload = true) (ha : h.adaptation = true) (hl : 251 ≤ (rest.headD 0).toNat) :
    s.mux .debug (h.encode ++ rest) = panic := by
  match rest, hr with
  | len :: rest', hr =>
    have := (C05_payload_offset_overflow_refuted h hv ha len hl rest').1
    obtain ⟨f1, f2, f3, f4, f5, f6, f7, c, f8, f9⟩ := C04_header_fields h hv (len :: rest')
    unfold mux
    simp only [f7, hpay, ok_bind, this, error_bind]
    simp

/-- The view of a packet without adaptation field. -/
theorem view_payload (p : Profile) (pid cc : Nat) (pusi : Bool) (rest : List UInt8) (hp : pid < 8192) (hc : cc < 16)
    (hr : rest.length = 184) : View p ((secHdr pid cc pusi).encode ++ rest) 4 (UInt8.ofNat cc) pusi :=
  view_general p (secHdr pid cc pusi) (secHdr_valid hp hc) rest hr rfl (.inr (.inl rfl))

theorem declaredSize_append (a b : List UInt8) (h : 3 ≤ a.length) : declaredSize (a ++ b) = declaredSize a := by
  obtain ⟨x, y, z, r, rfl⟩ := exists_cons3 h
  simp [declaredSize]

theorem declaredSize_section {sec : List UInt8} (h : IsSection sec) : declaredSize sec = sec.length := by
  obtain ⟨h1, h2⟩ := h
  simp only [declaredSize, h1, if_true, ← h2]

/-- The state after the first `i + 1` packets of a section. -/
theorem mux_first (p : Profile) (pid cc : Nat) (sec : List UInt8) (hs : IsSection sec) (hp : pid < 8192) (s : Psi) :
    s.mux p (packetAt pid cc sec 0) =
      .ok { s with buffer := sec.take 183, size := sec.length, cc := UInt8.ofNat (cc % 16) } := by
  have h3 := hs.1
  have hbody : ((0x00 :: sec).drop (184 * 0)).take 184 = 0x00 :: sec.take 183 := rfl
  have hpk : packetAt pid cc sec 0 = (secHdr pid (cc % 16) true).encode ++
      (0x00 :: (sec.take 183 ++ List.replicate (184 - (0x00 :: sec.take 183).length) 0xFF)) := by
    rw [packetAt, hbody, payloadPacket_eq]; simp
  generalize hpad : List.replicate (184 - ((0x00 : UInt8) :: sec.take 183).length) (0xFF : UInt8) = pad at *
  have hlp : (sec.take 183 ++ pad).length = 183 := by rw [← hpad]; simp
  have v := view_payload p pid (cc % 16) true (0x00 :: (sec.take 183 ++ pad)) hp (by omega)
    (by rw [List.length_cons, hlp])
  rw [hpk, mux_pusi_start v s (by omega) 0x00 (fun h => absurd rfl h) (by
    rw [List.getElem?_append_right (by rw [encode_length]), encode_length]; rfl) (by decide) (.inl rfl)]
  rw [if_pos (by decide)]
  have hd : ((secHdr pid (cc % 16) true).encode ++ 0x00 :: (sec.take 183 ++ pad)).drop (4 + 1 + (0x00 : UInt8).toNat) =
      sec.take 183 ++ pad := by
    have : 4 + 1 + (0x00 : UInt8).toNat = (secHdr pid (cc % 16) true).encode.length + 1 := by rw [encode_length]; rfl
    rw [this, ← List.drop_drop, List.drop_append_of_le_length (le_refl _), List.drop_length, List.nil_append]
    rfl
  rw [hd]
  have hds : declaredSize (sec.take 183 ++ pad) = sec.length := by
    have h3' : 3 ≤ (sec.take 183).length := by rw [List.length_take]; omega
    rw [declaredSize_append _ _ h3', ← declaredSize_append _ (sec.drop 183) h3', List.take_append_drop,
      declaredSize_section hs]
  simp only [started, upToEnd, hds, hlp]
  rw [if_pos (by omega)]
  have : (sec.take 183 ++ pad).take sec.length = sec.take 183 := by
    rw [List.take_append]
    by_cases hl : sec.length ≤ 183
    · have e : (sec.take 183) = sec := List.take_of_length_le hl
      rw [e, List.take_of_length_le (le_refl _), Nat.sub_self, List.take_zero, List.append_nil]
    · have : pad = [] := by rw [← hpad]; simp; omega
      rw [this, List.take_nil, List.append_nil, List.take_of_length_le (by rw [List.length_take]; omega)]
  rw [this]

theorem mux_next (p : Profile) (pid cc : Nat) (sec : List UInt8) (hs : IsSection sec) (hp : pid < 8192) (s : Psi)
    (i : Nat) (hb : s.buffer = sec.take (184 * i + 183)) (hz : s.size = sec.length)
    (hc : s.cc = UInt8.ofNat ((cc + i) % 16)) :
    s.mux p (packetAt pid cc sec (i + 1)) = .ok { s with buffer := sec.take (184 * (i + 1) + 183),
                                                           cc := UInt8.ofNat ((cc + (i + 1)) % 16) } := by
  have h3 := hs.1
  have hccn : s.cc.toNat = (cc + i) % 16 := by rw [hc, UInt8.toNat_ofNat']; omega
  have hbody : ((0x00 :: sec).drop (184 * (i + 1))).take 184 = (sec.drop (184 * i + 183)).take 184 := by
    rw [show 184 * (i + 1) = (184 * i + 183) + 1 by omega, List.drop_succ_cons]
  generalize hB : (sec.drop (184 * i + 183)).take 184 = B at *
  have hBl : B.length ≤ 184 := by rw [← hB, List.length_take]; omega
  have hpk : packetAt pid cc sec (i + 1) = (secHdr pid ((cc + (i + 1)) % 16) false).encode ++
      (B ++ List.replicate (184 - B.length) 0xFF) := by
    rw [packetAt, hbody, payloadPacket_eq]; simp
  generalize hpad : List.replicate (184 - B.length) (0xFF : UInt8) = pad at *
  have hpl : pad.length = 184 - B.length := by rw [← hpad, List.length_replicate]
  have v := view_payload p pid ((cc + (i + 1)) % 16) false (B ++ pad) hp (by omega)
    (by rw [List.length_append, hpl]; omega)
  have hd : ((secHdr pid ((cc + (i + 1)) % 16) false).encode ++ (B ++ pad)).drop 4 = B ++ pad := by
    have : 4 = (secHdr pid ((cc + (i + 1)) % 16) false).encode.length := by rw [encode_length]
    rw [this, List.drop_append_of_le_length (le_refl _), List.drop_length, List.nil_append]
  rw [hpk, mux_cont v s (by omega) (by omega) (by rw [hccn, UInt8.toNat_ofNat']; omega), hd]
  have hsz : (s.pushed (B ++ pad)).size = sec.length := by simp only [pushed]; rw [if_neg (by omega), hz]
  rw [hsz]
  have hbuf : (s.buffer ++ (B ++ pad)).take sec.length = sec.take (184 * (i + 1) + 183) := by
    have e1 : s.buffer ++ B = sec.take (184 * (i + 1) + 183) := by
      rw [hb, ← hB, show 184 * (i + 1) + 183 = (184 * i + 183) + 184 by omega]
      generalize 184 * i + 183 = K
      rw [List.take_add]
    rw [← List.append_assoc, e1, List.take_append]
    by_cases hl : sec.length ≤ 184 * (i + 1) + 183
    · rw [List.take_of_length_le hl, List.take_of_length_le (le_refl _), Nat.sub_self, List.take_zero, List.append_nil]
    · have hBf : B.length = 184 := by rw [← hB, List.length_take, List.length_drop]; omega
      have : pad = [] := by rw [← hpad, hBf]; rfl
      rw [this, List.take_nil, List.append_nil, List.take_of_length_le (by rw [List.length_take]; omega)]
  rw [hbuf]
  simp only [pushed]
  rw [if_neg (by omega)]

end Psi
end Mpegts
