import Verif.Props.C81

/-! # C34-C39: descriptor round trips, lists, robustness, cloning -/

namespace Mpegts
open Spec

/-- The tags the library interprets. -/
def knownTags : List UInt8 := [0x09, 0x0A, 0x0E, 0x40, 0x41, 0x43, 0x44, 0x48, 0x4D, 0x4E, 0x52, 0x58, 0x5A, 0x83]

/-- The descriptors the library keeps uninterpreted: unknown tags, bodies whose length is impossible for the kind, and
bodies whose inner text lengths do not add up to the body length. -/
def KeptRaw (tag : UInt8) (body : List UInt8) : Prop :=
  if tag = 0x09 then body.length < 4
  else if tag = 0x0A then ¬ 4 ∣ body.length
  else if tag = 0x0E then body.length ≠ 3
  else if tag = 0x40 then False
  else if tag = 0x41 then ¬ 3 ∣ body.length
  else if tag = 0x43 then body.length ≠ 11
  else if tag = 0x44 then body.length ≠ 11
  else if tag = 0x48 then body.length < 3 ∨
    ∃ kind provider n rest, body = [kind] ++ Descriptor.sized provider ++ n :: rest ∧ provider.length < 256 ∧ n.toNat ≠ rest.length
  else if tag = 0x4D then body.length < 5 ∨
    ∃ lang name n rest, body = lang ++ Descriptor.sized name ++ n :: rest ∧ lang.length = 3 ∧ name.length < 256 ∧ n.toNat ≠ rest.length
  else if tag = 0x4E then body.length < 6 ∨
    ∃ head items n rest, body = head ++ Descriptor.sized items ++ n :: rest ∧ head.length = 4 ∧ items.length < 256 ∧ n.toNat ≠ rest.length
  else if tag = 0x52 then body.length ≠ 1
  else if tag = 0x58 then ¬ 13 ∣ body.length
  else if tag = 0x5A then body.length ≠ 11
  else if tag = 0x83 then ¬ 4 ∣ body.length
  else True

namespace Desc

/-- The values the encoding can represent exactly: frequencies and orbital positions on the grid of the standard, texts that
survive on their own (C25), raw descriptors with a tag the library does not interpret, time offsets below five hours. -/
def Exact : Desc → Prop
  | raw d => KeptRaw d.tag d.data
  | d09 _ => True
  | d0A d => ∀ i ∈ d.items, roundTrips i.code
  | d0E _ => True
  | d40 d => roundTrips d.name
  | d41 _ => True
  | d43 d => 10 ∣ d.frequency.toNat ∧ 6 ∣ d.orbitalPosition.toNat
  | d44 d => 100 ∣ d.frequency.toNat
  | d48 d => roundTrips d.provider ∧ roundTrips d.name
  | d4D d => roundTrips d.lang ∧ roundTrips d.name ∧ roundTrips d.text
  | d4E d => roundTrips d.lang ∧ (∀ i ∈ d.items, roundTrips i.1 ∧ roundTrips i.2) ∧ roundTrips d.text
  | d52 _ => True
  | d58 d => ∀ i ∈ d.items, roundTrips i.countryCode ∧ i.offset.toNat < 300 ∧ i.nextOffset.toNat < 300
  | d5A d => 10 ∣ d.frequency.toNat
  | d83 _ => True

end Desc

theorem ofBytes_text (s : StringDVB) (h : roundTrips s) : StringDVB.ofBytes (text s) = s := by
  have := (C25_round_trip_iff s).2 h
  rwa [C24_assemble, List.nil_append] at this

theorem map_id_of {α : Type} (l : List α) (f : α → α) (h : ∀ x ∈ l, f x = x) : l.map f = l := by
  induction l with
  | nil => rfl
  | cons a l ih => rw [List.map_cons, h a List.mem_cons_self, ih fun x hx => h x (List.mem_cons_of_mem _ hx)]

theorem parse_unknown (p : Profile) (t : UInt8) (r : List UInt8) (h : t ∉ knownTags) :
    Desc.parse p (t :: r) = Desc.parseRaw (t :: r) := by
  simp only [knownTags, List.mem_cons, List.not_mem_nil, or_false, not_or] at h
  simp [Desc.parse, h]

theorem parseRaw_ok (t n : UInt8) (body rest : List UInt8) (h : n.toNat = body.length) :
    Desc.parseRaw (t :: n :: (body ++ rest)) = .ok (.raw { tag := t, data := body }) := by
  have := slice_at [t, n] body rest 2 (2 + n.toNat) rfl (by simp [h])
  simp only [List.cons_append, List.nil_append] at this
  simp [Desc.parseRaw, DescRaw.parse, this]

theorem kept_parse (p : Profile) (t : UInt8) (body : List UInt8) (hb : body.length ≤ 255) (h : KeptRaw t body) :
    Desc.parse p (t :: UInt8.ofNat body.length :: body) = Desc.parseRaw (t :: UInt8.ofNat body.length :: body) := by
  generalize hn : UInt8.ofNat body.length = n
  have hn' : n.toNat = body.length := by rw [← hn]; exact u8_ofNat_toNat _ (by omega)
  unfold KeptRaw at h
  have l : (t :: n :: body).length = body.length + 2 := by simp
  have l2 : body.length + 2 - 2 = body.length := by omega
  by_cases c09 : t = 0x09
  · rw [if_pos c09] at h
    subst t; simp only [parse_09, Desc09.check, pure_eq_ok, ok_bind, l]; rw [if_neg (by simp; omega)]
  rw [if_neg c09] at h
  by_cases c0A : t = 0x0A
  · rw [if_pos c0A] at h
    subst t; simp only [parse_0A, Desc0A.check, pure_eq_ok, ok_bind, l, l2]; rw [if_neg (by simp; omega)]
  rw [if_neg c0A] at h
  by_cases c0E : t = 0x0E
  · rw [if_pos c0E] at h
    subst t; simp only [parse_0E, Desc0E.check, pure_eq_ok, ok_bind, l]; rw [if_neg (by simp; omega)]
  rw [if_neg c0E] at h
  by_cases c40 : t = 0x40
  · rw [if_pos c40] at h
    exact h.elim
  rw [if_neg c40] at h
  by_cases c41 : t = 0x41
  · rw [if_pos c41] at h
    subst t; simp only [parse_41, Desc41.check, pure_eq_ok, ok_bind, l, l2]; rw [if_neg (by simp; omega)]
  rw [if_neg c41] at h
  by_cases c43 : t = 0x43
  · rw [if_pos c43] at h
    subst t; simp only [parse_43, Desc43.check, pure_eq_ok, ok_bind, l]; rw [if_neg (by simp; omega)]
  rw [if_neg c43] at h
  by_cases c44 : t = 0x44
  · rw [if_pos c44] at h
    subst t; simp only [parse_44, Desc44.check, pure_eq_ok, ok_bind, l]; rw [if_neg (by simp; omega)]
  rw [if_neg c44] at h
  by_cases c48 : t = 0x48
  · rw [if_pos c48] at h
    subst t
    rw [parse_48, Desc48.check]
    rcases h with h | ⟨k, c, m, r, e, hc, hm⟩
    · rw [if_pos (by simp; omega)]; rfl
    · have lb : body.length = 3 + c.length + r.length := by rw [e]; simp [Descriptor.sized]; omega
      have tc := u8_ofNat_toNat _ hc
      generalize hs : (0x48 : UInt8) :: n :: body = s
      have e' : s = [0x48, n, k, UInt8.ofNat c.length] ++ c ++ m :: r := by rw [← hs, e]; simp [Descriptor.sized]
      have i1 : idx s 1 = .ok n := by rw [e']; rfl
      have i3 : idx s 3 = .ok (UInt8.ofNat c.length) := by rw [e']; rfl
      have i4 : idx s (4 + c.length) = .ok m := by rw [e']; exact idx_at' _ _ _ _ (by simp; omega)
      rw [if_neg (by rw [← hs]; simp; omega)]
      simp only [i3, ok_bind, tc, i4, i1, pure_eq_ok, hn']
      rw [if_neg (by simp; omega)]
  rw [if_neg c48] at h
  by_cases c4D : t = 0x4D
  · rw [if_pos c4D] at h
    subst t
    rw [parse_4D, Desc4D.check]
    rcases h with h | ⟨k, c, m, r, e, hk, hc, hm⟩
    · rw [if_pos (by simp; omega)]; rfl
    · have lb : body.length = 5 + c.length + r.length := by rw [e]; simp [Descriptor.sized, hk]; omega
      have tc := u8_ofNat_toNat _ hc
      generalize hs : (0x4D : UInt8) :: n :: body = s
      have e' : s = [0x4D, n] ++ k ++ [UInt8.ofNat c.length] ++ c ++ m :: r := by rw [← hs, e]; simp [Descriptor.sized]
      have i1 : idx s 1 = .ok n := by rw [e']; rfl
      have i3 : idx s 5 = .ok (UInt8.ofNat c.length) := by
        have := idx_at' ([0x4D, n] ++ k) (UInt8.ofNat c.length) (c ++ m :: r) 5 (by simp [hk])
        rw [e']; simpa using this
      have i4 : idx s (6 + c.length) = .ok m := by rw [e']; exact idx_at' _ _ _ _ (by simp [hk]; omega)
      rw [if_neg (by rw [← hs]; simp; omega)]
      simp only [i3, ok_bind, tc, i4, i1, pure_eq_ok, hn']
      rw [if_neg (by simp; omega)]
  rw [if_neg c4D] at h
  by_cases c4E : t = 0x4E
  · rw [if_pos c4E] at h
    subst t
    rw [parse_4E, Desc4E.check]
    rcases h with h | ⟨k, c, m, r, e, hk, hc, hm⟩
    · rw [if_pos (by simp; omega)]; rfl
    · have lb : body.length = 6 + c.length + r.length := by rw [e]; simp [Descriptor.sized, hk]; omega
      have tc := u8_ofNat_toNat _ hc
      generalize hs : (0x4E : UInt8) :: n :: body = s
      have e' : s = [0x4E, n] ++ k ++ [UInt8.ofNat c.length] ++ c ++ m :: r := by rw [← hs, e]; simp [Descriptor.sized]
      have i1 : idx s 1 = .ok n := by rw [e']; rfl
      have i3 : idx s 6 = .ok (UInt8.ofNat c.length) := by
        have := idx_at' ([0x4E, n] ++ k) (UInt8.ofNat c.length) (c ++ m :: r) 6 (by simp [hk])
        rw [e']; simpa using this
      have i4 : idx s (7 + c.length) = .ok m := by rw [e']; exact idx_at' _ _ _ _ (by simp [hk]; omega)
      rw [if_neg (by rw [← hs]; simp; omega)]
      simp only [i3, ok_bind, tc, i4, i1, pure_eq_ok, hn']
      rw [if_neg (by simp; omega)]
  rw [if_neg c4E] at h
  by_cases c52 : t = 0x52
  · rw [if_pos c52] at h
    subst t; simp only [parse_52, Desc52.check, pure_eq_ok, ok_bind, l]; rw [if_neg (by simp; omega)]
  rw [if_neg c52] at h
  by_cases c58 : t = 0x58
  · rw [if_pos c58] at h
    subst t; simp only [parse_58, Desc58.check, pure_eq_ok, ok_bind, l, l2]; rw [if_neg (by simp; omega)]
  rw [if_neg c58] at h
  by_cases c5A : t = 0x5A
  · rw [if_pos c5A] at h
    subst t; simp only [parse_5A, Desc5A.check, pure_eq_ok, ok_bind, l]; rw [if_neg (by simp; omega)]
  rw [if_neg c5A] at h
  by_cases c83 : t = 0x83
  · rw [if_pos c83] at h
    subst t; simp only [parse_83, Desc83.check, pure_eq_ok, ok_bind, l, l2]; rw [if_neg (by simp; omega)]
  refine parse_unknown p t _ ?_
  simp only [knownTags, List.mem_cons, List.not_mem_nil, or_false, not_or]
  exact ⟨c09, c0A, c0E, c40, c41, c43, c44, c48, c4D, c4E, c52, c58, c5A, c83⟩

theorem wire_parse (p : Profile) (d : Desc) (h : d.InRange) (he : d.Exact) : Desc.parse p d.wire = .ok d := by
  cases d with
  | raw d =>
    have hl : (UInt8.ofNat d.data.length).toNat = d.data.length := u8_ofNat_toNat _ (Nat.lt_succ_of_le h)
    have := parseRaw_ok d.tag (UInt8.ofNat d.data.length) d.data [] hl
    simp only [Desc.wire, Descriptor.descriptor, u8_eta]
    rw [kept_parse p _ _ h he]
    simpa using this
  | d09 d => rw [Desc.wire, C81_conditional_access p _ _ _ d.caid.toNat_lt h.1]; simp
  | d0A d =>
    rw [Desc.wire, C81_language p _ (by intro i hi; obtain ⟨j, hj, rfl⟩ := List.mem_map.1 hi; exact h.1 j hj)]
    simp only [List.map_map]
    rw [map_id_of]
    intro i hi; simp [ofBytes_text _ (he i hi)]
  | d0E d => rw [Desc.wire, C81_maximum_bitrate p _ h]; simp
  | d40 d => rw [Desc.wire, C81_network_name]; rw [ofBytes_text _ he]
  | d41 d =>
    rw [Desc.wire, C81_service_list p _ (by
      intro i hi; obtain ⟨j, hj, rfl⟩ := List.mem_map.1 hi; exact ⟨j.serviceId.toNat_lt, j.serviceType.toNat_lt⟩)]
    simp only [List.map_map]
    rw [map_id_of]
    intro i hi; simp
  | d43 d =>
    obtain ⟨h1, h2, h3, h4, h5, h6, h7, h8, h9⟩ := h
    rw [Desc.wire, C81_satellite p _ _ _ _ _ _ _ _ _ h1 h2 h3 h4 h5 h6 h7 h8 h9, Nat.div_mul_cancel he.1, Nat.div_mul_cancel he.2,
      Nat.mul_div_cancel _ (by omega)]
    simp
  | d44 d =>
    obtain ⟨h1, h2, h3, h4⟩ := h
    rw [Desc.wire, C81_cable_partial p _ _ _ _ _ h1 h2 d.modulation.toNat_lt h3 h4
      (by rw [Nat.div_mul_cancel he]; exact d.frequency.toNat_lt), Nat.div_mul_cancel he, Nat.mul_div_cancel _ (by omega)]
    simp
  | d48 d => rw [Desc.wire, C81_service p _ _ _ h, ofBytes_text _ he.1, ofBytes_text _ he.2]; simp
  | d4D d =>
    rw [Desc.wire, C81_short_event p _ _ _ h.1 h.2, ofBytes_text _ he.1, ofBytes_text _ he.2.1, ofBytes_text _ he.2.2]
  | d4E d =>
    obtain ⟨h1, h2, h3, h4⟩ := h
    obtain ⟨e1, e2, e3⟩ := he
    rw [Desc.wire, C81_extended_event p _ _ _ _ _ h1 h2 h3 (by rw [d4E_items_length]; exact h4), ofBytes_text _ e1,
      ofBytes_text _ e3]
    simp only [List.map_map]
    rw [map_id_of]
    · simp
    · intro i hi; simp [ofBytes_text _ (e2 i hi).1, ofBytes_text _ (e2 i hi).2]
  | d52 d => rw [Desc.wire, C81_stream_identifier]; simp
  | d58 d =>
    rw [Desc.wire, C81_local_time_offset_partial p _ (by
      intro i hi; obtain ⟨j, hj, rfl⟩ := List.mem_map.1 hi; exact ⟨h.1 j hj, (he j hj).2⟩)]
    simp only [List.map_map]
    rw [map_id_of]
    intro i hi; simp [ofBytes_text _ (he i hi).1]
  | d5A d =>
    obtain ⟨h1, h2, h3, h4, h5, h6, h7, h8, h9, h10, h11⟩ := h
    have hf := d.frequency.toNat_lt
    rw [Desc.wire, C81_terrestrial_partial p _ _ _ _ _ _ _ _ _ _ _ _ (by omega) h1 h2 h3 h4 h5 h6 h7 h8 h9 h10 h11
      (by rw [Nat.div_mul_cancel he]; exact hf), Nat.div_mul_cancel he]
    simp
  | d83 d =>
    rw [Desc.wire, C81_logical_channels p _ (by
      intro i hi; obtain ⟨j, hj, rfl⟩ := List.mem_map.1 hi; exact ⟨j.serviceId.toNat_lt, h.1 j hj⟩)]
    simp only [List.map_map]
    rw [map_id_of]
    intro i hi; simp

/-- C34: parsing the assembled bytes gives the descriptor back. -/
theorem C34_round_trip_partial (p : Profile) (d : Desc) (h : d.InRange) (he : d.Exact) (ni : ¬ d.HasItems) :
    (do Desc.parse p (← d.assemble p [])) = .ok d := by
  rw [C32_wire_format_partial p d [] h ni, ok_bind, List.nil_append]
  exact wire_parse p d h he

/-- C34 fails for extended event descriptors with items: because of the wrong length byte the assembled bytes are read
back as an uninterpreted descriptor with a truncated body. -/
theorem C34_extended_event_refuted (p : Profile) (d : Desc4E) (h : (Desc.d4E d).InRange) (hi : d.items ≠ []) :
    (do Desc.parse p (← (Desc.d4E d).assemble p [])) = .ok (.raw
      { tag := 0x4E, data := ((Desc.d4E d).wire.drop 2).take ((Desc.d4E d).wire.length - 2 - 2 * d.items.length) }) := by
  rw [(C32_wire_format_refuted p d [] h).1, ok_bind, List.nil_append]
  obtain ⟨h1, h2, hl, h4⟩ := h
  have hp : 0 < d.items.length := List.length_pos_iff.2 hi
  have hs : 2 * d.items.length ≤ (d.items.map fun i => 2 + (text i.1).length + (text i.2).length).sum := by
    have := d4E_itemsSize d.items 0; omega
  have hlen := d4E_items_length d.items
  simp only [Desc.wire]
  generalize (d.items.map fun i => (text i.1, text i.2)) = items at *
  generalize (d.items.map fun i => 2 + (text i.1).length + (text i.2).length).sum = S at *
  generalize text d.text = txt at *
  generalize text d.lang = lang at *
  generalize d.number.toNat = number at *
  generalize d.lastNumber.toNat = last at *
  generalize d.items.length = k at *
  generalize hF : (items.flatMap fun i => Descriptor.sized i.1 ++ Descriptor.sized i.2) = F at *
  generalize hB : UInt8.ofNat (Descriptor.pack [(4, number), (4, last)]) = B
  have e : Descriptor.extendedEvent number last lang items txt = [0x4E, UInt8.ofNat (6 + F.length + txt.length), B] ++ (lang ++
      UInt8.ofNat F.length :: (F ++ UInt8.ofNat txt.length :: txt)) := by
    rw [Descriptor.extendedEvent, hF]
    simp only [Descriptor.descriptor, Descriptor.sized, List.length_append, List.length_cons, hl, beBytes_length]
    rw [show 1 + 3 + (F.length + 1) + (txt.length + 1) = 6 + F.length + txt.length by omega, ← hB]
    simp [beBytes]
  rw [e]
  have el : ([0x4E, UInt8.ofNat (6 + F.length + txt.length), B] ++ (lang ++
      UInt8.ofNat F.length :: (F ++ UInt8.ofNat txt.length :: txt))).length - 2 - 2 * k = 6 + F.length + txt.length - 2 * k := by
    simp [hl]; omega
  rw [el]
  generalize hn : 6 + F.length + txt.length - 2 * k = n
  have hn' : (UInt8.ofNat n).toNat = n := u8_ofNat_toNat _ (by omega)
  generalize hb : B :: (lang ++ UInt8.ofNat F.length :: (F ++ UInt8.ofNat txt.length :: txt)) = body
  have e2 : ([0x4E, UInt8.ofNat (6 + F.length + txt.length), B] ++ (lang ++
      UInt8.ofNat F.length :: (F ++ UInt8.ofNat txt.length :: txt))) = 0x4E :: UInt8.ofNat (6 + F.length + txt.length) :: body := by
    rw [← hb]; rfl
  rw [e2]
  simp only [List.set_cons_succ, List.set_cons_zero, List.drop_succ_cons, List.drop_zero]
  have hbl : body.length = 6 + F.length + txt.length := by rw [← hb]; simp [hl]; omega
  generalize hs' : (0x4E : UInt8) :: UInt8.ofNat n :: body = s
  have e3 : s = [0x4E, UInt8.ofNat n, B] ++ (lang ++ UInt8.ofNat F.length :: (F ++ UInt8.ofNat txt.length :: txt)) := by
    rw [← hs', ← hb]; rfl
  have i1 : idx s 1 = .ok (UInt8.ofNat n) := by rw [e3]; rfl
  have i3 : idx s 6 = .ok (UInt8.ofNat F.length) := by
    rw [e3, ← List.append_assoc]; exact idx_at' _ _ _ _ (by simp [hl])
  have i4 : idx s (7 + F.length) = .ok (UInt8.ofNat txt.length) := by
    have := idx_at' ([0x4E, UInt8.ofNat n, B] ++ lang ++ [UInt8.ofNat F.length] ++ F)
      (UInt8.ofNat txt.length) txt (7 + F.length) (by simp [hl]; omega)
    rw [e3]; simpa using this
  have hsl : s.length = 2 + body.length := by rw [← hs']; simp; omega
  have t1 := u8_ofNat_toNat F.length (by omega)
  have t2 := u8_ofNat_toNat txt.length (by omega)
  have hc : Desc4E.check s = .ok false := by
    rw [Desc4E.check, if_neg (by omega)]
    simp only [i3, ok_bind, t1, i4, t2, i1, hn', pure_eq_ok]
    refine congrArg _ ?_
    rw [beq_eq_false_iff_ne]; omega
  have hpar : Desc.parse p s = Desc.parseRaw s := by
    rw [← hs'] at hc ⊢
    rw [parse_4E, hc]; rfl
  rw [hpar, ← hs']
  have := parseRaw_ok 0x4E (UInt8.ofNat n) (body.take n) (body.drop n) (by rw [hn', List.length_take]; omega)
  rwa [List.take_append_drop] at this

/-- C34 fails for local time offsets of five hours and more: with overflow checks parsing the assembled bytes panics,
without them the offset comes back modulo 256 in its hours part. -/
theorem C34_local_time_offset_refuted (d : Desc58) (h : (Desc.d58 d).InRange) (he : ∀ i ∈ d.items, roundTrips i.countryCode) :
    ((∃ i ∈ d.items, 300 ≤ i.offset.toNat ∨ 300 ≤ i.nextOffset.toNat) →
      (do Desc.parse .debug (← (Desc.d58 d).assemble .debug [])) = panic) ∧
    (do Desc.parse .release (← (Desc.d58 d).assemble .release [])) = .ok (.d58 { items := d.items.map fun i => { i with
      offset := UInt16.ofNat (i.offset.toNat / 60 * 60 % 256 + i.offset.toNat % 60)
      nextOffset := UInt16.ofNat (i.nextOffset.toNat / 60 * 60 % 256 + i.nextOffset.toNat % 60) } }) := by
  have hv : ∀ i ∈ d.items.map item58, Valid58 i := by
    intro i hi; obtain ⟨j, hj, rfl⟩ := List.mem_map.1 hi; exact h.1 j hj
  obtain ⟨r1, r2, -⟩ := C81_local_time_offset_refuted (d.items.map item58) hv
  have w : (Desc.d58 d).wire = Descriptor.localTimeOffset (d.items.map item58) := rfl
  rw [C32_wire_format_partial .debug _ [] h (by simp [Desc.HasItems]), C32_wire_format_partial .release _ [] h (by simp [Desc.HasItems]),
    ok_bind, ok_bind, List.nil_append, w]
  constructor
  · rintro ⟨i, hi, hb⟩
    exact r1 ⟨item58 i, List.mem_map_of_mem hi, hb⟩
  · rw [r2, List.map_map]
    refine congrArg (fun l => Except.ok (Desc.d58 { items := l })) (List.map_congr_left fun i hi => ?_)
    simp [item58, ofBytes_text _ (he i hi)]

/-! ## C35 -/

/-- C35: a descriptor that is not interpreted is kept as tag and body, and assembling it reproduces its bytes. -/
theorem C35_kept_verbatim (p : Profile) (t : UInt8) (body : List UInt8) (hb : body.length ≤ 255) (h : KeptRaw t body) :
    Desc.parse p (Descriptor.descriptor t.toNat body) = .ok (.raw { tag := t, data := body }) ∧
    (∀ buf, (Desc.raw { tag := t, data := body }).assemble p buf = .ok (buf ++ Descriptor.descriptor t.toNat body)) := by
  have e : Descriptor.descriptor t.toNat body = t :: UInt8.ofNat body.length :: body := by simp [Descriptor.descriptor]
  refine ⟨?_, fun buf => raw_assemble { tag := t, data := body } buf hb⟩
  have := parseRaw_ok t (UInt8.ofNat body.length) body [] (u8_ofNat_toNat _ (by omega))
  rw [List.append_nil] at this
  rw [e, kept_parse p t body hb h, this]

/-- C35: in particular every tag outside the list of interpreted ones. -/
theorem C35_unknown_tag (p : Profile) (t : UInt8) (body : List UInt8) (hb : body.length ≤ 255) (h : t ∉ knownTags) :
    Desc.parse p (Descriptor.descriptor t.toNat body) = .ok (.raw { tag := t, data := body }) := by
  refine (C35_kept_verbatim p t body hb ?_).1
  simp only [knownTags, List.mem_cons, List.not_mem_nil, or_false, not_or] at h
  obtain ⟨h1, h2, h3, h4, h5, h6, h7, h8, h9, h10, h11, h12, h13, h14⟩ := h
  simp only [KeptRaw, h1, h2, h3, h4, h5, h6, h7, h8, h9, h10, h11, h12, h13, h14, if_false]

/-! ## C36, C37 -/

theorem mapM_cons_ok (f : List UInt8 → R Desc) (a : List UInt8) (l : List (List UInt8)) (ds : Descriptors) :
    (do let d ← f a; (fun x => (ds ++ [d]) ++ x) <$> l.mapM f) = (fun x => ds ++ x) <$> (a :: l).mapM f := by
  rw [List.mapM_cons]
  cases f a with
  | error e => rfl
  | ok d => simp only [ok_bind]; cases l.mapM f <;> simp

theorem descriptors_parseLoop (p : Profile) (s pre : List UInt8) (fuel : Nat) (hf : s.length < fuel) (ds : Descriptors) :
    Descriptors.parseLoop p (pre ++ s) fuel pre.length ds = (fun x => ds ++ x) <$> (Descriptor.frames s).mapM (Desc.parse p) := by
  obtain ⟨f, rfl⟩ : ∃ f, fuel = f + 1 := ⟨fuel - 1, by omega⟩
  match hs : s, hf with
  | [], _ => simp [Descriptors.parseLoop, Descriptor.frames]
  | [a], _ => simp [Descriptors.parseLoop, Descriptor.frames]
  | t :: n :: r, hf =>
    rw [Descriptor.frames, Descriptors.parseLoop, if_pos (by simp)]
    have i1 : idx (pre ++ t :: n :: r) (pre.length + 1) = .ok n := by
      have := idx_at' (pre ++ [t]) n r (pre.length + 1) (by simp)
      simpa using this
    simp only [i1, ok_bind]
    by_cases h : n.toNat ≤ r.length
    · rw [if_neg (by simp; omega), if_pos h]
      have sl : slice (pre ++ t :: n :: r) pre.length (pre.length + 2 + n.toNat) = .ok (t :: n :: r.take n.toNat) := by
        have := slice_at pre (t :: n :: r.take n.toNat) (r.drop n.toNat) pre.length (pre.length + 2 + n.toNat) rfl
          (by simp; omega)
        simpa using this
      have el : pre ++ t :: n :: r = (pre ++ (t :: n :: r.take n.toNat)) ++ r.drop n.toNat := by simp
      have ll : pre.length + 2 + n.toNat = (pre ++ (t :: n :: r.take n.toNat)).length := by simp; omega
      rw [← mapM_cons_ok]
      simp only [sl, ok_bind]
      cases hd : Desc.parse p (t :: n :: r.take n.toNat) with
      | error e => rfl
      | ok d =>
        simp only [ok_bind]
        rw [el, ll]
        exact descriptors_parseLoop p (r.drop n.toNat) _ f (by simp at hf ⊢; omega) _
    · rw [if_pos (by simp; omega), if_neg h]
      simp
termination_by s.length
decreasing_by rw [hs]; simp; omega

/-- C37: parsing a descriptor loop is parsing its complete descriptors one by one, in order. -/
theorem C37_frames (p : Profile) (ds : Descriptors) (s : List UInt8) :
    Descriptors.parse p ds s = (fun x => ds ++ x) <$> (Descriptor.frames s).mapM (Desc.parse p) :=
  descriptors_parseLoop p s [] (s.length + 1) (by omega) ds

/-- The wire form of a descriptor is tag, length, body. -/
theorem wire_framed (d : Desc) (h : d.InRange) :
    ∃ t n body, d.wire = t :: n :: body ∧ n.toNat = body.length := by
  have key (t : Nat) (body : List UInt8) (hb : body.length ≤ 255) :
      ∃ t' n b, Descriptor.descriptor t body = t' :: n :: b ∧ n.toNat = b.length :=
    ⟨_, _, body, rfl, u8_ofNat_toNat _ (by omega)⟩
  cases d with
  | raw d => exact key _ _ h
  | d09 d => exact key _ _ (by have := h.2; simp; omega)
  | d0A d => exact key _ _ (by have := h.2; rw [d0A_body_length d h.1]; omega)
  | d0E d => exact key _ _ (by simp)
  | d40 d => exact key _ _ h
  | d41 d => exact key _ _ (by
      have : 3 * d.items.length ≤ 255 := h
      rw [flatMap_length _ _ 3 (fun x _ => by simp), List.length_map]; omega)
  | d43 d => exact key _ _ (by simp)
  | d44 d => exact key _ _ (by simp)
  | d48 d =>
    have : 3 + (text d.provider).length + (text d.name).length ≤ 255 := h
    exact key _ _ (by simp [Descriptor.sized]; omega)
  | d4D d => have := h.1; have := h.2; exact key _ _ (by simp [Descriptor.sized]; omega)
  | d4E d =>
    have h1 := h.2.2.1; have h2 := h.2.2.2
    have := d4E_items_length d.items
    exact key _ _ (by simp only [Descriptor.sized, List.length_append, List.length_cons, beBytes_length] at *; omega)
  | d52 d => exact key _ _ (by simp)
  | d58 d =>
    have h2 := h.2
    refine key _ _ ?_
    rw [flatMap_length _ _ 13, List.length_map]
    · omega
    · intro x hx
      obtain ⟨i, hi, rfl⟩ := List.mem_map.1 hx
      simp [(h.1 i hi).1, Descriptor.utc]
  | d5A d => exact key _ _ (by simp)
  | d83 d =>
    have h2 := h.2
    refine key _ _ ?_
    rw [flatMap_length _ _ 4 (fun x _ => by simp), List.length_map]; omega

theorem frames_cons (t n : UInt8) (body rest : List UInt8) (h : n.toNat = body.length) :
    Descriptor.frames (t :: n :: (body ++ rest)) = (t :: n :: body) :: Descriptor.frames rest := by
  rw [Descriptor.frames, if_pos (by simp; omega), h]; simp

theorem frames_wire (ds : List Desc) (h : ∀ d ∈ ds, d.InRange) (tail : List UInt8) :
    Descriptor.frames (ds.flatMap Desc.wire ++ tail) = ds.map Desc.wire ++ Descriptor.frames tail := by
  induction ds with
  | nil => simp
  | cons d r ih =>
    obtain ⟨t, n, body, e, hn⟩ := wire_framed d (h d List.mem_cons_self)
    rw [List.flatMap_cons, List.map_cons, e, List.append_assoc, List.cons_append, List.cons_append, frames_cons _ _ _ _ hn,
      ih fun x hx => h x (List.mem_cons_of_mem _ hx)]
    rfl

theorem mapM_wire (p : Profile) (ds : List Desc) (h : ∀ d ∈ ds, d.InRange ∧ d.Exact) :
    (ds.map Desc.wire).mapM (Desc.parse p) = .ok ds := by
  induction ds with
  | nil => rfl
  | cons d r ih =>
    obtain ⟨h1, h2⟩ := h d List.mem_cons_self
    rw [List.map_cons, List.mapM_cons, wire_parse p d h1 h2, ok_bind, ih fun x hx => h x (List.mem_cons_of_mem _ hx)]
    rfl

/-- What cannot be a complete descriptor: fewer than two bytes, or fewer body bytes than announced. -/
def Truncated (tail : List UInt8) : Prop :=
  tail.length < 2 ∨ ∃ t n body, tail = t :: n :: body ∧ body.length < n.toNat

theorem frames_truncated (tail : List UInt8) (h : Truncated tail) : Descriptor.frames tail = [] := by
  rcases h with h | ⟨t, n, body, rfl, h⟩
  · match tail, h with
    | [], _ => simp [Descriptor.frames]
    | [a], _ => simp [Descriptor.frames]
  · rw [Descriptor.frames, if_neg (by omega)]

/-- C37: the complete descriptors before a truncated tail are all found, the tail is ignored. -/
theorem C37_truncated_tail (p : Profile) (self ds : Descriptors) (tail : List UInt8) (h : ∀ d ∈ ds, d.InRange ∧ d.Exact)
    (ht : Truncated tail) :
    Descriptors.parse p self (ds.flatMap Desc.wire ++ tail) = .ok (self ++ ds) := by
  rw [C37_frames, frames_wire ds (fun d hd => (h d hd).1), frames_truncated tail ht, List.append_nil, mapM_wire p ds h]
  rfl

/-- C36: parsing the encoding of a list of descriptors appends exactly these. -/
theorem C36_parse_wire (p : Profile) (self ds : Descriptors) (h : ∀ d ∈ ds, d.InRange ∧ d.Exact) :
    Descriptors.parse p self (ds.flatMap Desc.wire) = .ok (self ++ ds) := by
  have := C37_truncated_tail p self ds [] h (.inl (by simp))
  rwa [List.append_nil] at this

/-- C36: assembling a list and parsing the bytes appends exactly these descriptors; the returned length is the number of
bytes appended. -/
theorem C36_round_trip_partial (p : Profile) (self ds : Descriptors) (buf : List UInt8)
    (h : ∀ d ∈ ds, d.InRange ∧ d.Exact ∧ ¬ d.HasItems) :
    ∃ out, Descriptors.assemble p ds buf = .ok (out.length, buf ++ out) ∧ Descriptors.parse p self out = .ok (self ++ ds) :=
  ⟨ds.flatMap Desc.wire, (C33_list_partial p ds buf fun d hd => ⟨(h d hd).1, (h d hd).2.2⟩).1,
    C36_parse_wire p self ds fun d hd => ⟨(h d hd).1, (h d hd).2.1⟩⟩

/-! ## C39 -/

/-- C39: `clone` returns the same descriptor, unless it is an uninterpreted descriptor carrying an interpreted tag. -/
theorem C39_clone_partial (d : Desc) (h : ∀ r, d = .raw r → r.tag ∉ knownTags) : d.clone = .ok d := by
  cases d with
  | raw r =>
    have h := h r rfl
    simp only [knownTags, List.mem_cons, List.not_mem_nil, or_false, not_or] at h
    obtain ⟨h1, h2, h3, h4, h5, h6, h7, h8, h9, h10, h11, h12, h13, h14⟩ := h
    simp only [Desc.clone, Desc.tag, h1, h2, h3, h4, h5, h6, h7, h8, h9, h10, h11, h12, h13, h14, if_false]
  | _ => simp [Desc.clone, Desc.tag]

/-- C39 fails for an uninterpreted descriptor carrying an interpreted tag: cloning panics. -/
theorem C39_clone_refuted (r : DescRaw) (h : r.tag ∈ knownTags) : (Desc.raw r).clone = panic := by
  simp only [knownTags, List.mem_cons, List.not_mem_nil, or_false] at h
  rcases h with h | h | h | h | h | h | h | h | h | h | h | h | h | h <;> simp [Desc.clone, Desc.tag, h]

/-- C39: such descriptors come out of parsing: every interpreted tag (but 0x40) has bodies that are kept uninterpreted, and
the clone of the parsed descriptor panics. -/
theorem C39_clone_parsed_refuted (p : Profile) (t : UInt8) (body : List UInt8) (hb : body.length ≤ 255) (hk : KeptRaw t body)
    (ht : t ∈ knownTags) :
    (do (← Desc.parse p (Descriptor.descriptor t.toNat body)).clone) = panic := by
  rw [(C35_kept_verbatim p t body hb hk).1, ok_bind]
  exact C39_clone_refuted _ ht

/-- C39 for lists. -/
theorem C39_clone_list_partial (ds : Descriptors) (h : ∀ d ∈ ds, ∀ r, d = .raw r → r.tag ∉ knownTags) :
    Descriptors.clone ds = .ok ds := by
  unfold Descriptors.clone
  induction ds with
  | nil => rfl
  | cons d l ih =>
    rw [List.mapM_cons, C39_clone_partial d (h d List.mem_cons_self), ok_bind, ih fun x hx => h x (List.mem_cons_of_mem _ hx)]
    rfl

/-- C39 fails for every list that contains such a descriptor. -/
theorem C39_clone_list_refuted (ds : Descriptors) (r : DescRaw) (h : Desc.raw r ∈ ds) (ht : r.tag ∈ knownTags) :
    Descriptors.clone ds = panic := by
  unfold Descriptors.clone
  induction ds with
  | nil => cases h
  | cons d l ih =>
    rw [List.mapM_cons]
    rcases List.mem_cons.1 h with rfl | h
    · rw [C39_clone_refuted r ht]; rfl
    · by_cases hd : ∀ r, d = .raw r → r.tag ∉ knownTags
      · rw [C39_clone_partial d hd, ok_bind, ih h]; rfl
      · simp only [not_forall, not_not] at hd
        obtain ⟨r', rfl, hr'⟩ := hd
        rw [C39_clone_refuted r' hr']; rfl

/-! ### Concrete cases -/

/-- Both uses of this form: a body of `h` bytes, a sized text, and a second length byte that is wrong. -/
theorem badTail_iff (h : Nat) (body : List UInt8) :
    (∃ head x n rest, body = head ++ Descriptor.sized x ++ n :: rest ∧ head.length = h ∧ x.length < 256 ∧ n.toNat ≠ rest.length) ↔
    (match body.drop h with
     | [] => false
     | k :: r => match r.drop k.toNat with
       | [] => false
       | n :: rest => n.toNat != rest.length) = true := by
  constructor
  · rintro ⟨head, x, n, rest, rfl, hh, hx, hn⟩
    rw [List.append_assoc, List.drop_left' hh, Descriptor.sized]
    simp only [List.cons_append]
    rw [u8_ofNat_toNat _ hx, List.drop_left' rfl]
    simpa using hn
  · intro e
    match hb : body.drop h with
    | [] => rw [hb] at e; simp at e
    | k :: r =>
      rw [hb] at e
      simp only at e
      match hr : r.drop k.toNat with
      | [] => rw [hr] at e; simp at e
      | n :: rest =>
        rw [hr] at e
        have hl : k.toNat ≤ r.length := by
          have := congrArg List.length hr
          simp at this; omega
        have hl2 : h ≤ body.length := by
          have := congrArg List.length hb
          simp at this; omega
        have hk := k.toNat_lt
        refine ⟨body.take h, r.take k.toNat, n, rest, ?_, by simp; omega, by simp; omega, by simpa using e⟩
        rw [Descriptor.sized, List.length_take, Nat.min_eq_left hl, u8_eta, ← hr, List.append_assoc, List.cons_append,
          List.take_append_drop, ← hb, List.take_append_drop]

instance (tag : UInt8) (body : List UInt8) : Decidable (KeptRaw tag body) := by
  have i1 : Decidable (∃ kind provider n rest, body = [kind] ++ Descriptor.sized provider ++ n :: rest ∧ provider.length < 256 ∧
      n.toNat ≠ rest.length) := by
    refine decidable_of_iff _ (Iff.trans (badTail_iff 1 body).symm ?_)
    constructor
    · rintro ⟨head, x, n, rest, hb, hh, h2⟩
      obtain ⟨a, rfl⟩ := List.length_eq_one_iff.1 hh
      exact ⟨a, x, n, rest, hb, h2⟩
    · rintro ⟨a, x, n, rest, hb, h2⟩
      exact ⟨[a], x, n, rest, hb, rfl, h2⟩
  have i2 := decidable_of_iff _ (badTail_iff 3 body).symm
  have i3 := decidable_of_iff _ (badTail_iff 4 body).symm
  unfold KeptRaw
  infer_instance

instance (d : Desc) : Decidable d.Exact := by
  cases d <;> simp only [Desc.Exact, roundTrips] <;> infer_instance

example : ∀ d ∈ sampleDescs, d.InRange ∧ d.Exact ∧ ¬ d.HasItems := by decide +kernel
example : Truncated [0x4D, 3, 1, 2] := .inr ⟨0x4D, 3, [1, 2], rfl, by decide⟩
/-- A stream identifier with an empty body, and a service descriptor whose lengths do not add up. -/
example : KeptRaw 0x52 [] ∧ KeptRaw 0x48 [1, 1, 0x41, 2, 0x42] := by
  refine ⟨by simp [KeptRaw], .inr ⟨1, [0x41], 2, [0x42], by simp [Descriptor.sized], by simp, by simp⟩⟩
example : Descriptors.parse .debug [] ([0x52, 1, 7] ++ [0x7F, 2, 1, 2] ++ [0x52, 1]) =
    .ok [.d52 ⟨7⟩, .raw ⟨0x7F, [1, 2]⟩] := by decide +kernel

/-! ## Tags -/

theorem branch_tag {α : Type} (c : R Bool) (con : α → Desc) (f : R α) (s : List UInt8) (t : UInt8)
    (hs : idx s 0 = .ok t) (d : Desc) (h : (do if ← c then con <$> f else Desc.parseRaw s) = .ok d) (hc : ∀ x, (con x).tag = t) : d.tag = t := by
  have hraw : Desc.parseRaw s = .ok d → d.tag = t := by
    intro h
    unfold Desc.parseRaw DescRaw.parse at h
    rw [hs] at h
    simp only [ok_bind] at h
    revert h
    cases idx s 1 with
    | error e => intro h; cases h
    | ok n =>
      simp only [ok_bind]
      cases slice s 2 (2 + n.toNat) with
      | error e => intro h; cases h
      | ok v => intro h; cases h; rfl
  cases c with
  | error e => cases h
  | ok b =>
    rw [ok_bind] at h
    cases b with
    | false => exact hraw h
    | true =>
      simp only [if_true] at h
      cases f with
      | error e => cases h
      | ok v => cases h; exact hc v

/-- C35: whatever a descriptor is parsed as, it keeps its tag. -/
theorem C35_tag (p : Profile) (t : UInt8) (s : List UInt8) (d : Desc) (h : Desc.parse p (t :: s) = .ok d) : d.tag = t := by
  have hs : idx (t :: s) 0 = .ok t := rfl
  unfold Desc.parse at h
  rw [hs, ok_bind] at h
  by_cases c : t = 0x09
  · rw [if_pos c] at h; exact branch_tag _ _ _ _ _ hs d h (fun _ => c.symm)
  rw [if_neg c] at h; clear c
  by_cases c : t = 0x0A
  · rw [if_pos c] at h; exact branch_tag _ _ _ _ _ hs d h (fun _ => c.symm)
  rw [if_neg c] at h; clear c
  by_cases c : t = 0x0E
  · rw [if_pos c] at h; exact branch_tag _ _ _ _ _ hs d h (fun _ => c.symm)
  rw [if_neg c] at h; clear c
  by_cases c : t = 0x40
  · rw [if_pos c] at h; exact branch_tag _ _ _ _ _ hs d h (fun _ => c.symm)
  rw [if_neg c] at h; clear c
  by_cases c : t = 0x41
  · rw [if_pos c] at h; exact branch_tag _ _ _ _ _ hs d h (fun _ => c.symm)
  rw [if_neg c] at h; clear c
  by_cases c : t = 0x43
  · rw [if_pos c] at h; exact branch_tag _ _ _ _ _ hs d h (fun _ => c.symm)
  rw [if_neg c] at h; clear c
  by_cases c : t = 0x44
  · rw [if_pos c] at h; exact branch_tag _ _ _ _ _ hs d h (fun _ => c.symm)
  rw [if_neg c] at h; clear c
  by_cases c : t = 0x48
  · rw [if_pos c] at h; exact branch_tag _ _ _ _ _ hs d h (fun _ => c.symm)
  rw [if_neg c] at h; clear c
  by_cases c : t = 0x4D
  · rw [if_pos c] at h; exact branch_tag _ _ _ _ _ hs d h (fun _ => c.symm)
  rw [if_neg c] at h; clear c
  by_cases c : t = 0x4E
  · rw [if_pos c] at h; exact branch_tag _ _ _ _ _ hs d h (fun _ => c.symm)
  rw [if_neg c] at h; clear c
  by_cases c : t = 0x52
  · rw [if_pos c] at h; exact branch_tag _ _ _ _ _ hs d h (fun _ => c.symm)
  rw [if_neg c] at h; clear c
  by_cases c : t = 0x58
  · rw [if_pos c] at h; exact branch_tag _ _ _ _ _ hs d h (fun _ => c.symm)
  rw [if_neg c] at h; clear c
  by_cases c : t = 0x5A
  · rw [if_pos c] at h; exact branch_tag _ _ _ _ _ hs d h (fun _ => c.symm)
  rw [if_neg c] at h; clear c
  by_cases c : t = 0x83
  · rw [if_pos c] at h; exact branch_tag _ _ _ _ _ hs d h (fun _ => c.symm)
  rw [if_neg c] at h; clear c
  exact branch_tag (.ok false) (fun r : DescRaw => Desc.raw ⟨t, r.data⟩) panic _ _ hs d h (fun _ => rfl)

/-- The encoding of a descriptor starts with its tag. -/
theorem wire_tag (d : Desc) : ∃ r, d.wire = d.tag :: r := by
  cases d <;> simp only [Desc.wire, Desc.tag] <;> first | exact ⟨_, rfl⟩ | exact ⟨_, congrArg₂ List.cons (UInt8.ofNat_toNat) rfl⟩

end Mpegts
