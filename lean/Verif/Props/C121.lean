import Verif.Lemmas.PackedStream
import Verif.Props.C111

/-! # C121: sections one behind the other

`Packing` and `receivePacked`: `Verif.Spec.PackedStream`.  The sections are those of any sender (`Verif.Spec.Foreign`, C111). -/

namespace Mpegts
open Spec Spec.Table

theorem field_more (a x : List UInt8) (k n : Nat) (h : k + n ≤ a.length) : field (a ++ x) k n = field a k n := by
  unfold field
  rw [List.drop_append_of_le_length (by omega), List.take_append_of_le_length (by rw [List.length_drop]; omega)]

theorem intact_more (m : Nat) (psi : Psi) (a x : List UInt8) (hb : psi.buffer = a ++ x) (hs : psi.size = a.length) :
    Intact m psi ↔ Intact m { psi with buffer := a } := by
  unfold Intact
  simp only [hb, hs, List.take_left' rfl, List.take_length]
  rw [List.take_append_of_le_length (by omega)]
  simp

theorem head_more (a x : List UInt8) (h : a ≠ []) : (a ++ x).head? = a.head? := by
  cases a with
  | nil => exact absurd rfl h
  | cons => rfl

namespace Sdt

theorem parse_more (p : Profile) (t : Sdt) (psi : Psi) (a x : List UInt8) (hb : psi.buffer = a ++ x) (hs : psi.size = a.length) (ha : a ≠ []) :
    t.parse p psi = t.parse p { psi with buffer := a } := by
  have hacc : Accepts psi ↔ Accepts { psi with buffer := a } := by
    unfold Accepts
    rw [intact_more 15 psi a x hb hs, hb, head_more a x ha]
  by_cases h : Accepts psi
  · have h' := hacc.1 h
    have h15 : 15 ≤ psi.size := h.2.1
    rw [C66_sdt p t psi h, C66_sdt p t _ h']
    simp only [hb, hs] at h15 ⊢
    rw [field_more _ _ _ _ (by omega), field_more _ _ _ _ (by omega), field_more _ _ _ _ (by omega), field_more _ _ _ _ (by omega),
      List.take_append_of_le_length (by omega)]
  · rw [C65_sdt p t psi (.inr (by simp [hb, ha])) h, C65_sdt p t _ (.inr ha) (mt hacc.2 h)]

/-- C121, for the SDT: sections of any sender, one behind the other in packets of any layout, are all received, each once and in order. -/
theorem C121_sdt_partial (p : Profile) (t : Sdt) (ss : List Foreign.Sdt) (h : ∀ s ∈ ss, s.Ok) (s0 : Psi) (cc : Nat) (pks : List (List UInt8))
    (hp : Packing [] [] cc pks (ss.map fun s => complete s.body)) :
    ∃ s', receivePacked (Sdt.parse p) p t s0 pks = (fun u => (u, s')) <$> ss.foldlM (take p) t := by
  have h3 : ∀ s : Foreign.Sdt, 3 ≤ s.body.length := by intro s; simp [Foreign.Sdt.body, head_length]; omega
  have hne : ∀ s : Foreign.Sdt, complete s.body ≠ [] := fun s e => by
    have := complete_length (h3 s); rw [e] at this; simp at this
  refine (receive_packing (Sdt.parse p) p (fun s : Foreign.Sdt => complete s.body) (take p) Foreign.Sdt.Ok
    (fun s hs => complete_isSection (h3 s) (by have := hs.fits; omega)) (fun t s hs psi more hb hz => ?_) (fun t s hs psi rest hb hr he hz => ?_)
    hp ss h rfl t s0).1 rfl
  · rw [parse_more p t psi _ more hb hz (hne s)]
    exact parse_foreign p t s hs _ rfl hz
  · refine C65_sdt p t psi (.inr hb) ?_
    rintro ⟨-, h1, h2, -⟩
    have hlen : (complete s.body).length = psi.buffer.length + rest.length := by rw [show complete s.body = _ from he, List.length_append]
    have := List.length_pos_iff.2 hr
    split at hz <;> omega

end Sdt

namespace Pat

theorem parse_more (p : Profile) (t : Pat) (psi : Psi) (a x : List UInt8) (hb : psi.buffer = a ++ x) (hs : psi.size = a.length) (ha : a ≠ []) :
    t.parse p psi = t.parse p { psi with buffer := a } := by
  have hacc : Accepts psi ↔ Accepts { psi with buffer := a } := by
    unfold Accepts
    rw [intact_more 12 psi a x hb hs, hb, head_more a x ha]
  by_cases h : Accepts psi
  · have h' := hacc.1 h
    have h15 : 12 ≤ psi.size := h.2.1
    rw [C66_pat p t psi h, C66_pat p t _ h']
    simp only [hb, hs] at h15 ⊢
    rw [field_more _ _ _ _ (by omega), field_more _ _ _ _ (by omega), List.take_append_of_le_length (by omega)]
  · rw [C65_pat p t psi (.inr (by simp [hb, ha])) h, C65_pat p t _ (.inr ha) (mt hacc.2 h)]

/-- C121, for the PAT: sections of any sender, one behind the other in packets of any layout, are all received, each once and in order. -/
theorem C121_pat_partial (p : Profile) (t : Pat) (ss : List Foreign.Pat) (h : ∀ s ∈ ss, s.Ok) (s0 : Psi) (cc : Nat) (pks : List (List UInt8))
    (hp : Packing [] [] cc pks (ss.map fun s => complete s.body)) :
    ∃ s', receivePacked (Pat.parse p) p t s0 pks = .ok (ss.foldl take t, s') := by
  have h3 : ∀ s : Foreign.Pat, 3 ≤ s.body.length := by intro s; simp [Foreign.Pat.body, head_length]; omega
  have hne : ∀ s : Foreign.Pat, complete s.body ≠ [] := fun s e => by
    have := complete_length (h3 s); rw [e] at this; simp at this
  obtain ⟨s', hr⟩ := (receive_packing (Pat.parse p) p (fun s : Foreign.Pat => complete s.body) (fun t s => .ok (take t s)) Foreign.Pat.Ok
    (fun s hs => complete_isSection (h3 s) (by have := hs.fits; omega)) (fun t s hs psi more hb hz => by
      rw [parse_more p t psi _ more hb hz (hne s)]
      exact parse_foreign p t s hs _ rfl hz) (fun t s hs psi rest hb hr he hz => by
      refine C65_pat p t psi (.inr hb) ?_
      rintro ⟨-, h1, h2, -⟩
      have hlen : (complete s.body).length = psi.buffer.length + rest.length := by rw [show complete s.body = _ from he, List.length_append]
      have := List.length_pos_iff.2 hr
      split at hz <;> omega)
    hp ss h rfl t s0).1 rfl
  refine ⟨s', hr.trans ?_⟩
  rw [show ∀ (l : List Foreign.Pat) (t : Pat), l.foldlM (fun t s => (.ok (take t s) : R Pat)) t = .ok (l.foldl take t) from fun l => ?_]
  · rfl
  · induction l with
    | nil => exact fun t => rfl
    | cons x r ih => exact fun t => ih _

end Pat

namespace Nit

theorem parse_more (p : Profile) (t : Nit) (psi : Psi) (a x : List UInt8) (hb : psi.buffer = a ++ x) (hs : psi.size = a.length) (ha : a ≠ []) :
    t.parse p psi = t.parse p { psi with buffer := a } := by
  have hacc : Accepts psi ↔ Accepts { psi with buffer := a } := by
    unfold Accepts
    rw [intact_more 16 psi a x hb hs, hb, head_more a x ha]
  by_cases h : Accepts psi
  · have h' := hacc.1 h
    have h15 : 16 ≤ psi.size := h.2.1
    have hn : networkLength psi = networkLength { psi with buffer := a } := by
      simp only [networkLength, hb]
      rw [field_more _ _ _ _ (by omega)]
    by_cases hd : 12 + networkLength psi ≤ psi.size - 4
    · rw [C66_nit p t psi h hd, C66_nit p t _ h' (by rw [← hn]; exact hd)]
      unfold networkLoop itemLoop
      rw [← hn]
      simp only [hb, hs] at h15 hd ⊢
      rw [field_more _ _ _ _ (by omega), field_more _ _ _ _ (by omega), field_more _ _ _ _ (by omega),
        List.take_append_of_le_length (by omega), List.drop_append_of_le_length (by omega),
        List.take_append_of_le_length (by rw [List.length_drop]; omega)]
    · rw [(C67_nit_partial p t psi).1 (.inr ⟨h, .inl (by omega)⟩),
        (C67_nit_partial p t _).1 (.inr ⟨h', .inl (by rw [← hn]; show psi.size < _; omega)⟩)]
  · rw [C65_nit p t psi (.inr (by simp [hb, ha])) h, C65_nit p t _ (.inr ha) (mt hacc.2 h)]

/-- C121, for the NIT: sections of any sender, one behind the other in packets of any layout, are all received, each once and in order. -/
theorem C121_nit_partial (p : Profile) (t : Nit) (ss : List Foreign.Nit) (h : ∀ s ∈ ss, s.Ok) (s0 : Psi) (cc : Nat) (pks : List (List UInt8))
    (hp : Packing [] [] cc pks (ss.map fun s => complete s.body)) :
    ∃ s', receivePacked (Nit.parse p) p t s0 pks = (fun u => (u, s')) <$> ss.foldlM (take p) t := by
  have h3 : ∀ s : Foreign.Nit, 3 ≤ s.body.length := by intro s; simp [Foreign.Nit.body, head_length]; omega
  have hne : ∀ s : Foreign.Nit, complete s.body ≠ [] := fun s e => by
    have := complete_length (h3 s); rw [e] at this; simp at this
  refine (receive_packing (Nit.parse p) p (fun s : Foreign.Nit => complete s.body) (take p) Foreign.Nit.Ok
    (fun s hs => complete_isSection (h3 s) (by have := hs.fits; omega)) (fun t s hs psi more hb hz => ?_) (fun t s hs psi rest hb hr he hz => ?_)
    hp ss h rfl t s0).1 rfl
  · rw [parse_more p t psi _ more hb hz (hne s)]
    exact parse_foreign p t s hs _ rfl hz
  · refine C65_nit p t psi (.inr hb) ?_
    rintro ⟨-, h1, h2, -⟩
    have hlen : (complete s.body).length = psi.buffer.length + rest.length := by rw [show complete s.body = _ from he, List.length_append]
    have := List.length_pos_iff.2 hr
    split at hz <;> omega

end Nit

namespace Pmt

theorem parse_more (p : Profile) (t : Pmt) (psi : Psi) (a x : List UInt8) (hb : psi.buffer = a ++ x) (hs : psi.size = a.length) (ha : a ≠ []) :
    t.parse p psi = t.parse p { psi with buffer := a } := by
  have hacc : Accepts psi ↔ Accepts { psi with buffer := a } := by
    unfold Accepts
    rw [intact_more 16 psi a x hb hs, hb, head_more a x ha]
  by_cases h : Accepts psi
  · have h' := hacc.1 h
    have h15 : 16 ≤ psi.size := h.2.1
    have hn : programLength psi = programLength { psi with buffer := a } := by
      simp only [programLength, hb]
      rw [field_more _ _ _ _ (by omega)]
    by_cases hd : 12 + programLength psi ≤ psi.size - 4
    · rw [C66_pmt p t psi h hd, C66_pmt p t _ h' (by rw [← hn]; exact hd)]
      unfold programLoop itemLoop
      rw [← hn]
      simp only [hb, hs] at h15 hd ⊢
      rw [field_more _ _ _ _ (by omega), field_more _ _ _ _ (by omega), field_more _ _ _ _ (by omega),
        List.take_append_of_le_length (by omega), List.drop_append_of_le_length (by omega),
        List.take_append_of_le_length (by rw [List.length_drop]; omega)]
    · rw [(C67_pmt_partial p t psi).1 (.inr ⟨h, .inl (by omega)⟩),
        (C67_pmt_partial p t _).1 (.inr ⟨h', .inl (by rw [← hn]; show psi.size < _; omega)⟩)]
  · rw [C65_pmt p t psi (.inr (by simp [hb, ha])) h, C65_pmt p t _ (.inr ha) (mt hacc.2 h)]

/-- C121, for the PMT: sections of any sender, one behind the other in packets of any layout, are all received, each once and in order,
with the program descriptors read one byte too early (C111_pmt_refuted). -/
theorem C121_pmt_partial (p : Profile) (t : Pmt) (ss : List Foreign.Pmt) (h : ∀ s ∈ ss, s.Ok) (s0 : Psi) (cc : Nat) (pks : List (List UInt8))
    (hp : Packing [] [] cc pks (ss.map fun s => complete s.body)) :
    ∃ s', receivePacked (Pmt.parse p) p t s0 pks = (fun u => (u, s')) <$> ss.foldlM (take p fun s => shifted s.descs) t := by
  have h3 : ∀ s : Foreign.Pmt, 3 ≤ s.body.length := by intro s; simp [Foreign.Pmt.body, head_length]; omega
  have hne : ∀ s : Foreign.Pmt, complete s.body ≠ [] := fun s e => by
    have := complete_length (h3 s); rw [e] at this; simp at this
  refine (receive_packing (Pmt.parse p) p (fun s : Foreign.Pmt => complete s.body) (take p fun s => shifted s.descs) Foreign.Pmt.Ok
    (fun s hs => complete_isSection (h3 s) (by have := hs.fits; omega)) (fun t s hs psi more hb hz => ?_) (fun t s hs psi rest hb hr he hz => ?_)
    hp ss h rfl t s0).1 rfl
  · rw [parse_more p t psi _ more hb hz (hne s)]
    exact parse_foreign p t s hs _ rfl hz
  · refine C65_pmt p t psi (.inr hb) ?_
    rintro ⟨-, h1, h2, -⟩
    have hlen : (complete s.body).length = psi.buffer.length + rest.length := by rw [show complete s.body = _ from he, List.length_append]
    have := List.length_pos_iff.2 hr
    split at hz <;> omega

end Pmt

namespace Eit

theorem parse_more (p : Profile) (t : Eit) (psi : Psi) (a x : List UInt8) (hb : psi.buffer = a ++ x) (hs : psi.size = a.length) (ha : a ≠ []) :
    t.parse p psi = t.parse p { psi with buffer := a } := by
  have hacc : Accepts psi ↔ Accepts { psi with buffer := a } := by
    unfold Accepts
    rw [intact_more 18 psi a x hb hs, hb, head_more a x ha]
  by_cases h : Accepts psi
  · have h' := hacc.1 h
    have h15 : 18 ≤ psi.size := h.2.1
    rw [C66_eit p t psi h, C66_eit p t _ h']
    simp only [hb, hs] at h15 ⊢
    rw [field_more _ _ _ _ (by omega), field_more _ _ _ _ (by omega), field_more _ _ _ _ (by omega), field_more _ _ _ _ (by omega),
      field_more _ _ _ _ (by omega), List.take_append_of_le_length (by omega)]
  · rw [C65_eit p t psi (.inr (by simp [hb, ha])) h, C65_eit p t _ (.inr ha) (mt hacc.2 h)]

/-- C121, for the EIT: sections of any sender, one behind the other in packets of any layout, are all received, each once and in order. -/
theorem C121_eit_partial (p : Profile) (t : Eit) (ss : List Foreign.Eit) (h : ∀ s ∈ ss, s.Ok) (s0 : Psi) (cc : Nat) (pks : List (List UInt8))
    (hp : Packing [] [] cc pks (ss.map fun s => complete s.body)) :
    ∃ s', receivePacked (Eit.parse p) p t s0 pks = (fun u => (u, s')) <$> ss.foldlM (take p) t := by
  have h3 : ∀ s : Foreign.Eit, 3 ≤ s.body.length := by intro s; simp [Foreign.Eit.body, head_length]; omega
  have hne : ∀ s : Foreign.Eit, complete s.body ≠ [] := fun s e => by
    have := complete_length (h3 s); rw [e] at this; simp at this
  refine (receive_packing (Eit.parse p) p (fun s : Foreign.Eit => complete s.body) (take p) Foreign.Eit.Ok
    (fun s hs => complete_isSection (h3 s) (by have := hs.fits; omega)) (fun t s hs psi more hb hz => ?_) (fun t s hs psi rest hb hr he hz => ?_)
    hp ss h rfl t s0).1 rfl
  · rw [parse_more p t psi _ more hb hz (hne s)]
    exact parse_foreign p t s hs _ rfl hz
  · refine C65_eit p t psi (.inr hb) ?_
    rintro ⟨-, h1, h2, -⟩
    have hlen : (complete s.body).length = psi.buffer.length + rest.length := by rw [show complete s.body = _ from he, List.length_append]
    have := List.length_pos_iff.2 hr
    split at hz <;> omega

end Eit

namespace Tot

theorem parse_more (p : Profile) (t : Tot) (psi : Psi) (a x : List UInt8) (hb : psi.buffer = a ++ x) (hs : psi.size = a.length) (ha : a ≠ [])
    (hl : 10 + field a 8 2 % 4096 ≤ a.length) : t.parse p psi = t.parse p { psi with buffer := a } := by
  have hacc : Accepts psi ↔ Accepts { psi with buffer := a } := by
    unfold Accepts
    rw [intact_more 14 psi a x hb hs, hb, head_more a x ha]
  by_cases h : Accepts psi
  · have h' := hacc.1 h
    have h15 : 14 ≤ psi.size := h.2.1
    rw [parse_accepted p t psi h, parse_accepted p t _ h']
    unfold loopLength
    simp only [hb, hs] at h15 ⊢
    rw [field_more _ _ _ _ (by omega), field_more _ _ _ _ (by omega), field_more _ _ _ _ (by omega), slice_ok (by omega) (by rw [List.length_append]; omega),
      slice_ok (by omega) (by omega), List.take_append_of_le_length (by omega)]
  · rw [C65_tot p t psi (.inr (by simp [hb, ha])) h, C65_tot p t _ (.inr ha) (mt hacc.2 h)]

theorem foreign_loop (s : Foreign.Tot) (h : s.Ok) : 10 + field (complete s.body) 8 2 % 4096 ≤ (complete s.body).length := by
  have hfit := h.fits
  have e : s.body = 0x73 :: UInt8.ofNat (s.flags * 4096 / 256) :: UInt8.ofNat (s.flags * 4096) ::
      (Descriptor.utc s.time ++ sized12 s.reserved s.descs) := by
    simp [Foreign.Tot.body, beBytes, Descriptor.pack]
  have hlen : s.body.length = 10 + s.descs.length := by rw [e]; simp [sized12_length]; omega
  have hd : ((complete s.body).drop (3 + 5)).take 2 = ((Descriptor.utc s.time ++ sized12 s.reserved s.descs).drop 5).take 2 := by
    rw [e]; exact drop3 _ _ _ _ _ _ (by simp [sized12_length]; omega)
  have f8 : field (complete s.body) 8 2 = s.reserved * 4096 + s.descs.length := by
    have := h.reserved
    refine (congrArg beNat hd).trans ?_
    rw [List.drop_left' (utc_length _), sized12, List.take_left' (beBytes_length _ _), beNat_beBytes]
    simp only [Descriptor.pack, List.foldl_cons, List.foldl_nil]
    omega
  rw [f8, show ∀ a b, (a * 4096 + b) % 4096 = b % 4096 from fun a b => by omega, Nat.mod_eq_of_lt (by omega), complete_length (by omega), hlen]
  omega

/-- C121, for the TOT: sections of any sender, one behind the other in packets of any layout, are all received, each once and in order. -/
theorem C121_tot_partial (p : Profile) (t : Tot) (ss : List Foreign.Tot) (h : ∀ s ∈ ss, s.Ok) (s0 : Psi) (cc : Nat) (pks : List (List UInt8))
    (hp : Packing [] [] cc pks (ss.map fun s => complete s.body)) :
    ∃ s', receivePacked (Tot.parse p) p t s0 pks = (fun u => (u, s')) <$> ss.foldlM (take p) t := by
  have h3 : ∀ s : Foreign.Tot, 3 ≤ s.body.length := by intro s; simp [Foreign.Tot.body]
  have hne : ∀ s : Foreign.Tot, complete s.body ≠ [] := fun s e => by
    have := complete_length (h3 s); rw [e] at this; simp at this
  refine (receive_packing (Tot.parse p) p (fun s : Foreign.Tot => complete s.body) (take p) Foreign.Tot.Ok
    (fun s hs => complete_isSection (h3 s) (by have := hs.fits; omega)) (fun t s hs psi more hb hz => ?_) (fun t s hs psi rest hb hr he hz => ?_)
    hp ss h rfl t s0).1 rfl
  · rw [parse_more p t psi _ more hb hz (hne s) (foreign_loop s hs)]
    exact parse_foreign p t s hs _ rfl hz
  · refine C65_tot p t psi (.inr hb) ?_
    rintro ⟨-, h1, h2, -⟩
    have hlen : (complete s.body).length = psi.buffer.length + rest.length := by rw [show complete s.body = _ from he, List.length_append]
    have := List.length_pos_iff.2 hr
    split at hz <;> omega

end Tot

namespace Tdt

theorem foreign_isSection (s : Foreign.Tdt) (h : s.Ok) : IsSection s.bytes := by
  have := h.flags
  refine ⟨by rw [foreign_length]; omega, ?_⟩
  rw [foreign_length]
  simp only [Foreign.Tdt.bytes, beBytes, Descriptor.pack, List.foldl_cons, List.foldl_nil, List.cons_append, List.nil_append,
    List.drop_succ_cons, List.drop_zero, List.take_succ_cons, List.take_zero, beNat_two, UInt8.toNat_ofNat']
  omega

/-- C121 fails for the TDT: a section of which a packet holds the first three to seven bytes only makes the parser panic, in every build,
before the rest can arrive. -/
theorem C121_tdt_refuted (p : Profile) (t : Tdt) (s : Foreign.Tdt) (h : s.Ok) (s0 : Psi) (ts : List UInt8) (hl : Laden ts true) (h0 : pointerOf ts = 0)
    (piece rest : List UInt8) (hs : s.bytes = piece ++ rest) (hd : ts.drop (offsetOf ts + 1) = piece) (h3 : 3 ≤ piece.length) (h8 : piece.length < 8)
    (pks : List (List UInt8)) : receivePacked (Tdt.parse p) p t s0 (ts :: pks) = panic := by
  have hS := foreign_isSection s h
  rw [hs] at hS
  have hlen := foreign_length s
  rw [hs] at hlen
  obtain ⟨e1, e2⟩ := upToEnd_piece piece rest [] hS (.inl rfl)
  rw [List.append_nil] at e1 e2
  have ho := hl.offset
  rw [receivePacked_once _ _ _ _ _ _ hl.payload (by simp [h0]), Psi.mux_raw_start s0 hl.packet hl.payload hl.offset hl.start (fun h => absurd h0 h)
    (by omega) (.inl h0), if_pos (by omega), ok_bind, h0, Nat.add_zero, hd]
  rw [if_neg (by omega)] at e2
  have hhead : piece.head? = some 0x70 := by
    have := congrArg List.head? hs
    rw [head_more piece rest (by intro e; rw [e] at h3; simp at h3)] at this
    rw [← this]; rfl
  rw [(C67_tdt_partial p t _).1 (.inr ⟨⟨by show declaredSize piece = 8; omega, by show (upToEnd piece).head? = _; rw [e1, hhead]⟩,
    .inl (by show (upToEnd piece).length < 8; rw [e1]; exact h8)⟩)]
  rfl

end Tdt

/-- C121 fails when two sections begin in one packet: only the first of them is received, here for services of any sender, whatever the
second one is. -/
theorem C121_second_refuted (p : Profile) (t : Sdt) (s : Foreign.Sdt) (h : s.Ok) (s0 : Psi) (ts more : List UInt8) (hl : Laden ts true)
    (h0 : pointerOf ts = 0) (hd : ts.drop (offsetOf ts + 1) = complete s.body ++ more) :
    ∃ s', receivePacked (Sdt.parse p) p t s0 [ts] = (fun u => (u, s')) <$> Sdt.take p t s := by
  have h3 : 3 ≤ s.body.length := by simp [Foreign.Sdt.body, head_length]; omega
  have hS := complete_isSection h3 (by have := h.fits; omega)
  have hS' : IsSection (complete s.body ++ []) := by rw [List.append_nil]; exact hS
  obtain ⟨e1, e2⟩ := upToEnd_piece (complete s.body) [] more hS' (.inr rfl)
  have ho := hl.offset
  have hcl := complete_length h3
  rw [receivePacked_once _ _ _ _ _ _ hl.payload (by simp [h0]), Psi.mux_raw_start s0 hl.packet hl.payload hl.offset hl.start (fun h => absurd h0 h)
    (by omega) (.inl h0), if_pos (by omega), ok_bind, h0, Nat.add_zero, hd]
  rw [if_neg (by omega), List.append_nil] at e2
  generalize hg : s0.started (UInt8.ofNat (ccOf ts)) (complete s.body ++ more) = g
  have g1 : g.buffer = complete s.body := by rw [← hg]; exact e1
  have g2 : g.size = (complete s.body).length := by rw [← hg]; exact e2
  refine ⟨g, ?_⟩
  rw [Sdt.parse_foreign p t s h g g1 g2]
  cases Sdt.take p t s <;> rfl

/-- Why the loop leaves out packets without payload: given such a packet after a section is complete, the reassembler still holds that
section, and the parser takes it a second time. -/
theorem C121_empty_refuted (p : Profile) (t : Sdt) (s : Foreign.Sdt) (h : s.Ok) (s0 : Psi) (ts more e : List UInt8) (hl : Laden ts true)
    (h0 : pointerOf ts = 0) (hd : ts.drop (offsetOf ts + 1) = complete s.body ++ more) (h188 : e.length = 188) (he : hasPayload e = false) :
    ∃ s', receive (Sdt.parse p) p t s0 [ts, e] = (fun u => (u, s')) <$> [s, s].foldlM (Sdt.take p) t := by
  have h3 : 3 ≤ s.body.length := by simp [Foreign.Sdt.body, head_length]; omega
  have hS := complete_isSection h3 (by have := h.fits; omega)
  have hS' : IsSection (complete s.body ++ []) := by rw [List.append_nil]; exact hS
  obtain ⟨e1, e2⟩ := upToEnd_piece (complete s.body) [] more hS' (.inr rfl)
  have ho := hl.offset
  have hcl := complete_length h3
  simp only [receive, List.foldlM_cons, List.foldlM_nil]
  rw [Psi.mux_raw_start s0 hl.packet hl.payload hl.offset hl.start (fun h => absurd h0 h)
    (by omega) (.inl h0), if_pos (by omega), ok_bind, h0, Nat.add_zero, hd]
  rw [if_neg (by omega), List.append_nil] at e2
  generalize hg : s0.started (UInt8.ofNat (ccOf ts)) (complete s.body ++ more) = g
  have g1 : g.buffer = complete s.body := by rw [← hg]; exact e1
  have g2 : g.size = (complete s.body).length := by rw [← hg]; exact e2
  refine ⟨g, ?_⟩
  rw [Sdt.parse_foreign p t s h g g1 g2]
  cases hx : Sdt.take p t s with
  | error _ => rfl
  | ok t' =>
    simp only [ok_bind, pure_eq_ok, Psi.mux_raw_nopay g h188 he, Sdt.parse_foreign p t' s h g g1 g2]
    cases Sdt.take p t' s <;> rfl

/-! ## A concrete case -/

/-- Two program association sections; the second begins in the packet in which the first ends, after a packet without payload. -/
theorem packing_two :
    let one := [0, 176, 13, 0, 1, 201, 0, 1, 0, 1, 224, 100, 191, 117, 51, 129]
    let two := [0, 176, 13, 0, 1, 201, 1, 1, 0, 2, 224, 200, 98, 23, 6, 26]
    let p1 := [0x47, 0x40, 0x00, 0x35, 177, 0x00] ++ List.replicate 176 0xFF ++ [0x00] ++ one.take 5
    let p2 := [0x47, 0x00, 0x00, 0x25, 183, 0x00] ++ List.replicate 182 0xFF
    let p3 := [0x47, 0x40, 0x00, 0x16, 0x0B] ++ one.drop 5 ++ two ++ List.replicate 156 0xFF
    Packing [] [] 0 [p1, p2, p3] [one, two] :=
  .start (piece := [0, 176, 13, 0, 1]) (rest := [201, 0, 1, 0, 1, 224, 100, 191, 117, 51, 129]) _ 0
    ⟨⟨by decide +kernel, by decide +kernel⟩, by decide +kernel, by decide +kernel, by decide +kernel⟩ (by decide +kernel)
    (by decide +kernel) (by decide +kernel) (.inl rfl)
    (.empty _ (by decide +kernel) (by decide +kernel)
      (.turn (piece := [0, 176, 13, 0, 1, 201, 1, 1, 0, 2, 224, 200, 98, 23, 6, 26]) (rest := []) _ 156
        ⟨⟨by decide +kernel, by decide +kernel⟩, by decide +kernel, by decide +kernel, by decide +kernel⟩ (by decide +kernel) (by decide +kernel)
        (by decide +kernel) (by decide +kernel) (by decide +kernel) (.inr rfl) (.done _ _)))

/-- They are sections of a sender. -/
example :
    let a : Foreign.Pat := { head := { tableId := 0, flags := 11, ext := 1, reserved := 3, version := 4, current := 1, number := 0, last := 1 },
                             programs := [⟨1, 7, 100⟩] }
    let b : Foreign.Pat := { a with head := { a.head with number := 1 }, programs := [⟨2, 7, 200⟩] }
    a.Ok ∧ b.Ok ∧ complete a.body = [0, 176, 13, 0, 1, 201, 0, 1, 0, 1, 224, 100, 191, 117, 51, 129] ∧
      complete b.body = [0, 176, 13, 0, 1, 201, 1, 1, 0, 2, 224, 200, 98, 23, 6, 26] := by
  refine ⟨⟨by constructor <;> decide, rfl, ?_, by decide⟩, ⟨by constructor <;> decide, rfl, ?_, by decide⟩, by decide +kernel, by decide +kernel⟩
  · intro x hx; rw [List.mem_singleton.1 hx]; constructor <;> decide
  · intro x hx; rw [List.mem_singleton.1 hx]; constructor <;> decide

end Mpegts
