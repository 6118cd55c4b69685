import Verif.Props.Tdt

/-! # The event information table, present/following and parsing: C58, C63-C68 -/

namespace Mpegts
open Spec Spec.Table

namespace Eit

/-- The entry the standard prescribes for an event. -/
def entry (i : EitItem) : List UInt8 :=
  eitEntry i.eventId.toNat i.start.toNat i.duration.toNat i.status.toNat i.caMode.toNat (i.descriptors.flatMap Desc.wire)

/-- Every field fits, and the entry fits into a section.  (Events of 24 hours and more are not sent correctly, see
`C58_duration_refuted`.) -/
def ItemInRange (i : EitItem) : Prop :=
  TimeInRange i.start ∧ i.duration.toNat < 86400 ∧ i.status.toNat < 8 ∧ i.caMode.toNat < 2 ∧ Good i.descriptors ∧
    14 + (entry i).length ≤ 4092

/-- The header of an EIT section is followed by this. -/
def rest (t : Eit) (segmentLast lastTableId : Nat) (g : List EitItem) : List UInt8 :=
  beBytes 2 t.tsid.toNat ++ beBytes 2 t.onid.toNat ++ beBytes 1 segmentLast ++ beBytes 1 lastTableId ++ g.flatMap entry

/-- The section the standard prescribes for these events. -/
def section' (t : Eit) (tableId number last segmentLast lastTableId : Nat) (g : List EitItem) : List UInt8 :=
  complete (Table.eit tableId t.pnr.toNat (t.version.toNat % 32) number last t.tsid.toNat t.onid.toNat segmentLast lastTableId (g.flatMap entry))

/-- The sections of a present/following table: one for each event. -/
def wirePf (t : Eit) : List (List UInt8) :=
  t.items.zipIdx.map fun x => t.section' t.tableId.toNat (x.2 % 256) ((t.items.length - 1) % 256) ((t.items.length - 1) % 256)
    t.tableId.toNat [x.1]

theorem section_eq (t : Eit) (tid n l sl lt : Nat) (g : List EitItem) :
    t.section' tid n l sl lt g = complete (header tid 0b1111 t.pnr.toNat (t.version.toNat % 32) n l ++ t.rest sl lt g) := by
  simp [section', Table.eit, rest]

theorem rest_length (t : Eit) (sl lt : Nat) (g : List EitItem) : (t.rest sl lt g).length = 6 + (g.flatMap entry).length := by
  simp [rest]; omega

theorem section_length (t : Eit) (tid n l sl lt : Nat) (g : List EitItem) :
    (t.section' tid n l sl lt g).length = 18 + (g.flatMap entry).length := by
  rw [section_eq, complete_length (by simp; omega)]
  simp only [List.length_append, header_length, rest_length]
  omega

theorem entry_length (i : EitItem) : (entry i).length = 12 + (i.descriptors.flatMap Desc.wire).length := by
  simp [entry, eitEntry, sized12_length]; omega

/-- What is sent for an event: the entry of the event with its duration reduced to less than a day. -/
theorem assemble_entry' (p : Profile) (i : EitItem) (h1 : TimeInRange i.start) (h3 : i.status.toNat < 8) (h4 : i.caMode.toNat < 2)
    (h5 : Good i.descriptors) (h6 : (i.descriptors.flatMap Desc.wire).length < 4096) (b : List UInt8) :
    i.assemble p b = .ok (b ++ eitEntry i.eventId.toNat i.start.toNat (i.duration.toNat % 86400) i.status.toNat i.caMode.toNat
      (i.descriptors.flatMap Desc.wire)) := by
  obtain ⟨w1, v, w2, w3⟩ := write_utc p i.start h1
  obtain ⟨d, e3, f3⟩ := C20_to_bcd_time p i.duration
  rw [← bcd_hhmmss] at f3
  unfold EitItem.assemble
  simp only [resize_extend, show List.replicate 12 (0 : UInt8) = [0, 0, 0, 0, 0, 0, 0, 0, 0, 0, 0, 0] from rfl]
  have e1 := setU16At_append b [0, 0, 0, 0, 0, 0, 0, 0, 0, 0, 0, 0] 0 i.eventId
  rw [Nat.add_zero] at e1
  rw [e1, setU16At_ok _ (by simp), map_ok, ok_bind, setU16At_append, setU16At_ok _ (by simp [beBytes]), map_ok, ok_bind, w1, w2, ok_bind,
    setU24At_append, setU24At_ok _ (by simp [beBytes]), map_ok, ok_bind, e3, ok_bind, setU24At_append, setU24At_ok _ (by simp [beBytes]), map_ok,
    ok_bind, w3, f3]
  rw [(C33_list_partial p i.descriptors _ h5).1, ok_bind]
  simp only []
  rw [List.append_assoc, setU16At_append, setU16At_ok _ (by simp [beBytes]), map_ok, flags_word' _ _ _ h3 h4 (by omega)]
  refine congrArg (fun x => Except.ok (b ++ x)) ?_
  simp [eitEntry, Descriptor.utc, sized12, beBytes]

theorem assemble_entry (p : Profile) (i : EitItem) (h : ItemInRange i) (b : List UInt8) : i.assemble p b = .ok (b ++ entry i) := by
  obtain ⟨h1, h2, h3, h4, h5, h6⟩ := h
  rw [entry_length] at h6
  rw [assemble_entry' p i h1 h3 h4 h5 (by omega) b, Nat.mod_eq_of_lt h2]
  rfl

theorem size_entry (i : EitItem) (h : ItemInRange i) : i.size = (entry i).length := by
  rw [entry_length, EitItem.size, (C33_list_partial .debug i.descriptors [] h.2.2.2.2.1).2]

theorem psiInit_eq (p : Profile) (t : Eit) : t.psiInit p = .ok { Psi.default with
    buffer := header t.tableId.toNat 0b1111 t.pnr.toNat (t.version.toNat % 32) 0 0 ++ t.rest 0 0 [] } := by
  unfold psiInit
  rw [show Psi.new p t.tableId 14 t.version = Psi.new p t.tableId (8 + 6) t.version from rfl, psi_new_long, ok_bind]
  simp only [show List.replicate 6 (0 : UInt8) = [0, 0, 0, 0, 0, 0] from rfl, List.cons_append, List.nil_append, setIdx_succ, setIdx_zero, map_ok,
    ok_bind]
  rw [setU16At_ok _ (by simp), ok_bind, setU16At_ok _ (by simp), ok_bind, setU16At_ok _ (by simp), ok_bind]
  simp only [beBytes, List.take_succ_cons, List.take_zero, List.drop_succ_cons, List.drop_zero, List.cons_append, List.nil_append, setIdx_succ,
    setIdx_zero, map_ok, ok_bind, pure_eq_ok, rest, header_eq]
  simp

/-- Sections that are complete are sent one after the other. -/
theorem demuxLoop_eq (p : Profile) (pid : UInt16) (hp : pid.toNat < 8192) (L : List (List UInt8)) (h0 : ∀ s ∈ L, s ≠ []) (cc : UInt8)
    (hc : cc.toNat < 16) (dst : List UInt8) :
    demuxLoop p pid (L.map fun b => { Psi.default with buffer := b, size := b.length }) cc dst = .ok
      (UInt8.ofNat ((cc.toNat + streamCount L) % 16), dst ++ (stream pid.toNat cc.toNat L).flatten) := by
  induction L generalizing cc dst with
  | nil => simp [demuxLoop, stream, streamCount, Nat.mod_eq_of_lt hc]
  | cons s r ih =>
    have hs : 0 < s.length := List.length_pos_iff.2 (h0 s List.mem_cons_self)
    rw [List.map_cons, demuxLoop]
    simp only []
    rw [C40_demux p _ dst hs (by simp only []; omega) (by exact hp) (by exact hc), ok_bind]
    simp only [List.take_length]
    have e : (UInt8.ofNat ((cc.toNat + packetCount s.length) % 16)).toNat = (cc.toNat + packetCount s.length) % 16 := by
      rw [UInt8.toNat_ofNat']; omega
    rw [ih (fun x hx => h0 x (List.mem_cons_of_mem _ hx)) _ (by rw [e]; omega), e, stream_mod]
    simp only [stream, streamCount, List.map_cons, List.sum_cons, List.flatten_append, List.append_assoc, Nat.mod_add_mod, Nat.add_assoc]

/-- A section under construction. -/
def draft (t : Eit) (tid n l sl lt : Nat) (g : List EitItem) : List UInt8 :=
  header tid 0b1111 t.pnr.toNat (t.version.toNat % 32) n l ++ t.rest sl lt g

theorem draft_length (t : Eit) (tid n l sl lt : Nat) (g : List EitItem) : (t.draft tid n l sl lt g).length = 14 + (g.flatMap entry).length := by
  simp only [draft, List.length_append, header_length, rest_length]; omega

theorem draft_form (t : Eit) (tid n l sl lt : Nat) (g : List EitItem) : t.draft tid n l sl lt g =
    [UInt8.ofNat tid, UInt8.ofNat (0b1111 * 16), 0, UInt8.ofNat (t.pnr.toNat / 256), UInt8.ofNat t.pnr.toNat,
      UInt8.ofNat (Descriptor.pack [(2, 0b11), (5, t.version.toNat % 32), (1, 1)]), UInt8.ofNat n, UInt8.ofNat l,
      UInt8.ofNat (t.tsid.toNat / 256), UInt8.ofNat t.tsid.toNat, UInt8.ofNat (t.onid.toNat / 256), UInt8.ofNat t.onid.toNat,
      UInt8.ofNat sl, UInt8.ofNat lt] ++ g.flatMap entry := by
  rw [draft, header_eq, rest]; simp [beBytes]

theorem set_table (t : Eit) (tid n l sl lt : Nat) (g : List EitItem) (b : UInt8) :
    setIdx (t.draft tid n l sl lt g) 0 b = .ok (t.draft b.toNat n l sl lt g) := by
  simp only [draft_form, List.cons_append, setIdx_zero, UInt8.ofNat_toNat]
theorem set_number (t : Eit) (tid n l sl lt : Nat) (g : List EitItem) (b : UInt8) :
    setIdx (t.draft tid n l sl lt g) 6 b = .ok (t.draft tid b.toNat l sl lt g) := by
  simp only [draft_form, List.cons_append, setIdx_succ, setIdx_zero, UInt8.ofNat_toNat, map_ok]
theorem set_last (t : Eit) (tid n l sl lt : Nat) (g : List EitItem) (b : UInt8) :
    setIdx (t.draft tid n l sl lt g) 7 b = .ok (t.draft tid n b.toNat sl lt g) := by
  simp only [draft_form, List.cons_append, setIdx_succ, setIdx_zero, UInt8.ofNat_toNat, map_ok]
theorem set_segment (t : Eit) (tid n l sl lt : Nat) (g : List EitItem) (b : UInt8) :
    setIdx (t.draft tid n l sl lt g) 12 b = .ok (t.draft tid n l b.toNat lt g) := by
  simp only [draft_form, List.cons_append, setIdx_succ, setIdx_zero, UInt8.ofNat_toNat, map_ok]
theorem set_lastTable (t : Eit) (tid n l sl lt : Nat) (g : List EitItem) (b : UInt8) :
    setIdx (t.draft tid n l sl lt g) 13 b = .ok (t.draft tid n l sl b.toNat g) := by
  simp only [draft_form, List.cons_append, setIdx_succ, setIdx_zero, UInt8.ofNat_toNat, map_ok]
theorem add_event (p : Profile) (t : Eit) (tid n l sl lt : Nat) (g : List EitItem) (i : EitItem) (h : ItemInRange i) :
    i.assemble p (t.draft tid n l sl lt g) = .ok (t.draft tid n l sl lt (g ++ [i])) := by
  rw [assemble_entry p i h]; simp [draft_form]
theorem finalize_draft (p : Profile) (t : Eit) (tid n l sl lt : Nat) (g : List EitItem) (h : (g.flatMap entry).length ≤ 4080) :
    Psi.finalize p { Psi.default with buffer := t.draft tid n l sl lt g } =
      .ok { Psi.default with buffer := t.section' tid n l sl lt g, size := (t.section' tid n l sl lt g).length } := by
  have hl := t.draft_length tid n l sl lt g
  rw [C49_finalize p _ rfl (by simp only [hl]; omega) (by simp only [hl]; omega), section_length]
  simp only [hl, section_eq]
  rw [show 14 + (g.flatMap entry).length + 4 = 18 + (g.flatMap entry).length by omega, draft]

theorem pfLoop_eq (p : Profile) (t : Eit) (last : UInt8) (l : List EitItem) (hl : ∀ i ∈ l, ItemInRange i) (n : Nat) :
    pfLoop p t last n l = .ok (((l.zipIdx n).map fun x =>
      t.section' t.tableId.toNat (x.2 % 256) last.toNat last.toNat t.tableId.toNat [x.1]).map fun b =>
        { Psi.default with buffer := b, size := b.length }) := by
  induction l generalizing n with
  | nil => rfl
  | cons i r ih =>
    have hi := hl i List.mem_cons_self
    have h6 := hi.2.2.2.2.2
    rw [pfLoop, psiInit_eq, ok_bind]
    simp only []
    rw [← draft, set_number, ok_bind, set_last, ok_bind, set_segment, ok_bind, set_lastTable, ok_bind, add_event p t _ _ _ _ _ _ i hi,
      ok_bind, finalize_draft p t _ _ _ _ _ _ (by simp; omega), ok_bind, ih (fun x hx => hl x (List.mem_cons_of_mem _ hx)), ok_bind]
    simp only [List.zipIdx_cons, List.map_cons, UInt8.toNat_ofNat', List.nil_append, pure_eq_ok]

/-- C58: a present/following EIT is sent as one section for each event, as the standard prescribes. -/
theorem C58_wire (p : Profile) (t : Eit) (hid : t.tableId = 0x4E ∨ t.tableId = 0x4F) (hr : ∀ i ∈ t.items, ItemInRange i) (pid : UInt16) (cc : UInt8)
    (dst : List UInt8) (hp : pid.toNat < 8192) (hc : cc.toNat < 16) :
    t.demux p pid cc dst = .ok (UInt8.ofNat ((cc.toNat + streamCount t.wirePf) % 16),
      dst ++ (stream pid.toNat cc.toNat t.wirePf).flatten) := by
  unfold demux psiListAssemble
  by_cases he : t.items = []
  · simp [he, wirePf, stream, streamCount, Nat.mod_eq_of_lt hc]
  · rw [List.head?_eq_some_head he, List.getLast?_eq_some_getLast he]
    simp only []
    rw [if_pos hid, pfLoop_eq p t _ t.items hr 0, ok_bind]
    simp only [UInt8.toNat_ofNat']
    rw [show (t.items.zipIdx 0).map (fun x => t.section' t.tableId.toNat (x.2 % 256) ((t.items.length - 1) % 2 ^ 8) ((t.items.length - 1) % 2 ^ 8)
      t.tableId.toNat [x.1]) = t.wirePf from rfl]
    rw [if_neg (by simpa [wirePf] using he), demuxLoop_eq p pid hp _ _ cc hc dst]
    intro s hs
    obtain ⟨x, hx, rfl⟩ := List.mem_map.1 hs
    intro e
    have := section_length t t.tableId.toNat (x.2 % 256) ((t.items.length - 1) % 256) ((t.items.length - 1) % 256) t.tableId.toNat [x.1]
    rw [e] at this
    simp at this
    omega

/-- An EIT without events, whatever its table id, sends nothing. -/
theorem C58_empty (p : Profile) (t : Eit) (h : t.items = []) (pid : UInt16) (cc : UInt8) (dst : List UInt8) : t.demux p pid cc dst = .ok (cc, dst) := by
  unfold demux psiListAssemble
  simp [h]

/-- C58 fails for events of a day and more: the standard has six decimal digits for the duration (up to 99:59:59), but only the
remainder of the duration modulo 24 hours is sent. -/
theorem C58_duration_refuted (p : Profile) (i : EitItem) (h1 : TimeInRange i.start) (h3 : i.status.toNat < 8) (h4 : i.caMode.toNat < 2)
    (h5 : Good i.descriptors) (h6 : (i.descriptors.flatMap Desc.wire).length < 4096) (hd : 86400 ≤ i.duration.toNat) (hd' : i.duration.toNat < 360000) :
    i.assemble p [] = .ok (entry { i with duration := i.duration % 86400 }) ∧ entry { i with duration := i.duration % 86400 } ≠ entry i := by
  have e : (i.duration % 86400).toNat = i.duration.toNat % 86400 := by rw [UInt32.toNat_mod]; rfl
  constructor
  · rw [assemble_entry' p i h1 h3 h4 h5 h6, entry, e]; rfl
  · intro h
    have h2 : beBytes 3 (Descriptor.hhmmss (i.duration.toNat % 86400)) = beBytes 3 (Descriptor.hhmmss i.duration.toNat) := by
      simp only [entry, eitEntry, e, List.append_assoc] at h
      have := List.append_cancel_left h
      have := List.append_cancel_left this
      exact List.append_inj_left this (by simp)
    have h3 := congrArg beNat h2
    rw [beNat_beBytes, beNat_beBytes, show 256 ^ 3 = 2 ^ 24 from rfl, Nat.mod_eq_of_lt (a := Descriptor.hhmmss (i.duration.toNat % 86400)) (hhmmss_lt _),
      Nat.mod_eq_of_lt (a := Descriptor.hhmmss i.duration.toNat) (hhmmss_lt _), bcd_hhmmss, bcd_hhmmss] at h3
    have b2 := bcd2_lt (i.duration.toNat / 60 % 60)
    have b3 := bcd2_lt (i.duration.toNat % 60)
    have b4 := bcd2_lt (i.duration.toNat % 86400 / 60 % 60)
    have b5 := bcd2_lt (i.duration.toNat % 86400 % 60)
    have h7 : bcd 2 (i.duration.toNat % 86400 / 3600) = bcd 2 (i.duration.toNat / 3600) := by omega
    have u := congrArg (unbcd 2) h7
    rw [unbcd_bcd, unbcd_bcd] at u
    omega

/-- For C63: no section of a present/following EIT is longer than 4096 bytes. -/
theorem wirePf_le (t : Eit) (hr : ∀ i ∈ t.items, ItemInRange i) : ∀ sec ∈ t.wirePf, sec.length ≤ 4096 := by
  intro sec hs
  obtain ⟨x, hx, rfl⟩ := List.mem_map.1 hs
  have hi : x.1 ∈ t.items := (List.mem_zipIdx' hx).2 ▸ List.getElem_mem _
  have := (hr _ hi).2.2.2.2.2
  rw [section_length]
  simp
  omega

theorem section_read (t : Eit) (tid n l sl lt : Nat) (g : List EitItem) (ht : tid < 256) (hn : n < 256) (hl : l < 256) (hsl : sl < 256) (hlt : lt < 256) :
    let sec := t.section' tid n l sl lt g
    sec.head? = some (UInt8.ofNat tid) ∧ field sec 0 1 = tid ∧ field sec 3 2 = t.pnr.toNat ∧ field sec 5 1 = 0xC1 + 2 * (t.version.toNat % 32) ∧
    field sec 6 1 = n ∧ field sec 7 1 = l ∧ field sec 8 2 = t.tsid.toNat ∧ field sec 10 2 = t.onid.toNat ∧ field sec 12 1 = sl ∧ field sec 13 1 = lt ∧
    (sec.take (sec.length - 4)).drop 14 = g.flatMap entry := by
  simp only [section_eq]
  obtain ⟨s1, s2, s3, s4, s5, s6, s7, s8, s9, -⟩ := section_fields tid 0b1111 t.pnr.toNat (t.version.toNat % 32) n l (t.rest sl lt g) ht
    t.pnr.toNat_lt (by omega) hn hl
  have h1 := t.tsid.toNat_lt
  have h2 := t.onid.toNat_lt
  have r := t.rest_length sl lt g
  refine ⟨s2, s3, s4, s5, s6, s7, ?_, ?_, ?_, ?_, ?_⟩
  · rw [show 8 = 8 + 0 from rfl, s8 0 2 (by omega)]
    simp only [rest, field, beBytes, List.cons_append, List.nil_append, List.drop_zero, List.take_succ_cons, List.take_zero, beNat_two,
      UInt8.toNat_ofNat']
    omega
  · rw [show 10 = 8 + 2 from rfl, s8 2 2 (by omega)]
    simp only [rest, field, beBytes, List.cons_append, List.nil_append, List.drop_zero, List.drop_succ_cons, List.take_succ_cons, List.take_zero, beNat_two,
      UInt8.toNat_ofNat']
    omega
  · rw [show 12 = 8 + 4 from rfl, s8 4 1 (by omega)]
    simp only [rest, field, beBytes, List.cons_append, List.nil_append, List.drop_zero, List.drop_succ_cons, List.take_succ_cons, List.take_zero, beNat,
      List.length_nil, UInt8.toNat_ofNat']
    omega
  · rw [show 13 = 8 + 5 from rfl, s8 5 1 (by omega)]
    simp only [rest, field, beBytes, List.cons_append, List.nil_append, List.drop_zero, List.drop_succ_cons, List.take_succ_cons, List.take_zero, beNat,
      List.length_nil, UInt8.toNat_ofNat']
    omega
  · rw [show 14 = 8 + 6 from rfl, s9 6, rest, List.drop_left' (by simp)]

/-- C64: a present/following EIT with at most 256 events has one section for each; the i-th has number i, and all carry the number
of the last one, also as segment_last_section_number, and last_table_id is the table id. -/
theorem wirePf_numbers (t : Eit) (h : t.items.length ≤ 256) : t.wirePf.length = t.items.length ∧
    ∀ i sec, t.wirePf[i]? = some sec → field sec 6 1 = i ∧ field sec 7 1 = t.items.length - 1 ∧ field sec 12 1 = t.items.length - 1 ∧
      field sec 13 1 = t.tableId.toNat := by
  refine ⟨by simp [wirePf], fun i sec hs => ?_⟩
  rw [wirePf, List.getElem?_map, List.getElem?_zipIdx] at hs
  cases hg : t.items[i]? with
  | none => rw [hg] at hs; cases hs
  | some g =>
    have hi : i < t.items.length := (List.getElem?_eq_some_iff.1 hg).1
    rw [hg] at hs
    simp only [Option.map_some, Option.some.injEq, Nat.zero_add] at hs
    subst hs
    have := t.tableId.toNat_lt
    obtain ⟨-, -, -, -, h6, h7, -, -, h12, h13, -⟩ := section_read t t.tableId.toNat (i % 256) ((t.items.length - 1) % 256) ((t.items.length - 1) % 256)
      t.tableId.toNat [g] (by omega) (by omega) (by omega) (by omega) (by omega)
    refine ⟨?_, ?_, ?_, h13⟩ <;> omega

/-- For C68: every section carries the version (5 bits). -/
theorem wirePf_version (t : Eit) : ∀ sec ∈ t.wirePf, field sec 5 1 = 0xC1 + 2 * (t.version.toNat % 32) := by
  intro sec hs
  obtain ⟨x, hx, rfl⟩ := List.mem_map.1 hs
  have := t.tableId.toNat_lt
  exact (section_read t t.tableId.toNat (x.2 % 256) ((t.items.length - 1) % 256) ((t.items.length - 1) % 256)
      t.tableId.toNat [x.1] (by omega) (by omega) (by omega) (by omega) (by omega)).2.2.2.1

/-! ## Parsing -/

/-- A section `Eit::parse` accepts: table id 0x4E to 0x6F, at least 18 bytes, intact. -/
def Accepts (psi : Psi) : Prop := (∃ b : UInt8, psi.buffer.head? = some b ∧ 0x4E ≤ b.toNat ∧ b.toNat ≤ 0x6F) ∧ Intact 18 psi

theorem ids : ∀ b : UInt8, tableIdOk b = true ↔ 0x4E ≤ b.toNat ∧ b.toNat ≤ 0x6F := by decide +kernel

theorem accepts_iff (psi : Psi) : Accepts psi ↔ Acceptable 18 tableIdOk psi := by
  unfold Accepts Acceptable
  simp only [ids]

/-- C65: a section that is not an intact EIT section leaves the table unchanged. -/
theorem C65_eit (p : Profile) (t : Eit) (psi : Psi) (hb : psi.size < 18 ∨ psi.buffer ≠ []) (h : ¬ Accepts psi) :
    t.parse p psi = .ok t := by
  obtain ⟨b, h1, h2⟩ := gCheck_eq p 18 (by omega) tableIdOk psi hb
  unfold parse
  rw [show check p psi = _ from h1, ok_bind, if_pos (by rw [accepts_iff, ← h2] at h; simpa using h)]
  rfl

/-- What the standard says an event entry means. -/
def readItem (p : Profile) (e : List UInt8) : R EitItem := do
  let start ← readUtc p (UInt16.ofNat (field e 2 2)) (UInt32.ofNat (field e 4 3))
  let duration ← fromBcdTime32 p (UInt32.ofNat (field e 7 3))
  let ds ← (Descriptor.frames (e.drop 12)).mapM (Desc.parse p)
  .ok { eventId := UInt16.ofNat (field e 0 2), start := start, duration := duration, status := UInt8.ofNat (field e 10 1 / 32),
        caMode := UInt8.ofNat (field e 10 1 / 16 % 2), descriptors := ds }

theorem flag_bits : ∀ b : UInt8, (b >>> 5) &&& 0x07 = UInt8.ofNat (b.toNat / 32) ∧ (b >>> 4) &&& 0x01 = UInt8.ofNat (b.toNat / 16 % 2) := by
  decide +kernel

theorem item_parse (p : Profile) (e : List UInt8) (h : 12 ≤ e.length) : EitItem.parse p e = readItem p e := by
  unfold EitItem.parse readItem readUtc
  obtain ⟨b, i2, f2⟩ := idx_field e 10 (by omega)
  rw [get16 (by omega), get16 (by omega), get24 (by omega), get24 (by omega), i2, sliceFrom, if_pos h]
  simp only [ok_bind, parse_nil]
  cases fromMjd p (UInt16.ofNat (field e 2 2)) with
  | error => rfl
  | ok d =>
    simp only [ok_bind]
    cases fromBcdTime32 p (UInt32.ofNat (field e 4 3)) with
    | error => rfl
    | ok v =>
      simp only [ok_bind]
      cases addU64 p d v.toUInt64 with
      | error => rfl
      | ok x =>
        simp only [ok_bind]
        cases fromBcdTime32 p (UInt32.ofNat (field e 7 3)) with
        | error => rfl
        | ok y =>
          simp only [ok_bind]
          cases (Descriptor.frames (e.drop 12)).mapM (Desc.parse p) with
          | error => rfl
          | ok ds => simp only [ok_bind, pure_eq_ok, (flag_bits b).1, (flag_bits b).2, f2]

/-- C66: an accepted section replaces the fields of the table by those of the section, and appends its events, in order, to those
already there. -/
theorem C66_eit (p : Profile) (t : Eit) (psi : Psi) (h : Accepts psi) :
    t.parse p psi =
      (fun items => { tableId := UInt8.ofNat (field psi.buffer 0 1), version := UInt8.ofNat (field psi.buffer 5 1 / 2 % 32),
                      pnr := UInt16.ofNat (field psi.buffer 3 2), tsid := UInt16.ofNat (field psi.buffer 8 2),
                      onid := UInt16.ofNat (field psi.buffer 10 2), items := t.items ++ items }) <$>
        (entries 12 ((psi.buffer.take (psi.size - 4)).drop 14)).mapM (readItem p) := by
  have hne : psi.buffer ≠ [] := by intro e; simp [Accepts, e] at h
  obtain ⟨b, h1, h2⟩ := gCheck_eq p 18 (by omega) tableIdOk psi (.inr hne)
  have hb : b = true := h2.2 ((accepts_iff psi).1 h)
  obtain ⟨-, hs, hl, -⟩ := h
  subst hb
  unfold parse
  obtain ⟨i, i1, i2⟩ := idx_field psi.buffer 0 (by omega)
  obtain ⟨v, v1, v2⟩ := idx_field psi.buffer 5 (by omega)
  have hsl : slice psi.buffer 14 (psi.size - 4) = .ok ((psi.buffer.take (psi.size - 4)).drop 14) := by
    rw [slice, if_pos (by omega)]
  rw [show check p psi = _ from h1, ok_bind, if_neg (by simp), i1, ok_bind, get16 (by omega), ok_bind, v1, ok_bind,
    get16 (by omega), ok_bind, get16 (by omega), ok_bind, usizeSub_ok p (by omega), ok_bind, hsl, ok_bind, eit_gParse, gParse_all 12 (by omega)]
  rw [mapM_congr (f := EitItem.parse p) (g := readItem p) fun e he => item_parse p e (entries_length 12 _ e he)]
  cases (entries 12 ((psi.buffer.take (psi.size - 4)).drop 14)).mapM (readItem p) with
  | error x => rfl
  | ok ds =>
    simp only [map_ok, ok_bind, pure_eq_ok, version_field, v2]
    rw [← i2, UInt8.ofNat_toNat]

/-- C66: what an event entry is read as, when its date is not before 1970 and its times have decimal digits. -/
theorem C66_eit_event (p : Profile) (e : List UInt8) (hd : unixEpochMjd ≤ field e 2 2) (ht : ValidBcd 6 (field e 4 3)) (hu : ValidBcd 6 (field e 7 3)) :
    ∃ (start : UInt64) (duration : UInt32), start.toNat = instant (field e 2 2) (field e 4 3) ∧ duration.toNat = seconds (field e 7 3) ∧
      readItem p e = (fun ds =>
        { eventId := UInt16.ofNat (field e 0 2), start := start, duration := duration,
          status := UInt8.ofNat (field e 10 1 / 32), caMode := UInt8.ofNat (field e 10 1 / 16 % 2), descriptors := ds }) <$>
          (Descriptor.frames (e.drop 12)).mapM (Desc.parse p) := by
  have f3 := field_lt e 4 3
  have f4 := field_lt e 7 3
  obtain ⟨v, v1, v2⟩ := readUtc_ok p (UInt16.ofNat (field e 2 2)) (UInt32.ofNat (field e 4 3))
    (by rw [u16_field]; exact hd) (by rw [u24_field]; omega) (by rw [u24_field]; exact ht)
  obtain ⟨w, w1, w2⟩ := fromBcdTime32_seconds p (UInt32.ofNat (field e 7 3)) (by rw [u24_field]; omega) (by rw [u24_field]; exact hu)
  rw [u16_field, u24_field] at v2
  rw [u24_field] at w2
  refine ⟨v, w, v2, w2, ?_⟩
  rw [readItem, v1, ok_bind, w1, ok_bind]
  cases (Descriptor.frames (e.drop 12)).mapM (Desc.parse p) <;> rfl

/-- An event entry whose reading panics. -/
def BadEvent (p : Profile) (e : List UInt8) : Prop :=
  (p = .debug ∧ (field e 2 2 < unixEpochMjd ∨ ¬ ValidBcd 6 (field e 4 3) ∨ ¬ ValidBcd 6 (field e 7 3))) ∨ LoopPanics p (e.drop 12)

theorem read_outcome (p : Profile) (e : List UInt8) : Outcome (readItem p e) (BadEvent p e) := by
  have f3 := field_lt e 4 3
  have f4 := field_lt e 7 3
  refine ((readUtc_outcome p _ _ (by rw [u24_field]; omega)).bind fun v _ => (fromBcdTime32_outcome p _ (by rw [u24_field]; omega)).bind fun w _ =>
    (loop_outcome p (e.drop 12)).bind fun ds _ => Outcome.of_ok _).congr ?_
  rw [u16_field, u24_field, u24_field]
  unfold BadEvent
  tauto

/-- C67, what holds: parsing panics exactly for an accepted section with an event whose descriptors contain one whose parsing panics
(C38), or (debug profile) whose date is before 1970 or whose times have digits that are not decimal; and for one that claims a
size without having any byte. -/
theorem C67_eit_partial (p : Profile) (t : Eit) (psi : Psi) :
    Outcome (t.parse p psi) ((18 ≤ psi.size ∧ psi.buffer = []) ∨
      (Accepts psi ∧ ∃ e ∈ entries 12 ((psi.buffer.take (psi.size - 4)).drop 14), BadEvent p e)) := by
  by_cases h0 : 18 ≤ psi.size ∧ psi.buffer = []
  · refine ⟨fun _ => ?_, fun hn => (hn (.inl h0)).elim⟩
    unfold parse
    rw [show check p psi = _ from gCheck_panic p 18 _ psi h0.1 h0.2]; rfl
  · by_cases ha : Accepts psi
    · rw [C66_eit p t psi ha]
      refine Outcome.congr ((mapM_outcome _ _ _ fun e _ => read_outcome p e).map _) ?_
      simp [ha, h0]
    · refine ⟨?_, fun _ => ⟨t, C65_eit p t psi ?_ ha⟩⟩
      · rintro (h | h)
        · exact (h0 h).elim
        · exact (ha h.1).elim
      · by_cases hb : psi.buffer = []
        · exact .inl (by by_contra hc; exact h0 ⟨by omega, hb⟩)
        · exact .inr hb

/-! ## Round trip -/

theorem entry_fields (i : EitItem) (h : ItemInRange i) : field (entry i) 0 2 = i.eventId.toNat ∧
    field (entry i) 2 2 = unixEpochMjd + i.start.toNat / 86400 ∧ field (entry i) 4 3 = Descriptor.hhmmss (i.start.toNat % 86400) ∧
    field (entry i) 7 3 = Descriptor.hhmmss i.duration.toNat ∧
    field (entry i) 10 2 = (i.status.toNat * 2 + i.caMode.toNat) * 4096 + (i.descriptors.flatMap Desc.wire).length ∧
    field (entry i) 10 1 / 16 = i.status.toNat * 2 + i.caMode.toNat ∧
    (entry i).drop 12 = i.descriptors.flatMap Desc.wire := by
  obtain ⟨h1, h2, h3, h4, h5, h6⟩ := h
  have hp := i.eventId.toNat_lt
  rw [entry_length] at h6
  have b1 := hhmmss_lt (i.start.toNat % 86400)
  have b2 := hhmmss_lt i.duration.toNat
  unfold TimeInRange at h1
  simp only [entry, eitEntry, Descriptor.utc, sized12, beBytes, List.cons_append, List.nil_append, field, List.drop_succ_cons, List.drop_zero,
    List.take_succ_cons, List.take_zero, beNat_two, beNat, List.length_cons, List.length_nil, UInt8.toNat_ofNat', Descriptor.pack, List.foldl_cons, List.foldl_nil]
  generalize Descriptor.hhmmss (i.start.toNat % 86400) = x at *
  generalize Descriptor.hhmmss i.duration.toNat = y at *
  generalize unixEpochMjd + i.start.toNat / 86400 = z at *
  refine ⟨by omega, by omega, by omega, by omega, by omega, by omega, trivial⟩

theorem read_entry (p : Profile) (i : EitItem) (h : ItemInRange i) (he : ∀ d ∈ i.descriptors, d.Exact) : readItem p (entry i) = .ok i := by
  obtain ⟨f0, f2, f3, f4, f5, f6, f7⟩ := entry_fields i h
  obtain ⟨h1, h2, h3, h4, h5, h6⟩ := h
  have hd := fromBcdTime32_at p i.duration.toNat h2
  rw [Nat.mod_eq_of_lt (hhmmss_lt _)] at hd
  unfold readItem
  rw [f0, f2, f3, f4, f7, readUtc_utc p _ h1, ok_bind, hd, ok_bind, frames_good p i.descriptors fun d hd => ⟨(h5 d hd).1, he d hd⟩, ok_bind,
    show field (entry i) 10 1 / 32 = field (entry i) 10 1 / 16 / 2 by omega, f6]
  clear f0 f2 f3 f4 f5 f6 f7 h6 hd
  obtain ⟨id, s, d, r, c, ds⟩ := i
  simp only [] at *
  rw [show (r.toNat * 2 + c.toNat) / 2 = r.toNat by omega, show (r.toNat * 2 + c.toNat) % 2 = c.toNat by omega]
  simp only [UInt8.ofNat_toNat, UInt16.ofNat_toNat, UInt64.ofNat_toNat, UInt32.ofNat_toNat]

theorem parse_section (p : Profile) (u t : Eit) (hv : t.version.toNat < 32) (tid n l sl lt : Nat) (ht : 0x4E ≤ tid ∧ tid ≤ 0x6F) (hn : n < 256)
    (hl : l < 256) (hsl : sl < 256) (hlt : lt < 256) (g : List EitItem) (hg : ∀ i ∈ g, ItemInRange i ∧ ∀ d ∈ i.descriptors, d.Exact)
    (psi : Psi) (hb : psi.buffer = t.section' tid n l sl lt g) (hs : psi.size = (t.section' tid n l sl lt g).length) :
    u.parse p psi = .ok { t with tableId := UInt8.ofNat tid, items := u.items ++ g } := by
  obtain ⟨s1, s2, s3, s4, -, -, s7, s8, -, -, s11⟩ := section_read t tid n l sl lt g (by omega) hn hl hsl hlt
  have hacc : Accepts psi := by
    rw [section_eq] at hb hs
    refine ⟨⟨UInt8.ofNat tid, ?_, ?_⟩, complete_intact _ (by simp; omega) psi hb hs 18 (by simp [rest_length]; omega)⟩
    · rw [hb, ← section_eq, s1]
    · rw [UInt8.toNat_ofNat']; omega
  rw [C66_eit p u psi hacc, hb, hs, s2, s3, s4, s7, s8, s11]
  rw [entries_flatMap 12 (by omega) entry g fun i hi => ?_,
    mapM_map_ok entry (readItem p) (fun i => i) g fun i hi => read_entry p i (hg i hi).1 (hg i hi).2,
    map_ok, List.map_id']
  · rw [Nat.mod_eq_of_lt hv, show (0xC1 + 2 * t.version.toNat) / 2 % 32 = t.version.toNat by omega]
    simp only [UInt8.ofNat_toNat, UInt16.ofNat_toNat]
  · have hr := (hg i hi).1
    have h3 := (entry_fields i hr).2.2.2.2.1
    have hle := hr.2.2.2.2.2
    rw [entry_length] at hle ⊢
    unfold field at h3
    rw [h3]
    refine ⟨by omega, ?_⟩
    rw [show ∀ a b, (a * 4096 + b) % 4096 = b % 4096 from fun a b => by omega, Nat.mod_eq_of_lt (by omega)]

/-- What is needed for an EIT to be parsed back. -/
structure InRange (t : Eit) : Prop where
  version : t.version.toNat < 32
  items : ∀ i ∈ t.items, ItemInRange i ∧ ∀ d ∈ i.descriptors, d.Exact

/-- C58: a present/following EIT that has events is given back by its packets, whatever the reassembler held before and wherever the
packets are appended, however many events there are. -/
theorem C58_round_trip_partial (p : Profile) (t : Eit) (hid : t.tableId = 0x4E ∨ t.tableId = 0x4F) (ht : t.InRange) (hne : t.items ≠ []) (pid : UInt16)
    (cc : UInt8) (dst : List UInt8) (s : Psi) (hp : pid.toNat < 8192) (hc : cc.toNat < 16) :
    ∃ cc' pks s', t.demux p pid cc dst = .ok (cc', dst ++ pks.flatten) ∧ (∀ pk ∈ pks, IsTsPacket pid.toNat pk) ∧
      receive (Eit.parse p) p Eit.default s pks = .ok (t, s') := by
  have hr : ∀ i ∈ t.items, ItemInRange i := fun i hi => (ht.items i hi).1
  have h63 := wirePf_le t hr
  have hrec := receive_stream (Eit.parse p) p pid.toNat hp t.items.zipIdx (fun x => t.section' t.tableId.toNat (x.2 % 256)
      ((t.items.length - 1) % 256) ((t.items.length - 1) % 256) t.tableId.toNat [x.1])
    (by
      intro x hx
      have := h63 _ (List.mem_map_of_mem hx)
      rw [section_length] at this
      rw [section_eq]
      exact complete_isSection (by simp; omega) (by simp only [List.length_append, header_length, rest_length]; omega))
    (fun u x => { t with items := u.items ++ [x.1] })
    (by
      intro u x hx psi hb hs
      have hi : x.1 ∈ t.items := (List.mem_zipIdx' hx).2 ▸ List.getElem_mem _
      have htid : t.tableId.toNat = 0x4E ∨ t.tableId.toNat = 0x4F := by rcases hid with h | h <;> simp [h]
      have := parse_section p u t ht.version t.tableId.toNat (x.2 % 256) ((t.items.length - 1) % 256) ((t.items.length - 1) % 256) t.tableId.toNat
        (by omega) (by omega) (by omega) (by omega) (by omega) [x.1] (by intro i hi'; rw [List.mem_singleton.1 hi']; exact ht.items _ hi) psi hb hs
      rw [this, UInt8.ofNat_toNat])
    (by
      intro u psi hx hlt h183
      refine C65_eit p u psi (.inr (by intro e; rw [e] at h183; simp at h183)) ?_
      rintro ⟨-, -, h, -⟩
      omega)
    Eit.default s cc.toNat
  obtain ⟨s', hrr⟩ := hrec
  refine ⟨_, _, s', C58_wire p t hid hr pid cc dst hp hc, stream_packets _ _ hp _, ?_⟩
  unfold wirePf
  rw [hrr]
  refine congrArg (fun x => Except.ok (x, s')) ?_
  have hf : ∀ (l : List (EitItem × Nat)) (u : Eit), l ≠ [] → l.foldl (fun u x => { t with items := u.items ++ [x.1] }) u =
      { t with items := u.items ++ l.map (·.1) } := by
    intro l
    induction l with
    | nil => intro u h; exact (h rfl).elim
    | cons x r ih =>
      intro u _
      rw [List.foldl_cons]
      by_cases hr : r = []
      · subst hr; simp
      · rw [ih _ hr]; simp
  rw [hf _ _ (by simpa using hne), List.zipIdx_map_fst]
  rfl

end Eit

/-! ## Concrete cases -/

/-- A present/following EIT with two events. -/
def sampleEit : Eit :=
  { tableId := 0x4E, version := 17, pnr := 7, tsid := 0x1234, onid := 0xABCD
    items := [⟨1, 1700000000, 3600, 4, 1, [.d4D ⟨⟨0, [0x65, 0x6E, 0x67]⟩, ⟨0, [0x41]⟩, ⟨1, [0x42, 0x43]⟩⟩]⟩, ⟨0xFFFF, 1700003600, 86399, 1, 0, []⟩] }

instance Eit.decItem (i : EitItem) : Decidable (Eit.ItemInRange i) := by unfold Eit.ItemInRange TimeInRange; infer_instance

theorem sampleEit_inRange : sampleEit.InRange := ⟨by decide, by decide +kernel⟩

example : ∃ cc' pks s', sampleEit.demux .debug 0x12 3 [] = .ok (cc', [] ++ pks.flatten) ∧ (∀ pk ∈ pks, IsTsPacket 0x12 pk) ∧
    receive (Eit.parse .debug) .debug Eit.default Psi.default pks = .ok (sampleEit, s') :=
  Eit.C58_round_trip_partial .debug sampleEit (by decide) sampleEit_inRange (by decide) 0x12 3 [] Psi.default (by decide) (by decide)
example : sampleEit.wirePf[1]? = some ([0x4E, 0xF0, 27, 0, 7, 0xE3, 1, 1, 0x12, 0x34, 0xAB, 0xCD, 1, 0x4E,
    0xFF, 0xFF, 0xEB, 0x66, 0x23, 0x13, 0x20, 0x23, 0x59, 0x59, 0x20, 0] ++ [107, 152, 13, 249]) := by decide +kernel

/-- C67 fails: in the debug profile an intact EIT section with a start time that is undefined (all bits set, as the standard
prescribes for near video on demand reference services) makes the parser panic. -/
theorem Eit.C67_eit_refuted (t : Eit) : t.parse .debug { Psi.default with
    buffer := complete (Table.eit 0x4E 1 0 0 0 1 1 0 0x4E [0, 1, 0xFF, 0xFF, 0xFF, 0xFF, 0xFF, 0, 0, 0, 0, 0]), size := 30 } = panic := by
  refine (C67_eit_partial .debug t _).bad (.inr ⟨⟨⟨0x4E, by decide +kernel, by decide, by decide⟩, by decide +kernel⟩,
    [0, 1, 0xFF, 0xFF, 0xFF, 0xFF, 0xFF, 0, 0, 0, 0, 0], by decide +kernel, .inl ⟨rfl, .inr (.inl (by decide +kernel))⟩⟩)

end Mpegts
