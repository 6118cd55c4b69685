import Verif.Lemmas.TableLoops
import Verif.Lemmas.Oversize

/-! # The service description table: C57, C63-C68 -/

namespace Mpegts
open Spec Spec.Table

namespace Sdt

/-- The entry the standard prescribes for a service. -/
def entry (i : SdtItem) : List UInt8 :=
  sdtEntry i.pnr.toNat i.eitScheduleFlag.toNat i.eitPresentFollowingFlag.toNat i.runningStatus.toNat i.freeCaMode.toNat
    (i.descriptors.flatMap Desc.wire)

/-- Every field fits, and the entry fits into a section. -/
def ItemInRange (i : SdtItem) : Prop :=
  i.eitScheduleFlag.toNat < 2 ∧ i.eitPresentFollowingFlag.toNat < 2 ∧ i.runningStatus.toNat < 8 ∧ i.freeCaMode.toNat < 2 ∧
  Good i.descriptors ∧ 11 + (entry i).length ≤ 1020

/-- Every field fits, and the entry fits into the largest section there is (4096 bytes with CRC). -/
def ItemFits (i : SdtItem) : Prop :=
  i.eitScheduleFlag.toNat < 2 ∧ i.eitPresentFollowingFlag.toNat < 2 ∧ i.runningStatus.toNat < 8 ∧ i.freeCaMode.toNat < 2 ∧
  Good i.descriptors ∧ 11 + (entry i).length ≤ 4092

theorem ItemInRange.fits {i : SdtItem} (h : ItemInRange i) : ItemFits i :=
  ⟨h.1, h.2.1, h.2.2.1, h.2.2.2.1, h.2.2.2.2.1, by have := h.2.2.2.2.2; omega⟩

/-- The sections the standard prescribes for an SDT whose services are distributed in this way. -/
def wire (t : Sdt) (groups : List (List SdtItem)) : List (List UInt8) :=
  groups.zipIdx.map fun x => complete (Table.sdt t.tableId.toNat t.tsid.toNat (t.version.toNat % 32) (x.2 % 256)
    ((groups.length - 1) % 256) t.onid.toNat (x.1.flatMap entry))

theorem entry_length (i : SdtItem) : (entry i).length = 5 + (i.descriptors.flatMap Desc.wire).length := by
  simp [entry, sdtEntry, sized12_length]; omega

theorem flags2 : ∀ a : UInt8, a.toNat < 2 → ∀ b : UInt8, b.toNat < 2 →
    (0xFC : UInt8) ||| (a <<< 1) ||| b = UInt8.ofNat (Descriptor.pack [(6, 0b111111), (1, a.toNat), (1, b.toNat)]) := by
  decide +kernel

theorem assemble_entry (p : Profile) (i : SdtItem) (h : ItemFits i) (b : List UInt8) :
    i.assemble p b = .ok (b ++ entry i) := by
  obtain ⟨h1, h2, h3, h4, h5, h6⟩ := h
  rw [entry_length] at h6
  unfold SdtItem.assemble
  simp only [resize_extend, show List.replicate 5 (0 : UInt8) = [0, 0, 0, 0, 0] from rfl]
  have e1 := setU16At_append b [0, 0, 0, 0, 0] 0 i.pnr
  rw [Nat.add_zero] at e1
  rw [e1, setU16At_ok _ (by simp), map_ok, ok_bind, setIdx_append_add, flags2 _ h1 _ h2]
  simp only [beBytes, List.take_zero, List.nil_append, List.cons_append, List.drop_succ_cons, List.drop_zero, setIdx_succ, setIdx_zero, map_ok,
    ok_bind, Nat.zero_add]
  rw [(C33_list_partial p i.descriptors _ h5).1, ok_bind]
  simp only []
  rw [List.append_assoc, setU16At_append, setU16At_ok _ (by simp), map_ok, flags_word _ _ _ h3 h4 (by omega)]
  refine congrArg (fun x => Except.ok (b ++ x)) ?_
  simp [entry, sdtEntry, sized12, beBytes]

theorem size_entry (i : SdtItem) (h : ItemFits i) : i.size = (entry i).length := by
  rw [entry_length, SdtItem.size, (C33_list_partial .debug i.descriptors [] h.2.2.2.2.1).2]

theorem psiInit_eq (p : Profile) (t : Sdt) : t.psiInit p = .ok { Psi.default with
    buffer := Table.sdt t.tableId.toNat t.tsid.toNat (t.version.toNat % 32) 0 0 t.onid.toNat [] } := by
  unfold psiInit
  rw [show Psi.new p t.tableId 11 t.version = Psi.new p t.tableId (8 + 3) t.version from rfl, psi_new_long, ok_bind]
  simp only [show List.replicate 3 (0 : UInt8) = [0, 0, 0] from rfl, List.cons_append, List.nil_append, setIdx_succ, setIdx_zero, map_ok,
    ok_bind]
  rw [setU16At_ok _ (by simp), ok_bind, setU16At_ok _ (by simp), ok_bind]
  simp only [beBytes, List.take_succ_cons, List.take_zero, List.drop_succ_cons, List.drop_zero, List.cons_append, List.nil_append, setIdx_succ,
    setIdx_zero, map_ok, ok_bind, pure_eq_ok, Table.sdt, header_eq]
  simp

theorem sdt_append (tid tsid v n l onid : Nat) (x : List UInt8) :
    Table.sdt tid tsid v n l onid [] ++ x = header tid 0b1111 tsid v n l ++ (beBytes 2 onid ++ [0xFF] ++ x) := by
  simp [Table.sdt]

/-- The sections sent for entries of any size up to that of the largest section there is (4096 bytes with CRC). -/
theorem demux_fill (p : Profile) (t : Sdt) (hr : ∀ i ∈ t.items, ItemFits i) (pid : UInt16) (cc : UInt8) (dst : List UInt8)
    (hp : pid.toNat < 8192) (hc : cc.toNat < 16) :
    ∃ gs, Spread (fun i => (entry i).length) 1020 11 11 t.items gs ∧
      t.demux p pid cc dst = .ok (UInt8.ofNat ((cc.toNat + streamCount (t.wire gs)) % 16),
        dst ++ (stream pid.toNat cc.toNat (t.wire gs)).flatten) := by
  have P := spread_fill (fun i => (entry i).length) 1020 11 t.items 11
  refine ⟨_, P, ?_⟩
  have hfill := fill_congr SdtItem.size (fun i => (entry i).length) 1020 11 t.items (fun i hi => size_entry i (hr i hi)) 11
  have hbound := spread_bound P 4092 (by omega) (by omega) (fun i hi => (hr i hi).2.2.2.2.2)
  have hne := P.nonempty
  unfold demux psiListAssemble
  rw [psiInit_eq, ok_bind, sdt_gAsm, psiInit_eq]
  rw [gAsm_eq 1020 SdtItem.size (SdtItem.assemble p) _ entry t.items (fun i hi b => assemble_entry p i (hr i hi) b)
    (fun i hi => size_entry i (hr i hi))]
  have hl : (Table.sdt t.tableId.toNat t.tsid.toNat (t.version.toNat % 32) 0 0 t.onid.toNat []).length = 11 := by simp [Table.sdt]
  rw [hl, ok_bind, bodies_map, List.map_map, List.nil_append, hfill]
  generalize fill (fun i => (entry i).length) 1020 11 11 t.items = gs at *
  have := psiDemux_header p t.tableId.toNat 0b1111 t.tsid.toNat (t.version.toNat % 32)
    (gs.map fun g => beBytes 2 t.onid.toNat ++ [0xFF] ++ g.flatMap entry) (by simpa using hne) ?_ pid cc dst hp hc
  · simp only [List.map_map, Function.comp_def, sdt_append] at this ⊢
    rw [this]
    simp only [wire, List.zipIdx_map, List.map_map, Function.comp_def, List.length_map, Table.sdt, List.append_assoc, Prod.map]
    rfl
  · intro r hr'
    obtain ⟨g, hg, rfl⟩ := List.mem_map.1 hr'
    obtain ⟨i, hi⟩ := List.getElem?_of_mem hg
    have h1 := hbound i g hi
    have h2 := sum_size (fun i => (entry i).length) entry g (fun _ _ => rfl)
    simp only [List.length_append, beBytes_length, h2, List.length_cons, List.length_nil]
    split at h1 <;> omega

/-- C57: an SDT is sent as the sections the standard prescribes, its services distributed greedily over sections of at most
1020 bytes without CRC. -/
theorem C57_wire (p : Profile) (t : Sdt) (hr : ∀ i ∈ t.items, ItemInRange i) (pid : UInt16) (cc : UInt8) (dst : List UInt8)
    (hp : pid.toNat < 8192) (hc : cc.toNat < 16) :
    ∃ gs, Packed (fun i => (entry i).length) 1020 11 11 t.items gs ∧
      t.demux p pid cc dst = .ok (UInt8.ofNat ((cc.toNat + streamCount (t.wire gs)) % 16),
        dst ++ (stream pid.toNat cc.toNat (t.wire gs)).flatten) := by
  obtain ⟨gs, P, h⟩ := demux_fill p t (fun i hi => (hr i hi).fits) pid cc dst hp hc
  exact ⟨gs, packed_of_spread P (by omega) (fun i hi => (hr i hi).2.2.2.2.2), h⟩

/-- For C63: no section of an SDT is longer than 1024 bytes. -/
theorem wire_le (t : Sdt) (gs : List (List SdtItem))
    (P : Packed (fun i => (entry i).length) 1020 11 11 t.items gs) : ∀ sec ∈ t.wire gs, sec.length ≤ 1024 := by
  intro sec hs
  obtain ⟨x, hx, rfl⟩ := List.mem_map.1 hs
  have hg : x.1 ∈ gs := (List.mem_zipIdx' hx).2 ▸ List.getElem_mem _
  have h1 := packed_bound P x.1 hg
  have h2 := sum_size (fun i => (entry i).length) entry x.1 (fun _ _ => rfl)
  rw [complete_length (by simp [Table.sdt]; omega)]
  simp only [Table.sdt, List.length_append, header_length, beBytes_length, h2, List.length_cons, List.length_nil]
  omega

/-! ## Parsing -/

/-- A section `Sdt::parse` accepts: table id 0x42 (actual) or 0x46 (other), at least 15 bytes, intact. -/
def Accepts (psi : Psi) : Prop := (psi.buffer.head? = some 0x42 ∨ psi.buffer.head? = some 0x46) ∧ Intact 15 psi

theorem ids : ∀ b : UInt8, ((b &&& 0xFB) == 0x42) = true ↔ b = 0x42 ∨ b = 0x46 := by decide +kernel

theorem accepts_iff (psi : Psi) : Accepts psi ↔ Acceptable 15 (fun b => (b &&& 0xFB) == 0x42) psi := by
  unfold Accepts Acceptable
  simp only [ids]
  refine and_congr ⟨?_, ?_⟩ Iff.rfl
  · rintro (h | h) <;> exact ⟨_, h, by simp⟩
  · rintro ⟨b, h, rfl | rfl⟩
    · exact .inl h
    · exact .inr h

/-- C65: a section that is not an intact SDT section leaves the table unchanged. -/
theorem C65_sdt (p : Profile) (t : Sdt) (psi : Psi) (hb : psi.size < 15 ∨ psi.buffer ≠ []) (h : ¬ Accepts psi) :
    t.parse p psi = .ok t := by
  obtain ⟨b, h1, h2⟩ := gCheck_eq p 15 (by omega) (fun b => (b &&& 0xFB) == 0x42) psi hb
  unfold parse
  rw [show check p psi = _ from h1, ok_bind, if_pos (by rw [accepts_iff, ← h2] at h; simpa using h)]
  rfl

/-- What the standard says a service entry means. -/
def readItem (p : Profile) (e : List UInt8) : R SdtItem :=
  (fun ds => { pnr := UInt16.ofNat (field e 0 2), eitScheduleFlag := UInt8.ofNat (field e 2 1 / 2 % 2),
               eitPresentFollowingFlag := UInt8.ofNat (field e 2 1 % 2), runningStatus := UInt8.ofNat (field e 3 1 / 32),
               freeCaMode := UInt8.ofNat (field e 3 1 / 16 % 2), descriptors := ds }) <$>
    (Descriptor.frames (e.drop 5)).mapM (Desc.parse p)

theorem flag_bits : ∀ b : UInt8, (b >>> 1) &&& 0x01 = UInt8.ofNat (b.toNat / 2 % 2) ∧ b &&& 0x01 = UInt8.ofNat (b.toNat % 2) ∧
    (b >>> 5) &&& 0x07 = UInt8.ofNat (b.toNat / 32) ∧ (b >>> 4) &&& 0x01 = UInt8.ofNat (b.toNat / 16 % 2) := by decide +kernel

theorem item_parse (p : Profile) (e : List UInt8) (h : 5 ≤ e.length) : SdtItem.parse p e = readItem p e := by
  unfold SdtItem.parse readItem
  obtain ⟨b2, i2, f2⟩ := idx_field e 2 (by omega)
  obtain ⟨b3, i3, f3⟩ := idx_field e 3 (by omega)
  rw [getU16At_ok (by omega), ok_bind, i2, ok_bind, i3, ok_bind, sliceFrom, if_pos h, ok_bind, parse_nil]
  cases (Descriptor.frames (e.drop 5)).mapM (Desc.parse p) with
  | error x => rfl
  | ok ds =>
    simp only [ok_bind, map_ok, pure_eq_ok, (flag_bits b2).1, (flag_bits b2).2.1, (flag_bits b3).2.2.1,
      (flag_bits b3).2.2.2, f2, f3, field]

/-- C66: an accepted section replaces the fields of the table by those of the section, and appends its services, in order, to
those already there. -/
theorem C66_sdt (p : Profile) (t : Sdt) (psi : Psi) (h : Accepts psi) :
    t.parse p psi =
      (fun items => { tableId := UInt8.ofNat (field psi.buffer 0 1), version := UInt8.ofNat (field psi.buffer 5 1 / 2 % 32),
                      tsid := UInt16.ofNat (field psi.buffer 3 2), onid := UInt16.ofNat (field psi.buffer 8 2),
                      items := t.items ++ items }) <$>
        (entries 5 ((psi.buffer.take (psi.size - 4)).drop 11)).mapM (readItem p) := by
  have hne : psi.buffer ≠ [] := by intro e; simp [Accepts, e] at h
  obtain ⟨b, h1, h2⟩ := gCheck_eq p 15 (by omega) (fun b => (b &&& 0xFB) == 0x42) psi (.inr hne)
  have hb : b = true := h2.2 ((accepts_iff psi).1 h)
  obtain ⟨-, hs, hl, -⟩ := h
  subst hb
  unfold parse
  obtain ⟨i, i1, i2⟩ := idx_field psi.buffer 0 (by omega)
  obtain ⟨v, v1, v2⟩ := idx_field psi.buffer 5 (by omega)
  have hsl : slice psi.buffer 11 (psi.size - 4) = .ok ((psi.buffer.take (psi.size - 4)).drop 11) := by
    rw [slice, if_pos (by omega)]
  rw [show check p psi = _ from h1, ok_bind, if_neg (by simp), i1, ok_bind, getU16At_ok (by omega), ok_bind, v1, ok_bind,
    getU16At_ok (by omega), ok_bind, usizeSub_ok p (by omega), ok_bind, hsl, ok_bind, sdt_gParse, gParse_all 5 (by omega)]
  rw [mapM_congr (f := SdtItem.parse p) (g := readItem p) fun e he => item_parse p e (entries_length 5 _ e he)]
  cases (entries 5 ((psi.buffer.take (psi.size - 4)).drop 11)).mapM (readItem p) with
  | error x => rfl
  | ok ds =>
    simp only [map_ok, ok_bind, pure_eq_ok, version_field, v2]
    rw [← i2, UInt8.ofNat_toNat]
    rfl

/-- C67, what holds: parsing panics exactly for an accepted section with a descriptor whose parsing panics (C38), and for one that
claims a size without having any byte (which the reassembler never holds). -/
theorem C67_sdt_partial (p : Profile) (t : Sdt) (psi : Psi) :
    Outcome (t.parse p psi) ((15 ≤ psi.size ∧ psi.buffer = []) ∨
      (Accepts psi ∧ ∃ e ∈ entries 5 ((psi.buffer.take (psi.size - 4)).drop 11), LoopPanics p (e.drop 5))) := by
  by_cases h0 : 15 ≤ psi.size ∧ psi.buffer = []
  · refine ⟨fun _ => ?_, fun hn => (hn (.inl h0)).elim⟩
    unfold parse
    rw [show check p psi = _ from gCheck_panic p 15 _ psi h0.1 h0.2]; rfl
  · by_cases ha : Accepts psi
    · rw [C66_sdt p t psi ha]
      refine Outcome.congr ((mapM_outcome _ _ _ fun e _ => (loop_outcome p (e.drop 5)).map _).map _) ?_
      simp [ha, h0]
    · refine ⟨?_, fun _ => ⟨t, C65_sdt p t psi ?_ ha⟩⟩
      · rintro (h | h)
        · exact (h0 h).elim
        · exact (ha h.1).elim
      · by_cases hb : psi.buffer = []
        · exact .inl (by by_contra hc; exact h0 ⟨by omega, hb⟩)
        · exact .inr hb

/-! ## Round trip -/

theorem entry_fields (i : SdtItem) (h : ItemFits i) : field (entry i) 0 2 = i.pnr.toNat ∧
    field (entry i) 2 1 = 252 + i.eitScheduleFlag.toNat * 2 + i.eitPresentFollowingFlag.toNat ∧
    field (entry i) 3 2 = (i.runningStatus.toNat * 2 + i.freeCaMode.toNat) * 4096 + (i.descriptors.flatMap Desc.wire).length ∧
    field (entry i) 3 1 / 16 = i.runningStatus.toNat * 2 + i.freeCaMode.toNat ∧
    (entry i).drop 5 = i.descriptors.flatMap Desc.wire := by
  obtain ⟨h1, h2, h3, h4, h5, h6⟩ := h
  have hp := i.pnr.toNat_lt
  rw [entry_length] at h6
  simp only [entry, sdtEntry, sized12, beBytes, List.cons_append, List.nil_append, field, List.drop_succ_cons, List.drop_zero,
    List.take_succ_cons, List.take_zero, beNat_two, beNat, List.length_nil, UInt8.toNat_ofNat', Descriptor.pack, List.foldl_cons, List.foldl_nil]
  refine ⟨by omega, by omega, by omega, by omega, trivial⟩

theorem read_entry (p : Profile) (i : SdtItem) (h : ItemFits i) (he : ∀ d ∈ i.descriptors, d.Exact) : readItem p (entry i) = .ok i := by
  obtain ⟨f0, f2, f3, f4, f5⟩ := entry_fields i h
  unfold readItem
  rw [f5, frames_good p i.descriptors fun d hd => ⟨(h.2.2.2.2.1 d hd).1, he d hd⟩, map_ok, f0, f2, f4,
    show field (entry i) 3 1 / 32 = field (entry i) 3 1 / 16 / 2 by omega, f4]
  obtain ⟨h1, h2, h3, h4, h5, h6⟩ := h
  obtain ⟨pnr, s, f, r, c, ds⟩ := i
  simp only [] at *
  rw [show (252 + s.toNat * 2 + f.toNat) / 2 % 2 = s.toNat by omega, show (252 + s.toNat * 2 + f.toNat) % 2 = f.toNat by omega,
    show (r.toNat * 2 + c.toNat) / 2 = r.toNat by omega, show (r.toNat * 2 + c.toNat) % 2 = c.toNat by omega]
  simp only [UInt8.ofNat_toNat, UInt16.ofNat_toNat]

/-- What is needed for a section of this SDT to be parsed back. -/
structure InRange (t : Sdt) : Prop where
  id : t.tableId = 0x42 ∨ t.tableId = 0x46
  version : t.version.toNat < 32
  items : ∀ i ∈ t.items, ItemInRange i ∧ ∀ d ∈ i.descriptors, d.Exact

/-- The same with entries up to the size of the largest section there is. -/
structure Fits (t : Sdt) : Prop where
  id : t.tableId = 0x42 ∨ t.tableId = 0x46
  version : t.version.toNat < 32
  items : ∀ i ∈ t.items, ItemFits i ∧ ∀ d ∈ i.descriptors, d.Exact

theorem InRange.toFits {t : Sdt} (h : t.InRange) : t.Fits := ⟨h.id, h.version, fun i hi => ⟨(h.items i hi).1.fits, (h.items i hi).2⟩⟩

theorem parse_section_fits (p : Profile) (u t : Sdt) (ht : t.Fits) (n l : Nat) (hn : n < 256) (hl : l < 256) (g : List SdtItem) (hg : ∀ i ∈ g, i ∈ t.items)
    (psi : Psi)
    (hb : psi.buffer = complete (Table.sdt t.tableId.toNat t.tsid.toNat (t.version.toNat % 32) n l t.onid.toNat (g.flatMap entry)))
    (hs : psi.size = (complete (Table.sdt t.tableId.toNat t.tsid.toNat (t.version.toNat % 32) n l t.onid.toNat (g.flatMap entry))).length) :
    u.parse p psi = .ok { t with items := u.items ++ g } := by
  have e : Table.sdt t.tableId.toNat t.tsid.toNat (t.version.toNat % 32) n l t.onid.toNat (g.flatMap entry) =
      header t.tableId.toNat 0b1111 t.tsid.toNat (t.version.toNat % 32) n l ++ (beBytes 2 t.onid.toNat ++ [0xFF] ++ g.flatMap entry) := by
    simp [Table.sdt]
  rw [e] at hb hs
  obtain ⟨s1, s2, s3, s4, s5, -, -, s8, s9, -⟩ := section_fields t.tableId.toNat 0b1111 t.tsid.toNat (t.version.toNat % 32) n l
    (beBytes 2 t.onid.toNat ++ [0xFF] ++ g.flatMap entry) t.tableId.toNat_lt t.tsid.toNat_lt (by omega) hn hl
  have hacc : Accepts psi := by
    refine ⟨?_, complete_intact _ (by simp; omega) psi hb hs 15 (by simp; omega)⟩
    rw [hb, s2, UInt8.ofNat_toNat]
    rcases ht.id with h | h <;> simp [h]
  have h8 := s8 0 2 (by simp)
  have h11 := s9 3
  rw [← hs, ← hb] at h11
  rw [← hb] at s3 s4 s5 h8
  rw [C66_sdt p u psi hacc, s3, s4, s5, h8, h11]
  have hd : (beBytes 2 t.onid.toNat ++ [0xFF] ++ g.flatMap entry).drop 3 = g.flatMap entry := List.drop_left' (by simp)
  have hf : field (beBytes 2 t.onid.toNat ++ [0xFF] ++ g.flatMap entry) 0 2 = t.onid.toNat := by
    have := t.onid.toNat_lt
    rw [field, List.drop_zero, List.append_assoc, List.take_left' (beBytes_length _ _), beNat_beBytes]
    omega
  rw [hd, hf, entries_flatMap 5 (by omega) entry g fun i hi => ?_,
    mapM_map_ok entry (readItem p) (fun i => i) g fun i hi => read_entry p i (ht.items i (hg i hi)).1 (ht.items i (hg i hi)).2,
    map_ok, List.map_id']
  · have hv := ht.version
    rw [Nat.mod_eq_of_lt hv, show (0xC1 + 2 * t.version.toNat) / 2 % 32 = t.version.toNat by omega]
    simp only [UInt8.ofNat_toNat, UInt16.ofNat_toNat]
  · have hr := (ht.items i (hg i hi)).1
    have h3 := (entry_fields i hr).2.2.1
    have hle := hr.2.2.2.2.2
    rw [entry_length] at hle ⊢
    unfold field at h3
    rw [h3]
    refine ⟨by omega, ?_⟩
    rw [show ∀ a b, (a * 4096 + b) % 4096 = b % 4096 from fun a b => by omega, Nat.mod_eq_of_lt (by omega)]

theorem parse_section (p : Profile) (u t : Sdt) (ht : t.InRange) (n l : Nat) (hn : n < 256) (hl : l < 256) (g : List SdtItem) (hg : ∀ i ∈ g, i ∈ t.items)
    (psi : Psi)
    (hb : psi.buffer = complete (Table.sdt t.tableId.toNat t.tsid.toNat (t.version.toNat % 32) n l t.onid.toNat (g.flatMap entry)))
    (hs : psi.size = (complete (Table.sdt t.tableId.toNat t.tsid.toNat (t.version.toNat % 32) n l t.onid.toNat (g.flatMap entry))).length) :
    u.parse p psi = .ok { t with items := u.items ++ g } :=
  parse_section_fits p u t ht.toFits n l hn hl g hg psi hb hs

theorem wire_bound (t : Sdt) (ht : t.Fits) (gs : List (List SdtItem))
    (P : Spread (fun i => (entry i).length) 1020 11 11 t.items gs) : ∀ sec ∈ t.wire gs, sec.length ≤ 4096 := by
  intro sec hs
  obtain ⟨x, hx, rfl⟩ := List.mem_map.1 hs
  have hg : gs[x.2]? = some x.1 := by
    obtain ⟨h1, h2⟩ := List.mem_zipIdx' hx
    rw [List.getElem?_eq_getElem h1, ← h2]
  have h1 := spread_bound P 4092 (by omega) (by omega) (fun i hi => (ht.items i hi).1.2.2.2.2.2) _ _ hg
  have h2 := sum_size (fun i => (entry i).length) entry x.1 (fun _ _ => rfl)
  rw [complete_length (by simp [Table.sdt]; omega)]
  simp only [Table.sdt, List.length_append, header_length, beBytes_length, h2, List.length_cons, List.length_nil]
  split at h1 <;> omega

theorem round_trip_fits (p : Profile) (t : Sdt) (ht : t.Fits) (pid : UInt16) (cc : UInt8) (dst : List UInt8) (s : Psi) (hp : pid.toNat < 8192)
    (hc : cc.toNat < 16) :
    ∃ cc' pks s', t.demux p pid cc dst = .ok (cc', dst ++ pks.flatten) ∧ (∀ pk ∈ pks, IsTsPacket pid.toNat pk) ∧
      receive (Sdt.parse p) p Sdt.default s pks = .ok (t, s') := by
  obtain ⟨gs, P, hw⟩ := demux_fill p t (fun i hi => (ht.items i hi).1) pid cc dst hp hc
  have h63 := wire_bound t ht gs P
  have hlong : ∀ x ∈ gs.zipIdx, 3 ≤ (Table.sdt t.tableId.toNat t.tsid.toNat (t.version.toNat % 32) (x.2 % 256)
    ((gs.length - 1) % 256) t.onid.toNat (x.1.flatMap entry)).length := by intro x _; simp [Table.sdt]; omega
  have hrec := receive_stream (Sdt.parse p) p pid.toNat hp gs.zipIdx (fun x => complete (Table.sdt t.tableId.toNat t.tsid.toNat
      (t.version.toNat % 32) (x.2 % 256) ((gs.length - 1) % 256) t.onid.toNat (x.1.flatMap entry)))
    (by
      intro x hx
      have := h63 _ (List.mem_map_of_mem hx)
      rw [complete_length (hlong x hx)] at this
      exact complete_isSection (hlong x hx) (by omega))
    (fun u x => { t with items := u.items ++ x.1 })
    (by
      intro u x hx psi hb hs
      have hg : x.1 ∈ gs := (List.mem_zipIdx' hx).2 ▸ List.getElem_mem _
      exact parse_section_fits p u t ht _ _ (Nat.mod_lt _ (by omega)) (Nat.mod_lt _ (by omega)) x.1 (fun i hi => mem_of_group P.all hg hi) psi hb hs)
    (by
      intro u psi hx hlt h183
      refine C65_sdt p u psi (.inr (by intro e; rw [e] at h183; simp at h183)) ?_
      rintro ⟨-, -, h, -⟩
      omega)
    Sdt.default s cc.toNat
  obtain ⟨s', hr⟩ := hrec
  refine ⟨_, _, s', hw, stream_packets _ _ hp _, ?_⟩
  unfold wire
  rw [hr]
  refine congrArg (fun x => Except.ok (x, s')) ?_
  have hf : ∀ (l : List (List SdtItem × Nat)) (u : Sdt), l ≠ [] → l.foldl (fun u x => { t with items := u.items ++ x.1 }) u =
      { t with items := u.items ++ (l.map (·.1)).flatten } := by
    intro l
    induction l with
    | nil => intro u h; exact (h rfl).elim
    | cons x r ih =>
      intro u _
      rw [List.foldl_cons]
      by_cases hr : r = []
      · subst hr; simp
      · rw [ih _ hr]; simp
  rw [hf _ _ (by simpa using P.nonempty), List.zipIdx_map_fst, P.all]
  rfl

/-- C57: an SDT is given back by its packets, whatever the reassembler held before and wherever the packets are
appended, however many sections it needs. -/
theorem C57_round_trip (p : Profile) (t : Sdt) (ht : t.InRange) (pid : UInt16) (cc : UInt8) (dst : List UInt8) (s : Psi) (hp : pid.toNat < 8192)
    (hc : cc.toNat < 16) :
    ∃ cc' pks s', t.demux p pid cc dst = .ok (cc', dst ++ pks.flatten) ∧ (∀ pk ∈ pks, IsTsPacket pid.toNat pk) ∧
      receive (Sdt.parse p) p Sdt.default s pks = .ok (t, s') :=
  round_trip_fits p t ht.toFits pid cc dst s hp hc

/-- For C68: every section carries the version (5 bits). -/
theorem wire_version (t : Sdt) (gs : List (List SdtItem)) : ∀ sec ∈ t.wire gs, field sec 5 1 = 0xC1 + 2 * (t.version.toNat % 32) := by
  intro sec hs
  obtain ⟨x, hx, rfl⟩ := List.mem_map.1 hs
  have := section_fields t.tableId.toNat 0b1111 t.tsid.toNat (t.version.toNat % 32) (x.2 % 256) ((gs.length - 1) % 256)
    (beBytes 2 t.onid.toNat ++ [0xFF] ++ x.1.flatMap entry) t.tableId.toNat_lt t.tsid.toNat_lt (by omega) (by omega) (by omega)
  simp only [Table.sdt, List.append_assoc] at this ⊢
  exact this.2.2.2.2.1

/-- For C64: with at most 256 sections, section number `i` is the i-th, and all carry the number of the last one. -/
theorem wire_numbers (t : Sdt) (gs : List (List SdtItem)) (h : gs.length ≤ 256) : (t.wire gs).length = gs.length ∧
    ∀ i sec, (t.wire gs)[i]? = some sec → field sec 6 1 = i ∧ field sec 7 1 = gs.length - 1 := by
  refine ⟨by simp [wire], fun i sec hs => ?_⟩
  rw [wire, List.getElem?_map, List.getElem?_zipIdx] at hs
  cases hg : gs[i]? with
  | none => rw [hg] at hs; cases hs
  | some g =>
    have hi : i < gs.length := (List.getElem?_eq_some_iff.1 hg).1
    rw [hg] at hs
    simp only [Option.map_some, Option.some.injEq, Nat.zero_add] at hs
    subst hs
    have := section_fields t.tableId.toNat 0b1111 t.tsid.toNat (t.version.toNat % 32) (i % 256) ((gs.length - 1) % 256)
      (beBytes 2 t.onid.toNat ++ [0xFF] ++ g.flatMap entry) t.tableId.toNat_lt t.tsid.toNat_lt (by omega) (by omega) (by omega)
    simp only [Table.sdt, List.append_assoc] at this ⊢
    obtain ⟨-, -, -, -, -, a, b, -⟩ := this
    rw [a, b]
    omega

end Sdt

/-! ## Concrete cases -/

/-- An SDT with two services. -/
def sampleSdt : Sdt :=
  { tableId := 0x46, version := 17, tsid := 0x1234, onid := 0xABCD
    items := [⟨1, 1, 0, 4, 1, [.d48 ⟨1, ⟨0, [0x41]⟩, ⟨1, [0x42, 0x43]⟩⟩, .raw ⟨0x7F, [1, 2, 3]⟩]⟩, ⟨0xFFFF, 0, 1, 7, 0, []⟩] }

instance Sdt.decItem (i : SdtItem) : Decidable (Sdt.ItemInRange i) := by unfold Sdt.ItemInRange; infer_instance

theorem sampleSdt_inRange : sampleSdt.InRange := by
  refine ⟨by decide, by decide, ?_⟩
  decide +kernel

/-- The two services are sent in one section. -/
example : ∃ cc' pks s', sampleSdt.demux .debug 0x11 3 [] = .ok (cc', [] ++ pks.flatten) ∧ (∀ pk ∈ pks, IsTsPacket 0x11 pk) ∧
    receive (Sdt.parse .debug) .debug Sdt.default Psi.default pks = .ok (sampleSdt, s') :=
  Sdt.C57_round_trip .debug sampleSdt sampleSdt_inRange 0x11 3 [] Psi.default (by decide) (by decide)
example : sampleSdt.wire [sampleSdt.items] = [[0x46, 0xF0, 38, 0x12, 0x34, 0xE3, 0, 0, 0xAB, 0xCD, 0xFF,
    0, 1, 0xFE, 0x90, 16, 0x48, 9, 1, 1, 0x41, 5, 0x10, 0, 1, 0x42, 0x43, 0x7F, 3, 1, 2, 3,
    0xFF, 0xFF, 0xFD, 0xE0, 0, 215, 31, 80, 218]] := by decide +kernel
/-- A distribution over several sections: 40 services with 100 bytes of descriptors each need 5 sections. -/
def bigSdt : Sdt := { sampleSdt with items := List.replicate 40 ⟨1, 1, 0, 4, 1, [.raw ⟨0x7F, List.replicate 98 7⟩]⟩ }
theorem bigSdt_inRange : bigSdt.InRange := by
  refine ⟨by decide, by decide, ?_⟩
  intro i hi
  rw [List.eq_of_mem_replicate hi]
  decide +kernel
example : ((fill (fun i => (Sdt.entry i).length) 1020 11 11 bigSdt.items).map List.length) = [9, 9, 9, 9, 4] := by decide +kernel

/-- Accepted and rejected sections. -/
example : Sdt.Accepts { Psi.default with buffer := (sampleSdt.wire [sampleSdt.items]).head!, size := 41 } := by
  refine ⟨?_, ?_⟩ <;> decide +kernel
example : ¬ Sdt.Accepts { Psi.default with buffer := ((sampleSdt.wire [sampleSdt.items]).head!).set 9 1, size := 41 } := by
  unfold Sdt.Accepts; decide +kernel

/-- C67 fails: an intact SDT section with a service descriptor that is one byte long makes the parser panic. -/
theorem Sdt.C67_sdt_refuted (p : Profile) (t : Sdt) : t.parse p { Psi.default with
    buffer := complete (Table.sdt 0x42 1 0 0 0 1 (Table.sdtEntry 1 0 0 4 0 [0x48, 3, 1, 9, 0])), size := 25 } = panic := by
  refine (C67_sdt_partial p t _).bad (.inr ⟨⟨by decide +kernel, by decide +kernel⟩, [0, 1, 0xFC, 0x80, 5, 0x48, 3, 1, 9, 0], ?_, ?_⟩)
  · decide +kernel
  · exact ⟨0x48, 3, [1, 9, 0], by decide +kernel, by simp [Panics]; decide +kernel⟩

end Mpegts
