import Verif.Lemmas.TableLoops
import Verif.Lemmas.Oversize

/-! # The program map table: C55, C63-C68 -/

namespace Mpegts
open Spec Spec.Table

namespace Pmt

/-- The entry the standard prescribes for an elementary stream. -/
def entry (i : PmtItem) : List UInt8 := pmtEntry i.streamType.toNat (i.pid.toNat % 8192) (i.descriptors.flatMap Desc.wire)

/-- Every descriptor fits, and the entry fits into a section. -/
def ItemInRange (i : PmtItem) : Prop := Good i.descriptors ∧ 12 + (entry i).length ≤ 1020

/-- The program descriptors fit into the first section. -/
def ProgramInRange (t : Pmt) : Prop := Good t.descriptors ∧ 12 + (t.descriptors.flatMap Desc.wire).length ≤ 1020

/-- Every descriptor fits, and the entry fits into the largest section there is (4096 bytes with CRC). -/
def ItemFits (i : PmtItem) : Prop := Good i.descriptors ∧ 12 + (entry i).length ≤ 4092

/-- The program descriptors fit into the largest section there is. -/
def ProgramFits (t : Pmt) : Prop := Good t.descriptors ∧ 12 + (t.descriptors.flatMap Desc.wire).length ≤ 4092

theorem ItemInRange.fits {i : PmtItem} (h : ItemInRange i) : ItemFits i := ⟨h.1, by have := h.2; omega⟩
theorem ProgramInRange.fits {t : Pmt} (h : ProgramInRange t) : ProgramFits t := ⟨h.1, by have := h.2; omega⟩

/-- The program descriptors are in the first section only. -/
def program (t : Pmt) (number : Nat) : List UInt8 := if number = 0 then t.descriptors.flatMap Desc.wire else []

/-- The sections the standard prescribes for a PMT whose elementary streams are distributed in this way. -/
def wire (t : Pmt) (groups : List (List PmtItem)) : List (List UInt8) :=
  groups.zipIdx.map fun x => complete (Table.pmt t.pnr.toNat (t.version.toNat % 32) (x.2 % 256)
    ((groups.length - 1) % 256) (t.pcr.toNat % 8192) (t.program x.2) (x.1.flatMap entry))

theorem entry_length (i : PmtItem) : (entry i).length = 5 + (i.descriptors.flatMap Desc.wire).length := by
  simp [entry, pmtEntry, sized12_length]; omega

theorem assemble_entry (p : Profile) (i : PmtItem) (h : ItemFits i) (b : List UInt8) :
    i.assemble p b = .ok (b ++ entry i) := by
  obtain ⟨h5, h6⟩ := h
  rw [entry_length] at h6
  unfold PmtItem.assemble
  simp only [resize_extend, show List.replicate 5 (0 : UInt8) = [0, 0, 0, 0, 0] from rfl]
  have e1 := setIdx_append_add b [0, 0, 0, 0, 0] 0 i.streamType
  rw [Nat.add_zero] at e1
  rw [e1, setIdx_zero, map_ok, ok_bind, setU16At_append, setU16At_ok _ (by simp), map_ok, ok_bind, or_E000]
  rw [(C33_list_partial p i.descriptors _ h5).1, ok_bind]
  simp only []
  rw [List.append_assoc, setU16At_append, setU16At_ok _ (by simp [beBytes]), map_ok, or_F000 _ (by omega)]
  refine congrArg (fun x => Except.ok (b ++ x)) ?_
  simp [entry, pmtEntry, sized12, beBytes]

theorem size_entry (i : PmtItem) (h : ItemFits i) : i.size = (entry i).length := by
  rw [entry_length, PmtItem.size, (C33_list_partial .debug i.descriptors [] h.1).2]

/-- What follows the header in the first and in the other sections. -/
def start (t : Pmt) (first : Bool) : List UInt8 :=
  beBytes 2 (Descriptor.pack [(3, 0b111), (13, t.pcr.toNat % 8192)]) ++
    sized12 0b1111 (if first then t.descriptors.flatMap Desc.wire else [])

theorem psiInit_eq (p : Profile) (t : Pmt) (h : ProgramFits t) (first : Bool) :
    t.psiInit p first = .ok { Psi.default with buffer := header 0x02 0b1011 t.pnr.toNat (t.version.toNat % 32) 0 0 ++ t.start first } := by
  unfold psiInit
  rw [show Psi.new p 0x02 12 t.version = Psi.new p 0x02 (8 + 4) t.version from rfl, psi_new_long, ok_bind]
  simp only [show List.replicate 4 (0 : UInt8) = [0, 0, 0, 0] from rfl, List.cons_append, List.nil_append]
  rw [setU16At_ok _ (by simp), ok_bind]
  simp only [beBytes, List.take_succ_cons, List.take_zero, List.drop_succ_cons, List.drop_zero, List.cons_append, List.nil_append]
  rw [setU16At_ok _ (by simp), ok_bind, or_E000]
  simp only [beBytes, List.take_succ_cons, List.take_zero, List.drop_succ_cons, List.drop_zero, List.cons_append, List.nil_append]
  cases first with
  | false =>
    simp only [Bool.false_eq_true, if_false, setIdx_succ, setIdx_zero, map_ok, ok_bind, pure_eq_ok, start, header_eq]
    simp [sized12, beBytes, Descriptor.pack]
  | true =>
    simp only [if_true]
    rw [(C33_list_partial p t.descriptors _ h.1).1]
    simp only [ok_bind, List.cons_append, List.nil_append]
    rw [setU16At_ok _ (by simp), ok_bind, or_F000 _ (by have := h.2; omega)]
    simp only [beBytes, List.take_succ_cons, List.take_zero, List.drop_succ_cons, List.drop_zero, List.cons_append, List.nil_append,
      pure_eq_ok, start, header_eq]
    simp [sized12, beBytes]

theorem start_length (t : Pmt) (first : Bool) : (t.start first).length = 4 + (if first then (t.descriptors.flatMap Desc.wire).length else 0) := by
  unfold start
  simp only [List.length_append, beBytes_length, sized12_length]
  cases first <;> simp <;> omega

theorem start_program (t : Pmt) (n : Nat) : t.start (n == 0) =
    beBytes 2 (Descriptor.pack [(3, 0b111), (13, t.pcr.toNat % 8192)]) ++ sized12 0b1111 (t.program n) := by
  unfold start program
  by_cases h : n = 0 <;> simp [h]

/-- The sections sent for entries of any size up to that of the largest section there is (4096 bytes with CRC). -/
theorem demux_fill (p : Profile) (t : Pmt) (hn : ProgramFits t) (hr : ∀ i ∈ t.items, ItemFits i) (pid : UInt16) (cc : UInt8)
    (dst : List UInt8) (hp : pid.toNat < 8192) (hc : cc.toNat < 16) :
    ∃ gs, Spread (fun i => (entry i).length) 1020 (12 + (t.descriptors.flatMap Desc.wire).length) 12 t.items gs ∧
      t.demux p pid cc dst = .ok (UInt8.ofNat ((cc.toNat + streamCount (t.wire gs)) % 16),
        dst ++ (stream pid.toNat cc.toNat (t.wire gs)).flatten) := by
  have P := spread_fill (fun i => (entry i).length) 1020 12 t.items (12 + (t.descriptors.flatMap Desc.wire).length)
  refine ⟨_, P, ?_⟩
  have hfill := fill_congr PmtItem.size (fun i => (entry i).length) 1020 12 t.items (fun i hi => size_entry i (hr i hi))
    (12 + (t.descriptors.flatMap Desc.wire).length)
  have hbound := spread_bound P 4092 (by omega) hn.2 (fun i hi => (hr i hi).2)
  have hne := P.nonempty
  unfold demux psiListAssemble
  rw [psiInit_eq p t hn, ok_bind, pmt_gAsm, psiInit_eq p t hn]
  rw [gAsm_eq 1020 PmtItem.size (PmtItem.assemble p) _ entry t.items (fun i hi b => assemble_entry p i (hr i hi) b)
    (fun i hi => size_entry i (hr i hi)), List.length_append, List.length_append, header_length, start_length, start_length]
  simp only [if_true, Bool.false_eq_true, if_false, Nat.add_zero, ← Nat.add_assoc, Nat.reduceAdd, hfill]
  generalize fill (fun i => (entry i).length) 1020 12 (12 + (t.descriptors.flatMap Desc.wire).length) t.items = gs at *
  rw [ok_bind, bodies_zipIdx entry (fun b => header 0x02 0b1011 t.pnr.toNat (t.version.toNat % 32) 0 0 ++ t.start b), List.map_map,
    List.nil_append]
  have hE : ∀ x ∈ gs.zipIdx, (t.program x.2).length + (x.1.flatMap entry).length ≤ 4080 := by
    intro x hx
    have hg : gs[x.2]? = some x.1 := by
      obtain ⟨h1, h2⟩ := List.mem_zipIdx' hx
      rw [List.getElem?_eq_getElem h1, ← h2]
    have h1 := hbound _ _ hg
    have h2 := sum_size (fun i => (entry i).length) entry x.1 (fun _ _ => rfl)
    rw [h2]
    unfold program
    split at h1 <;> rename_i h0
    · rw [if_pos h0]; omega
    · rw [if_neg h0, List.length_nil]; omega
  have hD := hn.2
  have := psiDemux_header p 0x02 0b1011 t.pnr.toNat (t.version.toNat % 32)
    (gs.zipIdx.map fun x => t.start (x.2 == 0) ++ x.1.flatMap entry) (by simpa using hne) ?_ pid cc dst hp hc
  · rw [List.map_map] at this
    simp only [Function.comp_def, List.append_assoc] at this ⊢
    rw [this]
    simp only [zipIdx_map_zipIdx, List.length_map, List.length_zipIdx, wire, Table.pmt, List.append_assoc, start_program]
  · intro r hr'
    obtain ⟨x, hx, rfl⟩ := List.mem_map.1 hr'
    have := hE x hx
    unfold program at this
    rw [List.length_append, start_length]
    by_cases h0 : x.2 = 0
    · simp only [h0, if_true, beq_self_eq_true] at this ⊢; omega
    · have hb : (x.2 == 0) = false := by simpa using h0
      simp only [h0, if_false, List.length_nil, hb, Bool.false_eq_true] at this ⊢; omega

/-- C55: a PMT is sent as the sections the standard prescribes: its elementary streams distributed greedily over sections of at most
1020 bytes without CRC, the program descriptors in the first one. -/
theorem C55_wire (p : Profile) (t : Pmt) (hn : ProgramInRange t) (hr : ∀ i ∈ t.items, ItemInRange i) (pid : UInt16) (cc : UInt8)
    (dst : List UInt8) (hp : pid.toNat < 8192) (hc : cc.toNat < 16) :
    ∃ gs, Packed (fun i => (entry i).length) 1020 (12 + (t.descriptors.flatMap Desc.wire).length) 12 t.items gs ∧
      t.demux p pid cc dst = .ok (UInt8.ofNat ((cc.toNat + streamCount (t.wire gs)) % 16),
        dst ++ (stream pid.toNat cc.toNat (t.wire gs)).flatten) := by
  obtain ⟨gs, P, h⟩ := demux_fill p t hn.fits (fun i hi => (hr i hi).fits) pid cc dst hp hc
  exact ⟨gs, packed_of_spread P hn.2 (fun i hi => (hr i hi).2), h⟩

/-- For C63: no section of a PMT is longer than 1024 bytes. -/
theorem wire_le (t : Pmt) (gs : List (List PmtItem))
    (P : Packed (fun i => (entry i).length) 1020 (12 + (t.descriptors.flatMap Desc.wire).length) 12 t.items gs) :
    ∀ sec ∈ t.wire gs, sec.length ≤ 1024 := by
  intro sec hs
  obtain ⟨x, hx, rfl⟩ := List.mem_map.1 hs
  have hg : gs[x.2]? = some x.1 := by
    obtain ⟨h1, h2⟩ := List.mem_zipIdx' hx
    rw [List.getElem?_eq_getElem h1, ← h2]
  have h1 := P.fits _ _ hg
  have h2 := sum_size (fun i => (entry i).length) entry x.1 (fun _ _ => rfl)
  have h3 : (t.program x.2).length = if x.2 = 0 then (t.descriptors.flatMap Desc.wire).length else 0 := by
    unfold program; split <;> rfl
  rw [complete_length (by simp [Table.pmt]; omega)]
  simp only [Table.pmt, List.length_append, header_length, sized12_length, h2, h3, beBytes_length]
  split at h1 <;> simp only [*, if_true, if_false] <;> omega

/-- For C64: with at most 256 sections, section number `i` is the i-th, and all carry the number of the last one. -/
theorem wire_numbers (t : Pmt) (gs : List (List PmtItem)) (h : gs.length ≤ 256) : (t.wire gs).length = gs.length ∧
    ∀ i sec, (t.wire gs)[i]? = some sec → field sec 6 1 = i ∧ field sec 7 1 = gs.length - 1 := by
  refine ⟨by simp [wire], fun i sec hs => ?_⟩
  simp only [wire, Table.pmt, List.append_assoc] at hs
  obtain ⟨h1, -, h3, h4⟩ := sections_numbered _ _ _ _ (by omega) t.pnr.toNat_lt (by omega) gs
    (fun x => beBytes 2 (Descriptor.pack [(3, 0b111), (13, t.pcr.toNat % 8192)]) ++ (sized12 0b1111 (t.program x.2) ++ x.1.flatMap entry)) i sec hs
  omega

/-- For C68: every section carries the version (5 bits). -/
theorem wire_version (t : Pmt) (gs : List (List PmtItem)) : ∀ sec ∈ t.wire gs, field sec 5 1 = 0xC1 + 2 * (t.version.toNat % 32) := by
  intro sec hs
  obtain ⟨i, hi⟩ := List.getElem?_of_mem hs
  simp only [wire, Table.pmt, List.append_assoc] at hi
  exact (sections_numbered _ _ _ _ (by omega) t.pnr.toNat_lt (by omega) gs
    (fun x => beBytes 2 (Descriptor.pack [(3, 0b111), (13, t.pcr.toNat % 8192)]) ++ (sized12 0b1111 (t.program x.2) ++ x.1.flatMap entry)) i sec hi).2.1

/-! ## Parsing -/

/-- A section `Pmt::parse` accepts: table id 0x02, at least 16 bytes, intact. -/
def Accepts (psi : Psi) : Prop := psi.buffer.head? = some 0x02 ∧ Intact 16 psi

theorem accepts_iff (psi : Psi) : Accepts psi ↔ Acceptable 16 (fun b => b == 0x02) psi := by
  unfold Accepts Acceptable
  refine and_congr ⟨?_, ?_⟩ Iff.rfl
  · intro h; exact ⟨_, h, by simp⟩
  · rintro ⟨b, h, hb⟩
    rw [h, eq_of_beq hb]

/-- C65: a section that is not an intact PMT section leaves the table unchanged. -/
theorem C65_pmt (p : Profile) (t : Pmt) (psi : Psi) (hb : psi.size < 16 ∨ psi.buffer ≠ []) (h : ¬ Accepts psi) :
    t.parse p psi = .ok t := by
  obtain ⟨b, h1, h2⟩ := gCheck_eq p 16 (by omega) (fun b => b == 0x02) psi hb
  unfold parse
  rw [show check p psi = _ from h1, ok_bind, if_pos (by rw [accepts_iff, ← h2] at h; simpa using h)]
  rfl

/-- What the standard says an elementary stream entry means. -/
def readItem (p : Profile) (e : List UInt8) : R PmtItem :=
  (fun ds => { streamType := UInt8.ofNat (field e 0 1), pid := UInt16.ofNat (field e 1 2 % 8192), descriptors := ds }) <$>
    (Descriptor.frames (e.drop 5)).mapM (Desc.parse p)

theorem item_parse (p : Profile) (e : List UInt8) (h : 5 ≤ e.length) : PmtItem.parse p e = readItem p e := by
  unfold PmtItem.parse readItem
  obtain ⟨b, b1, b2⟩ := idx_field e 0 (by omega)
  rw [b1, ok_bind, getU16At_ok (by omega), ok_bind, sliceFrom, if_pos h, ok_bind, parse_nil]
  cases (Descriptor.frames (e.drop 5)).mapM (Desc.parse p) with
  | error x => rfl
  | ok ds =>
    simp only [map_ok, ok_bind, pure_eq_ok]
    rw [and_1FFF, UInt16.toNat_ofNat', Nat.mod_eq_of_lt (beNat2_lt _), ← b2, UInt8.ofNat_toNat]
    rfl

/-- program_info_length. -/
def programLength (psi : Psi) : Nat := field psi.buffer 10 2 % 4096

/-- The bytes the code takes for the program descriptors: it starts one byte too early, at the low byte of program_info_length, and
so ends one byte too early. -/
def programLoop (psi : Psi) : List UInt8 := (psi.buffer.drop 11).take (programLength psi)

/-- The elementary stream entries of a section. -/
def itemLoop (psi : Psi) : List UInt8 := (psi.buffer.take (psi.size - 4)).drop (12 + programLength psi)

/-- C66: an accepted section whose program descriptors end before the section does replaces the fields of the table by those
of the section, and appends its elementary streams, in order, to those already there.  To the program descriptors it
appends what is read from `programLoop`, which are the program descriptors of the section only if there are none. -/
theorem C66_pmt (p : Profile) (t : Pmt) (psi : Psi) (h : Accepts psi) (hd : 12 + programLength psi ≤ psi.size - 4) :
    t.parse p psi = (do
      let ds ← (Descriptor.frames (programLoop psi)).mapM (Desc.parse p)
      let items ← (entries 5 (itemLoop psi)).mapM (readItem p)
      .ok { version := UInt8.ofNat (field psi.buffer 5 1 / 2 % 32), pnr := UInt16.ofNat (field psi.buffer 3 2),
            pcr := UInt16.ofNat (field psi.buffer 8 2 % 8192), descriptors := t.descriptors ++ ds, items := t.items ++ items }) := by
  have hne : psi.buffer ≠ [] := by intro e; simp [Accepts, e] at h
  obtain ⟨b, h1, h2⟩ := gCheck_eq p 16 (by omega) (fun b => b == 0x02) psi (.inr hne)
  have hb : b = true := h2.2 ((accepts_iff psi).1 h)
  obtain ⟨-, hs, hl, -⟩ := h
  subst hb
  unfold parse
  obtain ⟨v, v1, v2⟩ := idx_field psi.buffer 5 (by omega)
  have hx : (UInt16.ofNat (beNat ((psi.buffer.drop 10).take 2)) &&& (0x0FFF : UInt16)).toNat = programLength psi := by
    rw [mask0FFF, UInt16.toNat_ofNat', Nat.mod_eq_of_lt (beNat2_lt _)]; rfl
  have hs1 : slice psi.buffer 11 (11 + programLength psi) = .ok (programLoop psi) := by
    rw [slice, if_pos (by omega), programLoop, List.drop_take, Nat.add_sub_cancel_left]
  have hs2 : slice psi.buffer (12 + programLength psi) (psi.size - 4) = .ok (itemLoop psi) := by
    rw [slice, if_pos (by omega)]; rfl
  rw [show check p psi = _ from h1, ok_bind, if_neg (by simp), getU16At_ok (by omega), ok_bind, v1, ok_bind,
    getU16At_ok (by omega), ok_bind, getU16At_ok (by omega), ok_bind]
  simp only [hx]
  rw [hs1, ok_bind, C37_frames]
  cases (Descriptor.frames (programLoop psi)).mapM (Desc.parse p) with
  | error x => rfl
  | ok ds =>
    simp only [map_ok, ok_bind]
    rw [usizeSub_ok p (by omega), ok_bind, hs2, ok_bind, pmt_gParse, gParse_all 5 (by omega)]
    rw [mapM_congr (f := PmtItem.parse p) (g := readItem p) fun e he => item_parse p e (entries_length 5 _ e he)]
    cases (entries 5 (itemLoop psi)).mapM (readItem p) with
    | error x => rfl
    | ok items =>
      simp only [map_ok, ok_bind, pure_eq_ok, version_field, v2]
      rw [and_1FFF, UInt16.toNat_ofNat', Nat.mod_eq_of_lt (beNat2_lt _)]
      rfl

/-- C67, what holds: parsing panics exactly for an accepted section whose program descriptors do not end before the section
does, or which contains bytes that are taken for a descriptor whose parsing panics (C38), and for one that claims a size
without having any byte (which the reassembler never holds). -/
theorem C67_pmt_partial (p : Profile) (t : Pmt) (psi : Psi) :
    Outcome (t.parse p psi) ((16 ≤ psi.size ∧ psi.buffer = []) ∨
      (Accepts psi ∧ (psi.size < 16 + programLength psi ∨ LoopPanics p (programLoop psi) ∨
        ∃ e ∈ entries 5 (itemLoop psi), LoopPanics p (e.drop 5)))) := by
  by_cases h0 : 16 ≤ psi.size ∧ psi.buffer = []
  · refine ⟨fun _ => ?_, fun hn => (hn (.inl h0)).elim⟩
    unfold parse
    rw [show check p psi = _ from gCheck_panic p 16 (fun b => b == 0x02) psi h0.1 h0.2]; rfl
  · by_cases ha : Accepts psi
    · by_cases hd : 12 + programLength psi ≤ psi.size - 4
      · rw [C66_pmt p t psi ha hd]
        refine Outcome.congr ((loop_outcome p _).bind fun ds _ =>
          (mapM_outcome _ _ _ fun e _ => (loop_outcome p (e.drop 5)).map _).bind fun v _ => Outcome.of_ok _) ?_
        have : ¬ psi.size < 16 + programLength psi := by omega
        simp [ha, h0, this]
      · have hs := ha.2.1
        refine ⟨fun _ => ?_, fun hn => (hn (.inr ⟨ha, .inl (by omega)⟩)).elim⟩
        have hne : psi.buffer ≠ [] := by intro e; simp [Accepts, e] at ha
        obtain ⟨b, h1, h2⟩ := gCheck_eq p 16 (by omega) (fun b => b == 0x02) psi (.inr hne)
        have hb : b = true := h2.2 ((accepts_iff psi).1 ha)
        obtain ⟨-, -, hl, -⟩ := ha
        subst hb
        unfold parse
        obtain ⟨v, v1, -⟩ := idx_field psi.buffer 5 (by omega)
        have hx : (UInt16.ofNat (beNat ((psi.buffer.drop 10).take 2)) &&& (0x0FFF : UInt16)).toNat = programLength psi := by
          rw [mask0FFF, UInt16.toNat_ofNat', Nat.mod_eq_of_lt (beNat2_lt _)]; rfl
        rw [show check p psi = _ from h1, ok_bind, if_neg (by simp), getU16At_ok (by omega), ok_bind, v1, ok_bind,
          getU16At_ok (by omega), ok_bind, getU16At_ok (by omega), ok_bind]
        simp only [hx]
        by_cases hsl : 11 + programLength psi ≤ psi.buffer.length
        · rw [slice, if_pos ⟨by omega, hsl⟩, ok_bind, C37_frames]
          have ho := loop_outcome p ((psi.buffer.take (11 + programLength psi)).drop 11)
          by_cases hlp : LoopPanics p ((psi.buffer.take (11 + programLength psi)).drop 11)
          · rw [ho.bad hlp]; rfl
          · obtain ⟨ds, hds⟩ := ho.good hlp
            rw [hds, map_ok, ok_bind, usizeSub_ok p (by omega), ok_bind, slice, if_neg (by omega)]
            rfl
        · rw [slice, if_neg (by omega)]; rfl
    · refine ⟨?_, fun _ => ⟨t, C65_pmt p t psi ?_ ha⟩⟩
      · rintro (h | h)
        · exact (h0 h).elim
        · exact (ha h.1).elim
      · by_cases hb : psi.buffer = []
        · exact .inl (by by_contra hc; exact h0 ⟨by omega, hb⟩)
        · exact .inr hb

/-! ## Round trip -/

theorem entry_fields (i : PmtItem) (h : ItemFits i) : field (entry i) 0 1 = i.streamType.toNat ∧
    field (entry i) 1 2 = 7 * 8192 + i.pid.toNat % 8192 ∧
    field (entry i) 3 2 = 15 * 4096 + (i.descriptors.flatMap Desc.wire).length ∧
    (entry i).drop 5 = i.descriptors.flatMap Desc.wire := by
  obtain ⟨h5, h6⟩ := h
  have ht := i.streamType.toNat_lt
  rw [entry_length] at h6
  simp only [entry, pmtEntry, sized12, beBytes, List.cons_append, List.nil_append, field, List.drop_succ_cons, List.drop_zero,
    List.take_succ_cons, List.take_zero, beNat_two, beNat, List.length_nil, UInt8.toNat_ofNat', Descriptor.pack, List.foldl_cons, List.foldl_nil]
  refine ⟨by omega, by omega, by omega, trivial⟩

theorem read_entry (p : Profile) (i : PmtItem) (h : ItemFits i) (hp : i.pid.toNat < 8192) (he : ∀ d ∈ i.descriptors, d.Exact) :
    readItem p (entry i) = .ok i := by
  obtain ⟨f0, f2, f3, f5⟩ := entry_fields i h
  unfold readItem
  rw [f5, frames_good p i.descriptors fun d hd => ⟨(h.1 d hd).1, he d hd⟩, map_ok, f0, f2,
    show (7 * 8192 + i.pid.toNat % 8192) % 8192 = i.pid.toNat by omega]
  simp only [UInt16.ofNat_toNat, UInt8.ofNat_toNat]

/-- What is needed for the elementary streams of a PMT to be parsed back. -/
structure InRange (t : Pmt) : Prop where
  version : t.version.toNat < 32
  pcr : t.pcr.toNat < 8192
  program : ProgramInRange t
  items : ∀ i ∈ t.items, ItemInRange i ∧ i.pid.toNat < 8192 ∧ ∀ d ∈ i.descriptors, d.Exact

/-- The same with entries up to the size of the largest section there is. -/
structure Fits (t : Pmt) : Prop where
  version : t.version.toNat < 32
  pcr : t.pcr.toNat < 8192
  program : ProgramFits t
  items : ∀ i ∈ t.items, ItemFits i ∧ i.pid.toNat < 8192 ∧ ∀ d ∈ i.descriptors, d.Exact

theorem InRange.toFits {t : Pmt} (h : t.InRange) : t.Fits := ⟨h.version, h.pcr, h.program.fits, fun i hi => ⟨(h.items i hi).1.fits, (h.items i hi).2⟩⟩

/-- What the code takes for the program descriptors: their length (its low byte) and all but the last of their bytes. -/
def shifted (D : List UInt8) : List UInt8 := (UInt8.ofNat D.length :: D).take D.length

theorem parse_section_fits (p : Profile) (u t : Pmt) (ht : t.Fits) (n l : Nat) (hn : n < 256) (hl : l < 256) (k : Nat) (g : List PmtItem)
    (hg : ∀ i ∈ g, i ∈ t.items) (psi : Psi)
    (hb : psi.buffer = complete (Table.pmt t.pnr.toNat (t.version.toNat % 32) n l (t.pcr.toNat % 8192) (t.program k) (g.flatMap entry)))
    (hs : psi.size = (complete (Table.pmt t.pnr.toNat (t.version.toNat % 32) n l (t.pcr.toNat % 8192) (t.program k) (g.flatMap entry))).length) :
    u.parse p psi = (fun ds => { t with descriptors := u.descriptors ++ ds, items := u.items ++ g }) <$>
      (Descriptor.frames (shifted (t.program k))).mapM (Desc.parse p) := by
  have e : Table.pmt t.pnr.toNat (t.version.toNat % 32) n l (t.pcr.toNat % 8192) (t.program k) (g.flatMap entry) =
      header 0x02 0b1011 t.pnr.toNat (t.version.toNat % 32) n l ++
        (beBytes 2 (Descriptor.pack [(3, 0b111), (13, t.pcr.toNat % 8192)]) ++ sized12 0b1111 (t.program k) ++ g.flatMap entry) := by
    simp [Table.pmt]
  rw [e] at hb hs
  obtain ⟨s1, s2, s3, s4, s5, -, -, s8, s9, -⟩ := section_fields 0x02 0b1011 t.pnr.toNat (t.version.toNat % 32) n l
    (beBytes 2 (Descriptor.pack [(3, 0b111), (13, t.pcr.toNat % 8192)]) ++ sized12 0b1111 (t.program k) ++ g.flatMap entry)
    (by omega) t.pnr.toNat_lt (by omega) hn hl
  have hacc : Accepts psi := by
    refine ⟨?_, complete_intact _ (by simp; omega) psi hb hs 16 (by simp [sized12_length]; omega)⟩
    rw [hb, s2]; rfl
  have hD : (t.program k).length ≤ 4080 := by
    have := ht.program.2
    unfold program
    split
    · omega
    · simp
  have hnl : programLength psi = (t.program k).length := by
    have h8 := s8 2 2 (by simp [sized12_length]; omega)
    rw [← hb] at h8
    rw [programLength, h8, field, List.append_assoc, List.drop_left' (beBytes_length _ _), sized12, List.append_assoc,
      List.take_left' (beBytes_length _ _), beNat_beBytes]
    simp only [Descriptor.pack, List.foldl_cons, List.foldl_nil]
    omega
  have hpcr : field psi.buffer 8 2 % 8192 = t.pcr.toNat := by
    have := ht.pcr
    have h8 := s8 0 2 (by simp)
    rw [← hb] at h8
    rw [h8, field, List.drop_zero, List.append_assoc, List.take_left' (beBytes_length _ _), beNat_beBytes]
    simp only [Descriptor.pack, List.foldl_cons, List.foldl_nil]
    omega
  have hsz : psi.size = 16 + (t.program k).length + (g.flatMap entry).length := by
    rw [hs, s1]; simp only [List.length_append, sized12_length, beBytes_length]; omega
  have hil : itemLoop psi = g.flatMap entry := by
    have h9 := s9 (4 + (t.program k).length)
    rw [← hs, ← hb] at h9
    rw [itemLoop, hnl, show 12 + (t.program k).length = 8 + (4 + (t.program k).length) by omega, h9,
      List.drop_left' (by simp [sized12_length]; omega)]
  have hnlp : programLoop psi = shifted (t.program k) := by
    have h9 := s9 3
    rw [← hs, ← hb] at h9
    have h10 : programLoop psi = ((psi.buffer.take (psi.size - 4)).drop (8 + 3)).take (t.program k).length := by
      rw [programLoop, hnl, List.drop_take, List.take_take, Nat.min_eq_left (by omega)]
    have h11 : (beBytes 2 (Descriptor.pack [(3, 0b111), (13, t.pcr.toNat % 8192)]) ++ sized12 0b1111 (t.program k) ++ g.flatMap entry).drop 3 =
        (UInt8.ofNat (t.program k).length :: t.program k) ++ g.flatMap entry := by
      have : UInt8.ofNat (61440 + (t.program k).length) = UInt8.ofNat (t.program k).length := by
        apply UInt8.toNat_inj.1; rw [UInt8.toNat_ofNat', UInt8.toNat_ofNat']; omega
      simp [sized12, beBytes, Descriptor.pack, this]
    rw [h10, h9, h11, shifted, List.take_append_of_le_length (by simp)]
  rw [← hb] at s4 s5
  rw [C66_pmt p u psi hacc (by omega), s4, s5, hpcr, hil, hnlp, entries_flatMap 5 (by omega) entry g fun i hi => ?_,
    mapM_map_ok entry (readItem p) (fun i => i) g fun i hi =>
      read_entry p i (ht.items i (hg i hi)).1 (ht.items i (hg i hi)).2.1 (ht.items i (hg i hi)).2.2, List.map_id']
  · have hv := ht.version
    rw [Nat.mod_eq_of_lt hv, show (0xC1 + 2 * t.version.toNat) / 2 % 32 = t.version.toNat by omega]
    simp only [UInt8.ofNat_toNat, UInt16.ofNat_toNat, ok_bind]
    cases (Descriptor.frames (shifted (t.program k))).mapM (Desc.parse p) <;> rfl
  · have hr := (ht.items i (hg i hi)).1
    have h3 := (entry_fields i hr).2.2.1
    have hle := hr.2
    rw [entry_length] at hle ⊢
    unfold field at h3
    rw [h3]
    refine ⟨by omega, ?_⟩
    rw [show ∀ a b, (a * 4096 + b) % 4096 = b % 4096 from fun a b => by omega, Nat.mod_eq_of_lt (by omega)]

theorem parse_section (p : Profile) (u t : Pmt) (ht : t.InRange) (n l : Nat) (hn : n < 256) (hl : l < 256) (k : Nat) (g : List PmtItem)
    (hg : ∀ i ∈ g, i ∈ t.items) (psi : Psi)
    (hb : psi.buffer = complete (Table.pmt t.pnr.toNat (t.version.toNat % 32) n l (t.pcr.toNat % 8192) (t.program k) (g.flatMap entry)))
    (hs : psi.size = (complete (Table.pmt t.pnr.toNat (t.version.toNat % 32) n l (t.pcr.toNat % 8192) (t.program k) (g.flatMap entry))).length) :
    u.parse p psi = (fun ds => { t with descriptors := u.descriptors ++ ds, items := u.items ++ g }) <$>
      (Descriptor.frames (shifted (t.program k))).mapM (Desc.parse p) :=
  parse_section_fits p u t ht.toFits n l hn hl k g hg psi hb hs

/-- What parsing makes of the program descriptors. -/
def misread (p : Profile) (t : Pmt) : R Descriptors :=
  (Descriptor.frames (shifted (t.descriptors.flatMap Desc.wire))).mapM (Desc.parse p)

theorem shifted_nil (p : Profile) : (Descriptor.frames (shifted [])).mapM (Desc.parse p) = .ok [] := frames_good p [] (by simp)

theorem wire_bound (t : Pmt) (ht : t.Fits) (gs : List (List PmtItem))
    (P : Spread (fun i => (entry i).length) 1020 (12 + (t.descriptors.flatMap Desc.wire).length) 12 t.items gs) :
    ∀ sec ∈ t.wire gs, sec.length ≤ 4096 := by
  intro sec hs
  obtain ⟨x, hx, rfl⟩ := List.mem_map.1 hs
  have hg : gs[x.2]? = some x.1 := by
    obtain ⟨h1, h2⟩ := List.mem_zipIdx' hx
    rw [List.getElem?_eq_getElem h1, ← h2]
  have h1 := spread_bound P 4092 (by omega) ht.program.2 (fun i hi => (ht.items i hi).1.2) _ _ hg
  have h2 := sum_size (fun i => (entry i).length) entry x.1 (fun _ _ => rfl)
  have h3 : (t.program x.2).length = if x.2 = 0 then (t.descriptors.flatMap Desc.wire).length else 0 := by
    unfold program; split <;> rfl
  rw [complete_length (by simp [Table.pmt]; omega)]
  simp only [Table.pmt, List.length_append, header_length, beBytes_length, sized12_length, h2, h3]
  by_cases h0 : x.2 = 0 <;> simp only [h0, if_true, if_false] at h1 ⊢ <;> omega

theorem received_fits (p : Profile) (t : Pmt) (ht : t.Fits) (pid : UInt16) (cc : UInt8) (dst : List UInt8) (s : Psi)
    (hp : pid.toNat < 8192) (hc : cc.toNat < 16) :
    ∃ cc' pks, t.demux p pid cc dst = .ok (cc', dst ++ pks.flatten) ∧ (∀ pk ∈ pks, IsTsPacket pid.toNat pk) ∧
      (∀ ds, misread p t = .ok ds → ∃ s', receive (Pmt.parse p) p Pmt.default s pks = .ok ({ t with descriptors := ds }, s')) ∧
      (misread p t = panic → receive (Pmt.parse p) p Pmt.default s pks = panic) := by
  obtain ⟨gs, P, hw⟩ := demux_fill p t ht.program (fun i hi => (ht.items i hi).1) pid cc dst hp hc
  have h63 := wire_bound t ht gs P
  have hlong : ∀ x ∈ gs.zipIdx, 3 ≤ (Table.pmt t.pnr.toNat (t.version.toNat % 32) (x.2 % 256)
    ((gs.length - 1) % 256) (t.pcr.toNat % 8192) (t.program x.2) (x.1.flatMap entry)).length := by intro x _; simp [Table.pmt]; omega
  have hsec : ∀ x ∈ gs.zipIdx, IsSection (complete (Table.pmt t.pnr.toNat (t.version.toNat % 32) (x.2 % 256)
      ((gs.length - 1) % 256) (t.pcr.toNat % 8192) (t.program x.2) (x.1.flatMap entry))) := by
    intro x hx
    have := h63 _ (List.mem_map_of_mem hx)
    rw [complete_length (hlong x hx)] at this
    exact complete_isSection (hlong x hx) (by omega)
  have hincomplete : ∀ (u : Pmt) (psi : Psi), psi.buffer.length < psi.size → 183 ≤ psi.buffer.length → u.parse p psi = .ok u := by
    intro u psi hlt h183
    refine C65_pmt p u psi (.inr (by intro e; rw [e] at h183; simp at h183)) ?_
    rintro ⟨-, -, h, -⟩
    omega
  refine ⟨_, _, hw, stream_packets _ _ hp _, fun ds hds => ?_, fun hpan => ?_⟩
  · have hrec := receive_stream (Pmt.parse p) p pid.toNat hp gs.zipIdx (fun x => complete (Table.pmt t.pnr.toNat
        (t.version.toNat % 32) (x.2 % 256) ((gs.length - 1) % 256) (t.pcr.toNat % 8192) (t.program x.2) (x.1.flatMap entry)))
      hsec
      (fun u x => { t with descriptors := u.descriptors ++ (if x.2 = 0 then ds else []), items := u.items ++ x.1 })
      (by
        intro u x hx psi hb hs
        have hg : x.1 ∈ gs := (List.mem_zipIdx' hx).2 ▸ List.getElem_mem _
        rw [parse_section_fits p u t ht _ _ (Nat.mod_lt _ (by omega)) (Nat.mod_lt _ (by omega)) x.2 x.1 (fun i hi => mem_of_group P.all hg hi) psi hb hs]
        by_cases h0 : x.2 = 0
        · have : t.program x.2 = t.descriptors.flatMap Desc.wire := by rw [program, if_pos h0]
          rw [this, show (Descriptor.frames (shifted (t.descriptors.flatMap Desc.wire))).mapM (Desc.parse p) = _ from hds, map_ok, if_pos h0]
        · have : t.program x.2 = [] := by rw [program, if_neg h0]
          rw [this, shifted_nil, map_ok, if_neg h0])
      (fun u psi _ => hincomplete u psi)
      Pmt.default s cc.toNat
    obtain ⟨s', hr⟩ := hrec
    refine ⟨s', ?_⟩
    unfold wire
    rw [hr]
    refine congrArg (fun x => Except.ok (x, s')) ?_
    have hf : ∀ (l : List (List PmtItem)) (n : Nat) (u : Pmt), 0 < n → u = { t with descriptors := u.descriptors, items := u.items } →
        (l.zipIdx n).foldl (fun u x => { t with descriptors := u.descriptors ++ (if x.2 = 0 then ds else []), items := u.items ++ x.1 }) u =
        { t with descriptors := u.descriptors, items := u.items ++ l.flatten } := by
      intro l
      induction l with
      | nil => intro n u _ h; rw [h]; simp
      | cons x r ih =>
        intro n u hn _
        rw [List.zipIdx_cons, List.foldl_cons, ih _ _ (by omega) rfl]
        simp [Nat.ne_of_gt hn]
    have hall := P.all
    obtain ⟨g, r, hgr⟩ := List.exists_cons_of_ne_nil P.nonempty
    rw [hgr, List.flatten_cons] at hall
    rw [hgr, List.zipIdx_cons, List.foldl_cons, hf _ _ _ (by omega) rfl]
    simp [Pmt.default, hall]
  · obtain ⟨g, r, hgr⟩ := List.exists_cons_of_ne_nil P.nonempty
    have hx : (g, 0) ∈ gs.zipIdx := by rw [hgr]; simp
    have hwire : t.wire gs = complete (Table.pmt t.pnr.toNat (t.version.toNat % 32) (0 % 256)
        ((gs.length - 1) % 256) (t.pcr.toNat % 8192) (t.program 0) (g.flatMap entry)) :: (r.zipIdx 1).map fun x =>
          complete (Table.pmt t.pnr.toNat (t.version.toNat % 32) (x.2 % 256)
            ((gs.length - 1) % 256) (t.pcr.toNat % 8192) (t.program x.2) (x.1.flatMap entry)) := by
      unfold wire
      rw [hgr]; rfl
    rw [hwire, stream, receive_append, receive_section (Pmt.parse p) p Pmt.default s pid.toNat cc.toNat _ (hsec _ hx) hp
      (fun psi h1 h2 h3 => hincomplete _ psi (by omega) h3)]
    simp only []
    rw [parse_section_fits p Pmt.default t ht _ _ (Nat.mod_lt _ (by omega)) (Nat.mod_lt _ (by omega)) 0 g (fun i hi => mem_of_group P.all (by rw [hgr]; simp) hi) _ rfl rfl]
    rw [show (Descriptor.frames (shifted (t.program 0))).mapM (Desc.parse p) = panic from hpan]
    rfl

/-- C55, what holds for every PMT: parsing its packets gives back everything but the program descriptors, however many sections
they are; the program descriptors are what is read from one byte too early; and if that panics, so does receiving. -/
theorem C55_received_partial (p : Profile) (t : Pmt) (ht : t.InRange) (pid : UInt16) (cc : UInt8) (dst : List UInt8) (s : Psi)
    (hp : pid.toNat < 8192) (hc : cc.toNat < 16) :
    ∃ cc' pks, t.demux p pid cc dst = .ok (cc', dst ++ pks.flatten) ∧ (∀ pk ∈ pks, IsTsPacket pid.toNat pk) ∧
      (∀ ds, misread p t = .ok ds → ∃ s', receive (Pmt.parse p) p Pmt.default s pks = .ok ({ t with descriptors := ds }, s')) ∧
      (misread p t = panic → receive (Pmt.parse p) p Pmt.default s pks = panic) :=
  received_fits p t ht.toFits pid cc dst s hp hc

/-- C55 for a PMT without program descriptors: it is given back by its packets, whatever the reassembler held before and wherever the
packets are appended, however many sections it needs. -/
theorem C55_round_trip_partial (p : Profile) (t : Pmt) (ht : t.InRange) (hd : t.descriptors = []) (pid : UInt16) (cc : UInt8)
    (dst : List UInt8) (s : Psi) (hp : pid.toNat < 8192) (hc : cc.toNat < 16) :
    ∃ cc' pks s', t.demux p pid cc dst = .ok (cc', dst ++ pks.flatten) ∧ (∀ pk ∈ pks, IsTsPacket pid.toNat pk) ∧
      receive (Pmt.parse p) p Pmt.default s pks = .ok (t, s') := by
  obtain ⟨cc', pks, h1, h2, h3, -⟩ := C55_received_partial p t ht pid cc dst s hp hc
  obtain ⟨s', hr⟩ := h3 [] (by unfold misread; rw [hd]; exact shifted_nil p)
  exact ⟨cc', pks, s', h1, h2, by rw [hr, ← hd]⟩

theorem first_frame (p : Profile) (a b : UInt8) (rest : List UInt8) (d : Desc) (r : Descriptors)
    (h : (Descriptor.frames (a :: b :: rest)).mapM (Desc.parse p) = .ok (d :: r)) : d.tag = a ∧ b.toNat ≤ rest.length := by
  rw [Descriptor.frames] at h
  split at h
  · next hle =>
    rw [List.mapM_cons] at h
    cases hpar : Desc.parse p (a :: b :: List.take b.toNat rest) with
    | error e => rw [hpar] at h; cases h
    | ok v =>
      rw [hpar, ok_bind] at h
      cases hrest : (Descriptor.frames (List.drop b.toNat rest)).mapM (Desc.parse p) with
      | error e => rw [hrest] at h; cases h
      | ok vs =>
        rw [hrest, ok_bind] at h
        cases h
        exact ⟨C35_tag p a _ _ hpar, hle⟩
  · cases h

/-- C55 fails: no PMT with program descriptors of up to 255 bytes is given back by its packets. -/
theorem C55_refuted (p : Profile) (t : Pmt) (ht : t.InRange) (hd : t.descriptors ≠ []) (hl : (t.descriptors.flatMap Desc.wire).length ≤ 255)
    (pid : UInt16) (cc : UInt8) (dst : List UInt8) (s : Psi) (hp : pid.toNat < 8192) (hc : cc.toNat < 16) :
    ∃ cc' pks, t.demux p pid cc dst = .ok (cc', dst ++ pks.flatten) ∧ (∀ pk ∈ pks, IsTsPacket pid.toNat pk) ∧
      ∀ s', receive (Pmt.parse p) p Pmt.default s pks ≠ .ok (t, s') := by
  obtain ⟨cc', pks, h1, h2, h3, h4⟩ := C55_received_partial p t ht pid cc dst s hp hc
  refine ⟨cc', pks, h1, h2, fun s' hr => ?_⟩
  have ho := loop_outcome p (shifted (t.descriptors.flatMap Desc.wire))
  by_cases hpan : LoopPanics p (shifted (t.descriptors.flatMap Desc.wire))
  · rw [h4 (ho.bad hpan)] at hr; cases hr
  · obtain ⟨ds, hds⟩ := ho.good hpan
    obtain ⟨s'', hr'⟩ := h3 ds hds
    rw [hr'] at hr
    have hrt : { t with descriptors := ds } = t := congrArg Prod.fst (Except.ok.inj hr)
    have hdt : ds = t.descriptors := congrArg Pmt.descriptors hrt
    obtain ⟨d0, r, hdr⟩ := List.exists_cons_of_ne_nil hd
    obtain ⟨w, hw⟩ := wire_tag d0
    subst hdt
    have hW : (Pmt.descriptors t).flatMap Desc.wire = d0.tag :: (w ++ r.flatMap Desc.wire) := by rw [hdr, List.flatMap_cons, hw]; rfl
    rw [hW] at hds hl
    generalize w ++ r.flatMap Desc.wire = x at hds hl
    rw [hdr] at hds
    cases x with
    | nil =>
      rw [show shifted [d0.tag] = [1] from rfl, frames_truncated [1] (.inl (by simp))] at hds
      cases hds
    | cons y x =>
      simp only [shifted, List.length_cons, List.take_succ_cons] at hds
      obtain ⟨e1, e2⟩ := first_frame p _ _ _ _ _ hds
      simp only [List.length_cons] at hl
      rw [List.length_take, List.length_cons, e1, UInt8.toNat_ofNat'] at e2
      omega

end Pmt

/-! ## Concrete cases -/

/-- A PMT without program descriptors and two elementary streams, and one with a program descriptor. -/
def samplePmt : Pmt :=
  { version := 17, pnr := 0x1234, pcr := 0x1FFF, descriptors := []
    items := [⟨0x1B, 0x100, [.d52 ⟨7⟩]⟩, ⟨0x03, 0x1FFE, [.d0A ⟨[⟨⟨0, [0x65, 0x6E, 0x67]⟩, 1⟩]⟩]⟩] }
def samplePmt2 : Pmt := { samplePmt with descriptors := [.d09 ⟨0x0B00, 0x1FF0, [1, 2]⟩] }

instance Pmt.decItem (i : PmtItem) : Decidable (Pmt.ItemInRange i) := by unfold Pmt.ItemInRange; infer_instance
instance Pmt.decProgram (t : Pmt) : Decidable (Pmt.ProgramInRange t) := by unfold Pmt.ProgramInRange; infer_instance

theorem samplePmt_inRange : samplePmt.InRange := by
  refine ⟨by decide, by decide, ?_, ?_⟩ <;> decide +kernel
theorem samplePmt2_inRange : samplePmt2.InRange := by
  refine ⟨by decide, by decide, ?_, ?_⟩ <;> decide +kernel

example : ∃ cc' pks s', samplePmt.demux .debug 0x10 3 [] = .ok (cc', [] ++ pks.flatten) ∧ (∀ pk ∈ pks, IsTsPacket 0x10 pk) ∧
    receive (Pmt.parse .debug) .debug Pmt.default Psi.default pks = .ok (samplePmt, s') :=
  Pmt.C55_round_trip_partial .debug samplePmt samplePmt_inRange rfl 0x10 3 [] Psi.default (by decide) (by decide)
example : ∃ cc' pks, samplePmt2.demux .debug 0x10 3 [] = .ok (cc', [] ++ pks.flatten) ∧ (∀ pk ∈ pks, IsTsPacket 0x10 pk) ∧
    ∀ s', receive (Pmt.parse .debug) .debug Pmt.default Psi.default pks ≠ .ok (samplePmt2, s') :=
  Pmt.C55_refuted .debug samplePmt2 samplePmt2_inRange (by decide) (by decide +kernel) 0x10 3 [] Psi.default (by decide) (by decide)
/-- A conditional access descriptor of 8 bytes is lost. -/
example : Pmt.misread .debug samplePmt2 = .ok [] := by decide +kernel

/-- C67 fails: for every table and both profiles, an intact section whose program_info_length is too large makes the parser panic. -/
theorem Pmt.C67_pmt_refuted (p : Profile) (t : Pmt) : t.parse p { Psi.default with
    buffer := complete (header 0x02 0b1011 1 0 0 0 ++ [0xFF, 0xFF, 0xF0, 1]), size := 16 } = panic := by
  refine (C67_pmt_partial p t _).bad (.inr ⟨⟨by decide +kernel, by decide +kernel⟩, .inl ?_⟩)
  decide +kernel

end Mpegts
