import Verif.Lemmas.TableLoops
import Verif.Lemmas.Oversize

/-! # The network information table: C56, C63-C68 -/

namespace Mpegts
open Spec Spec.Table

namespace Nit

/-- The entry the standard prescribes for a transport stream. -/
def entry (i : NitItem) : List UInt8 := nitEntry i.tsid.toNat i.onid.toNat (i.descriptors.flatMap Desc.wire)

/-- Every field fits, and the entry fits into a section. -/
def ItemInRange (i : NitItem) : Prop := Good i.descriptors ∧ 12 + (entry i).length ≤ 1020

/-- The network descriptors fit into the first section. -/
def NetworkInRange (t : Nit) : Prop := Good t.descriptors ∧ 12 + (t.descriptors.flatMap Desc.wire).length ≤ 1020

/-- Every descriptor fits, and the entry fits into the largest section there is (4096 bytes with CRC). -/
def ItemFits (i : NitItem) : Prop := Good i.descriptors ∧ 12 + (entry i).length ≤ 4092

/-- The network descriptors fit into the largest section there is. -/
def NetworkFits (t : Nit) : Prop := Good t.descriptors ∧ 12 + (t.descriptors.flatMap Desc.wire).length ≤ 4092

theorem ItemInRange.fits {i : NitItem} (h : ItemInRange i) : ItemFits i := ⟨h.1, by have := h.2; omega⟩
theorem NetworkInRange.fits {t : Nit} (h : NetworkInRange t) : NetworkFits t := ⟨h.1, by have := h.2; omega⟩

/-- The network descriptors are in the first section only. -/
def network (t : Nit) (number : Nat) : List UInt8 := if number = 0 then t.descriptors.flatMap Desc.wire else []

/-- The sections the standard prescribes for a NIT whose transport streams are distributed in this way. -/
def wire (t : Nit) (groups : List (List NitItem)) : List (List UInt8) :=
  groups.zipIdx.map fun x => complete (Table.nit t.tableId.toNat t.networkId.toNat (t.version.toNat % 32) (x.2 % 256)
    ((groups.length - 1) % 256) (t.network x.2) (x.1.flatMap entry))

theorem entry_length (i : NitItem) : (entry i).length = 6 + (i.descriptors.flatMap Desc.wire).length := by
  simp [entry, nitEntry, sized12_length]; omega

theorem assemble_entry (p : Profile) (i : NitItem) (h : ItemFits i) (b : List UInt8) :
    i.assemble p b = .ok (b ++ entry i) := by
  obtain ⟨h5, h6⟩ := h
  rw [entry_length] at h6
  unfold NitItem.assemble
  simp only [resize_extend, show List.replicate 6 (0 : UInt8) = [0, 0, 0, 0, 0, 0] from rfl]
  have e1 := setU16At_append b [0, 0, 0, 0, 0, 0] 0 i.tsid
  rw [Nat.add_zero] at e1
  rw [e1, setU16At_ok _ (by simp), map_ok, ok_bind, setU16At_append, setU16At_ok _ (by simp [beBytes]), map_ok, ok_bind]
  rw [(C33_list_partial p i.descriptors _ h5).1, ok_bind]
  simp only []
  rw [List.append_assoc, setU16At_append, setU16At_ok _ (by simp [beBytes]), map_ok, or_F000 _ (by omega)]
  refine congrArg (fun x => Except.ok (b ++ x)) ?_
  simp [entry, nitEntry, sized12, beBytes]

theorem size_entry (i : NitItem) (h : ItemFits i) : i.size = (entry i).length := by
  rw [entry_length, NitItem.size, (C33_list_partial .debug i.descriptors [] h.1).2]

/-- The start of a section before the loop length is patched in. -/
def start (t : Nit) (first : Bool) : List UInt8 :=
  header t.tableId.toNat 0b1111 t.networkId.toNat (t.version.toNat % 32) 0 0 ++
    (sized12 0b1111 (if first then t.descriptors.flatMap Desc.wire else []) ++ [0, 0])

theorem psiInit_eq (p : Profile) (t : Nit) (h : NetworkFits t) (first : Bool) :
    t.psiInit p first = .ok { Psi.default with buffer := t.start first } := by
  unfold psiInit
  rw [show Psi.new p t.tableId 10 t.version = Psi.new p t.tableId (8 + 2) t.version from rfl, psi_new_long, ok_bind]
  simp only [show List.replicate 2 (0 : UInt8) = [0, 0] from rfl, List.cons_append, List.nil_append, setIdx_succ, setIdx_zero, map_ok,
    ok_bind]
  rw [setU16At_ok _ (by simp), ok_bind]
  simp only [beBytes, List.take_succ_cons, List.take_zero, List.drop_succ_cons, List.drop_zero, List.cons_append, List.nil_append, setIdx_succ,
    setIdx_zero, map_ok, ok_bind]
  cases first with
  | false =>
    simp only [Bool.false_eq_true, if_false, ok_bind, pure_eq_ok, start, header_eq]
    simp [sized12, beBytes, Descriptor.pack]
  | true =>
    simp only [if_true]
    rw [(C33_list_partial p t.descriptors _ h.1).1]
    simp only [ok_bind, List.cons_append, List.nil_append]
    rw [setU16At_ok _ (by simp), ok_bind, or_F000 _ (by have := h.2; omega)]
    simp only [beBytes, List.take_succ_cons, List.take_zero, List.drop_succ_cons, List.drop_zero, List.cons_append, List.nil_append,
      pure_eq_ok, start, header_eq]
    simp [sized12, beBytes]

theorem patchLen_eq (p : Profile) (hd D E : List UInt8) (hh : hd.length = 8) (hD : D.length < 4096) (hE : E.length < 4096) :
    patchLen p { Psi.default with buffer := hd ++ (sized12 0b1111 D ++ [0, 0]) ++ E } =
      .ok { Psi.default with buffer := hd ++ (sized12 0b1111 D ++ sized12 0b1111 E) } := by
  unfold patchLen
  have hl : (hd ++ (sized12 0b1111 D ++ [0, 0]) ++ E).length = 12 + D.length + E.length := by
    simp only [List.length_append, sized12_length, hh, List.length_cons, List.length_nil]; omega
  simp only [hl]
  have g : getU16At (hd ++ (sized12 0b1111 D ++ [0, 0]) ++ E) 8 = .ok (UInt16.ofNat (0xF000 + D.length)) := by
    rw [getU16At_ok (by rw [hl]; omega)]
    refine congrArg (fun x => Except.ok (UInt16.ofNat x)) ?_
    rw [List.append_assoc, List.drop_left' hh, sized12]
    simp only [List.append_assoc]
    rw [List.take_left' (beBytes_length _ _), beNat_beBytes]
    simp only [Descriptor.pack, List.foldl_cons, List.foldl_nil]
    omega
  rw [g, ok_bind, mask0FFF, UInt16.toNat_ofNat', show (0xF000 + D.length) % 2 ^ 16 % 4096 = D.length by omega]
  rw [usizeSub_ok p (by omega), ok_bind, usizeSub_ok p (by omega), ok_bind, show 12 + D.length + E.length - 12 - D.length = E.length by omega]
  have e : hd ++ (sized12 0b1111 D ++ [0, 0]) ++ E = (hd ++ sized12 0b1111 D) ++ ([0, 0] ++ E) := by simp
  have l2 : 10 + D.length = (hd ++ sized12 0b1111 D).length + 0 := by simp [sized12_length, hh]; omega
  rw [e, l2, setU16At_append, setU16At_ok _ (by simp), map_ok, ok_bind, or_F000 _ hE]
  simp [sized12, pure_eq_ok]

theorem patchLoop_eq (p : Profile) {α : Type} (f g : α → Psi) (l : List α) (h : ∀ x ∈ l, patchLen p (f x) = .ok (g x)) :
    patchLoop p (l.map f) = .ok (l.map g) := by
  induction l with
  | nil => rfl
  | cons x r ih =>
    rw [List.map_cons, patchLoop, h x List.mem_cons_self, ok_bind, ih fun y hy => h y (List.mem_cons_of_mem _ hy), ok_bind]
    rfl

theorem start_length (t : Nit) (first : Bool) : (t.start first).length = 12 + (if first then (t.descriptors.flatMap Desc.wire).length else 0) := by
  unfold start
  simp only [List.length_append, header_length, sized12_length, List.length_cons, List.length_nil]
  cases first <;> simp <;> omega

/-- The sections sent for entries of any size up to that of the largest section there is (4096 bytes with CRC). -/
theorem demux_fill (p : Profile) (t : Nit) (hn : NetworkFits t) (hr : ∀ i ∈ t.items, ItemFits i) (pid : UInt16) (cc : UInt8)
    (dst : List UInt8) (hp : pid.toNat < 8192) (hc : cc.toNat < 16) :
    ∃ gs, Spread (fun i => (entry i).length) 1020 (12 + (t.descriptors.flatMap Desc.wire).length) 12 t.items gs ∧
      t.demux p pid cc dst = .ok (UInt8.ofNat ((cc.toNat + streamCount (t.wire gs)) % 16),
        dst ++ (stream pid.toNat cc.toNat (t.wire gs)).flatten) := by
  have P := spread_fill (fun i => (entry i).length) 1020 12 t.items (12 + (t.descriptors.flatMap Desc.wire).length)
  refine ⟨_, P, ?_⟩
  have hfill := fill_congr NitItem.size (fun i => (entry i).length) 1020 12 t.items (fun i hi => size_entry i (hr i hi))
    (12 + (t.descriptors.flatMap Desc.wire).length)
  have hbound := spread_bound P 4092 (by omega) hn.2 (fun i hi => (hr i hi).2)
  have hne := P.nonempty
  unfold demux psiListAssemble
  rw [psiInit_eq p t hn, ok_bind, nit_gAsm, psiInit_eq p t hn]
  rw [gAsm_eq 1020 NitItem.size (NitItem.assemble p) _ entry t.items (fun i hi b => assemble_entry p i (hr i hi) b)
    (fun i hi => size_entry i (hr i hi)), start_length, start_length]
  simp only [if_true, Bool.false_eq_true, if_false, Nat.add_zero, hfill]
  generalize fill (fun i => (entry i).length) 1020 12 (12 + (t.descriptors.flatMap Desc.wire).length) t.items = gs at *
  rw [ok_bind, bodies_zipIdx entry t.start, List.map_map, List.nil_append]
  have hE : ∀ x ∈ gs.zipIdx, (t.network x.2).length + (x.1.flatMap entry).length ≤ 4080 := by
    intro x hx
    have hg : gs[x.2]? = some x.1 := by
      obtain ⟨h1, h2⟩ := List.mem_zipIdx' hx
      rw [List.getElem?_eq_getElem h1, ← h2]
    have h1 := hbound _ _ hg
    have h2 := sum_size (fun i => (entry i).length) entry x.1 (fun _ _ => rfl)
    rw [h2]
    unfold network
    split at h1 <;> rename_i h0
    · rw [if_pos h0]; omega
    · rw [if_neg h0, List.length_nil]; omega
  have hD := hn.2
  have hpatch := patchLoop_eq p (fun x : List NitItem × Nat => { Psi.default with buffer := t.start (x.2 == 0) ++ x.1.flatMap entry })
    (fun x => { Psi.default with buffer := header t.tableId.toNat 0b1111 t.networkId.toNat (t.version.toNat % 32) 0 0 ++
      (sized12 0b1111 (t.network x.2) ++ sized12 0b1111 (x.1.flatMap entry)) }) gs.zipIdx ?_
  · simp only [Function.comp_def]
    rw [hpatch, ok_bind]
    have := psiDemux_header p t.tableId.toNat 0b1111 t.networkId.toNat (t.version.toNat % 32)
      (gs.zipIdx.map fun x => sized12 0b1111 (t.network x.2) ++ sized12 0b1111 (x.1.flatMap entry)) (by simpa using hne) ?_ pid cc dst hp hc
    · rw [List.map_map] at this
      simp only [Function.comp_def] at this
      rw [this]
      simp only [zipIdx_map_zipIdx, List.length_map, List.length_zipIdx, wire, Table.nit, List.append_assoc]
    · intro r hr'
      obtain ⟨x, hx, rfl⟩ := List.mem_map.1 hr'
      have := hE x hx
      simp only [List.length_append, sized12_length]
      omega
  · intro x hx
    have hE' := hE x hx
    have hs : t.start (x.2 == 0) = header t.tableId.toNat 0b1111 t.networkId.toNat (t.version.toNat % 32) 0 0 ++
        (sized12 0b1111 (t.network x.2) ++ [0, 0]) := by
      unfold start network
      by_cases h : x.2 = 0 <;> simp [h]
    rw [hs]
    exact patchLen_eq p _ _ _ (header_length _ _ _ _ _ _) (by omega) (by omega)

/-- C56: a NIT is sent as the sections the standard prescribes: its transport streams distributed greedily over sections of at most
1020 bytes without CRC, the network descriptors in the first one. -/
theorem C56_wire (p : Profile) (t : Nit) (hn : NetworkInRange t) (hr : ∀ i ∈ t.items, ItemInRange i) (pid : UInt16) (cc : UInt8)
    (dst : List UInt8) (hp : pid.toNat < 8192) (hc : cc.toNat < 16) :
    ∃ gs, Packed (fun i => (entry i).length) 1020 (12 + (t.descriptors.flatMap Desc.wire).length) 12 t.items gs ∧
      t.demux p pid cc dst = .ok (UInt8.ofNat ((cc.toNat + streamCount (t.wire gs)) % 16),
        dst ++ (stream pid.toNat cc.toNat (t.wire gs)).flatten) := by
  obtain ⟨gs, P, h⟩ := demux_fill p t hn.fits (fun i hi => (hr i hi).fits) pid cc dst hp hc
  exact ⟨gs, packed_of_spread P hn.2 (fun i hi => (hr i hi).2), h⟩

/-- For C63: no section of a NIT is longer than 1024 bytes. -/
theorem wire_le (t : Nit) (gs : List (List NitItem))
    (P : Packed (fun i => (entry i).length) 1020 (12 + (t.descriptors.flatMap Desc.wire).length) 12 t.items gs) :
    ∀ sec ∈ t.wire gs, sec.length ≤ 1024 := by
  intro sec hs
  obtain ⟨x, hx, rfl⟩ := List.mem_map.1 hs
  have hg : gs[x.2]? = some x.1 := by
    obtain ⟨h1, h2⟩ := List.mem_zipIdx' hx
    rw [List.getElem?_eq_getElem h1, ← h2]
  have h1 := P.fits _ _ hg
  have h2 := sum_size (fun i => (entry i).length) entry x.1 (fun _ _ => rfl)
  have h3 : (t.network x.2).length = if x.2 = 0 then (t.descriptors.flatMap Desc.wire).length else 0 := by
    unfold network; split <;> rfl
  rw [complete_length (by simp [Table.nit]; omega)]
  simp only [Table.nit, List.length_append, header_length, sized12_length, h2, h3]
  split at h1 <;> simp only [*, if_true, if_false] <;> omega

/-- For C64: with at most 256 sections, section number `i` is the i-th, and all carry the number of the last one. -/
theorem wire_numbers (t : Nit) (gs : List (List NitItem)) (h : gs.length ≤ 256) : (t.wire gs).length = gs.length ∧
    ∀ i sec, (t.wire gs)[i]? = some sec → field sec 6 1 = i ∧ field sec 7 1 = gs.length - 1 := by
  refine ⟨by simp [wire], fun i sec hs => ?_⟩
  simp only [wire, Table.nit, List.append_assoc] at hs
  obtain ⟨h1, -, h3, h4⟩ := sections_numbered _ _ _ _ t.tableId.toNat_lt t.networkId.toNat_lt (by omega) gs
    (fun x => sized12 0b1111 (t.network x.2) ++ sized12 0b1111 (x.1.flatMap entry)) i sec hs
  omega

/-- For C68: every section carries the version (5 bits). -/
theorem wire_version (t : Nit) (gs : List (List NitItem)) : ∀ sec ∈ t.wire gs, field sec 5 1 = 0xC1 + 2 * (t.version.toNat % 32) := by
  intro sec hs
  obtain ⟨i, hi⟩ := List.getElem?_of_mem hs
  simp only [wire, Table.nit, List.append_assoc] at hi
  exact (sections_numbered _ _ _ _ t.tableId.toNat_lt t.networkId.toNat_lt (by omega) gs
    (fun x => sized12 0b1111 (t.network x.2) ++ sized12 0b1111 (x.1.flatMap entry)) i sec hi).2.1

/-! ## Parsing -/

/-- A section `Nit::parse` accepts: table id 0x40 (actual) or 0x41 (other), at least 16 bytes, intact. -/
def Accepts (psi : Psi) : Prop := (psi.buffer.head? = some 0x40 ∨ psi.buffer.head? = some 0x41) ∧ Intact 16 psi

theorem ids : ∀ b : UInt8, ((b &&& 0xFE) == 0x40) = true ↔ b = 0x40 ∨ b = 0x41 := by decide +kernel

theorem accepts_iff (psi : Psi) : Accepts psi ↔ Acceptable 16 (fun b => (b &&& 0xFE) == 0x40) psi := by
  unfold Accepts Acceptable
  simp only [ids]
  refine and_congr ⟨?_, ?_⟩ Iff.rfl
  · rintro (h | h) <;> exact ⟨_, h, by simp⟩
  · rintro ⟨b, h, rfl | rfl⟩
    · exact .inl h
    · exact .inr h

/-- C65: a section that is not an intact NIT section leaves the table unchanged. -/
theorem C65_nit (p : Profile) (t : Nit) (psi : Psi) (hb : psi.size < 16 ∨ psi.buffer ≠ []) (h : ¬ Accepts psi) :
    t.parse p psi = .ok t := by
  obtain ⟨b, h1, h2⟩ := gCheck_eq p 16 (by omega) (fun b => (b &&& 0xFE) == 0x40) psi hb
  unfold parse
  rw [show check p psi = _ from h1, ok_bind, if_pos (by rw [accepts_iff, ← h2] at h; simpa using h)]
  rfl

/-- What the standard says a transport stream entry means. -/
def readItem (p : Profile) (e : List UInt8) : R NitItem :=
  (fun ds => { tsid := UInt16.ofNat (field e 0 2), onid := UInt16.ofNat (field e 2 2), descriptors := ds }) <$>
    (Descriptor.frames (e.drop 6)).mapM (Desc.parse p)

theorem item_parse (p : Profile) (e : List UInt8) (h : 6 ≤ e.length) : NitItem.parse p e = readItem p e := by
  unfold NitItem.parse readItem
  rw [getU16At_ok (by omega), ok_bind, getU16At_ok (by omega), ok_bind, sliceFrom, if_pos h, ok_bind, parse_nil]
  cases (Descriptor.frames (e.drop 6)).mapM (Desc.parse p) <;> rfl

/-- network_descriptors_length. -/
def networkLength (psi : Psi) : Nat := field psi.buffer 8 2 % 4096

/-- The network descriptors and the transport stream entries of a section. -/
def networkLoop (psi : Psi) : List UInt8 := (psi.buffer.drop 10).take (networkLength psi)
/-- The entries. -/
def itemLoop (psi : Psi) : List UInt8 := (psi.buffer.take (psi.size - 4)).drop (12 + networkLength psi)

/-- C66: an accepted section whose network descriptors end before the section does replaces the fields of the table by
those of the section, and appends its network descriptors and its transport streams, in order, to those already there. -/
theorem C66_nit (p : Profile) (t : Nit) (psi : Psi) (h : Accepts psi) (hd : 12 + networkLength psi ≤ psi.size - 4) :
    t.parse p psi = (do
      let ds ← (Descriptor.frames (networkLoop psi)).mapM (Desc.parse p)
      let items ← (entries 6 (itemLoop psi)).mapM (readItem p)
      .ok { tableId := UInt8.ofNat (field psi.buffer 0 1), version := UInt8.ofNat (field psi.buffer 5 1 / 2 % 32),
            networkId := UInt16.ofNat (field psi.buffer 3 2), descriptors := t.descriptors ++ ds, items := t.items ++ items }) := by
  have hne : psi.buffer ≠ [] := by intro e; simp [Accepts, e] at h
  obtain ⟨b, h1, h2⟩ := gCheck_eq p 16 (by omega) (fun b => (b &&& 0xFE) == 0x40) psi (.inr hne)
  have hb : b = true := h2.2 ((accepts_iff psi).1 h)
  obtain ⟨-, hs, hl, -⟩ := h
  subst hb
  unfold parse
  obtain ⟨i, i1, i2⟩ := idx_field psi.buffer 0 (by omega)
  obtain ⟨v, v1, v2⟩ := idx_field psi.buffer 5 (by omega)
  have hx : (UInt16.ofNat (beNat ((psi.buffer.drop 8).take 2)) &&& (0x0FFF : UInt16)).toNat = networkLength psi := by
    rw [mask0FFF, UInt16.toNat_ofNat', Nat.mod_eq_of_lt (beNat2_lt _)]; rfl
  have hs1 : slice psi.buffer 10 (10 + networkLength psi) = .ok (networkLoop psi) := by
    rw [slice, if_pos (by omega), networkLoop, List.drop_take, Nat.add_sub_cancel_left]
  have hs2 : slice psi.buffer (12 + networkLength psi) (psi.size - 4) = .ok (itemLoop psi) := by
    rw [slice, if_pos (by omega)]; rfl
  rw [show check p psi = _ from h1, ok_bind, if_neg (by simp), i1, ok_bind, getU16At_ok (by omega), ok_bind, v1, ok_bind,
    getU16At_ok (by omega), ok_bind]
  simp only [hx]
  rw [hs1, ok_bind, C37_frames]
  cases (Descriptor.frames (networkLoop psi)).mapM (Desc.parse p) with
  | error x => rfl
  | ok ds =>
    simp only [map_ok, ok_bind]
    rw [usizeSub_ok p (by omega), ok_bind, hs2, ok_bind, nit_gParse, gParse_all 6 (by omega)]
    rw [mapM_congr (f := NitItem.parse p) (g := readItem p) fun e he => item_parse p e (entries_length 6 _ e he)]
    cases (entries 6 (itemLoop psi)).mapM (readItem p) with
    | error x => rfl
    | ok items =>
      simp only [map_ok, ok_bind, pure_eq_ok, version_field, v2]
      rw [← i2, UInt8.ofNat_toNat]
      rfl

/-- C67, what holds: parsing panics exactly for an accepted section whose network descriptors do not end before the section
does, or which contains a descriptor whose parsing panics (C38), and for one that claims a size without having any byte (which the
reassembler never holds). -/
theorem C67_nit_partial (p : Profile) (t : Nit) (psi : Psi) :
    Outcome (t.parse p psi) ((16 ≤ psi.size ∧ psi.buffer = []) ∨
      (Accepts psi ∧ (psi.size < 16 + networkLength psi ∨ LoopPanics p (networkLoop psi) ∨
        ∃ e ∈ entries 6 (itemLoop psi), LoopPanics p (e.drop 6)))) := by
  by_cases h0 : 16 ≤ psi.size ∧ psi.buffer = []
  · refine ⟨fun _ => ?_, fun hn => (hn (.inl h0)).elim⟩
    unfold parse
    rw [show check p psi = _ from gCheck_panic p 16 _ psi h0.1 h0.2]; rfl
  · by_cases ha : Accepts psi
    · by_cases hd : 12 + networkLength psi ≤ psi.size - 4
      · rw [C66_nit p t psi ha hd]
        refine Outcome.congr ((loop_outcome p _).bind fun ds _ =>
          (mapM_outcome _ _ _ fun e _ => (loop_outcome p (e.drop 6)).map _).bind fun v _ => Outcome.of_ok _) ?_
        have : ¬ psi.size < 16 + networkLength psi := by omega
        simp [ha, h0, this]
      · have hs := ha.2.1
        refine ⟨fun _ => ?_, fun hn => (hn (.inr ⟨ha, .inl (by omega)⟩)).elim⟩
        have hne : psi.buffer ≠ [] := by intro e; simp [Accepts, e] at ha
        obtain ⟨b, h1, h2⟩ := gCheck_eq p 16 (by omega) (fun b => (b &&& 0xFE) == 0x40) psi (.inr hne)
        have hb : b = true := h2.2 ((accepts_iff psi).1 ha)
        obtain ⟨-, -, hl, -⟩ := ha
        subst hb
        unfold parse
        obtain ⟨i, i1, -⟩ := idx_field psi.buffer 0 (by omega)
        obtain ⟨v, v1, -⟩ := idx_field psi.buffer 5 (by omega)
        have hx : (UInt16.ofNat (beNat ((psi.buffer.drop 8).take 2)) &&& (0x0FFF : UInt16)).toNat = networkLength psi := by
          rw [mask0FFF, UInt16.toNat_ofNat', Nat.mod_eq_of_lt (beNat2_lt _)]; rfl
        rw [show check p psi = _ from h1, ok_bind, if_neg (by simp), i1, ok_bind, getU16At_ok (by omega), ok_bind, v1, ok_bind,
          getU16At_ok (by omega), ok_bind]
        simp only [hx]
        by_cases hsl : 10 + networkLength psi ≤ psi.buffer.length
        · rw [slice, if_pos ⟨by omega, hsl⟩, ok_bind, C37_frames]
          have ho := loop_outcome p ((psi.buffer.take (10 + networkLength psi)).drop 10)
          by_cases hlp : LoopPanics p ((psi.buffer.take (10 + networkLength psi)).drop 10)
          · rw [ho.bad hlp]; rfl
          · obtain ⟨ds, hds⟩ := ho.good hlp
            rw [hds, map_ok, ok_bind, usizeSub_ok p (by omega), ok_bind, slice, if_neg (by omega)]
            rfl
        · rw [slice, if_neg (by omega)]; rfl
    · refine ⟨?_, fun _ => ⟨t, C65_nit p t psi ?_ ha⟩⟩
      · rintro (h | h)
        · exact (h0 h).elim
        · exact (ha h.1).elim
      · by_cases hb : psi.buffer = []
        · exact .inl (by by_contra hc; exact h0 ⟨by omega, hb⟩)
        · exact .inr hb

/-! ## Round trip -/

theorem entry_fields (i : NitItem) (h : ItemFits i) : field (entry i) 0 2 = i.tsid.toNat ∧ field (entry i) 2 2 = i.onid.toNat ∧
    field (entry i) 4 2 = 15 * 4096 + (i.descriptors.flatMap Desc.wire).length ∧
    (entry i).drop 6 = i.descriptors.flatMap Desc.wire := by
  obtain ⟨h5, h6⟩ := h
  have ht := i.tsid.toNat_lt
  have ho := i.onid.toNat_lt
  rw [entry_length] at h6
  simp only [entry, nitEntry, sized12, beBytes, List.cons_append, List.nil_append, field, List.drop_succ_cons, List.drop_zero,
    List.take_succ_cons, List.take_zero, beNat_two, UInt8.toNat_ofNat', Descriptor.pack, List.foldl_cons, List.foldl_nil]
  refine ⟨by omega, by omega, by omega, trivial⟩

theorem read_entry (p : Profile) (i : NitItem) (h : ItemFits i) (he : ∀ d ∈ i.descriptors, d.Exact) : readItem p (entry i) = .ok i := by
  obtain ⟨f0, f2, f3, f5⟩ := entry_fields i h
  unfold readItem
  rw [f5, frames_good p i.descriptors fun d hd => ⟨(h.1 d hd).1, he d hd⟩, map_ok, f0, f2]
  simp only [UInt16.ofNat_toNat]

/-- What is needed for a NIT to be parsed back. -/
structure InRange (t : Nit) : Prop where
  id : t.tableId = 0x40 ∨ t.tableId = 0x41
  version : t.version.toNat < 32
  network : NetworkInRange t ∧ ∀ d ∈ t.descriptors, d.Exact
  items : ∀ i ∈ t.items, ItemInRange i ∧ ∀ d ∈ i.descriptors, d.Exact

/-- The same with entries up to the size of the largest section there is. -/
structure Fits (t : Nit) : Prop where
  id : t.tableId = 0x40 ∨ t.tableId = 0x41
  version : t.version.toNat < 32
  network : NetworkFits t ∧ ∀ d ∈ t.descriptors, d.Exact
  items : ∀ i ∈ t.items, ItemFits i ∧ ∀ d ∈ i.descriptors, d.Exact

theorem InRange.toFits {t : Nit} (h : t.InRange) : t.Fits := ⟨h.id, h.version, ⟨h.network.1.fits, h.network.2⟩, fun i hi => ⟨(h.items i hi).1.fits, (h.items i hi).2⟩⟩

theorem parse_section_fits (p : Profile) (u t : Nit) (ht : t.Fits) (n l : Nat) (hn : n < 256) (hl : l < 256) (k : Nat) (g : List NitItem)
    (hg : ∀ i ∈ g, i ∈ t.items) (psi : Psi)
    (hb : psi.buffer = complete (Table.nit t.tableId.toNat t.networkId.toNat (t.version.toNat % 32) n l (t.network k) (g.flatMap entry)))
    (hs : psi.size = (complete (Table.nit t.tableId.toNat t.networkId.toNat (t.version.toNat % 32) n l (t.network k) (g.flatMap entry))).length) :
    u.parse p psi = .ok { t with descriptors := u.descriptors ++ (if k = 0 then t.descriptors else []), items := u.items ++ g } := by
  have e : Table.nit t.tableId.toNat t.networkId.toNat (t.version.toNat % 32) n l (t.network k) (g.flatMap entry) =
      header t.tableId.toNat 0b1111 t.networkId.toNat (t.version.toNat % 32) n l ++
        (sized12 0b1111 (t.network k) ++ sized12 0b1111 (g.flatMap entry)) := by
    simp [Table.nit]
  rw [e] at hb hs
  obtain ⟨s1, s2, s3, s4, s5, -, -, s8, s9, -⟩ := section_fields t.tableId.toNat 0b1111 t.networkId.toNat (t.version.toNat % 32) n l
    (sized12 0b1111 (t.network k) ++ sized12 0b1111 (g.flatMap entry)) t.tableId.toNat_lt t.networkId.toNat_lt (by omega) hn hl
  have hacc : Accepts psi := by
    refine ⟨?_, complete_intact _ (by simp; omega) psi hb hs 16 (by simp [sized12_length]; omega)⟩
    rw [hb, s2, UInt8.ofNat_toNat]
    rcases ht.id with h | h <;> simp [h]
  have hD : (t.network k).length ≤ 4080 := by
    have := ht.network.1.2
    unfold network
    split
    · omega
    · simp
  have hnl : networkLength psi = (t.network k).length := by
    have h8 := s8 0 2 (by simp [sized12_length]; omega)
    rw [← hb] at h8
    rw [networkLength, h8, field, List.drop_zero, sized12, List.append_assoc, List.take_left' (beBytes_length _ _), beNat_beBytes]
    simp only [Descriptor.pack, List.foldl_cons, List.foldl_nil]
    omega
  have hsz : psi.size = 16 + (t.network k).length + (g.flatMap entry).length := by
    rw [hs, s1]; simp only [List.length_append, sized12_length]; omega
  have hil : itemLoop psi = g.flatMap entry := by
    have h9 := s9 (4 + (t.network k).length)
    rw [← hs, ← hb] at h9
    rw [itemLoop, hnl, show 12 + (t.network k).length = 8 + (4 + (t.network k).length) by omega, h9]
    have : (sized12 0b1111 (t.network k) ++ sized12 0b1111 (g.flatMap entry)) =
        (sized12 0b1111 (t.network k) ++ beBytes 2 (Descriptor.pack [(4, 0b1111), (12, (g.flatMap entry).length)])) ++ g.flatMap entry := by
      simp [sized12]
    rw [this, List.drop_left' (by simp [sized12_length]; omega)]
  have hnlp : networkLoop psi = t.network k := by
    have h9 := s9 2
    rw [← hs, ← hb] at h9
    have h10 : networkLoop psi = ((psi.buffer.take (psi.size - 4)).drop (8 + 2)).take (t.network k).length := by
      rw [networkLoop, hnl, List.drop_take, List.take_take, Nat.min_eq_left (by omega)]
    rw [h10, h9, sized12, List.append_assoc, List.drop_left' (beBytes_length _ _), List.take_left]
  rw [← hb] at s3 s4 s5
  rw [C66_nit p u psi hacc (by omega), s3, s4, s5, hil, hnlp]
  have hdesc : (Descriptor.frames (t.network k)).mapM (Desc.parse p) = .ok (if k = 0 then t.descriptors else []) := by
    unfold network
    split
    · exact frames_good p t.descriptors fun d hd => ⟨(ht.network.1.1 d hd).1, ht.network.2 d hd⟩
    · exact frames_good p [] (by simp)
  rw [hdesc, ok_bind, entries_flatMap 6 (by omega) entry g fun i hi => ?_,
    mapM_map_ok entry (readItem p) (fun i => i) g fun i hi => read_entry p i (ht.items i (hg i hi)).1 (ht.items i (hg i hi)).2,
    ok_bind, List.map_id']
  · have hv := ht.version
    rw [Nat.mod_eq_of_lt hv, show (0xC1 + 2 * t.version.toNat) / 2 % 32 = t.version.toNat by omega]
    simp only [UInt8.ofNat_toNat, UInt16.ofNat_toNat]
  · have hr := (ht.items i (hg i hi)).1
    have h3 := (entry_fields i hr).2.2.1
    have hle := hr.2
    rw [entry_length] at hle ⊢
    unfold field at h3
    rw [h3]
    refine ⟨by omega, ?_⟩
    rw [show ∀ a b, (a * 4096 + b) % 4096 = b % 4096 from fun a b => by omega, Nat.mod_eq_of_lt (by omega)]

theorem parse_section (p : Profile) (u t : Nit) (ht : t.InRange) (n l : Nat) (hn : n < 256) (hl : l < 256) (k : Nat) (g : List NitItem)
    (hg : ∀ i ∈ g, i ∈ t.items) (psi : Psi)
    (hb : psi.buffer = complete (Table.nit t.tableId.toNat t.networkId.toNat (t.version.toNat % 32) n l (t.network k) (g.flatMap entry)))
    (hs : psi.size = (complete (Table.nit t.tableId.toNat t.networkId.toNat (t.version.toNat % 32) n l (t.network k) (g.flatMap entry))).length) :
    u.parse p psi = .ok { t with descriptors := u.descriptors ++ (if k = 0 then t.descriptors else []), items := u.items ++ g } :=
  parse_section_fits p u t ht.toFits n l hn hl k g hg psi hb hs

theorem wire_bound (t : Nit) (ht : t.Fits) (gs : List (List NitItem))
    (P : Spread (fun i => (entry i).length) 1020 (12 + (t.descriptors.flatMap Desc.wire).length) 12 t.items gs) :
    ∀ sec ∈ t.wire gs, sec.length ≤ 4096 := by
  intro sec hs
  obtain ⟨x, hx, rfl⟩ := List.mem_map.1 hs
  have hg : gs[x.2]? = some x.1 := by
    obtain ⟨h1, h2⟩ := List.mem_zipIdx' hx
    rw [List.getElem?_eq_getElem h1, ← h2]
  have h1 := spread_bound P 4092 (by omega) ht.network.1.2 (fun i hi => (ht.items i hi).1.2) _ _ hg
  have h2 := sum_size (fun i => (entry i).length) entry x.1 (fun _ _ => rfl)
  have h3 : (t.network x.2).length = if x.2 = 0 then (t.descriptors.flatMap Desc.wire).length else 0 := by
    unfold network; split <;> rfl
  rw [complete_length (by simp [Table.nit]; omega)]
  simp only [Table.nit, List.length_append, header_length, sized12_length, h2, h3]
  by_cases h0 : x.2 = 0 <;> simp only [h0, if_true, if_false] at h1 ⊢ <;> omega

theorem round_trip_fits (p : Profile) (t : Nit) (ht : t.Fits) (pid : UInt16) (cc : UInt8) (dst : List UInt8) (s : Psi) (hp : pid.toNat < 8192)
    (hc : cc.toNat < 16) :
    ∃ cc' pks s', t.demux p pid cc dst = .ok (cc', dst ++ pks.flatten) ∧ (∀ pk ∈ pks, IsTsPacket pid.toNat pk) ∧
      receive (Nit.parse p) p Nit.default s pks = .ok (t, s') := by
  obtain ⟨gs, P, hw⟩ := demux_fill p t ht.network.1 (fun i hi => (ht.items i hi).1) pid cc dst hp hc
  have h63 := wire_bound t ht gs P
  have hlong : ∀ x ∈ gs.zipIdx, 3 ≤ (Table.nit t.tableId.toNat t.networkId.toNat (t.version.toNat % 32) (x.2 % 256)
    ((gs.length - 1) % 256) (t.network x.2) (x.1.flatMap entry)).length := by intro x _; simp [Table.nit]; omega
  have hrec := receive_stream (Nit.parse p) p pid.toNat hp gs.zipIdx (fun x => complete (Table.nit t.tableId.toNat t.networkId.toNat
      (t.version.toNat % 32) (x.2 % 256) ((gs.length - 1) % 256) (t.network x.2) (x.1.flatMap entry)))
    (by
      intro x hx
      have := h63 _ (List.mem_map_of_mem hx)
      rw [complete_length (hlong x hx)] at this
      exact complete_isSection (hlong x hx) (by omega))
    (fun u x => { t with descriptors := u.descriptors ++ (if x.2 = 0 then t.descriptors else []), items := u.items ++ x.1 })
    (by
      intro u x hx psi hb hs
      have hg : x.1 ∈ gs := (List.mem_zipIdx' hx).2 ▸ List.getElem_mem _
      exact parse_section_fits p u t ht _ _ (Nat.mod_lt _ (by omega)) (Nat.mod_lt _ (by omega)) x.2 x.1 (fun i hi => mem_of_group P.all hg hi) psi hb hs)
    (by
      intro u psi hx hlt h183
      refine C65_nit p u psi (.inr (by intro e; rw [e] at h183; simp at h183)) ?_
      rintro ⟨-, -, h, -⟩
      omega)
    Nit.default s cc.toNat
  obtain ⟨s', hr⟩ := hrec
  refine ⟨_, _, s', hw, stream_packets _ _ hp _, ?_⟩
  unfold wire
  rw [hr]
  refine congrArg (fun x => Except.ok (x, s')) ?_
  have hf : ∀ (l : List (List NitItem)) (n : Nat) (u : Nit), 0 < n → u = { t with descriptors := u.descriptors, items := u.items } →
      (l.zipIdx n).foldl (fun u x => { t with descriptors := u.descriptors ++ (if x.2 = 0 then t.descriptors else []), items := u.items ++ x.1 }) u =
      { t with descriptors := u.descriptors, items := u.items ++ l.flatten } := by
    intro l
    induction l with
    | nil => intro n u _ h; rw [h]; simp
    | cons x r ih =>
      intro n u hn _
      rw [List.zipIdx_cons, List.foldl_cons, ih _ _ (by omega) rfl]
      simp [Nat.ne_of_gt hn]
  have hall := P.all
  obtain ⟨g, r, hgr⟩ := List.exists_cons_of_ne_nil P.nonempty
  rw [hgr, List.flatten_cons] at hall
  rw [hgr, List.zipIdx_cons, List.foldl_cons, hf _ _ _ (by omega) rfl]
  simp [Nit.default, hall]

/-- C56: a NIT is given back by its packets, whatever the reassembler held before and wherever the packets are appended, however
many sections it needs. -/
theorem C56_round_trip (p : Profile) (t : Nit) (ht : t.InRange) (pid : UInt16) (cc : UInt8) (dst : List UInt8) (s : Psi) (hp : pid.toNat < 8192)
    (hc : cc.toNat < 16) :
    ∃ cc' pks s', t.demux p pid cc dst = .ok (cc', dst ++ pks.flatten) ∧ (∀ pk ∈ pks, IsTsPacket pid.toNat pk) ∧
      receive (Nit.parse p) p Nit.default s pks = .ok (t, s') :=
  round_trip_fits p t ht.toFits pid cc dst s hp hc

end Nit

/-! ## Concrete cases -/

/-- A NIT with network descriptors and two transport streams. -/
def sampleNit : Nit :=
  { tableId := 0x40, version := 17, networkId := 0x1234
    descriptors := [.d40 ⟨⟨5, [0x41, 0xE9]⟩⟩, .raw ⟨0x7F, [1]⟩]
    items := [⟨1, 2, [.d44 ⟨346000000, 2, 3, 6875, 15⟩, .d41 ⟨[⟨1, 2⟩, ⟨0xFFFF, 0xFF⟩]⟩]⟩, ⟨0xFFFF, 0x8000, []⟩] }

instance Nit.decItem (i : NitItem) : Decidable (Nit.ItemInRange i) := by unfold Nit.ItemInRange; infer_instance
instance Nit.decNetwork (t : Nit) : Decidable (Nit.NetworkInRange t) := by unfold Nit.NetworkInRange; infer_instance

theorem sampleNit_inRange : sampleNit.InRange := by
  refine ⟨by decide, by decide, ?_, ?_⟩ <;> decide +kernel

example : ∃ cc' pks s', sampleNit.demux .debug 0x10 3 [] = .ok (cc', [] ++ pks.flatten) ∧ (∀ pk ∈ pks, IsTsPacket 0x10 pk) ∧
    receive (Nit.parse .debug) .debug Nit.default Psi.default pks = .ok (sampleNit, s') :=
  Nit.C56_round_trip .debug sampleNit sampleNit_inRange 0x10 3 [] Psi.default (by decide) (by decide)

/-- A NIT that needs several sections. -/
def bigNit : Nit := { sampleNit with items := List.replicate 40 ⟨1, 2, [.raw ⟨0x7F, List.replicate 98 7⟩]⟩ }
theorem bigNit_inRange : bigNit.InRange := by
  refine ⟨by decide, by decide, by decide +kernel, ?_⟩
  intro i hi
  rw [List.eq_of_mem_replicate hi]
  decide +kernel
example : ((fill (fun i => (Nit.entry i).length) 1020 12 20 bigNit.items).map List.length) = [9, 9, 9, 9, 4] := by decide +kernel

/-- C67 fails: for every table and both profiles, an intact section whose network_descriptors_length is too large makes
the parser panic. -/
theorem Nit.C67_nit_refuted (p : Profile) (t : Nit) : t.parse p { Psi.default with
    buffer := complete (header 0x40 0b1111 1 0 0 0 ++ [0xF0, 1, 0xF0, 0]), size := 16 } = panic := by
  refine (C67_nit_partial p t _).bad (.inr ⟨⟨by decide +kernel, by decide +kernel⟩, .inl ?_⟩)
  decide +kernel

end Mpegts
