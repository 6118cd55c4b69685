import Verif.Lemmas.TableLoops

/-! # The program association table: C53, C54, C63-C68 -/

namespace Mpegts
open Spec Spec.Table

namespace Pat

/-- The entry the standard prescribes for an item. -/
def entry (i : PatItem) : List UInt8 := patEntry i.pnr.toNat (i.pid.toNat % 8192)

/-- The section the standard prescribes for a PAT with these items. -/
def wire (t : Pat) (items : List PatItem) : List UInt8 :=
  complete (Table.pat t.tsid.toNat (t.version.toNat % 32) 0 0 (items.flatMap entry))

theorem assemble_entry (i : PatItem) (b : List UInt8) : i.assemble b = .ok (b ++ entry i) := by
  unfold PatItem.assemble
  simp only [resize_extend, show List.replicate 4 (0 : UInt8) = [0, 0, 0, 0] from rfl]
  have h1 := setU16At_append b [0, 0, 0, 0] 0 i.pnr
  rw [Nat.add_zero] at h1
  rw [h1, setU16At_ok _ (by simp), map_ok, ok_bind]
  rw [setU16At_append, setU16At_ok _ (by simp), map_ok, or_E000]
  refine congrArg (fun x => Except.ok (b ++ x)) ?_
  simp [entry, patEntry, beBytes]

theorem entry_length (i : PatItem) : (entry i).length = 4 := by simp [entry, patEntry]

theorem assembleLoop_eq (items : List PatItem) (b : List UInt8) (k : Nat) (hb : b.length + 4 * k = 1020) :
    assembleLoop items b = .ok (b ++ (items.take k).flatMap entry) := by
  induction items generalizing b k with
  | nil => simp [assembleLoop]
  | cons x r ih =>
    rw [assembleLoop]
    simp only [PatItem.size, show PAT_SECTION_SIZE = 1020 from rfl, assemble_entry]
    match k with
    | 0 => rw [if_pos (by omega)]; simp
    | k + 1 =>
      rw [if_neg (by omega), ok_bind, ih _ k (by rw [List.length_append, entry_length]; omega)]
      simp

theorem psiListAssemble_eq (p : Profile) (t : Pat) : t.psiListAssemble p = .ok [{ Psi.default with
    buffer := Table.pat t.tsid.toNat (t.version.toNat % 32) 0 0 ((t.items.take 253).flatMap entry) }] := by
  unfold psiListAssemble
  rw [show Psi.new p 0x00 8 t.version = Psi.new p 0x00 (8 + 0) t.version from rfl, psi_new_long, ok_bind]
  simp only [List.replicate_zero, List.append_nil]
  rw [setU16At_ok _ (by simp), ok_bind, assembleLoop_eq _ _ 253 (by simp), ok_bind]
  refine congrArg (fun b => Except.ok [{ Psi.default with buffer := b ++ (t.items.take 253).flatMap entry }]) ?_
  rw [header_eq]
  simp [beBytes]

/-- C54: a PAT is sent as exactly one section, the program_association_section of its first 253 items, for every
PAT. -/
theorem C54_wire (p : Profile) (t : Pat) (pid : UInt16) (cc : UInt8) (dst : List UInt8) (hp : pid.toNat < 8192)
    (hc : cc.toNat < 16) :
    t.demux p pid cc dst = .ok
      (UInt8.ofNat ((cc.toNat + packetCount (t.wire (t.items.take 253)).length) % 16),
       dst ++ (packets pid.toNat cc.toNat (t.wire (t.items.take 253))).flatten) := by
  have hl : ((t.items.take 253).flatMap entry).length = (t.items.take 253).length * 4 :=
    flatMap_length _ _ 4 fun x _ => entry_length x
  have hle : (t.items.take 253).length ≤ 253 := by rw [List.length_take]; omega
  unfold demux
  rw [psiListAssemble_eq, ok_bind, psiDemux]
  rw [if_neg (by simp), psiDemuxLoop_eq p pid hp _ _ (by simp [Psi.default]) (by simp [Table.pat])
    (by simp only [List.mem_singleton, forall_eq, Table.pat, List.length_append, header_length, hl]; omega) 0 cc hc]
  simp only [List.map_cons, List.map_nil, numbered, Table.pat, header_number, streamCount, List.sum_cons, List.sum_nil,
    stream, List.append_nil, Nat.add_zero, wire]
  rfl

/-- For C63: the section has at most 1024 bytes. -/
theorem wire_le (t : Pat) : (t.wire (t.items.take 253)).length = 12 + 4 * min 253 t.items.length ∧
    (t.wire (t.items.take 253)).length ≤ 1024 := by
  have hl : ((t.items.take 253).flatMap entry).length = (t.items.take 253).length * 4 :=
    flatMap_length _ _ 4 fun x _ => entry_length x
  rw [wire, complete_length (by simp [Table.pat]; omega)]
  rw [List.length_take] at hl
  simp only [Table.pat, List.length_append, header_length, hl]
  omega

/-! ## Parsing -/

/-- A section `Pat::parse` accepts. -/
def Accepts (psi : Psi) : Prop := psi.buffer.head? = some 0x00 ∧ Intact 12 psi

theorem check_eq (p : Profile) (psi : Psi) (hb : psi.size < 12 ∨ psi.buffer ≠ []) :
    ∃ b, check p psi = .ok b ∧ (b = true ↔ Accepts psi) := by
  unfold check
  by_cases h : psi.size ≥ 8 + 4
  · rw [if_neg (by simpa using h)]
    obtain ⟨x, r, hx⟩ := List.exists_cons_of_ne_nil (hb.resolve_left (by omega))
    have i0 : idx psi.buffer 0 = .ok x := by rw [hx]; rfl
    have e0 : psi.buffer.head? = some x := by rw [hx]; rfl
    rw [i0, ok_bind, check_intact p psi 12 (by omega) h]
    by_cases hz : x = 0x00
    · rw [if_neg (by simp [hz])]; exact ⟨_, rfl, by simp [Accepts, e0, hz]⟩
    · rw [if_pos (by simpa using hz)]; exact ⟨_, rfl, by simp [Accepts, e0, hz]⟩
  · rw [if_pos (by simpa using h)]
    exact ⟨_, rfl, by simp [Accepts, Intact]; omega⟩

/-- C65: a section that is not an intact PAT section leaves the table unchanged. -/
theorem C65_pat (p : Profile) (t : Pat) (psi : Psi) (hb : psi.size < 12 ∨ psi.buffer ≠ []) (h : ¬ Accepts psi) :
    t.parse p psi = .ok t := by
  obtain ⟨b, h1, h2⟩ := check_eq p psi hb
  unfold parse
  rw [h1, ok_bind, if_pos (by rw [← h2] at h; simpa using h)]
  rfl

theorem item_parse (c : List UInt8) (h : 4 ≤ c.length) :
    PatItem.parse c = .ok ⟨UInt16.ofNat (field c 0 2), UInt16.ofNat (field c 2 2 % 8192)⟩ := by
  unfold PatItem.parse
  rw [getU16At_ok (by omega), ok_bind, getU16At_ok (by omega), ok_bind, and_1FFF, UInt16.toNat_ofNat']
  unfold field
  rw [Nat.mod_eq_of_lt (beNat2_lt _)]
  rfl

/-- C66: an accepted section replaces version and transport stream id by those in the section and appends its programs, in
order, to those already there. -/
theorem C66_pat (p : Profile) (t : Pat) (psi : Psi) (h : Accepts psi) :
    t.parse p psi = .ok
      { version := UInt8.ofNat (field psi.buffer 5 1 / 2 % 32)
        tsid := UInt16.ofNat (field psi.buffer 3 2)
        items := t.items ++ (chunks 4 ((psi.buffer.take (psi.size - 4)).drop 8)).map fun c =>
          ⟨UInt16.ofNat (field c 0 2), UInt16.ofNat (field c 2 2 % 8192)⟩ } := by
  have hne : psi.buffer ≠ [] := by intro e; simp [Accepts, e] at h
  obtain ⟨b, h1, h2⟩ := check_eq p psi (.inr hne)
  have hb : b = true := h2.2 h
  obtain ⟨-, hs, hl, -⟩ := h
  subst hb
  unfold parse
  obtain ⟨v, v1, v2⟩ := idx_field psi.buffer 5 (by omega)
  have hsl : slice psi.buffer 8 (psi.size - 4) = .ok ((psi.buffer.take (psi.size - 4)).drop 8) := by
    rw [slice, if_pos (by omega)]
  rw [h1, ok_bind, if_neg (by simp), getU16At_ok (by omega), ok_bind, v1, ok_bind, usizeSub_ok p (by omega), ok_bind, hsl, ok_bind]
  have := pat_parseLoop_eq ((psi.buffer.take (psi.size - 4)).drop 8) [] _ (Nat.lt_succ_self _) t.items
  rw [List.nil_append, List.length_nil] at this
  rw [this]
  have hm : (chunks 4 ((psi.buffer.take (psi.size - 4)).drop 8)).mapM PatItem.parse = .ok
      ((chunks 4 ((psi.buffer.take (psi.size - 4)).drop 8)).map fun c =>
          ⟨UInt16.ofNat (field c 0 2), UInt16.ofNat (field c 2 2 % 8192)⟩) := by
    have := mapM_map_ok (fun c => c) PatItem.parse (fun c => ⟨UInt16.ofNat (field c 0 2), UInt16.ofNat (field c 2 2 % 8192)⟩)
      (chunks 4 ((psi.buffer.take (psi.size - 4)).drop 8)) (fun c hc => item_parse c (by rw [chunks_length 4 _ c hc]))
    rwa [List.map_id'] at this
  rw [hm, map_ok, ok_bind, version_field, v2]
  rfl

/-- C67: parsing a section never panics, except for one that claims a size without having any byte (which the reassembler
never holds). -/
theorem C67_pat (p : Profile) (t : Pat) (psi : Psi) :
    (12 ≤ psi.size ∧ psi.buffer = [] → t.parse p psi = panic) ∧
    (psi.size < 12 ∨ psi.buffer ≠ [] → ∃ t', t.parse p psi = .ok t') := by
  constructor
  · rintro ⟨h1, h2⟩
    unfold parse check
    rw [if_neg (by simp; omega), h2]; rfl
  · intro h
    by_cases ha : Accepts psi
    · exact ⟨_, C66_pat p t psi ha⟩
    · exact ⟨_, C65_pat p t psi h ha⟩

/-! ## Round trip -/

theorem chunk_entry (i : PatItem) : field (entry i) 0 2 = i.pnr.toNat ∧ field (entry i) 2 2 % 8192 = i.pid.toNat % 8192 := by
  have h1 := i.pnr.toNat_lt
  constructor
  · simp only [field, entry, patEntry, List.drop_zero]
    rw [List.take_left' (beBytes_length _ _), beNat_beBytes]; omega
  · simp only [field, entry, patEntry]
    rw [List.drop_left' (beBytes_length _ _), List.take_of_length_le (by simp), beNat_beBytes]
    simp only [Descriptor.pack, List.foldl_cons, List.foldl_nil]
    omega

/-- Parsing the section of a PAT. -/
theorem parse_wire (p : Profile) (u t : Pat) (psi : Psi) (items : List PatItem) (hb : psi.buffer = t.wire items)
    (hs : psi.size = (t.wire items).length) :
    u.parse p psi = .ok
      { version := UInt8.ofNat (t.version.toNat % 32)
        tsid := t.tsid
        items := u.items ++ items.map fun i => { i with pid := UInt16.ofNat (i.pid.toNat % 8192) } } := by
  have hl3 : 3 ≤ (Table.pat t.tsid.toNat (t.version.toNat % 32) 0 0 (items.flatMap entry)).length := by
    simp [Table.pat]; omega
  have hform : ∃ l1 l2 k1 k2 k3 k4, t.wire items = [0x00, l1, l2, UInt8.ofNat (t.tsid.toNat / 256), UInt8.ofNat t.tsid.toNat,
      UInt8.ofNat (Descriptor.pack [(2, 0b11), (5, t.version.toNat % 32), (1, 1)]), 0, 0] ++ items.flatMap entry ++ [k1, k2, k3, k4] := by
    obtain ⟨l1, l2, k1, k2, k3, k4, h⟩ := complete_form (UInt8.ofNat 0) (UInt8.ofNat (0b1011 * 16)) 0
      ([UInt8.ofNat (t.tsid.toNat / 256), UInt8.ofNat t.tsid.toNat,
      UInt8.ofNat (Descriptor.pack [(2, 0b11), (5, t.version.toNat % 32), (1, 1)]), UInt8.ofNat 0, UInt8.ofNat 0] ++ items.flatMap entry)
    refine ⟨l1, l2, k1, k2, k3, k4, ?_⟩
    rw [wire, Table.pat, header_eq]
    exact h
  have hacc : Accepts psi := by
    refine ⟨?_, complete_intact _ hl3 psi hb hs 12 (by simp [Table.pat])⟩
    obtain ⟨l1, l2, k1, k2, k3, k4, h⟩ := hform
    rw [hb, h]; rfl
  rw [C66_pat p u psi hacc]
  have hlen : psi.size - 4 = 8 + (items.flatMap entry).length := by
    rw [hs, wire, complete_length hl3]; simp [Table.pat, Nat.add_comm]
  obtain ⟨l1, l2, k1, k2, k3, k4, h⟩ := hform
  rw [hb, hlen, h]
  have hv := t.version.toNat_lt
  have ht := t.tsid.toNat_lt
  have f5 (x : List UInt8) : field ([0x00, l1, l2, UInt8.ofNat (t.tsid.toNat / 256), UInt8.ofNat t.tsid.toNat,
      UInt8.ofNat (Descriptor.pack [(2, 0b11), (5, t.version.toNat % 32), (1, 1)]), 0, 0] ++ x) 5 1 = 193 + t.version.toNat % 32 * 2 := by
    simp only [field, List.cons_append, List.nil_append, List.drop_succ_cons, List.drop_zero, List.take_succ_cons, List.take_zero, beNat,
      List.length_nil, Descriptor.pack, List.foldl_cons, List.foldl_nil, UInt8.toNat_ofNat']
    omega
  have f3 (x : List UInt8) : field ([0x00, l1, l2, UInt8.ofNat (t.tsid.toNat / 256), UInt8.ofNat t.tsid.toNat,
      UInt8.ofNat (Descriptor.pack [(2, 0b11), (5, t.version.toNat % 32), (1, 1)]), 0, 0] ++ x) 3 2 = t.tsid.toNat := by
    simp only [field, List.cons_append, List.nil_append, List.drop_succ_cons, List.drop_zero, List.take_succ_cons, List.take_zero,
      beNat_two, UInt8.toNat_ofNat']
    omega
  rw [List.append_assoc, f5, f3, ← List.append_assoc, List.take_left' (by simp; omega), List.drop_left' (by simp),
    chunks_flatMap 4 (by omega) entry items (fun i _ => entry_length i), List.map_map]
  simp only [show (193 + t.version.toNat % 32 * 2) / 2 % 32 = t.version.toNat % 32 by omega, UInt16.ofNat_toNat]
  refine congrArg (fun x => Except.ok (Pat.mk _ _ (u.items ++ x))) ?_
  refine List.map_congr_left fun i _ => ?_
  simp only [Function.comp_apply, (chunk_entry i).1, (chunk_entry i).2, UInt16.ofNat_toNat]

/-- For C68: the section carries the version (5 bits), which parsing puts back (`C66_pat`: bits 1 to 5 of byte 5). -/
theorem wire_version (t : Pat) (items : List PatItem) : field (t.wire items) 5 1 = 0xC1 + 2 * (t.version.toNat % 32) := by
  obtain ⟨l1, l2, k1, k2, k3, k4, h⟩ := complete_form (UInt8.ofNat 0) (UInt8.ofNat (0b1011 * 16)) 0
    ([UInt8.ofNat (t.tsid.toNat / 256), UInt8.ofNat t.tsid.toNat,
    UInt8.ofNat (Descriptor.pack [(2, 0b11), (5, t.version.toNat % 32), (1, 1)]), UInt8.ofNat 0, UInt8.ofNat 0] ++ items.flatMap entry)
  rw [wire, Table.pat, header_eq]
  simp only [List.cons_append, List.nil_append] at h ⊢
  rw [h]
  simp only [field, List.drop_succ_cons, List.drop_zero, List.take_succ_cons, List.take_zero, beNat,
      List.length_nil, Descriptor.pack, List.foldl_cons, List.foldl_nil, UInt8.toNat_ofNat']
  omega

theorem wire_isSection (t : Pat) (items : List PatItem) (h : items.length ≤ 253) : IsSection (t.wire items) := by
  have hl : (items.flatMap entry).length = items.length * 4 := flatMap_length _ _ 4 fun x _ => entry_length x
  refine complete_isSection ?_ ?_
  all_goals simp only [Table.pat, List.length_append, header_length, hl]; omega

theorem receive_wire (p : Profile) (t u : Pat) (items : List PatItem) (h : items.length ≤ 253) (s : Psi) (pid cc : Nat)
    (hp : pid < 8192) :
    ∃ s', receive (Pat.parse p) p u s (packets pid cc (t.wire items)) = .ok
      ({ version := UInt8.ofNat (t.version.toNat % 32), tsid := t.tsid,
         items := u.items ++ items.map fun i => { i with pid := UInt16.ofNat (i.pid.toNat % 8192) } }, s') := by
  rw [receive_section (Pat.parse p) p u s pid cc _ (wire_isSection t items h) hp ?_]
  · simp only []
    rw [parse_wire p u t _ items rfl rfl, ok_bind]
    exact ⟨_, rfl⟩
  · intro psi h1 h2 h3
    refine C65_pat p u psi (.inr (by intro e; rw [e] at h3; simp at h3)) ?_
    rintro ⟨-, -, h, -⟩
    omega

/-- C53: a PAT with at most 253 items is given back by its packets, whatever the reassembler held before and
wherever the packets are appended. -/
theorem C53_round_trip (p : Profile) (t : Pat) (pid : UInt16) (cc : UInt8) (dst : List UInt8) (s : Psi) (hp : pid.toNat < 8192)
    (hc : cc.toNat < 16) (hv : t.version.toNat < 32) (hn : t.items.length ≤ 253) (hi : ∀ i ∈ t.items, i.pid.toNat < 8192) :
    ∃ cc' pks s', t.demux p pid cc dst = .ok (cc', dst ++ pks.flatten) ∧ (∀ pk ∈ pks, IsTsPacket pid.toNat pk) ∧
      receive (Pat.parse p) p Pat.default s pks = .ok (t, s') := by
  have h := C54_wire p t pid cc dst hp hc
  rw [List.take_of_length_le hn] at h
  obtain ⟨s', hr⟩ := receive_wire p t Pat.default t.items hn s pid.toNat cc.toNat hp
  refine ⟨_, _, s', h, packets_isTsPacket _ _ hp _, ?_⟩
  rw [hr]
  refine congrArg (fun x => Except.ok (x, s')) ?_
  obtain ⟨version, tsid, items⟩ := t
  simp only [Pat.default, List.nil_append] at *
  rw [Nat.mod_eq_of_lt hv, UInt8.ofNat_toNat]
  congr 1
  refine map_id_of _ _ fun i him => ?_
  rw [Nat.mod_eq_of_lt (hi i him), UInt16.ofNat_toNat]

/-- C53: of a PAT with more than 253 items only the first 253 arrive. -/
theorem C53_overflow (p : Profile) (t : Pat) (pid : UInt16) (cc : UInt8) (dst : List UInt8) (s : Psi) (hp : pid.toNat < 8192)
    (hc : cc.toNat < 16) (hv : t.version.toNat < 32) (hi : ∀ i ∈ t.items, i.pid.toNat < 8192) :
    ∃ cc' pks s', t.demux p pid cc dst = .ok (cc', dst ++ pks.flatten) ∧
      receive (Pat.parse p) p Pat.default s pks = .ok ({ t with items := t.items.take 253 }, s') := by
  have h := C54_wire p t pid cc dst hp hc
  obtain ⟨s', hr⟩ := receive_wire p t Pat.default (t.items.take 253) (by rw [List.length_take]; omega) s pid.toNat cc.toNat hp
  refine ⟨_, _, s', h, ?_⟩
  rw [hr]
  refine congrArg (fun x => Except.ok (x, s')) ?_
  obtain ⟨version, tsid, items⟩ := t
  simp only [Pat.default, List.nil_append] at *
  rw [Nat.mod_eq_of_lt hv, UInt8.ofNat_toNat]
  congr 1
  refine map_id_of _ _ fun i him => ?_
  rw [Nat.mod_eq_of_lt (hi i (List.mem_of_mem_take him)), UInt16.ofNat_toNat]

end Pat

/-! ## Concrete cases -/

/-- A PAT with two programs. -/
def samplePat : Pat := { version := 5, tsid := 0x1234, items := [⟨0, 0x10⟩, ⟨1, 0x1FFE⟩] }

example : samplePat.version.toNat < 32 ∧ samplePat.items.length ≤ 253 ∧ (∀ i ∈ samplePat.items, i.pid.toNat < 8192) := by decide
example : ∃ cc' pks s', samplePat.demux .debug 0 3 [] = .ok (cc', [] ++ pks.flatten) ∧ (∀ pk ∈ pks, IsTsPacket 0 pk) ∧
    receive (Pat.parse .debug) .debug Pat.default Psi.default pks = .ok (samplePat, s') :=
  Pat.C53_round_trip .debug samplePat 0 3 [] Psi.default (by decide) (by decide) (by decide) (by decide) (by decide)
example : samplePat.wire samplePat.items = [0x00, 0xB0, 0x11, 0x12, 0x34, 0xCB, 0x00, 0x00, 0x00, 0x00, 0xE0, 0x10, 0x00, 0x01, 0xFF, 0xFE,
    0x8A, 0x39, 0x6D, 0x35] := by decide +kernel
/-- An accepted section and a rejected one. -/
example : Pat.Accepts { Psi.default with buffer := samplePat.wire samplePat.items, size := 20 } := by
  refine ⟨?_, ?_⟩ <;> decide +kernel
example : ¬ Pat.Accepts { Psi.default with buffer := (samplePat.wire samplePat.items).set 9 1, size := 20 } := by
  unfold Pat.Accepts; decide +kernel

end Mpegts
