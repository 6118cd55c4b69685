import Verif.Spec.Spill
import Verif.Props.Sdt
import Verif.Props.Nit
import Verif.Props.Pmt
import Verif.Props.Eit
import Verif.Props.Tdt

/-! # C105: every section that is sent states its own size

It does if it has at most 4098 bytes, the most a 12-bit length can say.  What is sent for parts of any size is given exactly; beyond
4098 bytes the length field is wrong. -/

namespace Mpegts
open Spec Spec.Table

namespace Spill

theorem complete_length {body : List UInt8} (h3 : 3 ≤ body.length) : (Spec.Spill.complete body).length = body.length + 4 := by
  simp only [Spec.Spill.complete, List.length_append, beBytes_length, List.length_take, List.length_drop]
  omega

theorem sized_length (b : Nat) (l : List UInt8) : (Spec.Spill.sized b l).length = 2 + l.length := by simp [Spec.Spill.sized]

/-- The 12-bit length of a completed section. -/
theorem complete_declared {body : List UInt8} (h3 : 3 ≤ body.length) :
    declaredSize (Spec.Spill.complete body) = 3 + (body.length + 1) % 4096 := by
  unfold declaredSize
  rw [if_pos (by rw [complete_length h3]; omega)]
  obtain ⟨a, b, c, r, rfl⟩ := exists_cons3 h3
  have hb := b.toNat_lt
  have : (Spec.Spill.complete (a :: b :: c :: r)).drop 1 =
      beBytes 2 (b.toNat / 16 * 4096 ||| ((a :: b :: c :: r).length + 1) % 65536) ++
      (r ++ beBytes 4 (crc32 ([a] ++ beBytes 2 (b.toNat / 16 * 4096 ||| ((a :: b :: c :: r).length + 1) % 65536) ++ r)).toNat) := by
    simp only [Spec.Spill.complete, List.getD_cons_succ, List.getD_cons_zero, List.take_succ_cons, List.take_zero, List.drop_succ_cons,
      List.drop_zero, List.append_assoc, List.cons_append, List.nil_append]
  rw [this, List.take_left' (beBytes_length _ _), beNat_beBytes]
  generalize (a :: b :: c :: r).length + 1 = n
  refine congrArg (3 + ·) ?_
  apply Nat.eq_of_testBit_eq
  intro i
  rw [show (256 : Nat) ^ 2 = 2 ^ 16 from rfl, show (4096 : Nat) = 2 ^ 12 from rfl, show (65536 : Nat) = 2 ^ 16 from rfl]
  simp only [Nat.testBit_mod_two_pow, Nat.testBit_or, Nat.testBit_mul_two_pow]
  by_cases h : i < 12
  · have h16 : i < 16 := by omega
    simp [h, h16]
  · simp [h]

theorem isSection_iff {body : List UInt8} (h3 : 3 ≤ body.length) :
    IsSection (Spec.Spill.complete body) ↔ (Spec.Spill.complete body).length ≤ 4098 := by
  have hd := complete_declared h3
  have hl := complete_length h3
  unfold declaredSize at hd
  rw [if_pos (by omega)] at hd
  unfold IsSection
  rw [hd, hl]
  omega

theorem finalize_eq (p : Profile) (s : Psi) (h0 : s.size = 0) (h3 : 3 ≤ s.buffer.length) :
    s.finalize p = .ok { s with buffer := Spec.Spill.complete s.buffer, size := s.buffer.length + 4 } := by
  rw [C49_finalize_any p s h0]
  simp only [Spec.Spill.complete]
  rw [List.take_of_length_le (by simp [beBytes_length]; omega)]

/-- Sections from bodies: section_number and last_section_number filled in, length and CRC added. -/
def numbered (last : UInt8) : (n : Nat) → List (List UInt8) → List (List UInt8)
  | _, [] => []
  | n, b :: r => Spec.Spill.complete ((b.set 6 (UInt8.ofNat n)).set 7 last) :: numbered last (n + 1) r

theorem psiDemuxLoop_eq (p : Profile) (pid : UInt16) (hp : pid.toNat < 8192) (last : UInt8) (L : List Psi)
    (h0 : ∀ s ∈ L, s.size = 0) (h8 : ∀ s ∈ L, 8 ≤ s.buffer.length) (n : Nat) (cc : UInt8)
    (hc : cc.toNat < 16) (dst : List UInt8) :
    psiDemuxLoop p pid last n L cc dst = .ok
      (UInt8.ofNat ((cc.toNat + streamCount (numbered last n (L.map (·.buffer)))) % 16),
       dst ++ (stream pid.toNat cc.toNat (numbered last n (L.map (·.buffer)))).flatten) := by
  induction L generalizing n cc dst with
  | nil =>
    simp [psiDemuxLoop, numbered, stream, streamCount, Nat.mod_eq_of_lt hc]
  | cons s r ih =>
    have e0 := h0 s List.mem_cons_self
    have e8 := h8 s List.mem_cons_self
    rw [psiDemuxLoop, setIdx_ok _ (by omega), ok_bind, setIdx_ok _ (by rw [List.length_set]; omega), ok_bind]
    have lb : ((s.buffer.set 6 (UInt8.ofNat n)).set 7 last).length = s.buffer.length := by simp
    rw [finalize_eq p { s with buffer := (s.buffer.set 6 (UInt8.ofNat n)).set 7 last } e0 (by simp only [lb]; omega), ok_bind]
    simp only [List.map_cons, numbered, stream]
    have lc : (Spec.Spill.complete ((s.buffer.set 6 (UInt8.ofNat n)).set 7 last)).length = s.buffer.length + 4 := by
      rw [complete_length (by omega), lb]
    generalize Spec.Spill.complete ((s.buffer.set 6 (UInt8.ofNat n)).set 7 last) = sec at *
    rw [C40_demux p _ dst (by simp only [lb]; omega) (by simp only [lb]; omega) (by exact hp) (by exact hc), ok_bind]
    simp only [lb]
    rw [← lc, List.take_length, ih (fun x hx => h0 x (List.mem_cons_of_mem _ hx)) (fun x hx => h8 x (List.mem_cons_of_mem _ hx))
      _ _ (by rw [UInt8.toNat_ofNat']; omega)]
    have e : (UInt8.ofNat ((cc.toNat + packetCount sec.length) % 16)).toNat = (cc.toNat + packetCount sec.length) % 16 := by
      rw [UInt8.toNat_ofNat']; omega
    rw [e, stream_mod]
    simp only [streamCount, List.map_cons, List.sum_cons, List.flatten_append, List.append_assoc, Nat.mod_add_mod,
      Nat.add_assoc]

theorem numbered_header {α : Type} (tableId flags ext version : Nat) (last : UInt8) (rest : α → List UInt8) (n : Nat) (l : List α) :
    numbered last n (l.map fun x => header tableId flags ext version 0 0 ++ rest x) =
      (l.zipIdx n).map fun x => Spec.Spill.complete (header tableId flags ext version (x.2 % 256) last.toNat ++ rest x.1) := by
  induction l generalizing n with
  | nil => rfl
  | cons a l ih =>
    rw [List.map_cons, numbered, header_number, ih, List.zipIdx_cons, List.map_cons, UInt8.toNat_ofNat']

theorem psiDemux_header (p : Profile) (tableId flags ext version : Nat) (rests : List (List UInt8)) (hne : rests ≠ [])
    (pid : UInt16) (cc : UInt8) (dst : List UInt8) (hp : pid.toNat < 8192) (hc : cc.toNat < 16) :
    psiDemux p (rests.map fun r => { Psi.default with buffer := header tableId flags ext version 0 0 ++ r }) pid cc dst = (
      let secs := rests.zipIdx.map fun x =>
        Spec.Spill.complete (header tableId flags ext version (x.2 % 256) ((rests.length - 1) % 256) ++ x.1)
      .ok (UInt8.ofNat ((cc.toNat + streamCount secs) % 16), dst ++ (stream pid.toNat cc.toNat secs).flatten)) := by
  rw [psiDemux, if_neg (by simpa using hne), psiDemuxLoop_eq p pid hp _ _ ?_ ?_ 0 cc hc]
  · simp only [List.map_map, Function.comp_def, List.length_map]
    rw [numbered_header tableId flags ext version _ (fun r => r) 0 rests, UInt8.toNat_ofNat']
  all_goals
    intro s hs
    obtain ⟨r, hr', rfl⟩ := List.mem_map.1 hs
  · rfl
  · simp only [List.length_append, header_length]; omega

theorem or_F000 (n : Nat) : ((0xF000 : UInt16) ||| UInt16.ofNat n).toNat = 0b1111 * 4096 ||| n % 65536 := by
  rw [UInt16.toNat_or, UInt16.toNat_ofNat']; rfl

theorem flags_word (a b : UInt8) (n : Nat) (ha : a.toNat < 8) (hb : b.toNat < 2) :
    ((((a <<< 5) ||| (b <<< 4)).toUInt16 <<< 8) ||| UInt16.ofNat n).toNat =
      Descriptor.pack [(3, a.toNat), (1, b.toNat)] * 4096 ||| n % 65536 := by
  have h : ∀ a : UInt8, a.toNat < 8 → ∀ b : UInt8, b.toNat < 2 → ((((a <<< 5) ||| (b <<< 4)).toUInt16 <<< 8)).toNat =
      Descriptor.pack [(3, a.toNat), (1, b.toNat)] * 4096 := by
    decide +kernel
  rw [UInt16.toNat_or, UInt16.toNat_ofNat', h a ha b hb]

end Spill

namespace Sdt

/-- The entry sent for a service, whatever its size. -/
def spillEntry (i : SdtItem) : List UInt8 :=
  Spec.Spill.sdtEntry i.pnr.toNat i.eitScheduleFlag.toNat i.eitPresentFollowingFlag.toNat i.runningStatus.toNat i.freeCaMode.toNat (i.descriptors.flatMap Desc.wire)

/-- The sections sent for services distributed in this way. -/
def spillWire (t : Sdt) (groups : List (List SdtItem)) : List (List UInt8) :=
  groups.zipIdx.map fun x => Spec.Spill.complete (Table.sdt t.tableId.toNat t.tsid.toNat (t.version.toNat % 32) (x.2 % 256)
    ((groups.length - 1) % 256) t.onid.toNat (x.1.flatMap spillEntry))

/-- The fields and descriptors of a service fit; its size is not limited. -/
def ItemGood (i : SdtItem) : Prop :=
  i.eitScheduleFlag.toNat < 2 ∧ i.eitPresentFollowingFlag.toNat < 2 ∧ i.runningStatus.toNat < 8 ∧ i.freeCaMode.toNat < 2 ∧ Good i.descriptors

theorem spillEntry_length (i : SdtItem) : (spillEntry i).length = 5 + (i.descriptors.flatMap Desc.wire).length := by
  simp [spillEntry, Spec.Spill.sdtEntry, Spill.sized_length]; omega

theorem assemble_spill (p : Profile) (i : SdtItem) (h : ItemGood i) (b : List UInt8) :
    i.assemble p b = .ok (b ++ spillEntry i) := by
  obtain ⟨h1, h2, h3, h4, h5⟩ := h
  unfold SdtItem.assemble
  simp only [resize_extend, show List.replicate 5 (0 : UInt8) = [0, 0, 0, 0, 0] from rfl]
  have e1 := setU16At_append b [0, 0, 0, 0, 0] 0 i.pnr
  rw [Nat.add_zero] at e1
  rw [e1, setU16At_ok _ (by simp), map_ok, ok_bind, setIdx_append_add, flags2 _ h1 _ h2]
  simp only [beBytes, List.take_zero, List.nil_append, List.cons_append, List.drop_succ_cons, List.drop_zero, setIdx_succ, setIdx_zero, map_ok,
    ok_bind, Nat.zero_add]
  rw [(C33_list_partial p i.descriptors _ h5).1, ok_bind]
  simp only []
  rw [List.append_assoc, setU16At_append, setU16At_ok _ (by simp), map_ok, Spill.flags_word _ _ _ h3 h4]
  refine congrArg (fun x => Except.ok (b ++ x)) ?_
  simp [spillEntry, Spec.Spill.sdtEntry, Spec.Spill.sized, beBytes]

theorem spill_fill (p : Profile) (t : Sdt) (hr : ∀ i ∈ t.items, ItemGood i) (pid : UInt16) (cc : UInt8) (dst : List UInt8)
    (hp : pid.toNat < 8192) (hc : cc.toNat < 16) :
    ∃ gs, Spread (fun i => (spillEntry i).length) 1020 11 11 t.items gs ∧
      t.demux p pid cc dst = .ok (UInt8.ofNat ((cc.toNat + streamCount (t.spillWire gs)) % 16),
        dst ++ (stream pid.toNat cc.toNat (t.spillWire gs)).flatten) := by
  have P := spread_fill (fun i => (spillEntry i).length) 1020 11 t.items 11
  refine ⟨_, P, ?_⟩
  have hsz : ∀ i ∈ t.items, i.size = (spillEntry i).length := fun i hi => by
    rw [spillEntry_length, SdtItem.size, (C33_list_partial .debug i.descriptors [] (hr i hi).2.2.2.2).2]
  have hfill := fill_congr SdtItem.size (fun i => (spillEntry i).length) 1020 11 t.items hsz 11
  have hne := P.nonempty
  unfold demux psiListAssemble
  rw [psiInit_eq, ok_bind, sdt_gAsm, psiInit_eq]
  rw [gAsm_eq 1020 SdtItem.size (SdtItem.assemble p) _ spillEntry t.items (fun i hi b => assemble_spill p i (hr i hi) b) hsz]
  have hl : (Table.sdt t.tableId.toNat t.tsid.toNat (t.version.toNat % 32) 0 0 t.onid.toNat []).length = 11 := by simp [Table.sdt]
  rw [hl, ok_bind, bodies_map, List.map_map, List.nil_append, hfill]
  generalize fill (fun i => (spillEntry i).length) 1020 11 11 t.items = gs at *
  have := Spill.psiDemux_header p t.tableId.toNat 0b1111 t.tsid.toNat (t.version.toNat % 32)
    (gs.map fun g => beBytes 2 t.onid.toNat ++ [0xFF] ++ g.flatMap spillEntry) (by simpa using hne) pid cc dst hp hc
  simp only [List.map_map, Function.comp_def, sdt_append] at this ⊢
  rw [this]
  simp only [spillWire, List.zipIdx_map, List.map_map, Function.comp_def, List.length_map, Table.sdt, List.append_assoc, Prod.map]
  rfl

theorem spill_length (t : Sdt) (n l : Nat) (g : List SdtItem) :
    (Table.sdt t.tableId.toNat t.tsid.toNat (t.version.toNat % 32) n l t.onid.toNat (g.flatMap spillEntry)).length =
      11 + (g.flatMap spillEntry).length := by
  simp [Table.sdt]; omega

/-- C105, the part that holds for SDTs: whatever the size of the services, all of them are sent, in order, and every section of at most
4098 bytes states its own size.  (Full property: so do all sections; false, see `C105_sdt_refuted`.) -/
theorem C105_sdt_partial (p : Profile) (t : Sdt) (hr : ∀ i ∈ t.items, ItemGood i) (pid : UInt16) (cc : UInt8) (dst : List UInt8)
    (hp : pid.toNat < 8192) (hc : cc.toNat < 16) :
    ∃ gs, Spread (fun i => (spillEntry i).length) 1020 11 11 t.items gs ∧
      t.demux p pid cc dst = .ok (UInt8.ofNat ((cc.toNat + streamCount (t.spillWire gs)) % 16),
        dst ++ (stream pid.toNat cc.toNat (t.spillWire gs)).flatten) ∧
      ∀ sec ∈ t.spillWire gs, IsSection sec ↔ sec.length ≤ 4098 := by
  obtain ⟨gs, P, h⟩ := spill_fill p t hr pid cc dst hp hc
  refine ⟨gs, P, h, fun sec hs => ?_⟩
  obtain ⟨x, -, rfl⟩ := List.mem_map.1 hs
  exact Spill.isSection_iff (by rw [spill_length]; omega)

/-- C105 fails for SDTs: a service of more than 4083 bytes is sent in a section with a wrong length. -/
theorem C105_sdt_refuted (p : Profile) (t : Sdt) (hr : ∀ i ∈ t.items, ItemGood i) (pid : UInt16) (cc : UInt8) (dst : List UInt8)
    (hp : pid.toNat < 8192) (hc : cc.toNat < 16) (i : SdtItem) (hi : i ∈ t.items)
    (ho : 4083 < 5 + (i.descriptors.flatMap Desc.wire).length) :
    ∃ cc' secs, t.demux p pid cc dst = .ok (cc', dst ++ (stream pid.toNat cc.toNat secs).flatten) ∧
      ∃ sec ∈ secs, sec.length = 20 + (i.descriptors.flatMap Desc.wire).length ∧
        declaredSize sec = 3 + (17 + (i.descriptors.flatMap Desc.wire).length) % 4096 ∧ ¬ IsSection sec := by
  obtain ⟨gs, P, h, hs⟩ := C105_sdt_partial p t hr pid cc dst hp hc
  have hl := spillEntry_length i
  obtain ⟨n, hn, hg⟩ := spread_alone P (Nat.le_refl _) i hi (by omega)
  have hm : _ ∈ t.spillWire gs := List.mem_map_of_mem (a := ([i], n)) (List.mk_mem_zipIdx_iff_getElem?.2 hg)
  have h3 := t.spill_length (n % 256) ((gs.length - 1) % 256) [i]
  simp only [List.flatMap_cons, List.flatMap_nil, List.append_nil] at h3 hm
  have h4 := Spill.complete_length (body := Table.sdt t.tableId.toNat t.tsid.toNat (t.version.toNat % 32) (n % 256)
    ((gs.length - 1) % 256) t.onid.toNat (spillEntry i)) (by omega)
  refine ⟨_, _, h, _, hm, by omega, ?_, fun e => ?_⟩
  · rw [Spill.complete_declared (by omega), h3, hl]; omega
  · have := (hs _ hm).1 e
    omega

end Sdt

namespace Pmt

/-- The entry sent for an elementary stream, whatever its size. -/
def spillEntry (i : PmtItem) : List UInt8 :=
  Spec.Spill.pmtEntry i.streamType.toNat (i.pid.toNat % 8192) (i.descriptors.flatMap Desc.wire)

/-- The sections sent for elementary streams distributed in this way. -/
def spillWire (t : Pmt) (groups : List (List PmtItem)) : List (List UInt8) :=
  groups.zipIdx.map fun x => Spec.Spill.complete (Spec.Spill.pmt t.pnr.toNat (t.version.toNat % 32) (x.2 % 256)
    ((groups.length - 1) % 256) (t.pcr.toNat % 8192) (t.program x.2) (x.1.flatMap spillEntry))

theorem spillEntry_length (i : PmtItem) : (spillEntry i).length = 5 + (i.descriptors.flatMap Desc.wire).length := by
  simp [spillEntry, Spec.Spill.pmtEntry, Spill.sized_length]; omega

theorem assemble_spill (p : Profile) (i : PmtItem) (h : Good i.descriptors) (b : List UInt8) :
    i.assemble p b = .ok (b ++ spillEntry i) := by
  unfold PmtItem.assemble
  simp only [resize_extend, show List.replicate 5 (0 : UInt8) = [0, 0, 0, 0, 0] from rfl]
  have e1 := setIdx_append_add b [0, 0, 0, 0, 0] 0 i.streamType
  rw [Nat.add_zero] at e1
  rw [e1, setIdx_zero, map_ok, ok_bind, setU16At_append, setU16At_ok _ (by simp), map_ok, ok_bind, or_E000]
  rw [(C33_list_partial p i.descriptors _ h).1, ok_bind]
  simp only []
  rw [List.append_assoc, setU16At_append, setU16At_ok _ (by simp [beBytes]), map_ok, Spill.or_F000]
  refine congrArg (fun x => Except.ok (b ++ x)) ?_
  simp [spillEntry, Spec.Spill.pmtEntry, Spec.Spill.sized, beBytes]

/-- What follows the header in the first and in the other sections. -/
def spillStart (t : Pmt) (first : Bool) : List UInt8 :=
  beBytes 2 (Descriptor.pack [(3, 0b111), (13, t.pcr.toNat % 8192)]) ++
    Spec.Spill.sized 0b1111 (if first then t.descriptors.flatMap Desc.wire else [])

theorem psiInit_spill (p : Profile) (t : Pmt) (h : Good t.descriptors) (first : Bool) :
    t.psiInit p first = .ok { Psi.default with buffer := header 0x02 0b1011 t.pnr.toNat (t.version.toNat % 32) 0 0 ++ t.spillStart first } := by
  unfold psiInit
  rw [show Psi.new p 0x02 12 t.version = Psi.new p 0x02 (8 + 4) t.version from rfl, psi_new_long, ok_bind]
  simp only [show List.replicate 4 (0 : UInt8) = [0, 0, 0, 0] from rfl, List.cons_append, List.nil_append]
  rw [setU16At_ok _ (by simp), ok_bind]
  simp only [beBytes, List.take_succ_cons, List.take_zero, List.drop_succ_cons, List.drop_zero, List.cons_append, List.nil_append]
  rw [setU16At_ok _ (by simp), ok_bind, or_E000]
  simp only [beBytes, List.take_succ_cons, List.take_zero, List.drop_succ_cons, List.drop_zero, List.cons_append, List.nil_append]
  cases first with
  | false =>
    simp only [Bool.false_eq_true, if_false, setIdx_succ, setIdx_zero, map_ok, ok_bind, pure_eq_ok, spillStart, header_eq]
    simp [Spec.Spill.sized, beBytes, Descriptor.pack]
  | true =>
    simp only [if_true]
    rw [(C33_list_partial p t.descriptors _ h).1]
    simp only [ok_bind, List.cons_append, List.nil_append]
    rw [setU16At_ok _ (by simp), ok_bind, Spill.or_F000]
    simp only [beBytes, List.take_succ_cons, List.take_zero, List.drop_succ_cons, List.drop_zero, List.cons_append, List.nil_append,
      pure_eq_ok, spillStart, header_eq]
    simp [Spec.Spill.sized, beBytes]

theorem spillStart_length (t : Pmt) (first : Bool) :
    (t.spillStart first).length = 4 + (if first then (t.descriptors.flatMap Desc.wire).length else 0) := by
  unfold spillStart
  simp only [List.length_append, beBytes_length, Spill.sized_length]
  cases first <;> simp <;> omega

theorem spillStart_program (t : Pmt) (n : Nat) : t.spillStart (n == 0) =
    beBytes 2 (Descriptor.pack [(3, 0b111), (13, t.pcr.toNat % 8192)]) ++ Spec.Spill.sized 0b1111 (t.program n) := by
  unfold spillStart program
  by_cases h : n = 0 <;> simp [h]

theorem spill_fill (p : Profile) (t : Pmt) (hn : Good t.descriptors) (hr : ∀ i ∈ t.items, Good i.descriptors) (pid : UInt16) (cc : UInt8)
    (dst : List UInt8) (hp : pid.toNat < 8192) (hc : cc.toNat < 16) :
    ∃ gs, Spread (fun i => (spillEntry i).length) 1020 (12 + (t.descriptors.flatMap Desc.wire).length) 12 t.items gs ∧
      t.demux p pid cc dst = .ok (UInt8.ofNat ((cc.toNat + streamCount (t.spillWire gs)) % 16),
        dst ++ (stream pid.toNat cc.toNat (t.spillWire gs)).flatten) := by
  have P := spread_fill (fun i => (spillEntry i).length) 1020 12 t.items (12 + (t.descriptors.flatMap Desc.wire).length)
  refine ⟨_, P, ?_⟩
  have hsz : ∀ i ∈ t.items, i.size = (spillEntry i).length := fun i hi => by
    rw [spillEntry_length, PmtItem.size, (C33_list_partial .debug i.descriptors [] (hr i hi)).2]
  have hfill := fill_congr PmtItem.size (fun i => (spillEntry i).length) 1020 12 t.items hsz
    (12 + (t.descriptors.flatMap Desc.wire).length)
  have hne := P.nonempty
  unfold demux psiListAssemble
  rw [psiInit_spill p t hn, ok_bind, pmt_gAsm, psiInit_spill p t hn]
  rw [gAsm_eq 1020 PmtItem.size (PmtItem.assemble p) _ spillEntry t.items (fun i hi b => assemble_spill p i (hr i hi) b) hsz,
    List.length_append, List.length_append, header_length, spillStart_length, spillStart_length]
  simp only [if_true, Bool.false_eq_true, if_false, Nat.add_zero, ← Nat.add_assoc, Nat.reduceAdd, hfill]
  generalize fill (fun i => (spillEntry i).length) 1020 12 (12 + (t.descriptors.flatMap Desc.wire).length) t.items = gs at *
  rw [ok_bind, bodies_zipIdx spillEntry (fun b => header 0x02 0b1011 t.pnr.toNat (t.version.toNat % 32) 0 0 ++ t.spillStart b), List.map_map,
    List.nil_append]
  have := Spill.psiDemux_header p 0x02 0b1011 t.pnr.toNat (t.version.toNat % 32)
    (gs.zipIdx.map fun x => t.spillStart (x.2 == 0) ++ x.1.flatMap spillEntry) (by simpa using hne) pid cc dst hp hc
  rw [List.map_map] at this
  simp only [Function.comp_def, List.append_assoc] at this ⊢
  rw [this]
  simp only [zipIdx_map_zipIdx, List.length_map, List.length_zipIdx, spillWire, Spec.Spill.pmt, List.append_assoc, spillStart_program]

theorem spill_length (a b c d e : Nat) (D E : List UInt8) : (Spec.Spill.pmt a b c d e D E).length = 12 + D.length + E.length := by
  simp [Spec.Spill.pmt, Spill.sized_length]; omega

/-- C105, the part that holds for PMTs: whatever the size of the program descriptors and elementary streams, all of them are sent, in
order, and every section of at most 4098 bytes states its own size.  (Full property: so do all sections; false, see
`C105_pmt_refuted`.) -/
theorem C105_pmt_partial (p : Profile) (t : Pmt) (hn : Good t.descriptors) (hr : ∀ i ∈ t.items, Good i.descriptors) (pid : UInt16)
    (cc : UInt8) (dst : List UInt8) (hp : pid.toNat < 8192) (hc : cc.toNat < 16) :
    ∃ gs, Spread (fun i => (spillEntry i).length) 1020 (12 + (t.descriptors.flatMap Desc.wire).length) 12 t.items gs ∧
      t.demux p pid cc dst = .ok (UInt8.ofNat ((cc.toNat + streamCount (t.spillWire gs)) % 16),
        dst ++ (stream pid.toNat cc.toNat (t.spillWire gs)).flatten) ∧
      ∀ sec ∈ t.spillWire gs, IsSection sec ↔ sec.length ≤ 4098 := by
  obtain ⟨gs, P, h⟩ := spill_fill p t hn hr pid cc dst hp hc
  refine ⟨gs, P, h, fun sec hs => ?_⟩
  obtain ⟨x, -, rfl⟩ := List.mem_map.1 hs
  exact Spill.isSection_iff (by rw [spill_length]; omega)

/-- C105 fails for PMTs: program descriptors of more than 4082 bytes, or an elementary stream of more than 4082 bytes, are sent in a
section with a wrong length. -/
theorem C105_pmt_refuted (p : Profile) (t : Pmt) (hn : Good t.descriptors) (hr : ∀ i ∈ t.items, Good i.descriptors) (pid : UInt16)
    (cc : UInt8) (dst : List UInt8) (hp : pid.toNat < 8192) (hc : cc.toNat < 16) (n : Nat)
    (hx : n = (t.descriptors.flatMap Desc.wire).length ∨ ∃ i ∈ t.items, n = 5 + (i.descriptors.flatMap Desc.wire).length)
    (ho : 4082 < n) :
    ∃ cc' secs, t.demux p pid cc dst = .ok (cc', dst ++ (stream pid.toNat cc.toNat secs).flatten) ∧
      ∃ sec ∈ secs, sec.length = 16 + n ∧ declaredSize sec = 3 + (13 + n) % 4096 ∧ ¬ IsSection sec := by
  obtain ⟨gs, P, h, hs⟩ := C105_pmt_partial p t hn hr pid cc dst hp hc
  refine ⟨_, _, h, ?_⟩
  have key : ∀ (k : Nat) (g : List PmtItem), gs[k]? = some g → (t.program k).length + (g.flatMap spillEntry).length = n →
      ∃ sec ∈ t.spillWire gs, sec.length = 16 + n ∧ declaredSize sec = 3 + (13 + n) % 4096 ∧ ¬ IsSection sec := by
    intro k g hg hsum
    have hm : _ ∈ t.spillWire gs := List.mem_map_of_mem (a := (g, k)) (List.mk_mem_zipIdx_iff_getElem?.2 hg)
    have h3 := spill_length t.pnr.toNat (t.version.toNat % 32) (k % 256) ((gs.length - 1) % 256) (t.pcr.toNat % 8192) (t.program k)
      (g.flatMap spillEntry)
    simp only at hm
    have h4 := Spill.complete_length (body := Spec.Spill.pmt t.pnr.toNat (t.version.toNat % 32) (k % 256) ((gs.length - 1) % 256)
      (t.pcr.toNat % 8192) (t.program k) (g.flatMap spillEntry)) (by omega)
    refine ⟨_, hm, by omega, ?_, fun e => ?_⟩
    · rw [Spill.complete_declared (by omega), h3]
      refine congrArg (3 + · % 4096) ?_
      omega
    · have := (hs _ hm).1 e
      omega
  rcases hx with rfl | ⟨i, hi, rfl⟩
  · obtain ⟨g, r, hgr⟩ := List.exists_cons_of_ne_nil P.nonempty
    have h0 : gs[0]? = some g := by rw [hgr]; rfl
    have hg : g = [] := by
      rcases P.fits 0 g h0 with h1 | h1 | h1
      · rw [if_pos rfl] at h1; omega
      · exact h1.2.1
      · exact absurd h1.1 (by omega)
    subst hg
    exact key 0 [] h0 (by simp [program])
  · have hl := spillEntry_length i
    obtain ⟨k, hk, hg⟩ := spread_alone P (by omega) i hi (by omega)
    refine key k [i] hg ?_
    unfold program
    rw [if_neg (by omega)]
    simp [hl]

end Pmt

namespace Nit

/-- The entry sent for a transport stream, whatever its size. -/
def spillEntry (i : NitItem) : List UInt8 := Spec.Spill.nitEntry i.tsid.toNat i.onid.toNat (i.descriptors.flatMap Desc.wire)

/-- The sections sent for transport streams distributed in this way. -/
def spillWire (t : Nit) (groups : List (List NitItem)) : List (List UInt8) :=
  groups.zipIdx.map fun x => Spec.Spill.complete (Spec.Spill.nit t.tableId.toNat t.networkId.toNat (t.version.toNat % 32) (x.2 % 256)
    ((groups.length - 1) % 256) (t.network x.2) (x.1.flatMap spillEntry))

theorem spillEntry_length (i : NitItem) : (spillEntry i).length = 6 + (i.descriptors.flatMap Desc.wire).length := by
  simp [spillEntry, Spec.Spill.nitEntry, Spill.sized_length]; omega

theorem assemble_spill (p : Profile) (i : NitItem) (h : Good i.descriptors) (b : List UInt8) :
    i.assemble p b = .ok (b ++ spillEntry i) := by
  unfold NitItem.assemble
  simp only [resize_extend, show List.replicate 6 (0 : UInt8) = [0, 0, 0, 0, 0, 0] from rfl]
  have e1 := setU16At_append b [0, 0, 0, 0, 0, 0] 0 i.tsid
  rw [Nat.add_zero] at e1
  rw [e1, setU16At_ok _ (by simp), map_ok, ok_bind, setU16At_append, setU16At_ok _ (by simp [beBytes]), map_ok, ok_bind]
  rw [(C33_list_partial p i.descriptors _ h).1, ok_bind]
  simp only []
  rw [List.append_assoc, setU16At_append, setU16At_ok _ (by simp [beBytes]), map_ok, Spill.or_F000]
  refine congrArg (fun x => Except.ok (b ++ x)) ?_
  simp [spillEntry, Spec.Spill.nitEntry, Spec.Spill.sized, beBytes]

/-- The start of a section before the loop length is patched in. -/
def spillStart (t : Nit) (first : Bool) : List UInt8 :=
  header t.tableId.toNat 0b1111 t.networkId.toNat (t.version.toNat % 32) 0 0 ++
    (Spec.Spill.sized 0b1111 (if first then t.descriptors.flatMap Desc.wire else []) ++ [0, 0])

theorem psiInit_spill (p : Profile) (t : Nit) (h : Good t.descriptors) (first : Bool) :
    t.psiInit p first = .ok { Psi.default with buffer := t.spillStart first } := by
  unfold psiInit
  rw [show Psi.new p t.tableId 10 t.version = Psi.new p t.tableId (8 + 2) t.version from rfl, psi_new_long, ok_bind]
  simp only [show List.replicate 2 (0 : UInt8) = [0, 0] from rfl, List.cons_append, List.nil_append, setIdx_succ, setIdx_zero, map_ok,
    ok_bind]
  rw [setU16At_ok _ (by simp), ok_bind]
  simp only [beBytes, List.take_succ_cons, List.take_zero, List.drop_succ_cons, List.drop_zero, List.cons_append, List.nil_append, setIdx_succ,
    setIdx_zero, map_ok, ok_bind]
  cases first with
  | false =>
    simp only [Bool.false_eq_true, if_false, ok_bind, pure_eq_ok, spillStart, header_eq]
    simp [Spec.Spill.sized, beBytes, Descriptor.pack]
  | true =>
    simp only [if_true]
    rw [(C33_list_partial p t.descriptors _ h).1]
    simp only [ok_bind, List.cons_append, List.nil_append]
    rw [setU16At_ok _ (by simp), ok_bind, Spill.or_F000]
    simp only [beBytes, List.take_succ_cons, List.take_zero, List.drop_succ_cons, List.drop_zero, List.cons_append, List.nil_append,
      pure_eq_ok, spillStart, header_eq]
    simp [Spec.Spill.sized, beBytes]

/-- What follows the header. -/
def spillRest (D E : List UInt8) : List UInt8 :=
  let raw := Spec.Spill.sized 0b1111 D ++ [0, 0] ++ E
  raw.take (2 + D.length % 4096) ++ beBytes 2 (0b1111 * 4096 ||| (raw.length - 2 - (2 + D.length % 4096)) % 65536) ++
    raw.drop (2 + D.length % 4096 + 2)

theorem nit_rest (tid nid v n l : Nat) (D E : List UInt8) :
    Spec.Spill.nit tid nid v n l D E = header tid 0b1111 nid v n l ++ spillRest D E := by
  have hh := header_length tid 0b1111 nid v n l
  unfold Spec.Spill.nit spillRest
  generalize header tid 0b1111 nid v n l = hd at hh ⊢
  simp only [List.append_assoc]
  generalize Spec.Spill.sized 15 D ++ ([0, 0] ++ E) = raw
  have e1 : List.take (10 + D.length % 4096) (hd ++ raw) = hd ++ raw.take (2 + D.length % 4096) := by
    rw [show 10 + D.length % 4096 = hd.length + (2 + D.length % 4096) by omega, List.take_length_add_append]
  have e2 : List.drop (10 + D.length % 4096 + 2) (hd ++ raw) = raw.drop (2 + D.length % 4096 + 2) := by
    rw [show 10 + D.length % 4096 + 2 = hd.length + (2 + D.length % 4096 + 2) by omega, List.drop_length_add_append]
  rw [e1, e2, List.length_append, hh, List.append_assoc,
    show 8 + raw.length - 2 - (10 + D.length % 4096) = raw.length - 2 - (2 + D.length % 4096) by omega]

theorem or_field (n : Nat) : (UInt16.ofNat (0b1111 * 4096 ||| n % 65536)).toNat % 4096 = n % 4096 := by
  rw [UInt16.toNat_ofNat']
  apply Nat.eq_of_testBit_eq
  intro i
  rw [show (4096 : Nat) = 2 ^ 12 from rfl, show (65536 : Nat) = 2 ^ 16 from rfl]
  simp only [Nat.testBit_mod_two_pow, Nat.testBit_or, Nat.testBit_mul_two_pow]
  by_cases h : i < 12
  · have h16 : i < 16 := by omega
    have h12 : ¬ 12 ≤ i := by omega
    simp [h, h16, h12]
  · simp [h]

theorem patchLen_spill (p : Profile) (hd D E : List UInt8) (hh : hd.length = 8) :
    patchLen p { Psi.default with buffer := hd ++ (Spec.Spill.sized 0b1111 D ++ [0, 0]) ++ E } =
      .ok { Psi.default with buffer := hd ++ spillRest D E } := by
  unfold patchLen
  have hl : (hd ++ (Spec.Spill.sized 0b1111 D ++ [0, 0]) ++ E).length = 12 + D.length + E.length := by
    simp only [List.length_append, Spill.sized_length, hh, List.length_cons, List.length_nil]; omega
  have hm := Nat.mod_le D.length 4096
  simp only [hl]
  have g : getU16At (hd ++ (Spec.Spill.sized 0b1111 D ++ [0, 0]) ++ E) 8 = .ok (UInt16.ofNat (0b1111 * 4096 ||| D.length % 65536)) := by
    rw [getU16At_ok (by rw [hl]; omega)]
    refine congrArg Except.ok ?_
    rw [List.append_assoc, List.drop_left' hh, Spec.Spill.sized]
    simp only [List.append_assoc]
    rw [List.take_left' (beBytes_length _ _), beNat_beBytes]
    apply UInt16.toNat_inj.1
    rw [UInt16.toNat_ofNat', UInt16.toNat_ofNat']
    omega
  rw [g, ok_bind, mask0FFF, or_field]
  rw [usizeSub_ok p (by omega), ok_bind, usizeSub_ok p (by omega), ok_bind, setU16At_ok _ (by rw [hl]; omega), ok_bind, Spill.or_F000,
    pure_eq_ok]
  refine congrArg (fun b => Except.ok { Psi.default with buffer := b }) ?_
  have e : hd ++ (Spec.Spill.sized 0b1111 D ++ [0, 0]) ++ E = hd ++ (Spec.Spill.sized 0b1111 D ++ [0, 0] ++ E) := by simp
  have hr : (Spec.Spill.sized 0b1111 D ++ [0, 0] ++ E).length = 4 + D.length + E.length := by
    simp only [List.length_append, Spill.sized_length, List.length_cons, List.length_nil]; omega
  rw [e]
  unfold spillRest
  simp only []
  rw [hr]
  generalize Spec.Spill.sized 15 D ++ [0, 0] ++ E = raw
  have e1 : List.take (10 + D.length % 4096) (hd ++ raw) = hd ++ raw.take (2 + D.length % 4096) := by
    rw [show 10 + D.length % 4096 = hd.length + (2 + D.length % 4096) by omega, List.take_length_add_append]
  have e2 : List.drop (10 + D.length % 4096 + 2) (hd ++ raw) = raw.drop (2 + D.length % 4096 + 2) := by
    rw [show 10 + D.length % 4096 + 2 = hd.length + (2 + D.length % 4096 + 2) by omega, List.drop_length_add_append]
  rw [e1, e2, List.append_assoc, List.append_assoc, List.append_assoc,
    show 12 + D.length + E.length - 12 - D.length % 4096 = 4 + D.length + E.length - 2 - (2 + D.length % 4096) by omega]

theorem spillStart_length (t : Nit) (first : Bool) :
    (t.spillStart first).length = 12 + (if first then (t.descriptors.flatMap Desc.wire).length else 0) := by
  unfold spillStart
  simp only [List.length_append, header_length, Spill.sized_length, List.length_cons, List.length_nil]
  cases first <;> simp <;> omega

theorem spill_fill (p : Profile) (t : Nit) (hn : Good t.descriptors) (hr : ∀ i ∈ t.items, Good i.descriptors) (pid : UInt16) (cc : UInt8)
    (dst : List UInt8) (hp : pid.toNat < 8192) (hc : cc.toNat < 16) :
    ∃ gs, Spread (fun i => (spillEntry i).length) 1020 (12 + (t.descriptors.flatMap Desc.wire).length) 12 t.items gs ∧
      t.demux p pid cc dst = .ok (UInt8.ofNat ((cc.toNat + streamCount (t.spillWire gs)) % 16),
        dst ++ (stream pid.toNat cc.toNat (t.spillWire gs)).flatten) := by
  have P := spread_fill (fun i => (spillEntry i).length) 1020 12 t.items (12 + (t.descriptors.flatMap Desc.wire).length)
  refine ⟨_, P, ?_⟩
  have hsz : ∀ i ∈ t.items, i.size = (spillEntry i).length := fun i hi => by
    rw [spillEntry_length, NitItem.size, (C33_list_partial .debug i.descriptors [] (hr i hi)).2]
  have hfill := fill_congr NitItem.size (fun i => (spillEntry i).length) 1020 12 t.items hsz
    (12 + (t.descriptors.flatMap Desc.wire).length)
  have hne := P.nonempty
  unfold demux psiListAssemble
  rw [psiInit_spill p t hn, ok_bind, nit_gAsm, psiInit_spill p t hn]
  rw [gAsm_eq 1020 NitItem.size (NitItem.assemble p) _ spillEntry t.items (fun i hi b => assemble_spill p i (hr i hi) b) hsz,
    spillStart_length, spillStart_length]
  simp only [if_true, Bool.false_eq_true, if_false, Nat.add_zero, hfill]
  generalize fill (fun i => (spillEntry i).length) 1020 12 (12 + (t.descriptors.flatMap Desc.wire).length) t.items = gs at *
  rw [ok_bind, bodies_zipIdx spillEntry t.spillStart, List.map_map, List.nil_append]
  have hpatch := patchLoop_eq p (fun x : List NitItem × Nat => { Psi.default with buffer := t.spillStart (x.2 == 0) ++ x.1.flatMap spillEntry })
    (fun x => { Psi.default with buffer := header t.tableId.toNat 0b1111 t.networkId.toNat (t.version.toNat % 32) 0 0 ++
      (spillRest (t.network x.2) (x.1.flatMap spillEntry)) }) gs.zipIdx ?_
  · simp only [Function.comp_def]
    rw [hpatch, ok_bind]
    have := Spill.psiDemux_header p t.tableId.toNat 0b1111 t.networkId.toNat (t.version.toNat % 32)
      (gs.zipIdx.map fun x => spillRest (t.network x.2) (x.1.flatMap spillEntry)) (by simpa using hne) pid cc dst hp hc
    rw [List.map_map] at this
    simp only [Function.comp_def] at this
    rw [this]
    simp only [zipIdx_map_zipIdx, List.length_map, List.length_zipIdx, spillWire, nit_rest]
  · intro x hx
    have hs : t.spillStart (x.2 == 0) = header t.tableId.toNat 0b1111 t.networkId.toNat (t.version.toNat % 32) 0 0 ++
        (Spec.Spill.sized 0b1111 (t.network x.2) ++ [0, 0]) := by
      unfold spillStart network
      by_cases h : x.2 = 0 <;> simp [h]
    rw [hs]
    exact patchLen_spill p _ _ _ (header_length _ _ _ _ _ _)

theorem spill_length (a b c d e : Nat) (D E : List UInt8) : (Spec.Spill.nit a b c d e D E).length = 12 + D.length + E.length := by
  have hm := Nat.mod_le D.length 4096
  rw [nit_rest, List.length_append, header_length, spillRest]
  simp only [List.length_append, List.length_take, List.length_drop, beBytes_length, Spill.sized_length, List.length_cons, List.length_nil]
  omega

/-- C105, the part that holds for NITs: whatever the size of the network descriptors and transport streams, all of them are sent, in
order, and every section of at most 4098 bytes states its own size.  (Full property: so do all sections; false, see
`C105_nit_refuted`.) -/
theorem C105_nit_partial (p : Profile) (t : Nit) (hn : Good t.descriptors) (hr : ∀ i ∈ t.items, Good i.descriptors) (pid : UInt16)
    (cc : UInt8) (dst : List UInt8) (hp : pid.toNat < 8192) (hc : cc.toNat < 16) :
    ∃ gs, Spread (fun i => (spillEntry i).length) 1020 (12 + (t.descriptors.flatMap Desc.wire).length) 12 t.items gs ∧
      t.demux p pid cc dst = .ok (UInt8.ofNat ((cc.toNat + streamCount (t.spillWire gs)) % 16),
        dst ++ (stream pid.toNat cc.toNat (t.spillWire gs)).flatten) ∧
      ∀ sec ∈ t.spillWire gs, IsSection sec ↔ sec.length ≤ 4098 := by
  obtain ⟨gs, P, h⟩ := spill_fill p t hn hr pid cc dst hp hc
  refine ⟨gs, P, h, fun sec hs => ?_⟩
  obtain ⟨x, -, rfl⟩ := List.mem_map.1 hs
  exact Spill.isSection_iff (by rw [spill_length]; omega)

/-- C105 fails for NITs: network descriptors of more than 4082 bytes, or a transport stream of more than 4082 bytes, are sent in a
section with a wrong length. -/
theorem C105_nit_refuted (p : Profile) (t : Nit) (hn : Good t.descriptors) (hr : ∀ i ∈ t.items, Good i.descriptors) (pid : UInt16)
    (cc : UInt8) (dst : List UInt8) (hp : pid.toNat < 8192) (hc : cc.toNat < 16) (n : Nat)
    (hx : n = (t.descriptors.flatMap Desc.wire).length ∨ ∃ i ∈ t.items, n = 6 + (i.descriptors.flatMap Desc.wire).length)
    (ho : 4082 < n) :
    ∃ cc' secs, t.demux p pid cc dst = .ok (cc', dst ++ (stream pid.toNat cc.toNat secs).flatten) ∧
      ∃ sec ∈ secs, sec.length = 16 + n ∧ declaredSize sec = 3 + (13 + n) % 4096 ∧ ¬ IsSection sec := by
  obtain ⟨gs, P, h, hs⟩ := C105_nit_partial p t hn hr pid cc dst hp hc
  refine ⟨_, _, h, ?_⟩
  have key : ∀ (k : Nat) (g : List NitItem), gs[k]? = some g → (t.network k).length + (g.flatMap spillEntry).length = n →
      ∃ sec ∈ t.spillWire gs, sec.length = 16 + n ∧ declaredSize sec = 3 + (13 + n) % 4096 ∧ ¬ IsSection sec := by
    intro k g hg hsum
    have hm : _ ∈ t.spillWire gs := List.mem_map_of_mem (a := (g, k)) (List.mk_mem_zipIdx_iff_getElem?.2 hg)
    have h3 := spill_length t.tableId.toNat t.networkId.toNat (t.version.toNat % 32) (k % 256) ((gs.length - 1) % 256) (t.network k)
      (g.flatMap spillEntry)
    simp only at hm
    have h4 := Spill.complete_length (body := Spec.Spill.nit t.tableId.toNat t.networkId.toNat (t.version.toNat % 32) (k % 256)
      ((gs.length - 1) % 256) (t.network k) (g.flatMap spillEntry)) (by omega)
    refine ⟨_, hm, by omega, ?_, fun e => ?_⟩
    · rw [Spill.complete_declared (by omega), h3]
      refine congrArg (3 + · % 4096) ?_
      omega
    · have := (hs _ hm).1 e
      omega
  rcases hx with rfl | ⟨i, hi, rfl⟩
  · obtain ⟨g, r, hgr⟩ := List.exists_cons_of_ne_nil P.nonempty
    have h0 : gs[0]? = some g := by rw [hgr]; rfl
    have hg : g = [] := by
      rcases P.fits 0 g h0 with h1 | h1 | h1
      · rw [if_pos rfl] at h1; omega
      · exact h1.2.1
      · exact absurd h1.1 (by omega)
    subst hg
    exact key 0 [] h0 (by simp [network])
  · have hl := spillEntry_length i
    obtain ⟨k, hk, hg⟩ := spread_alone P (by omega) i hi (by omega)
    refine key k [i] hg ?_
    unfold network
    rw [if_neg (by omega)]
    simp [hl]

end Nit

namespace Tot

/-- The section sent, whatever the size of the descriptors. -/
def spillWire (t : Tot) : List UInt8 := Spec.Spill.complete (Spec.Spill.tot t.time.toNat (t.descriptors.flatMap Desc.wire))

theorem spill_length (time : Nat) (D : List UInt8) : (Spec.Spill.tot time D).length = 10 + D.length := by
  simp [Spec.Spill.tot, Spill.sized_length]; omega

/-- C105, the part that holds for TOTs: whatever the size of the descriptors, one section with all of them is sent, and it states its own
size if it has at most 4098 bytes.  (Full property: also if it is larger; false, see `C105_tot_refuted`.) -/
theorem C105_tot_partial (p : Profile) (t : Tot) (ht : TimeInRange t.time) (hg : Good t.descriptors) (pid : UInt16) (cc : UInt8)
    (dst : List UInt8) (hp : pid.toNat < 8192) (hc : cc.toNat < 16) :
    t.demux p pid cc dst = .ok (UInt8.ofNat ((cc.toNat + packetCount t.spillWire.length) % 16),
        dst ++ (packets pid.toNat cc.toNat t.spillWire).flatten) ∧
      t.spillWire.length = 14 + (t.descriptors.flatMap Desc.wire).length ∧
      (IsSection t.spillWire ↔ t.spillWire.length ≤ 4098) := by
  obtain ⟨w1, v, w2, w3⟩ := write_utc p t.time ht
  have l := spill_length t.time.toNat (t.descriptors.flatMap Desc.wire)
  have lw : t.spillWire.length = 14 + (t.descriptors.flatMap Desc.wire).length := by
    rw [spillWire, Spill.complete_length (by omega), l]; omega
  refine ⟨?_, lw, Spill.isSection_iff (by omega)⟩
  have ha : t.psiAssemble p = .ok { Psi.default with buffer := Spec.Spill.tot t.time.toNat (t.descriptors.flatMap Desc.wire) } := by
    unfold psiAssemble
    have e : Psi.new p 0x73 10 0 = .ok { Psi.default with buffer := [0x73, 0xB0, 0, 0, 0, 0xC1, 0, 0, 0, 0] } := by
      cases p <;> decide
    rw [e, ok_bind]
    simp only [setIdx_succ, setIdx_zero, map_ok, ok_bind]
    rw [show resize [0x73, 0x70, 0, 0, 0, 0xC1, 0, 0, 0, (0 : UInt8)] 10 0x00 = [0x73, 0x70, 0, 0, 0, 0xC1, 0, 0, 0, 0] from rfl]
    rw [setU16At_ok _ (by simp), ok_bind, w2, ok_bind, setU24At_ok _ (by simp), ok_bind, w1, w3]
    rw [(C33_list_partial p t.descriptors _ hg).1]
    simp only [ok_bind]
    rw [setU16At_ok _ (by simp; omega), ok_bind, Spill.or_F000]
    simp [Spec.Spill.tot, Descriptor.utc, beBytes, Spec.Spill.sized, pure_eq_ok]
  unfold demux
  rw [ha, ok_bind, Spill.finalize_eq p _ rfl (by simp only [l]; omega), ok_bind]
  simp only []
  rw [show Spec.Spill.complete (Spec.Spill.tot t.time.toNat (t.descriptors.flatMap Desc.wire)) = t.spillWire from rfl]
  rw [C40_demux p _ dst (by simp only [lw]; omega) (by simp only []; omega) (by exact hp) (by exact hc), ok_bind]
  simp only [List.take_length, pure_eq_ok]

/-- C105 fails for TOTs: with more than 4084 bytes of descriptors the length of the section is wrong. -/
theorem C105_tot_refuted (p : Profile) (t : Tot) (ht : TimeInRange t.time) (hg : Good t.descriptors) (pid : UInt16) (cc : UInt8)
    (dst : List UInt8) (hp : pid.toNat < 8192) (hc : cc.toNat < 16) (ho : 4084 < (t.descriptors.flatMap Desc.wire).length) :
    ∃ cc' sec, t.demux p pid cc dst = .ok (cc', dst ++ (packets pid.toNat cc.toNat sec).flatten) ∧
      sec.length = 14 + (t.descriptors.flatMap Desc.wire).length ∧
      declaredSize sec = 3 + (11 + (t.descriptors.flatMap Desc.wire).length) % 4096 ∧ ¬ IsSection sec := by
  obtain ⟨h1, h2, h3⟩ := C105_tot_partial p t ht hg pid cc dst hp hc
  refine ⟨_, _, h1, h2, ?_, fun e => by have := h3.1 e; omega⟩
  have l := spill_length t.time.toNat (t.descriptors.flatMap Desc.wire)
  rw [spillWire, Spill.complete_declared (by omega), l]
  refine congrArg (3 + · % 4096) ?_
  omega

end Tot

namespace Eit

/-- The fields and descriptors of an event fit; its size is not limited. -/
def ItemGood (i : EitItem) : Prop :=
  TimeInRange i.start ∧ i.duration.toNat < 86400 ∧ i.status.toNat < 8 ∧ i.caMode.toNat < 2 ∧ Good i.descriptors

/-- The entry sent for an event, whatever its size. -/
def spillEntry (i : EitItem) : List UInt8 :=
  Spec.Spill.eitEntry i.eventId.toNat i.start.toNat i.duration.toNat i.status.toNat i.caMode.toNat (i.descriptors.flatMap Desc.wire)

/-- The sections sent for a present/following table: one for each event. -/
def spillWire (t : Eit) : List (List UInt8) :=
  t.items.zipIdx.map fun x => Spec.Spill.complete (Table.eit t.tableId.toNat t.pnr.toNat (t.version.toNat % 32) (x.2 % 256)
    ((t.items.length - 1) % 256) t.tsid.toNat t.onid.toNat ((t.items.length - 1) % 256) t.tableId.toNat (spillEntry x.1))

theorem spillEntry_length (i : EitItem) : (spillEntry i).length = 12 + (i.descriptors.flatMap Desc.wire).length := by
  simp [spillEntry, Spec.Spill.eitEntry, Spill.sized_length]; omega

theorem assemble_spill (p : Profile) (i : EitItem) (h : ItemGood i) (b : List UInt8) :
    i.assemble p b = .ok (b ++ spillEntry i) := by
  obtain ⟨h1, h2, h3, h4, h5⟩ := h
  obtain ⟨w1, v, w2, w3⟩ := write_utc p i.start h1
  obtain ⟨d, e3, f3⟩ := C20_to_bcd_time p i.duration
  rw [← bcd_hhmmss, Nat.mod_eq_of_lt h2] at f3
  unfold EitItem.assemble
  simp only [resize_extend, show List.replicate 12 (0 : UInt8) = [0, 0, 0, 0, 0, 0, 0, 0, 0, 0, 0, 0] from rfl]
  have e1 := setU16At_append b [0, 0, 0, 0, 0, 0, 0, 0, 0, 0, 0, 0] 0 i.eventId
  rw [Nat.add_zero] at e1
  rw [e1, setU16At_ok _ (by simp), map_ok, ok_bind, setU16At_append, setU16At_ok _ (by simp [beBytes]), map_ok, ok_bind, w1, w2, ok_bind,
    setU24At_append, setU24At_ok _ (by simp [beBytes]), map_ok, ok_bind, e3, ok_bind, setU24At_append, setU24At_ok _ (by simp [beBytes]), map_ok,
    ok_bind, w3, f3]
  rw [(C33_list_partial p i.descriptors _ h5).1, ok_bind]
  simp only []
  rw [List.append_assoc, setU16At_append, setU16At_ok _ (by simp [beBytes]), map_ok,
    show setBits8 8 [(i.status, 3), (i.caMode, 1)] = (i.status <<< 5) ||| (i.caMode <<< 4) from rfl, Spill.flags_word _ _ _ h3 h4]
  refine congrArg (fun x => Except.ok (b ++ x)) ?_
  simp [spillEntry, Spec.Spill.eitEntry, Descriptor.utc, Spec.Spill.sized, beBytes]

theorem spill_length (a b c d e f g h i : Nat) (E : List UInt8) : (Table.eit a b c d e f g h i E).length = 14 + E.length := by
  simp [Table.eit]; omega

theorem pfLoop_spill (p : Profile) (t : Eit) (last : UInt8) (l : List EitItem) (hl : ∀ i ∈ l, ItemGood i) (n : Nat) :
    pfLoop p t last n l = .ok (((l.zipIdx n).map fun x =>
      Spec.Spill.complete (Table.eit t.tableId.toNat t.pnr.toNat (t.version.toNat % 32) (x.2 % 256)
        last.toNat t.tsid.toNat t.onid.toNat last.toNat t.tableId.toNat (spillEntry x.1))).map fun b =>
        { Psi.default with buffer := b, size := b.length }) := by
  induction l generalizing n with
  | nil => rfl
  | cons i r ih =>
    have hi := hl i List.mem_cons_self
    have hd : ∀ n : Nat, t.draft t.tableId.toNat n last.toNat last.toNat t.tableId.toNat [] ++ spillEntry i =
        Table.eit t.tableId.toNat t.pnr.toNat (t.version.toNat % 32) n last.toNat t.tsid.toNat t.onid.toNat last.toNat t.tableId.toNat
          (spillEntry i) := by
      intro n; simp [draft, rest, Table.eit]
    have l14 := spill_length t.tableId.toNat t.pnr.toNat (t.version.toNat % 32) (n % 256) last.toNat t.tsid.toNat t.onid.toNat last.toNat
      t.tableId.toNat (spillEntry i)
    rw [pfLoop, psiInit_eq, ok_bind]
    simp only []
    rw [← draft, set_number, ok_bind, set_last, ok_bind, set_segment, ok_bind, set_lastTable, ok_bind, assemble_spill p i hi,
      ok_bind, hd, UInt8.toNat_ofNat', Spill.finalize_eq p _ rfl (by simp only [l14]; omega), ok_bind,
      ih (fun x hx => hl x (List.mem_cons_of_mem _ hx)), ok_bind]
    simp only [List.zipIdx_cons, List.map_cons, pure_eq_ok]
    rw [Spill.complete_length (by omega)]

/-- C105, the part that holds for present/following EITs: whatever the size of the events, each of them is sent in a section, in order,
and every section of at most 4098 bytes states its own size.  (Full property: so do all sections; false, see `C105_eit_refuted`.) -/
theorem C105_eit_partial (p : Profile) (t : Eit) (hid : t.tableId = 0x4E ∨ t.tableId = 0x4F) (hr : ∀ i ∈ t.items, ItemGood i)
    (pid : UInt16) (cc : UInt8) (dst : List UInt8) (hp : pid.toNat < 8192) (hc : cc.toNat < 16) :
    t.demux p pid cc dst = .ok (UInt8.ofNat ((cc.toNat + streamCount t.spillWire) % 16),
        dst ++ (stream pid.toNat cc.toNat t.spillWire).flatten) ∧
      ∀ sec ∈ t.spillWire, IsSection sec ↔ sec.length ≤ 4098 := by
  refine ⟨?_, fun sec hs => ?_⟩
  · unfold demux psiListAssemble
    by_cases he : t.items = []
    · simp [he, spillWire, stream, streamCount, Nat.mod_eq_of_lt hc]
    · rw [List.head?_eq_some_head he, List.getLast?_eq_some_getLast he]
      simp only []
      rw [if_pos hid, pfLoop_spill p t _ t.items hr 0, ok_bind]
      simp only [UInt8.toNat_ofNat']
      rw [show (t.items.zipIdx 0).map (fun x => Spec.Spill.complete (Table.eit t.tableId.toNat t.pnr.toNat (t.version.toNat % 32) (x.2 % 256)
        ((t.items.length - 1) % 2 ^ 8) t.tsid.toNat t.onid.toNat ((t.items.length - 1) % 2 ^ 8) t.tableId.toNat (spillEntry x.1))) =
          t.spillWire from rfl]
      rw [if_neg (by simpa [spillWire] using he), demuxLoop_eq p pid hp _ _ cc hc dst]
      intro s hs
      obtain ⟨x, hx, rfl⟩ := List.mem_map.1 hs
      refine List.ne_nil_of_length_pos ?_
      rw [Spill.complete_length (by rw [spill_length]; omega)]
      omega
  · obtain ⟨x, -, rfl⟩ := List.mem_map.1 hs
    exact Spill.isSection_iff (by rw [spill_length]; omega)

/-- C105 fails for present/following EITs: an event of more than 4080 bytes is sent in a section with a wrong length. -/
theorem C105_eit_refuted (p : Profile) (t : Eit) (hid : t.tableId = 0x4E ∨ t.tableId = 0x4F) (hr : ∀ i ∈ t.items, ItemGood i)
    (pid : UInt16) (cc : UInt8) (dst : List UInt8) (hp : pid.toNat < 8192) (hc : cc.toNat < 16) (i : EitItem) (hi : i ∈ t.items)
    (ho : 4080 < 12 + (i.descriptors.flatMap Desc.wire).length) :
    ∃ cc' secs, t.demux p pid cc dst = .ok (cc', dst ++ (stream pid.toNat cc.toNat secs).flatten) ∧
      ∃ sec ∈ secs, sec.length = 30 + (i.descriptors.flatMap Desc.wire).length ∧
        declaredSize sec = 3 + (27 + (i.descriptors.flatMap Desc.wire).length) % 4096 ∧ ¬ IsSection sec := by
  obtain ⟨h, hs⟩ := C105_eit_partial p t hid hr pid cc dst hp hc
  obtain ⟨n, hn⟩ := List.getElem?_of_mem hi
  have hm : _ ∈ t.spillWire := List.mem_map_of_mem (a := (i, n)) (List.mk_mem_zipIdx_iff_getElem?.2 hn)
  have hl := spillEntry_length i
  have h3 := spill_length t.tableId.toNat t.pnr.toNat (t.version.toNat % 32) (n % 256) ((t.items.length - 1) % 256) t.tsid.toNat
    t.onid.toNat ((t.items.length - 1) % 256) t.tableId.toNat (spillEntry i)
  simp only at hm
  have h4 := Spill.complete_length (body := Table.eit t.tableId.toNat t.pnr.toNat (t.version.toNat % 32) (n % 256)
    ((t.items.length - 1) % 256) t.tsid.toNat t.onid.toNat ((t.items.length - 1) % 256) t.tableId.toNat (spillEntry i)) (by omega)
  refine ⟨_, _, h, _, hm, by omega, ?_, fun e => ?_⟩
  · rw [Spill.complete_declared (by omega), h3, hl]
    refine congrArg (3 + · % 4096) ?_
    omega
  · have := (hs _ hm).1 e
    omega

end Eit

/-! ## A concrete case: 21 descriptors of 202 bytes -/

def giantDescriptors : Descriptors := List.replicate 21 (.raw ⟨0x7F, List.replicate 200 7⟩)

theorem giant_good : Good giantDescriptors := by decide +kernel
theorem giant_size : (giantDescriptors.flatMap Desc.wire).length = 4242 := by decide +kernel

/-- The section has 4256 bytes and says it has 160. -/
example (p : Profile) : ∃ cc' sec, Tot.demux p ⟨1700000000, giantDescriptors⟩ 0x14 3 [] = .ok (cc', [] ++ (packets 0x14 3 sec).flatten) ∧
    sec.length = 4256 ∧ declaredSize sec = 160 ∧ ¬ IsSection sec := by
  have h := Tot.C105_tot_refuted p ⟨1700000000, giantDescriptors⟩ (by unfold TimeInRange unixEpochMjd; decide) giant_good 0x14 3 []
    (by decide) (by decide) (by simp only [giant_size]; omega)
  simp only [giant_size] at h
  exact h

example (p : Profile) : ∃ cc' secs, Sdt.demux p { Sdt.default with items := [⟨1, 1, 0, 4, 1, giantDescriptors⟩] } 0x11 3 [] =
      .ok (cc', [] ++ (stream 0x11 3 secs).flatten) ∧ ∃ sec ∈ secs, sec.length = 4262 ∧ declaredSize sec = 166 ∧ ¬ IsSection sec := by
  have h := Sdt.C105_sdt_refuted p { Sdt.default with items := [⟨1, 1, 0, 4, 1, giantDescriptors⟩] }
    (by simp only [List.mem_singleton, forall_eq]; exact ⟨by decide, by decide, by decide, by decide, giant_good⟩) 0x11 3 []
    (by decide) (by decide) ⟨1, 1, 0, 4, 1, giantDescriptors⟩ (List.mem_singleton.2 rfl) (by simp only [giant_size]; omega)
  simp only [giant_size] at h
  exact h

/-- The network descriptors are as long, so the second length of the NIT is written among them. -/
example (p : Profile) : ∃ cc' secs, Nit.demux p { Nit.default with descriptors := giantDescriptors } 0x10 3 [] =
      .ok (cc', [] ++ (stream 0x10 3 secs).flatten) ∧ ∃ sec ∈ secs, sec.length = 4258 ∧ declaredSize sec = 162 ∧ ¬ IsSection sec := by
  have h := Nit.C105_nit_refuted p { Nit.default with descriptors := giantDescriptors } giant_good (by simp [Nit.default]) 0x10 3 []
    (by decide) (by decide) 4242 (.inl giant_size.symm) (by omega)
  exact h

example (p : Profile) : ∃ cc' secs, Pmt.demux p { Pmt.default with items := [⟨0x1B, 0x100, giantDescriptors⟩] } 0x10 3 [] =
      .ok (cc', [] ++ (stream 0x10 3 secs).flatten) ∧ ∃ sec ∈ secs, sec.length = 4263 ∧ declaredSize sec = 167 ∧ ¬ IsSection sec := by
  have h := Pmt.C105_pmt_refuted p { Pmt.default with items := [⟨0x1B, 0x100, giantDescriptors⟩] } (by decide +kernel)
    (by simp only [List.mem_singleton, forall_eq]; exact giant_good) 0x10 3 []
    (by decide) (by decide) 4247 (.inr ⟨_, List.mem_singleton.2 rfl, by rw [giant_size]⟩) (by omega)
  exact h

example (p : Profile) : ∃ cc' secs, Eit.demux p { Eit.default with tableId := 0x4E, items := [⟨1, 1700000000, 3600, 4, 0, giantDescriptors⟩] } 0x12 3 [] =
      .ok (cc', [] ++ (stream 0x12 3 secs).flatten) ∧ ∃ sec ∈ secs, sec.length = 4272 ∧ declaredSize sec = 176 ∧ ¬ IsSection sec := by
  have h := Eit.C105_eit_refuted p { Eit.default with tableId := 0x4E, items := [⟨1, 1700000000, 3600, 4, 0, giantDescriptors⟩] } (.inl rfl)
    (by simp only [List.mem_singleton, forall_eq]
        exact ⟨by unfold TimeInRange unixEpochMjd; decide, by decide, by decide, by decide, giant_good⟩) 0x12 3 []
    (by decide) (by decide) ⟨1, 1700000000, 3600, 4, 0, giantDescriptors⟩ (List.mem_singleton.2 rfl) (by simp only [giant_size]; omega)
  simp only [giant_size] at h
  exact h

end Mpegts
