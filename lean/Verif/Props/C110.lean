import Verif.Props.AnyDesc
import Verif.Props.C103
import Verif.Props.C105

/-! # C110: what is sent for every value of every field -/

namespace Mpegts
open Spec Spec.Table
open Spec.AnyValue (overlay distribute before)

/-! ## Descriptors and lists of descriptors -/

/-- C110, for a descriptor: whatever the values of its fields, exactly these bytes are appended (`Desc.emitted`); only a program compiled with
overflow checks panics instead, for the numbers of delivery system descriptors that `Desc.Refused` names. -/
theorem C110_descriptor (p : Profile) (d : Desc) (buf : List UInt8) :
    d.assemble p buf = if p = .debug ∧ d.Refused then panic else .ok (buf ++ d.emitted) := desc_any p d buf

/-- C110, for a descriptor: the number of bytes it is said to need, which is what decides which section an entry goes to. -/
theorem C110_size (d : Desc) : d.size = d.counted := desc_counted d

/-- Some descriptor of the list is refused. -/
instance (ds : List Desc) : Decidable (∃ d ∈ ds, d.Refused) := List.decidableBEx _ _

theorem list_any (p : Profile) (ds : List Desc) (buf : List UInt8) :
    Descriptors.assembleLoop p ds buf = if p = .debug ∧ ∃ d ∈ ds, d.Refused then panic else .ok (buf ++ ds.flatMap Desc.emitted) := by
  induction ds generalizing buf with
  | nil => simp [Descriptors.assembleLoop]
  | cons d r ih =>
    rw [Descriptors.assembleLoop, desc_any]
    by_cases h : p = .debug ∧ d.Refused
    · rw [if_pos h, if_pos ⟨h.1, d, List.mem_cons_self, h.2⟩]; rfl
    · rw [if_neg h, ok_bind, ih]
      by_cases h2 : p = .debug ∧ ∃ d ∈ r, d.Refused
      · obtain ⟨h3, x, hx, h4⟩ := h2
        rw [if_pos ⟨h3, x, hx, h4⟩, if_pos ⟨h3, x, List.mem_cons_of_mem _ hx, h4⟩]
      · rw [if_neg h2, if_neg]
        · simp
        · rintro ⟨h3, x, hx, h4⟩
          rcases List.mem_cons.1 hx with rfl | hx
          · exact h ⟨h3, h4⟩
          · exact h2 ⟨h3, x, hx, h4⟩

/-- C110, for a list of descriptors: all of them in order, and the number returned is the number of bytes appended. -/
theorem C110_list (p : Profile) (ds : Descriptors) (buf : List UInt8) :
    Descriptors.assemble p ds buf = if p = .debug ∧ ∃ d ∈ ds, d.Refused then panic else
      .ok ((ds.flatMap Desc.emitted).length, buf ++ ds.flatMap Desc.emitted) := by
  unfold Descriptors.assemble
  rw [list_any]
  by_cases h : p = .debug ∧ ∃ d ∈ ds, d.Refused
  · rw [if_pos h, if_pos h]; rfl
  · rw [if_neg h, if_neg h, ok_bind, usizeSub_ok p (by simp), ok_bind]
    simp [pure_eq_ok]

/-- C110, for a list of descriptors: the sizes are added. -/
theorem C110_list_size (ds : Descriptors) : Descriptors.size ds = (ds.map Desc.counted).sum := by
  have key : ∀ (l : List Desc) (a : Nat), l.foldl (fun acc x => acc + x.size) a = a + (l.map Desc.counted).sum := by
    intro l
    induction l with
    | nil => simp
    | cons d r ih => intro a; rw [List.foldl_cons, ih, desc_counted]; simp; omega
  rw [Descriptors.size, key, Nat.zero_add]

theorem list_ok (p : Profile) (ds : Descriptors) (h : ¬ (p = .debug ∧ ∃ d ∈ ds, d.Refused)) (buf : List UInt8) :
    Descriptors.assemble p ds buf = .ok ((ds.flatMap Desc.emitted).length, buf ++ ds.flatMap Desc.emitted) := by
  rw [C110_list, if_neg h]

/-! ## Words and times -/

theorem write_utc_any (p : Profile) (t : UInt64) : ∃ v, toBcdTime32 p t.toUInt32 = .ok v ∧
    beBytes 2 (toMjd t).toNat ++ beBytes 3 v.toNat = AnyValue.utc t.toNat := by
  obtain ⟨v, e, f⟩ := C20_to_bcd_time p t.toUInt32
  refine ⟨v, e, ?_⟩
  rw [← bcd_hhmmss, UInt64.toNat_toUInt32] at f
  rw [C22_to_mjd_late, beBytes_mod _ _ _ (by decide), f]
  rfl

theorem beBytes2_ofNat (n : Nat) : beBytes 2 (UInt16.ofNat n).toNat = beBytes 2 n := by
  rw [UInt16.toNat_ofNat', beBytes_mod _ _ _ (by decide)]

theorem word_any (a b : UInt8) (n : Nat) :
    beBytes 2 ((((a <<< 5) ||| (b <<< 4)).toUInt16 <<< 8) ||| UInt16.ofNat n).toNat =
      beBytes 2 (overlay [(3, a.toNat), (1, b.toNat)] * 4096 ||| n % 65536) := by
  have e : ((((a <<< 5) ||| (b <<< 4)).toUInt16 <<< 8) ||| UInt16.ofNat n) =
      UInt16.ofNat (overlay [(3, a.toNat), (1, b.toNat)] * 4096 ||| n % 65536) := by
    rw [u16_ofNat_or]
    congr 1
    · have h1 : ∀ a : UInt8, (a <<< 5).toUInt16 <<< 8 = UInt16.ofNat (a.toNat * 2 * 4096) := by decide +kernel
      have h2 : ∀ a : UInt8, (a <<< 4).toUInt16 <<< 8 = UInt16.ofNat (a.toNat * 4096) := by decide +kernel
      rw [UInt8.toUInt16_or, show ∀ x y : UInt16, (x ||| y) <<< 8 = x <<< 8 ||| y <<< 8 from fun x y => UInt16.shiftLeft_or, h1, h2, ← u16_ofNat_or]
      refine congrArg _ ?_
      have e (x y : Nat) : (x ||| y) * 4096 = x * 4096 ||| y * 4096 := by
        rw [show 4096 = 2 ^ 12 from rfl, ← Nat.shiftLeft_eq, ← Nat.shiftLeft_eq, ← Nat.shiftLeft_eq, Nat.shiftLeft_or_distrib]
      simp [overlay, e]
    · apply UInt16.toNat_inj.1; simp
  rw [e, beBytes2_ofNat]

/-! ## Distribution over sections -/

theorem distribute_ne {α : Type} (counted taken : α → Nat) (limit next used : Nat) (l : List α) :
    distribute counted taken limit next used l ≠ [] := by
  cases l with
  | nil => simp [distribute]
  | cons x r =>
    rw [distribute]; split
    · cases distribute counted taken limit next (used + taken x) r <;> simp [before]
    · simp

theorem gAsm_any {α : Type} (limit : Nat) (size : α → Nat) (asm : α → List UInt8 → R (List UInt8)) (next : List UInt8)
    (w : α → List UInt8) (items : List α) (ha : ∀ x ∈ items, ∀ b, asm x b = .ok (b ++ w x)) (done : List Psi) (first : List UInt8) :
    gAsm limit size asm (.ok { Psi.default with buffer := next }) items done { Psi.default with buffer := first } =
      .ok (done ++ (bodies w first next (distribute size (fun x => (w x).length) limit next.length first.length items)).map fun b =>
        { Psi.default with buffer := b }) := by
  induction items generalizing done first with
  | nil => simp [gAsm, distribute, bodies]
  | cons x r ih =>
    have ih := ih (fun y hy => ha y (List.mem_cons_of_mem _ hy))
    rw [gAsm, distribute]
    by_cases h : limit ≥ first.length + size x
    · rw [if_pos h, if_pos h]
      simp only [ha x List.mem_cons_self, ok_bind]
      have := ih done (first ++ w x)
      rw [List.length_append] at this
      rw [this]
      obtain ⟨g, gs, hg⟩ := List.exists_cons_of_ne_nil
        (distribute_ne size (fun x => (w x).length) limit next.length (first.length + (w x).length) r)
      rw [hg]
      simp [bodies, before]
    · rw [if_neg h, if_neg h]
      simp only [ha x List.mem_cons_self, ok_bind]
      have := ih (done ++ [{ Psi.default with buffer := first }]) (next ++ w x)
      rw [List.length_append] at this
      rw [this]
      obtain ⟨g, gs, hg⟩ := List.exists_cons_of_ne_nil
        (distribute_ne size (fun x => (w x).length) limit next.length (next.length + (w x).length) r)
      rw [hg]
      simp [bodies, before]

theorem anySent_of {p : Profile} (t : AnyTable) (hne : ¬ t.IsEmptyEit) {pid : UInt16} {cc : UInt8} {dst : List UInt8} {y : UInt8 × List UInt8}
    (h : ¬ (p = .debug ∧ ∃ d ∈ t.allDescriptors, d.Refused) → t.demux p pid cc dst = .ok y) :
    t.demux p pid cc dst = if p = .debug ∧ ∃ d ∈ t.allDescriptors, d.Refused then panic else .ok y := by
  by_cases hb : p = .debug ∧ ∃ d ∈ t.allDescriptors, d.Refused
  · rw [if_pos hb]
    obtain ⟨rfl, hr⟩ := hb
    exact debug_always t hne pid cc dst (.inl hr)
  · rw [if_neg hb, h hb]

/-! ## SDT -/

namespace Sdt

/-- The entry sent for a service. -/
def anyEntry (i : SdtItem) : List UInt8 :=
  AnyValue.sdtEntry i.pnr.toNat i.eitScheduleFlag.toNat i.eitPresentFollowingFlag.toNat i.runningStatus.toNat i.freeCaMode.toNat
    (i.descriptors.flatMap Desc.emitted)

/-- The services of each section: 1020 bytes, of which 11 are the header. -/
def anyGroups (t : Sdt) : List (List SdtItem) :=
  distribute (fun i => 5 + (i.descriptors.map Desc.counted).sum) (fun i => (anyEntry i).length) 1020 11 11 t.items

/-- The sections sent. -/
def anySections (t : Sdt) : List (List UInt8) :=
  t.anyGroups.zipIdx.map fun x => Spec.Spill.complete (Table.sdt t.tableId.toNat t.tsid.toNat (t.version.toNat % 32) (x.2 % 256)
    ((t.anyGroups.length - 1) % 256) t.onid.toNat (x.1.flatMap anyEntry))

theorem flags_any (a b : UInt8) : (0xFC : UInt8) ||| (a <<< 1) ||| b = UInt8.ofNat (overlay [(6, 0b111111), (1, a.toNat), (1, b.toNat)]) := by
  have s := u8_shl_any a 1 (by omega)
  simp only [UInt8.reduceOfNat] at s
  rw [s]
  simp only [overlay, u8_ofNat_or, UInt8.or_assoc]
  simp

theorem assemble_all (p : Profile) (i : SdtItem) (h : ¬ (p = .debug ∧ ∃ d ∈ i.descriptors, d.Refused)) (b : List UInt8) :
    i.assemble p b = .ok (b ++ anyEntry i) := by
  unfold SdtItem.assemble
  simp only [resize_extend, show List.replicate 5 (0 : UInt8) = [0, 0, 0, 0, 0] from rfl]
  have e1 := setU16At_append b [0, 0, 0, 0, 0] 0 i.pnr
  rw [Nat.add_zero] at e1
  rw [e1, setU16At_ok _ (by simp), map_ok, ok_bind, setIdx_append_add, flags_any]
  simp only [beBytes, List.take_zero, List.nil_append, List.cons_append, List.drop_succ_cons, List.drop_zero, setIdx_succ, setIdx_zero, map_ok,
    ok_bind, Nat.zero_add]
  rw [list_ok p i.descriptors h, ok_bind]
  simp only []
  rw [List.append_assoc, setU16At_append, setU16At_ok _ (by simp), map_ok, word_any]
  refine congrArg (fun x => Except.ok (b ++ x)) ?_
  simp [anyEntry, AnyValue.sdtEntry, Spec.Spill.sized, beBytes]

theorem counted_size (i : SdtItem) : i.size = 5 + (i.descriptors.map Desc.counted).sum := by rw [SdtItem.size, C110_list_size]

/-- C110, for SDTs: whatever the values of all fields, these sections are sent. -/
theorem C110_sdt (p : Profile) (t : Sdt) (pid : UInt16) (cc : UInt8) (dst : List UInt8) (hp : pid.toNat < 8192) (hc : cc.toNat < 16) :
    t.demux p pid cc dst = if p = .debug ∧ ∃ d ∈ t.allDescriptors, d.Refused then panic else
      .ok (UInt8.ofNat ((cc.toNat + streamCount t.anySections) % 16), dst ++ (stream pid.toNat cc.toNat t.anySections).flatten) := by
  refine anySent_of (.sdt t) id fun hb => ?_
  have hr : ∀ i ∈ t.items, ¬ (p = .debug ∧ ∃ d ∈ i.descriptors, d.Refused) := by
    rintro i hi ⟨h1, d, hd, h2⟩
    exact hb ⟨h1, d, List.mem_flatMap.2 ⟨i, hi, hd⟩, h2⟩
  show t.demux p pid cc dst = _
  unfold demux psiListAssemble
  rw [psiInit_eq, ok_bind, sdt_gAsm, psiInit_eq]
  rw [gAsm_any 1020 SdtItem.size (SdtItem.assemble p) _ anyEntry t.items (fun i hi b => assemble_all p i (hr i hi) b)]
  have hl : (Table.sdt t.tableId.toNat t.tsid.toNat (t.version.toNat % 32) 0 0 t.onid.toNat []).length = 11 := by simp [Table.sdt]
  have hne := distribute_ne SdtItem.size (fun i => (anyEntry i).length) 1020 11 11 t.items
  have hg : distribute SdtItem.size (fun i => (anyEntry i).length) 1020 11 11 t.items = t.anyGroups := by
    rw [anyGroups, ← funext counted_size]
  rw [hl, ok_bind, bodies_map, List.map_map, List.nil_append, hg]
  rw [hg] at hne
  rw [anySections]
  generalize t.anyGroups = gs at *
  have := Spill.psiDemux_header p t.tableId.toNat 0b1111 t.tsid.toNat (t.version.toNat % 32)
    (gs.map fun g => beBytes 2 t.onid.toNat ++ [0xFF] ++ g.flatMap anyEntry) (by simpa using hne) pid cc dst hp hc
  simp only [List.map_map, Function.comp_def, sdt_append] at this ⊢
  rw [this]
  simp only [List.zipIdx_map, List.map_map, Function.comp_def, List.length_map, Table.sdt, List.append_assoc, Prod.map]
  rfl

end Sdt

/-! ## PMT -/

namespace Pmt

/-- The entry sent for an elementary stream (the PID modulo 2^13). -/
def anyEntry (i : PmtItem) : List UInt8 :=
  Spec.Spill.pmtEntry i.streamType.toNat (i.pid.toNat % 8192) (i.descriptors.flatMap Desc.emitted)

/-- The elementary streams of each section: 1020 bytes, of which 12 and the program descriptors are taken in the first. -/
def anyGroups (t : Pmt) : List (List PmtItem) :=
  distribute (fun i => 5 + (i.descriptors.map Desc.counted).sum) (fun i => (anyEntry i).length) 1020 12
    (12 + (t.descriptors.flatMap Desc.emitted).length) t.items

/-- The sections sent: the program descriptors are in the first one. -/
def anySections (t : Pmt) : List (List UInt8) :=
  t.anyGroups.zipIdx.map fun x => Spec.Spill.complete (Spec.Spill.pmt t.pnr.toNat (t.version.toNat % 32) (x.2 % 256)
    ((t.anyGroups.length - 1) % 256) (t.pcr.toNat % 8192) (if x.2 = 0 then t.descriptors.flatMap Desc.emitted else []) (x.1.flatMap anyEntry))

theorem assemble_all (p : Profile) (i : PmtItem) (h : ¬ (p = .debug ∧ ∃ d ∈ i.descriptors, d.Refused)) (b : List UInt8) :
    i.assemble p b = .ok (b ++ anyEntry i) := by
  unfold PmtItem.assemble
  simp only [resize_extend, show List.replicate 5 (0 : UInt8) = [0, 0, 0, 0, 0] from rfl]
  have e1 := setIdx_append_add b [0, 0, 0, 0, 0] 0 i.streamType
  rw [Nat.add_zero] at e1
  rw [e1, setIdx_zero, map_ok, ok_bind, setU16At_append, setU16At_ok _ (by simp), map_ok, ok_bind, or_E000]
  rw [list_ok p i.descriptors h, ok_bind]
  simp only []
  rw [List.append_assoc, setU16At_append, setU16At_ok _ (by simp [beBytes]), map_ok, Spill.or_F000]
  refine congrArg (fun x => Except.ok (b ++ x)) ?_
  simp [anyEntry, Spec.Spill.pmtEntry, Spec.Spill.sized, beBytes]

/-- What follows the header in the first and in the other sections. -/
def anyStart (t : Pmt) (first : Bool) : List UInt8 :=
  beBytes 2 (Descriptor.pack [(3, 0b111), (13, t.pcr.toNat % 8192)]) ++
    Spec.Spill.sized 0b1111 (if first then t.descriptors.flatMap Desc.emitted else [])

theorem psiInit_any (p : Profile) (t : Pmt) (h : ¬ (p = .debug ∧ ∃ d ∈ t.descriptors, d.Refused)) (first : Bool) :
    t.psiInit p first = .ok { Psi.default with buffer := header 0x02 0b1011 t.pnr.toNat (t.version.toNat % 32) 0 0 ++ t.anyStart first } := by
  unfold psiInit
  rw [show Psi.new p 0x02 12 t.version = Psi.new p 0x02 (8 + 4) t.version from rfl, psi_new_long, ok_bind]
  simp only [show List.replicate 4 (0 : UInt8) = [0, 0, 0, 0] from rfl, List.cons_append, List.nil_append]
  rw [setU16At_ok _ (by simp), ok_bind]
  simp only [beBytes, List.take_succ_cons, List.take_zero, List.drop_succ_cons, List.drop_zero, List.cons_append, List.nil_append]
  rw [setU16At_ok _ (by simp), ok_bind, or_E000]
  simp only [beBytes, List.take_succ_cons, List.take_zero, List.drop_succ_cons, List.drop_zero, List.cons_append, List.nil_append]
  cases first with
  | false =>
    simp only [Bool.false_eq_true, if_false, setIdx_succ, setIdx_zero, map_ok, ok_bind, pure_eq_ok, anyStart, header_eq]
    simp [Spec.Spill.sized, beBytes, Descriptor.pack]
  | true =>
    simp only [if_true]
    rw [list_ok p t.descriptors h]
    simp only [ok_bind, List.cons_append, List.nil_append]
    rw [setU16At_ok _ (by simp), ok_bind, Spill.or_F000]
    simp only [beBytes, List.take_succ_cons, List.take_zero, List.drop_succ_cons, List.drop_zero, List.cons_append, List.nil_append,
      pure_eq_ok, anyStart, header_eq]
    simp [Spec.Spill.sized, beBytes]

theorem anyStart_length (t : Pmt) (first : Bool) :
    (t.anyStart first).length = 4 + (if first then (t.descriptors.flatMap Desc.emitted).length else 0) := by
  unfold anyStart
  simp only [List.length_append, beBytes_length, Spill.sized_length]
  cases first <;> simp <;> omega

theorem anyStart_program (t : Pmt) (n : Nat) : t.anyStart (n == 0) =
    beBytes 2 (Descriptor.pack [(3, 0b111), (13, t.pcr.toNat % 8192)]) ++
      Spec.Spill.sized 0b1111 (if n = 0 then t.descriptors.flatMap Desc.emitted else []) := by
  unfold anyStart
  by_cases h : n = 0 <;> simp [h]

theorem counted_size (i : PmtItem) : i.size = 5 + (i.descriptors.map Desc.counted).sum := by rw [PmtItem.size, C110_list_size]

/-- C110, for PMTs: whatever the values of all fields, these sections are sent. -/
theorem C110_pmt (p : Profile) (t : Pmt) (pid : UInt16) (cc : UInt8) (dst : List UInt8) (hp : pid.toNat < 8192) (hc : cc.toNat < 16) :
    t.demux p pid cc dst = if p = .debug ∧ ∃ d ∈ t.allDescriptors, d.Refused then panic else
      .ok (UInt8.ofNat ((cc.toNat + streamCount t.anySections) % 16), dst ++ (stream pid.toNat cc.toNat t.anySections).flatten) := by
  refine anySent_of (.pmt t) id fun hb => ?_
  have hn : ¬ (p = .debug ∧ ∃ d ∈ t.descriptors, d.Refused) := by
    rintro ⟨h1, d, hd, h2⟩
    exact hb ⟨h1, d, List.mem_append_left _ hd, h2⟩
  have hr : ∀ i ∈ t.items, ¬ (p = .debug ∧ ∃ d ∈ i.descriptors, d.Refused) := by
    rintro i hi ⟨h1, d, hd, h2⟩
    exact hb ⟨h1, d, List.mem_append_right _ (List.mem_flatMap.2 ⟨i, hi, hd⟩), h2⟩
  show t.demux p pid cc dst = _
  unfold demux psiListAssemble
  rw [psiInit_any p t hn, ok_bind, pmt_gAsm, psiInit_any p t hn]
  rw [gAsm_any 1020 PmtItem.size (PmtItem.assemble p) _ anyEntry t.items (fun i hi b => assemble_all p i (hr i hi) b),
    List.length_append, List.length_append, header_length, anyStart_length, anyStart_length]
  have hne := distribute_ne PmtItem.size (fun i => (anyEntry i).length) 1020 12 (12 + (t.descriptors.flatMap Desc.emitted).length) t.items
  have hg : distribute PmtItem.size (fun i => (anyEntry i).length) 1020 12 (12 + (t.descriptors.flatMap Desc.emitted).length) t.items =
      t.anyGroups := by
    rw [anyGroups, ← funext counted_size]
  simp only [if_true, Bool.false_eq_true, if_false, Nat.add_zero, ← Nat.add_assoc, Nat.reduceAdd, hg]
  rw [hg] at hne
  rw [anySections]
  generalize t.anyGroups = gs at *
  rw [ok_bind, bodies_zipIdx anyEntry (fun b => header 0x02 0b1011 t.pnr.toNat (t.version.toNat % 32) 0 0 ++ t.anyStart b), List.map_map,
    List.nil_append]
  have := Spill.psiDemux_header p 0x02 0b1011 t.pnr.toNat (t.version.toNat % 32)
    (gs.zipIdx.map fun x => t.anyStart (x.2 == 0) ++ x.1.flatMap anyEntry) (by simpa using hne) pid cc dst hp hc
  rw [List.map_map] at this
  simp only [Function.comp_def, List.append_assoc] at this ⊢
  rw [this]
  simp only [zipIdx_map_zipIdx, List.length_map, List.length_zipIdx, Spec.Spill.pmt, List.append_assoc, anyStart_program]

end Pmt

/-! ## NIT -/

namespace Nit

/-- The entry sent for a transport stream. -/
def anyEntry (i : NitItem) : List UInt8 := Spec.Spill.nitEntry i.tsid.toNat i.onid.toNat (i.descriptors.flatMap Desc.emitted)

/-- The transport streams of each section: 1020 bytes, of which 12 and the network descriptors are taken in the first. -/
def anyGroups (t : Nit) : List (List NitItem) :=
  distribute (fun i => 6 + (i.descriptors.map Desc.counted).sum) (fun i => (anyEntry i).length) 1020 12
    (12 + (t.descriptors.flatMap Desc.emitted).length) t.items

/-- The sections sent: the network descriptors are in the first one. -/
def anySections (t : Nit) : List (List UInt8) :=
  t.anyGroups.zipIdx.map fun x => Spec.Spill.complete (Spec.Spill.nit t.tableId.toNat t.networkId.toNat (t.version.toNat % 32) (x.2 % 256)
    ((t.anyGroups.length - 1) % 256) (if x.2 = 0 then t.descriptors.flatMap Desc.emitted else []) (x.1.flatMap anyEntry))

theorem assemble_all (p : Profile) (i : NitItem) (h : ¬ (p = .debug ∧ ∃ d ∈ i.descriptors, d.Refused)) (b : List UInt8) :
    i.assemble p b = .ok (b ++ anyEntry i) := by
  unfold NitItem.assemble
  simp only [resize_extend, show List.replicate 6 (0 : UInt8) = [0, 0, 0, 0, 0, 0] from rfl]
  have e1 := setU16At_append b [0, 0, 0, 0, 0, 0] 0 i.tsid
  rw [Nat.add_zero] at e1
  rw [e1, setU16At_ok _ (by simp), map_ok, ok_bind, setU16At_append, setU16At_ok _ (by simp [beBytes]), map_ok, ok_bind]
  rw [list_ok p i.descriptors h, ok_bind]
  simp only []
  rw [List.append_assoc, setU16At_append, setU16At_ok _ (by simp [beBytes]), map_ok, Spill.or_F000]
  refine congrArg (fun x => Except.ok (b ++ x)) ?_
  simp [anyEntry, Spec.Spill.nitEntry, Spec.Spill.sized, beBytes]

/-- The start of a section before the loop length is patched in. -/
def anyStart (t : Nit) (first : Bool) : List UInt8 :=
  header t.tableId.toNat 0b1111 t.networkId.toNat (t.version.toNat % 32) 0 0 ++
    (Spec.Spill.sized 0b1111 (if first then t.descriptors.flatMap Desc.emitted else []) ++ [0, 0])

theorem psiInit_any (p : Profile) (t : Nit) (h : ¬ (p = .debug ∧ ∃ d ∈ t.descriptors, d.Refused)) (first : Bool) :
    t.psiInit p first = .ok { Psi.default with buffer := t.anyStart first } := by
  unfold psiInit
  rw [show Psi.new p t.tableId 10 t.version = Psi.new p t.tableId (8 + 2) t.version from rfl, psi_new_long, ok_bind]
  simp only [show List.replicate 2 (0 : UInt8) = [0, 0] from rfl, List.cons_append, List.nil_append, setIdx_succ, setIdx_zero, map_ok,
    ok_bind]
  rw [setU16At_ok _ (by simp), ok_bind]
  simp only [beBytes, List.take_succ_cons, List.take_zero, List.drop_succ_cons, List.drop_zero, List.cons_append, List.nil_append, setIdx_succ,
    setIdx_zero, map_ok, ok_bind]
  cases first with
  | false =>
    simp only [Bool.false_eq_true, if_false, ok_bind, pure_eq_ok, anyStart, header_eq]
    simp [Spec.Spill.sized, beBytes, Descriptor.pack]
  | true =>
    simp only [if_true]
    rw [list_ok p t.descriptors h]
    simp only [ok_bind, List.cons_append, List.nil_append]
    rw [setU16At_ok _ (by simp), ok_bind, Spill.or_F000]
    simp only [beBytes, List.take_succ_cons, List.take_zero, List.drop_succ_cons, List.drop_zero, List.cons_append, List.nil_append,
      pure_eq_ok, anyStart, header_eq]
    simp [Spec.Spill.sized, beBytes]

theorem anyStart_length (t : Nit) (first : Bool) :
    (t.anyStart first).length = 12 + (if first then (t.descriptors.flatMap Desc.emitted).length else 0) := by
  unfold anyStart
  simp only [List.length_append, header_length, Spill.sized_length, List.length_cons, List.length_nil]
  cases first <;> simp <;> omega

theorem counted_size (i : NitItem) : i.size = 6 + (i.descriptors.map Desc.counted).sum := by rw [NitItem.size, C110_list_size]

/-- C110, for NITs: whatever the values of all fields, these sections are sent. -/
theorem C110_nit (p : Profile) (t : Nit) (pid : UInt16) (cc : UInt8) (dst : List UInt8) (hp : pid.toNat < 8192) (hc : cc.toNat < 16) :
    t.demux p pid cc dst = if p = .debug ∧ ∃ d ∈ t.allDescriptors, d.Refused then panic else
      .ok (UInt8.ofNat ((cc.toNat + streamCount t.anySections) % 16), dst ++ (stream pid.toNat cc.toNat t.anySections).flatten) := by
  refine anySent_of (.nit t) id fun hb => ?_
  have hn : ¬ (p = .debug ∧ ∃ d ∈ t.descriptors, d.Refused) := by
    rintro ⟨h1, d, hd, h2⟩
    exact hb ⟨h1, d, List.mem_append_left _ hd, h2⟩
  have hr : ∀ i ∈ t.items, ¬ (p = .debug ∧ ∃ d ∈ i.descriptors, d.Refused) := by
    rintro i hi ⟨h1, d, hd, h2⟩
    exact hb ⟨h1, d, List.mem_append_right _ (List.mem_flatMap.2 ⟨i, hi, hd⟩), h2⟩
  show t.demux p pid cc dst = _
  unfold demux psiListAssemble
  rw [psiInit_any p t hn, ok_bind, nit_gAsm, psiInit_any p t hn]
  rw [gAsm_any 1020 NitItem.size (NitItem.assemble p) _ anyEntry t.items (fun i hi b => assemble_all p i (hr i hi) b),
    anyStart_length, anyStart_length]
  have hne := distribute_ne NitItem.size (fun i => (anyEntry i).length) 1020 12 (12 + (t.descriptors.flatMap Desc.emitted).length) t.items
  have hg : distribute NitItem.size (fun i => (anyEntry i).length) 1020 12 (12 + (t.descriptors.flatMap Desc.emitted).length) t.items =
      t.anyGroups := by
    rw [anyGroups, ← funext counted_size]
  simp only [if_true, Bool.false_eq_true, if_false, Nat.add_zero, hg]
  rw [hg] at hne
  rw [anySections]
  generalize t.anyGroups = gs at *
  rw [ok_bind, bodies_zipIdx anyEntry t.anyStart, List.map_map, List.nil_append]
  have hpatch := patchLoop_eq p (fun x : List NitItem × Nat => { Psi.default with buffer := t.anyStart (x.2 == 0) ++ x.1.flatMap anyEntry })
    (fun x => { Psi.default with buffer := header t.tableId.toNat 0b1111 t.networkId.toNat (t.version.toNat % 32) 0 0 ++
      (spillRest (if x.2 = 0 then t.descriptors.flatMap Desc.emitted else []) (x.1.flatMap anyEntry)) }) gs.zipIdx ?_
  · simp only [Function.comp_def]
    rw [hpatch, ok_bind]
    have := Spill.psiDemux_header p t.tableId.toNat 0b1111 t.networkId.toNat (t.version.toNat % 32)
      (gs.zipIdx.map fun x => spillRest (if x.2 = 0 then t.descriptors.flatMap Desc.emitted else []) (x.1.flatMap anyEntry)) (by simpa using hne)
      pid cc dst hp hc
    rw [List.map_map] at this
    simp only [Function.comp_def] at this
    rw [this]
    simp only [zipIdx_map_zipIdx, List.length_map, List.length_zipIdx, nit_rest]
  · intro x hx
    have hs : t.anyStart (x.2 == 0) = header t.tableId.toNat 0b1111 t.networkId.toNat (t.version.toNat % 32) 0 0 ++
        (Spec.Spill.sized 0b1111 (if x.2 = 0 then t.descriptors.flatMap Desc.emitted else []) ++ [0, 0]) := by
      unfold anyStart
      by_cases h : x.2 = 0 <;> simp [h]
    rw [hs]
    exact patchLen_spill p _ _ _ (header_length _ _ _ _ _ _)

end Nit

/-! ## TDT and TOT -/

namespace Tdt

/-- C110, for TDTs: whatever the time, this section is sent. -/
theorem C110_tdt (p : Profile) (t : Tdt) (pid : UInt16) (cc : UInt8) (dst : List UInt8) (hp : pid.toNat < 8192) (hc : cc.toNat < 16) :
    t.demux p pid cc dst = .ok (UInt8.ofNat ((cc.toNat + 1) % 16),
      dst ++ (packets pid.toNat cc.toNat ([0x70, 0x70, 0x05] ++ AnyValue.utc t.time.toNat)).flatten) := by
  obtain ⟨v, w1, w2⟩ := write_utc_any p t.time
  have ha : t.psiAssemble p = .ok { Psi.default with buffer := [0x70, 0x70, 0x05] ++ AnyValue.utc t.time.toNat } := by
    unfold psiAssemble
    have e : Psi.new p 0x70 3 0 = .ok { Psi.default with buffer := [0x70, 0xB0, 0] } := by cases p <;> decide
    rw [e, ok_bind]
    simp only [setIdx_succ, setIdx_zero, map_ok, ok_bind]
    rw [show resize [0x70, 0x70, (5 : UInt8)] 8 0x00 = [0x70, 0x70, 5, 0, 0, 0, 0, 0] from rfl]
    rw [setU16At_ok _ (by simp), ok_bind, w1, ok_bind, setU24At_ok _ (by simp), ok_bind, ← w2]
    simp [beBytes, pure_eq_ok]
  have hl : ([0x70, 0x70, 0x05] ++ AnyValue.utc t.time.toNat).length = 8 := by simp [AnyValue.utc]
  unfold demux
  rw [ha, ok_bind]
  simp only []
  rw [C40_demux p _ dst (by simp only [hl]; omega) (by simp only []; omega) (by exact hp) (by exact hc), ok_bind]
  simp only [List.take_length, pure_eq_ok]
  rw [hl]
  rfl

end Tdt

namespace Tot

/-- The section sent. -/
def anySection (t : Tot) : List UInt8 := Spec.Spill.complete (AnyValue.tot t.time.toNat (t.descriptors.flatMap Desc.emitted))

theorem any_length (time : Nat) (D : List UInt8) : (AnyValue.tot time D).length = 10 + D.length := by
  simp [AnyValue.tot, AnyValue.utc, Spill.sized_length]; omega

/-- C110, for TOTs: whatever the time and the descriptors, this section is sent. -/
theorem C110_tot (p : Profile) (t : Tot) (pid : UInt16) (cc : UInt8) (dst : List UInt8) (hp : pid.toNat < 8192) (hc : cc.toNat < 16) :
    t.demux p pid cc dst = if p = .debug ∧ ∃ d ∈ t.allDescriptors, d.Refused then panic else
      .ok (UInt8.ofNat ((cc.toNat + packetCount t.anySection.length) % 16), dst ++ (packets pid.toNat cc.toNat t.anySection).flatten) := by
  refine anySent_of (.tot t) id fun hb => ?_
  show t.demux p pid cc dst = _
  obtain ⟨v, w1, w2⟩ := write_utc_any p t.time
  have l := any_length t.time.toNat (t.descriptors.flatMap Desc.emitted)
  have lw : t.anySection.length = 14 + (t.descriptors.flatMap Desc.emitted).length := by
    rw [anySection, Spill.complete_length (by omega), l]; omega
  have ha : t.psiAssemble p = .ok { Psi.default with buffer := AnyValue.tot t.time.toNat (t.descriptors.flatMap Desc.emitted) } := by
    unfold psiAssemble
    have e : Psi.new p 0x73 10 0 = .ok { Psi.default with buffer := [0x73, 0xB0, 0, 0, 0, 0xC1, 0, 0, 0, 0] } := by
      cases p <;> decide
    rw [e, ok_bind]
    simp only [setIdx_succ, setIdx_zero, map_ok, ok_bind]
    rw [show resize [0x73, 0x70, 0, 0, 0, 0xC1, 0, 0, 0, (0 : UInt8)] 10 0x00 = [0x73, 0x70, 0, 0, 0, 0xC1, 0, 0, 0, 0] from rfl]
    rw [setU16At_ok _ (by simp), ok_bind, w1, ok_bind, setU24At_ok _ (by simp), ok_bind]
    rw [list_ok p t.descriptors hb]
    simp only [ok_bind]
    rw [setU16At_ok _ (by simp; omega), ok_bind, Spill.or_F000, AnyValue.tot, ← w2]
    simp [beBytes, Spec.Spill.sized, pure_eq_ok]
  unfold demux
  rw [ha, ok_bind, Spill.finalize_eq p _ rfl (by simp only [l]; omega), ok_bind]
  simp only []
  rw [show Spec.Spill.complete (AnyValue.tot t.time.toNat (t.descriptors.flatMap Desc.emitted)) = t.anySection from rfl]
  rw [C40_demux p _ dst (by simp only [lw]; omega) (by simp only []; omega) (by exact hp) (by exact hc), ok_bind]
  simp only [List.take_length, pure_eq_ok]

end Tot

/-! ## Concrete cases: values that do not fit -/

/-- A CA descriptor with a PID of 14 bits, a maximum bitrate of 24 bits and a terrestrial system with too large numbers. -/
def loudDescriptors : Descriptors := [.d09 ⟨0x0B00, 0x2123, [7]⟩, .d0E ⟨0x1FFFFFF⟩, .d5A ⟨500000, 9, 2, 1, 1, 5, 0, 1, 1, 9, 0, 3⟩]

example : loudDescriptors.flatMap Desc.emitted = [0x09, 0x05, 0x0B, 0x00, 0xE1, 0x23, 0x07] ++ [0x0E, 0x03, 0xFF, 0xFF, 0xFF] ++
    [0x5A, 0x0B, 0x00, 0x00, 0xC3, 0x50, 0x2F, 0x41, 0x6B, 0xFF, 0xFF, 0xFF, 0xFF] ∧ ¬ ∃ d ∈ loudDescriptors, d.Refused := by decide +kernel

/-- A program association of 14 bits, flags of two bits, a status of four. -/
def loudSdt : Sdt := ⟨0x42, 40, 1, 2, [⟨0x77, 3, 2, 9, 1, loudDescriptors⟩]⟩
def loudPmt : Pmt := ⟨63, 7, 0x3FFF, loudDescriptors, [⟨0x1B, 0xFFFF, loudDescriptors⟩]⟩
def loudNit : Nit := ⟨0x40, 63, 7, [.d43 ⟨1000000000, 0, 0, 0, 0, 0, 0, 0, 0⟩], [⟨1, 2, loudDescriptors⟩]⟩
def loudTot : Tot := ⟨0xFFFFFFFFFFFFFFFF, loudDescriptors⟩

example : Sdt.anyEntry ⟨0x77, 3, 2, 9, 1, []⟩ = [0x00, 0x77, 0xFE, 0x30, 0x00] ∧ (loudSdt.anySections.map List.length) = [45] := by decide +kernel
example (p : Profile) (dst : List UInt8) : loudSdt.demux p 0x11 3 dst =
    .ok (UInt8.ofNat ((3 + streamCount loudSdt.anySections) % 16), dst ++ (stream 0x11 3 loudSdt.anySections).flatten) := by
  rw [loudSdt.C110_sdt p 0x11 3 dst (by decide) (by decide), if_neg fun h => absurd h.2 (by decide +kernel)]; rfl
example (p : Profile) (dst : List UInt8) : loudPmt.demux p 0x100 3 dst =
    .ok (UInt8.ofNat ((3 + streamCount loudPmt.anySections) % 16), dst ++ (stream 0x100 3 loudPmt.anySections).flatten) := by
  rw [loudPmt.C110_pmt p 0x100 3 dst (by decide) (by decide), if_neg fun h => absurd h.2 (by decide +kernel)]; rfl
/-- A frequency of ten digits is refused. -/
example (dst : List UInt8) : loudNit.demux .debug 0x10 3 dst = panic := by
  rw [loudNit.C110_nit .debug 0x10 3 dst (by decide) (by decide), if_pos ⟨rfl, by decide +kernel⟩]
example (dst : List UInt8) : loudNit.demux .release 0x10 3 dst =
    .ok (UInt8.ofNat ((3 + streamCount loudNit.anySections) % 16), dst ++ (stream 0x10 3 loudNit.anySections).flatten) := by
  rw [loudNit.C110_nit .release 0x10 3 dst (by decide) (by decide), if_neg (by simp)]; rfl
example (p : Profile) (dst : List UInt8) : loudTot.demux p 0x14 3 dst =
    .ok (UInt8.ofNat ((3 + packetCount loudTot.anySection.length) % 16), dst ++ (packets 0x14 3 loudTot.anySection).flatten) := by
  rw [loudTot.C110_tot p 0x14 3 dst (by decide) (by decide), if_neg fun h => absurd h.2 (by decide +kernel)]; rfl
/-- The last representable second. -/
example : AnyValue.utc (2 ^ 64 - 1) = [0x11, 0x14, 0x06, 0x28, 0x15] := by decide +kernel

end Mpegts
