import Verif.Props.C110
import Verif.Props.C129

/-! # C129: descriptors of the user's own types that append any bytes and state any size -/

namespace Mpegts
open Spec Spec.Table
open Spec.AnyValue (overlay distribute before)

/-- The bytes a descriptor appends: `as` says which for the user's own. -/
def Boxed.emitted (as : OwnDesc → List UInt8) : Boxed → List UInt8
  | .ours d => d.emitted
  | .own o => as o

/-- The size a descriptor is counted with: what a user's own states. -/
def Boxed.counted : Boxed → Nat
  | .ours d => d.counted
  | .own o => o.size

/-- A descriptor of the user's appends what `as` says to whatever is there; one of the crate is not refused (C110). -/
def Boxed.Appends (p : Profile) (as : OwnDesc → List UInt8) : Boxed → Prop
  | .ours d => ¬ (p = .debug ∧ d.Refused)
  | .own o => ∀ buffer, o.assemble buffer = .ok (buffer ++ as o)

namespace Own

theorem list_ok (p : Profile) (as) (ds : Boxes) (h : ∀ d ∈ ds, d.Appends p as) (buf : List UInt8) :
    Boxes.assemble p ds buf = .ok ((ds.flatMap (Boxed.emitted as)).length, buf ++ ds.flatMap (Boxed.emitted as)) := by
  have key : ∀ (ds : Boxes), (∀ d ∈ ds, d.Appends p as) → ∀ buf, Boxes.assembleLoop p ds buf = .ok (buf ++ ds.flatMap (Boxed.emitted as)) := by
    intro ds
    induction ds with
    | nil => intro _ buf; simp [Boxes.assembleLoop]
    | cons d r ih =>
      intro h buf
      have ih := ih (fun x hx => h x (List.mem_cons_of_mem _ hx))
      have hd := h d List.mem_cons_self
      have e : d.assemble p buf = .ok (buf ++ d.emitted as) := by
        cases d with
        | ours d => exact (desc_any p d buf).trans (if_neg hd)
        | own o => exact hd buf
      rw [Boxes.assembleLoop, e, ok_bind, ih]
      simp
  unfold Boxes.assemble
  simp only [key ds h buf, ok_bind]
  rw [usizeSub_ok p (by simp), ok_bind]
  simp [pure_eq_ok]

theorem list_size (ds : Boxes) : Boxes.size ds = (ds.map Boxed.counted).sum := by
  rw [Boxes.size, Boxes.sum_sizes, Nat.zero_add]
  congr 2
  funext d
  cases d with
  | ours d => exact desc_counted d
  | own o => rfl

/-! ## SDT -/

theorem own_sdt_gAsm (p : Profile) (t : Sdt) (items : List SdtItem) (done : List Psi) (psi : Psi) :
    Sdt.assembleLoop p t items done psi = gAsm 1020 SdtItem.size (SdtItem.assemble p) (t.psiInit p) items done psi := by
  induction items generalizing done psi with
  | nil => rfl
  | cons x r ih => simp only [Sdt.assembleLoop, gAsm, ih, show SDT_SECTION_SIZE = 1020 from rfl]

namespace Sdt

/-- The entry sent for a service. -/
def anyEntry (as : OwnDesc → List UInt8) (i : SdtItem) : List UInt8 :=
  AnyValue.sdtEntry i.pnr.toNat i.eitScheduleFlag.toNat i.eitPresentFollowingFlag.toNat i.runningStatus.toNat i.freeCaMode.toNat
    (i.descriptors.flatMap (Boxed.emitted as))

/-- The services of each section: 1020 bytes, of which 11 are the header. -/
def anyGroups (as : OwnDesc → List UInt8) (t : Sdt) : List (List SdtItem) :=
  distribute (fun i => 5 + (i.descriptors.map Boxed.counted).sum) (fun i => (anyEntry as i).length) 1020 11 11 t.items

/-- The sections sent. -/
def anySections (as : OwnDesc → List UInt8) (t : Sdt) : List (List UInt8) :=
  (anyGroups as t).zipIdx.map fun x => Spec.Spill.complete (Table.sdt t.tableId.toNat t.tsid.toNat (t.version.toNat % 32) (x.2 % 256)
    (((anyGroups as t).length - 1) % 256) t.onid.toNat (x.1.flatMap (anyEntry as)))

theorem psiInit_own (p : Profile) (t : Sdt) : t.psiInit p = .ok { Psi.default with
    buffer := Table.sdt t.tableId.toNat t.tsid.toNat (t.version.toNat % 32) 0 0 t.onid.toNat [] } :=
  Mpegts.Sdt.psiInit_eq p ⟨t.tableId, t.version, t.tsid, t.onid, []⟩

theorem assemble_all (p : Profile) (as : OwnDesc → List UInt8) (i : SdtItem) (h : ∀ d ∈ i.descriptors, d.Appends p as) (b : List UInt8) :
    i.assemble p b = .ok (b ++ anyEntry as i) := by
  unfold SdtItem.assemble
  simp only [resize_extend, show List.replicate 5 (0 : UInt8) = [0, 0, 0, 0, 0] from rfl]
  have e1 := setU16At_append b [0, 0, 0, 0, 0] 0 i.pnr
  rw [Nat.add_zero] at e1
  rw [e1, setU16At_ok _ (by simp), map_ok, ok_bind, setIdx_append_add, Mpegts.Sdt.flags_any]
  simp only [beBytes, List.take_zero, List.nil_append, List.cons_append, List.drop_succ_cons, List.drop_zero, setIdx_succ, setIdx_zero, map_ok,
    ok_bind, Nat.zero_add]
  rw [list_ok p as i.descriptors h, ok_bind]
  simp only []
  rw [List.append_assoc, setU16At_append, setU16At_ok _ (by simp), map_ok, word_any]
  refine congrArg (fun x => Except.ok (b ++ x)) ?_
  simp [anyEntry, AnyValue.sdtEntry, Spec.Spill.sized, beBytes]

theorem counted_size (i : SdtItem) : i.size = 5 + (i.descriptors.map Boxed.counted).sum := by rw [SdtItem.size, list_size]

/-- C129, for SDTs whose descriptors of the user's append any bytes and state any size: the size stated decides only which section an entry goes
to. -/
theorem C129_sdt_any (p : Profile) (as : OwnDesc → List UInt8) (t : Sdt) (hr : ∀ i ∈ t.items, ∀ d ∈ i.descriptors, d.Appends p as) (pid : UInt16)
    (cc : UInt8) (dst : List UInt8) (hp : pid.toNat < 8192) (hc : cc.toNat < 16) :
    t.demux p pid cc dst = .ok (UInt8.ofNat ((cc.toNat + streamCount (anySections as t)) % 16),
      dst ++ (stream pid.toNat cc.toNat (anySections as t)).flatten) := by
  unfold demux psiListAssemble
  rw [psiInit_own, ok_bind, own_sdt_gAsm, psiInit_own]
  rw [gAsm_any 1020 SdtItem.size (SdtItem.assemble p) _ (anyEntry as) t.items (fun i hi b => assemble_all p as i (hr i hi) b)]
  have hl : (Table.sdt t.tableId.toNat t.tsid.toNat (t.version.toNat % 32) 0 0 t.onid.toNat []).length = 11 := by simp [Table.sdt]
  have hne := distribute_ne SdtItem.size (fun i => (anyEntry as i).length) 1020 11 11 t.items
  have hg : distribute SdtItem.size (fun i => (anyEntry as i).length) 1020 11 11 t.items = (anyGroups as t) := by
    rw [anyGroups, ← funext counted_size]
  rw [hl, ok_bind, bodies_map, List.map_map, List.nil_append, hg]
  rw [hg] at hne
  rw [anySections]
  generalize (anyGroups as t) = gs at *
  have := Spill.psiDemux_header p t.tableId.toNat 0b1111 t.tsid.toNat (t.version.toNat % 32)
    (gs.map fun g => beBytes 2 t.onid.toNat ++ [0xFF] ++ g.flatMap (anyEntry as)) (by simpa using hne) pid cc dst hp hc
  simp only [List.map_map, Function.comp_def, Mpegts.Sdt.sdt_append] at this ⊢
  rw [this]
  simp only [List.zipIdx_map, List.map_map, Function.comp_def, List.length_map, Table.sdt, List.append_assoc, Prod.map]
  rfl

end Sdt

/-! ## PMT -/

theorem own_pmt_gAsm (p : Profile) (t : Pmt) (items : List PmtItem) (done : List Psi) (psi : Psi) :
    Pmt.assembleLoop p t items done psi = gAsm 1020 PmtItem.size (PmtItem.assemble p) (t.psiInit p false) items done psi := by
  induction items generalizing done psi with
  | nil => rfl
  | cons x r ih => simp only [Pmt.assembleLoop, gAsm, ih, show PMT_SECTION_SIZE = 1020 from rfl]

namespace Pmt

/-- The entry sent for an elementary stream (the PID modulo 2^13). -/
def anyEntry (as : OwnDesc → List UInt8) (i : PmtItem) : List UInt8 :=
  Spec.Spill.pmtEntry i.streamType.toNat (i.pid.toNat % 8192) (i.descriptors.flatMap (Boxed.emitted as))

/-- The elementary streams of each section: 1020 bytes, of which 12 and the program descriptors are taken in the first. -/
def anyGroups (as : OwnDesc → List UInt8) (t : Pmt) : List (List PmtItem) :=
  distribute (fun i => 5 + (i.descriptors.map Boxed.counted).sum) (fun i => (anyEntry as i).length) 1020 12
    (12 + (t.descriptors.flatMap (Boxed.emitted as)).length) t.items

/-- The sections sent: the program descriptors are in the first one. -/
def anySections (as : OwnDesc → List UInt8) (t : Pmt) : List (List UInt8) :=
  (anyGroups as t).zipIdx.map fun x => Spec.Spill.complete (Spec.Spill.pmt t.pnr.toNat (t.version.toNat % 32) (x.2 % 256)
    (((anyGroups as t).length - 1) % 256) (t.pcr.toNat % 8192) (if x.2 = 0 then t.descriptors.flatMap (Boxed.emitted as) else []) (x.1.flatMap (anyEntry as)))

theorem assemble_all (p : Profile) (as : OwnDesc → List UInt8) (i : PmtItem) (h : ∀ d ∈ i.descriptors, d.Appends p as) (b : List UInt8) :
    i.assemble p b = .ok (b ++ anyEntry as i) := by
  unfold PmtItem.assemble
  simp only [resize_extend, show List.replicate 5 (0 : UInt8) = [0, 0, 0, 0, 0] from rfl]
  have e1 := setIdx_append_add b [0, 0, 0, 0, 0] 0 i.streamType
  rw [Nat.add_zero] at e1
  rw [e1, setIdx_zero, map_ok, ok_bind, setU16At_append, setU16At_ok _ (by simp), map_ok, ok_bind, or_E000]
  rw [list_ok p as i.descriptors h, ok_bind]
  simp only []
  rw [List.append_assoc, setU16At_append, setU16At_ok _ (by simp [beBytes]), map_ok, Spill.or_F000]
  refine congrArg (fun x => Except.ok (b ++ x)) ?_
  simp [anyEntry, Spec.Spill.pmtEntry, Spec.Spill.sized, beBytes]

/-- What follows the header in the first and in the other sections. -/
def anyStart (as : OwnDesc → List UInt8) (t : Pmt) (first : Bool) : List UInt8 :=
  beBytes 2 (Descriptor.pack [(3, 0b111), (13, t.pcr.toNat % 8192)]) ++
    Spec.Spill.sized 0b1111 (if first then t.descriptors.flatMap (Boxed.emitted as) else [])

theorem psiInit_any (p : Profile) (as : OwnDesc → List UInt8) (t : Pmt) (h : ∀ d ∈ t.descriptors, d.Appends p as) (first : Bool) :
    t.psiInit p first = .ok { Psi.default with buffer := header 0x02 0b1011 t.pnr.toNat (t.version.toNat % 32) 0 0 ++ anyStart as t first } := by
  unfold psiInit
  rw [show Psi.new p 0x02 12 t.version = Psi.new p 0x02 (8 + 4) t.version from rfl, psi_new_long, ok_bind]
  simp only [show List.replicate 4 (0 : UInt8) = [0, 0, 0, 0] from rfl, List.cons_append, List.nil_append]
  rw [setU16At_ok _ (by simp), ok_bind]
  simp only [beBytes, List.take_succ_cons, List.take_zero, List.drop_succ_cons, List.drop_zero, List.cons_append, List.nil_append]
  rw [setU16At_ok _ (by simp), ok_bind, or_E000]
  simp only [beBytes, List.take_succ_cons, List.take_zero, List.drop_succ_cons, List.drop_zero, List.cons_append, List.nil_append]
  cases first with
  | false =>
    simp only [Bool.false_eq_true, if_false, setIdx_succ, setIdx_zero, map_ok, ok_bind, pure_eq_ok, anyStart, header_eq]
    simp [Spec.Spill.sized, beBytes, Descriptor.pack]
  | true =>
    simp only [if_true]
    rw [list_ok p as t.descriptors h]
    simp only [ok_bind, List.cons_append, List.nil_append]
    rw [setU16At_ok _ (by simp), ok_bind, Spill.or_F000]
    simp only [beBytes, List.take_succ_cons, List.take_zero, List.drop_succ_cons, List.drop_zero, List.cons_append, List.nil_append,
      pure_eq_ok, anyStart, header_eq]
    simp [Spec.Spill.sized, beBytes]

theorem anyStart_length (as : OwnDesc → List UInt8) (t : Pmt) (first : Bool) :
    (anyStart as t first).length = 4 + (if first then (t.descriptors.flatMap (Boxed.emitted as)).length else 0) := by
  unfold anyStart
  simp only [List.length_append, beBytes_length, Spill.sized_length]
  cases first <;> simp <;> omega

theorem anyStart_program (as : OwnDesc → List UInt8) (t : Pmt) (n : Nat) : anyStart as t (n == 0) =
    beBytes 2 (Descriptor.pack [(3, 0b111), (13, t.pcr.toNat % 8192)]) ++
      Spec.Spill.sized 0b1111 (if n = 0 then t.descriptors.flatMap (Boxed.emitted as) else []) := by
  unfold anyStart
  by_cases h : n = 0 <;> simp [h]

theorem counted_size (i : PmtItem) : i.size = 5 + (i.descriptors.map Boxed.counted).sum := by rw [PmtItem.size, list_size]

/-- C129, for PMTs whose descriptors of the user's append any bytes and state any size: the size stated decides only which section an entry goes
to. -/
theorem C129_pmt_any (p : Profile) (as : OwnDesc → List UInt8) (t : Pmt) (hn : ∀ d ∈ t.descriptors, d.Appends p as) (hr : ∀ i ∈ t.items, ∀ d ∈ i.descriptors, d.Appends p as) (pid : UInt16)
    (cc : UInt8) (dst : List UInt8) (hp : pid.toNat < 8192) (hc : cc.toNat < 16) :
    t.demux p pid cc dst = .ok (UInt8.ofNat ((cc.toNat + streamCount (anySections as t)) % 16),
      dst ++ (stream pid.toNat cc.toNat (anySections as t)).flatten) := by
  unfold demux psiListAssemble
  rw [psiInit_any p as t hn, ok_bind, own_pmt_gAsm, psiInit_any p as t hn]
  rw [gAsm_any 1020 PmtItem.size (PmtItem.assemble p) _ (anyEntry as) t.items (fun i hi b => assemble_all p as i (hr i hi) b),
    List.length_append, List.length_append, header_length, anyStart_length, anyStart_length]
  have hne := distribute_ne PmtItem.size (fun i => (anyEntry as i).length) 1020 12 (12 + (t.descriptors.flatMap (Boxed.emitted as)).length) t.items
  have hg : distribute PmtItem.size (fun i => (anyEntry as i).length) 1020 12 (12 + (t.descriptors.flatMap (Boxed.emitted as)).length) t.items =
      (anyGroups as t) := by
    rw [anyGroups, ← funext counted_size]
  simp only [if_true, Bool.false_eq_true, if_false, Nat.add_zero, ← Nat.add_assoc, Nat.reduceAdd, hg]
  rw [hg] at hne
  rw [anySections]
  generalize (anyGroups as t) = gs at *
  rw [ok_bind, bodies_zipIdx (anyEntry as) (fun b => header 0x02 0b1011 t.pnr.toNat (t.version.toNat % 32) 0 0 ++ anyStart as t b), List.map_map,
    List.nil_append]
  have := Spill.psiDemux_header p 0x02 0b1011 t.pnr.toNat (t.version.toNat % 32)
    (gs.zipIdx.map fun x => anyStart as t (x.2 == 0) ++ x.1.flatMap (anyEntry as)) (by simpa using hne) pid cc dst hp hc
  rw [List.map_map] at this
  simp only [Function.comp_def, List.append_assoc] at this ⊢
  rw [this]
  simp only [zipIdx_map_zipIdx, List.length_map, List.length_zipIdx, Spec.Spill.pmt, List.append_assoc, anyStart_program]

end Pmt

/-! ## NIT -/

theorem own_nit_gAsm (p : Profile) (t : Nit) (items : List NitItem) (done : List Psi) (psi : Psi) :
    Nit.assembleLoop p t items done psi = gAsm 1020 NitItem.size (NitItem.assemble p) (t.psiInit p false) items done psi := by
  induction items generalizing done psi with
  | nil => rfl
  | cons x r ih => simp only [Nit.assembleLoop, gAsm, ih, show NIT_SECTION_SIZE = 1020 from rfl]

namespace Nit

/-- The entry sent for a transport stream. -/
def anyEntry (as : OwnDesc → List UInt8) (i : NitItem) : List UInt8 := Spec.Spill.nitEntry i.tsid.toNat i.onid.toNat (i.descriptors.flatMap (Boxed.emitted as))

/-- The transport streams of each section: 1020 bytes, of which 12 and the network descriptors are taken in the first. -/
def anyGroups (as : OwnDesc → List UInt8) (t : Nit) : List (List NitItem) :=
  distribute (fun i => 6 + (i.descriptors.map Boxed.counted).sum) (fun i => (anyEntry as i).length) 1020 12
    (12 + (t.descriptors.flatMap (Boxed.emitted as)).length) t.items

/-- The sections sent: the network descriptors are in the first one. -/
def anySections (as : OwnDesc → List UInt8) (t : Nit) : List (List UInt8) :=
  (anyGroups as t).zipIdx.map fun x => Spec.Spill.complete (Spec.Spill.nit t.tableId.toNat t.networkId.toNat (t.version.toNat % 32) (x.2 % 256)
    (((anyGroups as t).length - 1) % 256) (if x.2 = 0 then t.descriptors.flatMap (Boxed.emitted as) else []) (x.1.flatMap (anyEntry as)))

theorem assemble_all (p : Profile) (as : OwnDesc → List UInt8) (i : NitItem) (h : ∀ d ∈ i.descriptors, d.Appends p as) (b : List UInt8) :
    i.assemble p b = .ok (b ++ anyEntry as i) := by
  unfold NitItem.assemble
  simp only [resize_extend, show List.replicate 6 (0 : UInt8) = [0, 0, 0, 0, 0, 0] from rfl]
  have e1 := setU16At_append b [0, 0, 0, 0, 0, 0] 0 i.tsid
  rw [Nat.add_zero] at e1
  rw [e1, setU16At_ok _ (by simp), map_ok, ok_bind, setU16At_append, setU16At_ok _ (by simp [beBytes]), map_ok, ok_bind]
  rw [list_ok p as i.descriptors h, ok_bind]
  simp only []
  rw [List.append_assoc, setU16At_append, setU16At_ok _ (by simp [beBytes]), map_ok, Spill.or_F000]
  refine congrArg (fun x => Except.ok (b ++ x)) ?_
  simp [anyEntry, Spec.Spill.nitEntry, Spec.Spill.sized, beBytes]

/-- The start of a section before the loop length is patched in. -/
def anyStart (as : OwnDesc → List UInt8) (t : Nit) (first : Bool) : List UInt8 :=
  header t.tableId.toNat 0b1111 t.networkId.toNat (t.version.toNat % 32) 0 0 ++
    (Spec.Spill.sized 0b1111 (if first then t.descriptors.flatMap (Boxed.emitted as) else []) ++ [0, 0])

theorem psiInit_any (p : Profile) (as : OwnDesc → List UInt8) (t : Nit) (h : ∀ d ∈ t.descriptors, d.Appends p as) (first : Bool) :
    t.psiInit p first = .ok { Psi.default with buffer := anyStart as t first } := by
  unfold psiInit
  rw [show Psi.new p t.tableId 10 t.version = Psi.new p t.tableId (8 + 2) t.version from rfl, psi_new_long, ok_bind]
  simp only [show List.replicate 2 (0 : UInt8) = [0, 0] from rfl, List.cons_append, List.nil_append, setIdx_succ, setIdx_zero, map_ok,
    ok_bind]
  rw [setU16At_ok _ (by simp), ok_bind]
  simp only [beBytes, List.take_succ_cons, List.take_zero, List.drop_succ_cons, List.drop_zero, List.cons_append, List.nil_append, setIdx_succ,
    setIdx_zero, map_ok, ok_bind]
  cases first with
  | false =>
    simp only [Bool.false_eq_true, if_false, ok_bind, pure_eq_ok, anyStart, header_eq]
    simp [Spec.Spill.sized, beBytes, Descriptor.pack]
  | true =>
    simp only [if_true]
    rw [list_ok p as t.descriptors h]
    simp only [ok_bind, List.cons_append, List.nil_append]
    rw [setU16At_ok _ (by simp), ok_bind, Spill.or_F000]
    simp only [beBytes, List.take_succ_cons, List.take_zero, List.drop_succ_cons, List.drop_zero, List.cons_append, List.nil_append,
      pure_eq_ok, anyStart, header_eq]
    simp [Spec.Spill.sized, beBytes]

theorem anyStart_length (as : OwnDesc → List UInt8) (t : Nit) (first : Bool) :
    (anyStart as t first).length = 12 + (if first then (t.descriptors.flatMap (Boxed.emitted as)).length else 0) := by
  unfold anyStart
  simp only [List.length_append, header_length, Spill.sized_length, List.length_cons, List.length_nil]
  cases first <;> simp <;> omega

theorem counted_size (i : NitItem) : i.size = 6 + (i.descriptors.map Boxed.counted).sum := by rw [NitItem.size, list_size]

/-- C129, for NITs whose descriptors of the user's append any bytes and state any size: the size stated decides only which section an entry goes
to. -/
theorem C129_nit_any (p : Profile) (as : OwnDesc → List UInt8) (t : Nit) (hn : ∀ d ∈ t.descriptors, d.Appends p as) (hr : ∀ i ∈ t.items, ∀ d ∈ i.descriptors, d.Appends p as) (pid : UInt16)
    (cc : UInt8) (dst : List UInt8) (hp : pid.toNat < 8192) (hc : cc.toNat < 16) :
    t.demux p pid cc dst = .ok (UInt8.ofNat ((cc.toNat + streamCount (anySections as t)) % 16),
      dst ++ (stream pid.toNat cc.toNat (anySections as t)).flatten) := by
  unfold demux psiListAssemble
  rw [psiInit_any p as t hn, ok_bind, own_nit_gAsm, psiInit_any p as t hn]
  rw [gAsm_any 1020 NitItem.size (NitItem.assemble p) _ (anyEntry as) t.items (fun i hi b => assemble_all p as i (hr i hi) b),
    anyStart_length, anyStart_length]
  have hne := distribute_ne NitItem.size (fun i => (anyEntry as i).length) 1020 12 (12 + (t.descriptors.flatMap (Boxed.emitted as)).length) t.items
  have hg : distribute NitItem.size (fun i => (anyEntry as i).length) 1020 12 (12 + (t.descriptors.flatMap (Boxed.emitted as)).length) t.items =
      (anyGroups as t) := by
    rw [anyGroups, ← funext counted_size]
  simp only [if_true, Bool.false_eq_true, if_false, Nat.add_zero, hg]
  rw [hg] at hne
  rw [anySections]
  generalize (anyGroups as t) = gs at *
  rw [ok_bind, bodies_zipIdx (anyEntry as) (anyStart as t), List.map_map, List.nil_append]
  have hpatch := Mpegts.Nit.patchLoop_eq p (fun x : List NitItem × Nat => { Psi.default with buffer := anyStart as t (x.2 == 0) ++ x.1.flatMap (anyEntry as) })
    (fun x => { Psi.default with buffer := header t.tableId.toNat 0b1111 t.networkId.toNat (t.version.toNat % 32) 0 0 ++
      (Mpegts.Nit.spillRest (if x.2 = 0 then t.descriptors.flatMap (Boxed.emitted as) else []) (x.1.flatMap (anyEntry as))) }) gs.zipIdx ?_
  · simp only [Function.comp_def]
    rw [hpatch, ok_bind]
    have := Spill.psiDemux_header p t.tableId.toNat 0b1111 t.networkId.toNat (t.version.toNat % 32)
      (gs.zipIdx.map fun x => Mpegts.Nit.spillRest (if x.2 = 0 then t.descriptors.flatMap (Boxed.emitted as) else []) (x.1.flatMap (anyEntry as))) (by simpa using hne)
      pid cc dst hp hc
    rw [List.map_map] at this
    simp only [Function.comp_def] at this
    rw [this]
    simp only [zipIdx_map_zipIdx, List.length_map, List.length_zipIdx, Mpegts.Nit.nit_rest]
  · intro x hx
    have hs : anyStart as t (x.2 == 0) = header t.tableId.toNat 0b1111 t.networkId.toNat (t.version.toNat % 32) 0 0 ++
        (Spec.Spill.sized 0b1111 (if x.2 = 0 then t.descriptors.flatMap (Boxed.emitted as) else []) ++ [0, 0]) := by
      unfold anyStart
      by_cases h : x.2 = 0 <;> simp [h]
    rw [hs]
    exact Mpegts.Nit.patchLen_spill p _ _ _ (header_length _ _ _ _ _ _)

end Nit

/-! ## TOT -/

namespace Tot

/-- The section sent. -/
def anySection (as : OwnDesc → List UInt8) (t : Tot) : List UInt8 :=
  Spec.Spill.complete (AnyValue.tot t.time.toNat (t.descriptors.flatMap (Boxed.emitted as)))

/-- C129, for TOTs whose descriptors of the user's append any bytes. -/
theorem C129_tot_any (p : Profile) (as : OwnDesc → List UInt8) (t : Tot) (hn : ∀ d ∈ t.descriptors, d.Appends p as) (pid : UInt16) (cc : UInt8)
    (dst : List UInt8) (hp : pid.toNat < 8192) (hc : cc.toNat < 16) :
    t.demux p pid cc dst = .ok (UInt8.ofNat ((cc.toNat + packetCount (anySection as t).length) % 16),
      dst ++ (packets pid.toNat cc.toNat (anySection as t)).flatten) := by
  obtain ⟨v, w1, w2⟩ := write_utc_any p t.time
  have l := Mpegts.Tot.any_length t.time.toNat (t.descriptors.flatMap (Boxed.emitted as))
  have lw : (anySection as t).length = 14 + (t.descriptors.flatMap (Boxed.emitted as)).length := by
    rw [anySection, Spill.complete_length (by omega), l]; omega
  have ha : t.psiAssemble p = .ok { Psi.default with buffer := AnyValue.tot t.time.toNat (t.descriptors.flatMap (Boxed.emitted as)) } := by
    unfold psiAssemble
    have e : Psi.new p 0x73 10 0 = .ok { Psi.default with buffer := [0x73, 0xB0, 0, 0, 0, 0xC1, 0, 0, 0, 0] } := by
      cases p <;> decide
    rw [e, ok_bind]
    simp only [setIdx_succ, setIdx_zero, map_ok, ok_bind]
    rw [show resize [0x73, 0x70, 0, 0, 0, 0xC1, 0, 0, 0, (0 : UInt8)] 10 0x00 = [0x73, 0x70, 0, 0, 0, 0xC1, 0, 0, 0, 0] from rfl]
    rw [setU16At_ok _ (by simp), ok_bind, w1, ok_bind, setU24At_ok _ (by simp), ok_bind]
    rw [list_ok p as t.descriptors hn]
    simp only [ok_bind]
    rw [setU16At_ok _ (by simp; omega), ok_bind, Spill.or_F000, AnyValue.tot, ← w2]
    simp [beBytes, Spec.Spill.sized, pure_eq_ok]
  unfold demux
  rw [ha, ok_bind, Spill.finalize_eq p _ rfl (by simp only [l]; omega), ok_bind]
  simp only []
  rw [show Spec.Spill.complete (AnyValue.tot t.time.toNat (t.descriptors.flatMap (Boxed.emitted as))) = (anySection as t) from rfl]
  rw [C40_demux p _ dst (by simp only [lw]; omega) (by simp only []; omega) (by exact hp) (by exact hc), ok_bind]
  simp only [List.take_length, pure_eq_ok]

end Tot

end Own

end Mpegts
