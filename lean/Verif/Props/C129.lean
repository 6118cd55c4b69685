import Verif.Spec.Own
import Verif.Lemmas.Bytes

/-! # C129: descriptors of the user's own types -/

namespace Mpegts
open Spec

namespace Boxes

theorem raws_loop (p : Profile) (ds : List (UInt8 × List UInt8)) (hd : ∀ d ∈ ds, d.2.length ≤ 255) (buf : List UInt8) :
    Descriptors.assembleLoop p (ds.map fun d => .raw ⟨d.1, d.2⟩) buf = .ok (buf ++ written ds) := by
  induction ds generalizing buf with
  | nil => simp [Descriptors.assembleLoop, written]
  | cons d r ih =>
    rw [List.map_cons, Descriptors.assembleLoop, Desc.assemble, DescRaw.assemble,
      if_neg (Nat.not_lt.2 (hd d List.mem_cons_self)), ok_bind, ih (fun x hx => hd x (List.mem_cons_of_mem _ hx))]
    simp [written]

theorem loop_append (p : Profile) (a b : Descriptors) (buf : List UInt8) :
    Descriptors.assembleLoop p (a ++ b) buf = (Descriptors.assembleLoop p a buf >>= fun x => Descriptors.assembleLoop p b x) := by
  induction a generalizing buf with
  | nil => rfl
  | cons d r ih =>
    rw [List.cons_append, Descriptors.assembleLoop, Descriptors.assembleLoop]
    cases d.assemble p buf with
    | error e => rfl
    | ok x => exact ih x

theorem loop_plain (p : Profile) (as) (l : Boxes) (h : AllWrite as l) (buf : List UInt8) :
    assembleLoop p l buf = Descriptors.assembleLoop p (plain as l) buf := by
  induction l generalizing buf with
  | nil => rfl
  | cons b r ih =>
    have ih := ih (fun o ho => h o (List.mem_cons_of_mem _ ho))
    rw [plain, List.flatMap_cons, loop_append, assembleLoop]
    cases b with
    | ours d =>
      simp only [Boxed.assemble, Descriptors.assembleLoop]
      cases d.assemble p buf with
      | error e => rfl
      | ok x => exact ih x
    | own o =>
      simp only [Boxed.assemble]
      rw [raws_loop p _ (h o List.mem_cons_self).1, (h o List.mem_cons_self).2.2, ok_bind, ok_bind]
      exact ih _

theorem assemble_plain (p : Profile) (as) (l : Boxes) (h : AllWrite as l) (buf : List UInt8) :
    assemble p l buf = Descriptors.assemble p (plain as l) buf := by
  unfold assemble Descriptors.assemble
  rw [loop_plain p as l h]

theorem sum_sizes (l : Boxes) (a : Nat) : l.foldl (fun acc x => acc + x.size) a = a + (l.map Boxed.size).sum := by
  induction l generalizing a with
  | nil => simp
  | cons b r ih => rw [List.foldl_cons, ih]; simp; omega

theorem sum_plain (l : Descriptors) (a : Nat) : l.foldl (fun acc x => acc + x.size) a = a + (l.map Desc.size).sum := by
  induction l generalizing a with
  | nil => simp
  | cons b r ih => rw [List.foldl_cons, ih]; simp; omega

theorem raws_size (ds : List (UInt8 × List UInt8)) : ((ds.map fun d => Desc.raw ⟨d.1, d.2⟩).map Desc.size).sum = (written ds).length := by
  induction ds with
  | nil => rfl
  | cons d r ih =>
    rw [List.map_cons, List.map_cons, List.sum_cons, ih]
    simp [written, Desc.size, DescRaw.size]
    omega

theorem size_plain (as) (l : Boxes) (h : AllWrite as l) : size l = Descriptors.size (plain as l) := by
  unfold size Descriptors.size
  rw [sum_sizes, sum_plain]
  congr 1
  induction l with
  | nil => rfl
  | cons b r ih =>
    have ih := ih (fun o ho => h o (List.mem_cons_of_mem _ ho))
    rw [plain, List.flatMap_cons, List.map_cons, List.sum_cons, List.map_append, List.sum_append, ih]
    cases b with
    | ours d => simp [Boxed.size, plain]
    | own o =>
      simp only [Boxed.size]
      rw [raws_size, (h o List.mem_cons_self).2.1]
      rfl

end Boxes

/-- C129, for an SDT: with descriptors of the user's own types it is sent as with uninterpreted descriptors of the same tags and bodies. -/
theorem C129_sdt (p : Profile) (as) (t : Own.Sdt) (h : ∀ i ∈ t.items, AllWrite as i.descriptors) (pid : UInt16) (cc : UInt8) (dst : List UInt8) :
    t.demux p pid cc dst = (plainSdt as t).demux p pid cc dst := by
  have hi : t.psiInit p = (plainSdt as t).psiInit p := rfl
  have key : ∀ (l : List Own.SdtItem), (∀ i ∈ l, AllWrite as i.descriptors) → ∀ done psi,
      Own.Sdt.assembleLoop p t l done psi = Sdt.assembleLoop p (plainSdt as t) (l.map fun i =>
        ⟨i.pnr, i.eitScheduleFlag, i.eitPresentFollowingFlag, i.runningStatus, i.freeCaMode, plain as i.descriptors⟩) done psi := by
    intro l
    induction l with
    | nil => intro _ _ _; rfl
    | cons i r ih =>
      intro hl done psi
      have ih := ih (fun x hx => hl x (List.mem_cons_of_mem _ hx))
      rw [List.map_cons, Own.Sdt.assembleLoop, Sdt.assembleLoop]
      simp only [Own.SdtItem.size, SdtItem.size, Own.SdtItem.assemble, SdtItem.assemble, Boxes.size_plain as _ (hl i List.mem_cons_self),
        Boxes.assemble_plain p as _ (hl i List.mem_cons_self), ih, hi]
      rfl
  unfold Own.Sdt.demux Sdt.demux Own.Sdt.psiListAssemble Sdt.psiListAssemble
  simp only [key _ h, hi]
  rfl

/-- C129, for a NIT. -/
theorem C129_nit (p : Profile) (as) (t : Own.Nit) (hn : AllWrite as t.descriptors) (h : ∀ i ∈ t.items, AllWrite as i.descriptors) (pid : UInt16)
    (cc : UInt8) (dst : List UInt8) : t.demux p pid cc dst = (plainNit as t).demux p pid cc dst := by
  have hi : ∀ first, t.psiInit p first = (plainNit as t).psiInit p first := by
    intro first
    simp only [Own.Nit.psiInit, Nit.psiInit, Boxes.assemble_plain p as _ hn, plainNit]
  have key : ∀ (l : List Own.NitItem), (∀ i ∈ l, AllWrite as i.descriptors) → ∀ done psi,
      Own.Nit.assembleLoop p t l done psi = Nit.assembleLoop p (plainNit as t) (l.map fun i => ⟨i.tsid, i.onid, plain as i.descriptors⟩) done psi := by
    intro l
    induction l with
    | nil => intro _ _ _; rfl
    | cons i r ih =>
      intro hl done psi
      have ih := ih (fun x hx => hl x (List.mem_cons_of_mem _ hx))
      rw [List.map_cons, Own.Nit.assembleLoop, Nit.assembleLoop]
      simp only [Own.NitItem.size, NitItem.size, Own.NitItem.assemble, NitItem.assemble, Boxes.size_plain as _ (hl i List.mem_cons_self),
        Boxes.assemble_plain p as _ (hl i List.mem_cons_self), ih, hi]
      rfl
  unfold Own.Nit.demux Nit.demux Own.Nit.psiListAssemble Nit.psiListAssemble
  simp only [key _ h, hi]
  rfl

/-- C129, for a PMT. -/
theorem C129_pmt (p : Profile) (as) (t : Own.Pmt) (hn : AllWrite as t.descriptors) (h : ∀ i ∈ t.items, AllWrite as i.descriptors) (pid : UInt16)
    (cc : UInt8) (dst : List UInt8) : t.demux p pid cc dst = (plainPmt as t).demux p pid cc dst := by
  have hi : ∀ first, t.psiInit p first = (plainPmt as t).psiInit p first := by
    intro first
    simp only [Own.Pmt.psiInit, Pmt.psiInit, Boxes.assemble_plain p as _ hn, plainPmt]
  have key : ∀ (l : List Own.PmtItem), (∀ i ∈ l, AllWrite as i.descriptors) → ∀ done psi,
      Own.Pmt.assembleLoop p t l done psi = Pmt.assembleLoop p (plainPmt as t) (l.map fun i => ⟨i.streamType, i.pid, plain as i.descriptors⟩) done psi := by
    intro l
    induction l with
    | nil => intro _ _ _; rfl
    | cons i r ih =>
      intro hl done psi
      have ih := ih (fun x hx => hl x (List.mem_cons_of_mem _ hx))
      rw [List.map_cons, Own.Pmt.assembleLoop, Pmt.assembleLoop]
      simp only [Own.PmtItem.size, PmtItem.size, Own.PmtItem.assemble, PmtItem.assemble, Boxes.size_plain as _ (hl i List.mem_cons_self),
        Boxes.assemble_plain p as _ (hl i List.mem_cons_self), ih, hi]
      rfl
  unfold Own.Pmt.demux Pmt.demux Own.Pmt.psiListAssemble Pmt.psiListAssemble
  simp only [key _ h, hi]
  rfl

/-- C129, for a TOT. -/
theorem C129_tot (p : Profile) (as) (t : Own.Tot) (hn : AllWrite as t.descriptors) (pid : UInt16) (cc : UInt8) (dst : List UInt8) :
    t.demux p pid cc dst = (plainTot as t).demux p pid cc dst := by
  unfold Own.Tot.demux Tot.demux Own.Tot.psiAssemble Tot.psiAssemble
  simp only [Boxes.assemble_plain p as _ hn, plainTot]

/-- C129, for an EIT, present/following or schedule. -/
theorem C129_eit (p : Profile) (as) (t : Own.Eit) (h : ∀ i ∈ t.items, AllWrite as i.descriptors) (pid : UInt16) (cc : UInt8) (dst : List UInt8) :
    t.demux p pid cc dst = (plainEit as t).demux p pid cc dst := by
  have hi : ∀ t : Own.Eit, t.psiInit p = (plainEit as t).psiInit p := fun _ => rfl
  have ha : ∀ i : Own.EitItem, AllWrite as i.descriptors → ∀ buf, i.assemble p buf = (plainEvent as i).assemble p buf := by
    intro i hw buf
    simp only [Own.EitItem.assemble, EitItem.assemble, Boxes.assemble_plain p as _ hw, plainEvent]
  have hs : ∀ i : Own.EitItem, AllWrite as i.descriptors → i.size = (plainEvent as i).size := by
    intro i hw
    simp only [Own.EitItem.size, EitItem.size, Boxes.size_plain as _ hw, plainEvent]
  have hpf : ∀ (l : List Own.EitItem), (∀ i ∈ l, AllWrite as i.descriptors) → ∀ last n,
      Own.Eit.pfLoop p t last n l = Eit.pfLoop p (plainEit as t) last n (l.map (plainEvent as)) := by
    intro l
    induction l with
    | nil => intro _ _ _; rfl
    | cons i r ih =>
      intro hl last n
      have ih := ih (fun x hx => hl x (List.mem_cons_of_mem _ hx))
      rw [List.map_cons, Own.Eit.pfLoop, Eit.pfLoop]
      simp only [ha i (hl i List.mem_cons_self), hi, ih]
      rfl
  have hev : ∀ (l : List Own.EitItem), (∀ i ∈ l, AllWrite as i.descriptors) → ∀ done psi next sec tid,
      Own.Eit.eventLoop p t l done psi next sec tid = Eit.eventLoop p (plainEit as t) (l.map (plainEvent as)) done psi next sec tid := by
    intro l
    induction l with
    | nil => intros; rfl
    | cons i r ih =>
      intro hl done psi next sec tid
      have ih := ih (fun x hx => hl x (List.mem_cons_of_mem _ hx))
      rw [List.map_cons, Own.Eit.eventLoop, Eit.eventLoop]
      simp only [ha i (hl i List.mem_cons_self), hs i (hl i List.mem_cons_self), hi, ih, Own.Eit.newSection, Eit.newSection]
      rfl
  have hsch : ∀ first last, t.scheduleAssemble p first last = (plainEit as t).scheduleAssemble p (plainEvent as first) (plainEvent as last) := by
    intro first last
    have e0 : plainEit as ⟨t.tableId &&& 0xF0, t.version, t.pnr, t.tsid, t.onid, []⟩ =
        ⟨t.tableId &&& 0xF0, t.version, t.pnr, t.tsid, t.onid, []⟩ := rfl
    unfold Own.Eit.scheduleAssemble Eit.scheduleAssemble
    simp only [hev _ h, hi, e0]
    simp only [plainEit, plainEvent]
  have hl : t.psiListAssemble p = (plainEit as t).psiListAssemble p := by
    unfold Own.Eit.psiListAssemble Eit.psiListAssemble
    have e : (plainEit as t).items = t.items.map (plainEvent as) := rfl
    rw [e, List.head?_map, List.getLast?_map, List.length_map]
    cases t.items.head? with
    | none => cases t.items.getLast? <;> rfl
    | some first =>
      cases t.items.getLast? with
      | none => rfl
      | some last =>
        simp only [Option.map_some]
        rw [hpf _ h, hsch first last]
        rfl
  unfold Own.Eit.demux Eit.demux
  rw [hl]

end Mpegts
