import Verif.Spec.SharedPid
import Verif.Props.C91
import Verif.Props.C106

/-! # C107: several tables on one PID -/

namespace Mpegts
open Spec Spec.Table Spec.Schedule

/-- The table id of the last section a schedule is sent with (the id of the table itself for present/following). -/
def Eit.lastId (t : Eit) : UInt8 :=
  if 0x50 ≤ t.tableId.toNat then
    match t.slots.getLast? with
    | some s => UInt8.ofNat s.table
    | none => t.tableId
  else t.tableId

/-- An EIT without events sends nothing; a schedule is received with the id of its last sub-table (C59). -/
def collectEit (u : Eit) : AnyTable → Eit
  | .eit t => if t.items = [] then u else { t with tableId := t.lastId, items := u.items ++ t.items }
  | _ => u

/-- The tables considered: with fields in range, and descriptors that read back exactly. -/
def TableOk : AnyTable → Prop
  | .pat t => t.version.toNat < 32 ∧ t.items.length ≤ 253 ∧ ∀ i ∈ t.items, i.pid.toNat < 8192
  | .pmt t => t.InRange
  | .nit t => t.InRange
  | .sdt t => t.InRange
  | .eit t => t.InRange ∧ (t.tableId = 0x4E ∨ t.tableId = 0x4F ∨ t.Schedulable)
  | .tdt t => TimeInRange t.time
  | .tot t => t.InRange ∧ ∀ d ∈ t.descriptors, d.Exact

/-- The table ids of a kind. -/
def idOf : AnyTable → UInt8 → Prop
  | .pat _, b => b = 0x00
  | .pmt _, b => b = 0x02
  | .nit _, b => b = 0x40 ∨ b = 0x41
  | .sdt _, b => b = 0x42 ∨ b = 0x46
  | .eit _, b => 0x4E ≤ b.toNat ∧ b.toNat ≤ 0x6F
  | .tdt _, b => b = 0x70
  | .tot _, b => b = 0x73

/-- The sections of a table, and that sending it sends them. -/
structure SentAs (p : Profile) (x : AnyTable) (secs : List (List UInt8)) : Prop where
  send : ∀ (pid : UInt16) (cc : UInt8) (dst : List UInt8), pid.toNat < 8192 → cc.toNat < 16 →
    x.demux p pid cc dst = .ok (UInt8.ofNat ((cc.toNat + streamCount secs) % 16), dst ++ (stream pid.toNat cc.toNat secs).flatten)
  sec : ∀ s ∈ secs, IsSection s ∧ ∃ b, s.head? = some b ∧ idOf x b

/-- What an object needs so that it ignores the sections of other tables. -/
structure Ignores {α : Type} (parse : α → Psi → R α) (id : UInt8 → Prop) : Prop where
  other : ∀ t (psi : Psi) b, psi.buffer.head? = some b → ¬ id b → parse t psi = .ok t
  short : ∀ t (psi : Psi), psi.buffer.length < psi.size → 183 ≤ psi.buffer.length → parse t psi = .ok t

theorem foldl_same {α β : Type} (l : List β) (t : α) : l.foldl (fun t _ => t) t = t := by
  induction l with
  | nil => rfl
  | cons a l ih => exact ih

theorem Ignores.receive {α : Type} {parse : α → Psi → R α} {id : UInt8 → Prop} (H : Ignores parse id) (p : Profile) {x : AnyTable}
    {secs : List (List UInt8)} (hx : SentAs p x secs) (hd : ∀ b, idOf x b → ¬ id b) (pid : Nat) (hp : pid < 8192) (t : α) (s : Psi) (cc : Nat) :
    ∃ s', Spec.receive parse p t s (stream pid cc secs) = .ok (t, s') := by
  obtain ⟨s', h⟩ := receive_stream parse p pid hp secs (fun x => x) (fun x h => (hx.sec x h).1) (fun t _ => t) (by
    intro t sec hs psi hb _
    obtain ⟨b, h1, h2⟩ := (hx.sec sec hs).2
    exact H.other t psi b (by rw [hb]; exact h1) (hd b h2)) (fun t psi _ h1 h2 => H.short t psi h1 h2) t s cc
  rw [List.map_id'] at h
  refine ⟨s', h.trans (congrArg (fun x => Except.ok (x, s')) ?_)⟩
  exact foldl_same secs t

theorem Pat.ignores (p : Profile) : Ignores (Pat.parse p) (· = 0x00) where
  other t psi b h1 h2 := C65_pat p t psi (.inr (by intro e; rw [e] at h1; cases h1)) (by rintro ⟨h, -⟩; rw [h1] at h; exact h2 (Option.some.inj h))
  short t psi h1 h2 := C65_pat p t psi (.inr (by intro e; rw [e] at h2; cases h2)) (by rintro ⟨-, -, h, -⟩; omega)
theorem Pmt.ignores (p : Profile) : Ignores (Pmt.parse p) (· = 0x02) where
  other t psi b h1 h2 := C65_pmt p t psi (.inr (by intro e; rw [e] at h1; cases h1)) (by rintro ⟨h, -⟩; rw [h1] at h; exact h2 (Option.some.inj h))
  short t psi h1 h2 := C65_pmt p t psi (.inr (by intro e; rw [e] at h2; cases h2)) (by rintro ⟨-, -, h, -⟩; omega)
theorem Tot.ignores (p : Profile) : Ignores (Tot.parse p) (· = 0x73) where
  other t psi b h1 h2 := C65_tot p t psi (.inr (by intro e; rw [e] at h1; cases h1)) (by rintro ⟨h, -⟩; rw [h1] at h; exact h2 (Option.some.inj h))
  short t psi h1 h2 := C65_tot p t psi (.inr (by intro e; rw [e] at h2; cases h2)) (by rintro ⟨-, -, h, -⟩; omega)
theorem Nit.ignores (p : Profile) : Ignores (Nit.parse p) (fun b => b = 0x40 ∨ b = 0x41) where
  other t psi b h1 h2 := C65_nit p t psi (.inr (by intro e; rw [e] at h1; cases h1)) (by
    rintro ⟨h, -⟩; rw [h1] at h; exact h2 (h.imp Option.some.inj Option.some.inj))
  short t psi h1 h2 := C65_nit p t psi (.inr (by intro e; rw [e] at h2; cases h2)) (by rintro ⟨-, -, h, -⟩; omega)
theorem Sdt.ignores (p : Profile) : Ignores (Sdt.parse p) (fun b => b = 0x42 ∨ b = 0x46) where
  other t psi b h1 h2 := C65_sdt p t psi (.inr (by intro e; rw [e] at h1; cases h1)) (by
    rintro ⟨h, -⟩; rw [h1] at h; exact h2 (h.imp Option.some.inj Option.some.inj))
  short t psi h1 h2 := C65_sdt p t psi (.inr (by intro e; rw [e] at h2; cases h2)) (by rintro ⟨-, -, h, -⟩; omega)
theorem Eit.ignores (p : Profile) : Ignores (Eit.parse p) (fun b => 0x4E ≤ b.toNat ∧ b.toNat ≤ 0x6F) where
  other t psi b h1 h2 := C65_eit p t psi (.inr (by intro e; rw [e] at h1; cases h1)) (by
    rintro ⟨⟨b', h, h3⟩, -⟩; rw [h1] at h; obtain rfl := Option.some.inj h; exact h2 h3)
  short t psi h1 h2 := C65_eit p t psi (.inr (by intro e; rw [e] at h2; cases h2)) (by rintro ⟨-, -, h, -⟩; omega)
theorem Tdt.ignores (p : Profile) : Ignores (Tdt.parse p) (· = 0x70) where
  other t psi b h1 h2 := C65_tdt p t psi (.inr ⟨b, h1, h2⟩)
  short t psi h1 h2 := C65_tdt p t psi (.inl (by omega))

/-- What each kind of table is sent as, and what an object of its kind receives. -/
structure Own {α : Type} (p : Profile) (x : AnyTable) (parse : α → Psi → R α) (after : α → R α) : Prop where
  own : ∃ secs, SentAs p x secs ∧ ∀ (pid : Nat), pid < 8192 → ∀ (u : α) (s : Psi) (cc : Nat),
    ∃ s', Spec.receive parse p u s (stream pid cc secs) = (fun v => (v, s')) <$> after u

theorem complete_head (a : UInt8) (b : List UInt8) : (complete (a :: b)).head? = some a := by
  simp [complete]

theorem header_head (tid flags ext v n l : Nat) (rest : List UInt8) :
    (complete (header tid flags ext v n l ++ rest)).head? = some (UInt8.ofNat tid) := by
  obtain ⟨_, _, _, _, _, _, h⟩ := complete_header tid flags ext v n l rest
  rw [h]; rfl

theorem Pat.own (p : Profile) (t : Pat) (h : TableOk (.pat t)) :
    Own p (.pat t) (Pat.parse p) fun u => .ok { t with items := u.items ++ t.items } := by
  obtain ⟨hv, hl, hi⟩ := h
  have H := Pat.sent p t hv hl hi
  refine ⟨[()].map fun _ => t.wire t.items, ⟨?_, ?_⟩, ?_⟩
  · intro pid cc dst hp hc
    have := Pat.C54_wire p t pid cc dst hp hc
    rw [List.take_of_length_le hl] at this
    rw [AnyTable.demux, this]
    simp [stream, streamCount]
  · intro s hs
    obtain ⟨x, hx, rfl⟩ := List.mem_map.1 hs
    exact ⟨(H.sec x hx).1, 0x00, header_head _ _ _ _ _ _ _, rfl⟩
  · intro pid hp u s cc
    obtain ⟨s', h'⟩ := H.all pid hp u s cc
    exact ⟨s', h'⟩

theorem Tot.own (p : Profile) (t : Tot) (h : TableOk (.tot t)) :
    Own p (.tot t) (Tot.parse p) fun u => .ok { t with descriptors := u.descriptors ++ t.descriptors } := by
  obtain ⟨h, he⟩ := h
  have H := Tot.sent p t h he
  refine ⟨[()].map fun _ => t.wire, ⟨?_, ?_⟩, ?_⟩
  · intro pid cc dst hp hc
    rw [AnyTable.demux, Tot.C62_wire p t h pid cc dst hp hc]
    simp [stream, streamCount]
  · intro s hs
    obtain ⟨x, hx, rfl⟩ := List.mem_map.1 hs
    exact ⟨(H.sec x hx).1, 0x73, complete_head _ _, rfl⟩
  · intro pid hp u s cc
    obtain ⟨s', h'⟩ := H.all pid hp u s cc
    exact ⟨s', h'⟩

theorem Sdt.own (p : Profile) (t : Sdt) (ht : t.InRange) :
    Own p (.sdt t) (Sdt.parse p) fun u => .ok { t with items := u.items ++ t.items } := by
  have hr : ∀ i ∈ t.items, Sdt.ItemInRange i := fun i hi => (ht.items i hi).1
  obtain ⟨gs, P, -⟩ := Sdt.C57_wire p t hr 0 0 [] (by decide) (by decide)
  have H := Sdt.sent p t ht gs P
  refine ⟨t.wire gs, ⟨?_, ?_⟩, ?_⟩
  · intro pid cc dst hp hc
    obtain ⟨gs', P', hw⟩ := Sdt.C57_wire p t hr pid cc dst hp hc
    rw [P.unique P']; exact hw
  · intro s hs
    obtain ⟨x, hx, rfl⟩ := List.mem_map.1 hs
    refine ⟨(H.sec x hx).1, t.tableId, ?_, ht.id⟩
    rw [Table.sdt, List.append_assoc, List.append_assoc, header_head, UInt8.ofNat_toNat]
  · intro pid hp u s cc
    obtain ⟨s', h'⟩ := H.all pid hp u s cc
    refine ⟨s', ?_⟩
    have : gs.zipIdx.flatMap (fun x => x.1) = t.items := by rw [List.flatMap_def, List.zipIdx_map_fst, P.all]
    rw [Sdt.wire, h', foldl_items _ (fun x => { t with items := x }) Sdt.items (fun x : List SdtItem × Nat => x.1) (fun _ => rfl),
      if_neg (by simpa using P.nonempty), this]
    rfl

theorem Nit.own (p : Profile) (t : Nit) (ht : t.InRange) :
    Own p (.nit t) (Nit.parse p) fun u => .ok { t with descriptors := u.descriptors ++ t.descriptors, items := u.items ++ t.items } := by
  have hr : ∀ i ∈ t.items, Nit.ItemInRange i := fun i hi => (ht.items i hi).1
  obtain ⟨gs, P, -⟩ := Nit.C56_wire p t ht.network.1 hr 0 0 [] (by decide) (by decide)
  have H := Nit.sent p t ht gs P
  refine ⟨t.wire gs, ⟨?_, ?_⟩, ?_⟩
  · intro pid cc dst hp hc
    obtain ⟨gs', P', hw⟩ := Nit.C56_wire p t ht.network.1 hr pid cc dst hp hc
    rw [P.unique P']; exact hw
  · intro s hs
    obtain ⟨x, hx, rfl⟩ := List.mem_map.1 hs
    refine ⟨(H.sec x hx).1, t.tableId, ?_, ht.id⟩
    rw [Table.nit, List.append_assoc, header_head, UInt8.ofNat_toNat]
  · intro pid hp u s cc
    obtain ⟨s', h'⟩ := H.all pid hp u s cc
    refine ⟨s', ?_⟩
    have : gs.zipIdx.flatMap (fun x => x.1) = t.items := by rw [List.flatMap_def, List.zipIdx_map_fst, P.all]
    rw [Nit.wire, h', Nit.foldl_sent, if_neg (by simpa using P.nonempty), this, zip_first gs P.nonempty]
    rfl

theorem Tdt.own (p : Profile) (t : Tdt) (h : TimeInRange t.time) : Own p (.tdt t) (Tdt.parse p) fun _ => .ok t := by
  have l : (Table.tdt t.time.toNat).length = 8 := by simp [Table.tdt]
  have hs : IsSection (Table.tdt t.time.toNat) := by
    refine ⟨by omega, ?_⟩
    rw [l]; simp [Table.tdt]; decide
  refine ⟨[Table.tdt t.time.toNat], ⟨?_, ?_⟩, ?_⟩
  · intro pid cc dst hp hc
    rw [AnyTable.demux, Tdt.C61_wire p t h pid cc dst hp hc]
    simp [stream, streamCount, l, packetCount]
  · intro s hm
    rw [List.mem_singleton.1 hm]
    exact ⟨hs, 0x70, rfl, rfl⟩
  · intro pid hp u s cc
    have hcc : (UInt8.ofNat (cc % 16)).toNat = cc % 16 := by rw [UInt8.toNat_ofNat']; omega
    have hpid : (UInt16.ofNat pid).toNat = pid := by rw [UInt16.toNat_ofNat']; omega
    obtain ⟨cc1, pk, s1, g1, -, g2⟩ := Tdt.C61_round_trip p t u h (UInt16.ofNat pid) (UInt8.ofNat (cc % 16)) [] s (by omega) (by omega)
    rw [Tdt.C61_wire p t h _ _ [] (by omega) (by omega), hcc, hpid, packets_cc] at g1
    have hpk : packets pid cc (Table.tdt t.time.toNat) = [packetAt pid cc (Table.tdt t.time.toNat) 0] := by
      unfold packets; rw [l]; rfl
    have e : pk = packetAt pid cc (Table.tdt t.time.toNat) 0 := by
      have := congrArg Prod.snd (Except.ok.inj g1)
      rw [hpk] at this
      simpa using this.symm
    refine ⟨s1, ?_⟩
    rw [stream, stream, List.append_nil, hpk, ← e, g2]
    rfl

theorem Eit.own (p : Profile) (t : Eit) (h : TableOk (.eit t)) : Own p (.eit t) (Eit.parse p) fun u => .ok (collectEit u (.eit t)) := by
  obtain ⟨ht, hid⟩ := h
  rw [← or_assoc] at hid
  rcases hid with hid | hsch
  · have H := Eit.sent_pf p t hid ht
    have hr : ∀ i ∈ t.items, Eit.ItemInRange i := fun i hi => (ht.items i hi).1
    refine ⟨t.wirePf, ⟨fun pid cc dst hp hc => Eit.C58_wire p t hid hr pid cc dst hp hc, ?_⟩, ?_⟩
    · intro s hs
      obtain ⟨x, hx, rfl⟩ := List.mem_map.1 hs
      refine ⟨(H.sec x hx).1, t.tableId, ?_, ?_⟩
      · rw [Eit.section_eq, header_head, UInt8.ofNat_toNat]
      · rcases hid with h | h <;> rw [h] <;> exact ⟨by decide, by decide⟩
    · intro pid hp u s cc
      obtain ⟨s', h'⟩ := H.all pid hp u s cc
      refine ⟨s', ?_⟩
      have hl : t.lastId = t.tableId := by
        rw [Eit.lastId, if_neg]
        rcases hid with h | h <;> rw [h] <;> decide
      rw [Eit.wirePf, h', foldl_items _ (fun x => { t with items := x }) Eit.items (fun x : EitItem × Nat => [x.1]) (fun _ => rfl),
        flatMap_fst, List.zipIdx_map_fst, collectEit, hl, map_ok]
      by_cases he : t.items = []
      · rw [if_pos (by simpa using he), if_pos he]
      · rw [if_neg (by simpa using he), if_neg he]
  · have H := Eit.sent_schedule p t hsch ht
    refine ⟨t.wireSchedule, ⟨fun pid cc dst hp hc => Eit.C60_wire_partial p t hsch pid cc dst hp hc, ?_⟩, ?_⟩
    · intro s hs
      obtain ⟨x, hx, rfl⟩ := List.mem_map.1 hs
      obtain ⟨-, a6, a7, -⟩ := Eit.withLast_ok t hsch x hx
      refine ⟨(H.sec x hx).1, UInt8.ofNat x.1.table, ?_, ?_⟩
      · rw [Eit.slotSection, Eit.section_eq, header_head]
      · have : (UInt8.ofNat x.1.table).toNat = x.1.table := by rw [UInt8.toNat_ofNat']; omega
        exact ⟨by omega, by omega⟩
    · intro pid hp u s cc
      obtain ⟨s', h'⟩ := H.all pid hp u s cc
      refine ⟨s', ?_⟩
      have hs : t.slots ≠ [] := by rw [Eit.slots]; simp
      have hw : withLast t.slots ≠ [] := by
        intro e
        apply hs
        rw [← Eit.withLast_fst t.slots, e]; rfl
      have hg : ((withLast t.slots).getLast hw).1 = t.slots.getLast hs := by
        have e : ((withLast t.slots).map (·.1)).getLast (by simpa using hw) = ((withLast t.slots).getLast hw).1 := by rw [List.getLast_map]
        rw [← e]
        simp only [Eit.withLast_fst]
      have hev : (withLast t.slots).flatMap (fun x => x.1.events) = t.items := by
        have := Eit.slots_events t
        rw [← Eit.withLast_fst t.slots, List.flatMap_map] at this
        exact this
      rw [Eit.wireSchedule, h', Eit.foldl_sent, List.getLast?_eq_some_getLast hw]
      simp only []
      rw [hev, hg, collectEit, if_neg hsch.nonempty, Eit.lastId, if_pos hsch.table.1, List.getLast?_eq_some_getLast hs]
      rfl

theorem Pmt.own (p : Profile) (t : Pmt) (ht : t.InRange) :
    Own p (.pmt t) (Pmt.parse p) fun u => collectPmt p u (.pmt t) := by
  have hr : ∀ i ∈ t.items, Pmt.ItemInRange i := fun i hi => (ht.items i hi).1
  obtain ⟨gs, P, -⟩ := Pmt.C55_wire p t ht.program hr 0 0 [] (by decide) (by decide)
  have h63 := wire_le t gs P
  have hsec : ∀ x ∈ gs.zipIdx, IsSection (complete (Table.pmt t.pnr.toNat (t.version.toNat % 32) (x.2 % 256)
      ((gs.length - 1) % 256) (t.pcr.toNat % 8192) (t.program x.2) (x.1.flatMap entry))) := by
    intro x hx
    refine (complete_sent (by simp [Table.pmt]; omega) ?_ (by simp [Table.pmt]; omega)).1
    have := h63 _ (List.mem_map_of_mem hx)
    omega
  refine ⟨t.wire gs, ⟨?_, ?_⟩, ?_⟩
  · intro pid cc dst hp hc
    obtain ⟨gs', P', hw⟩ := Pmt.C55_wire p t ht.program hr pid cc dst hp hc
    rw [P.unique P']; exact hw
  · intro s hs
    obtain ⟨x, hx, rfl⟩ := List.mem_map.1 hs
    refine ⟨hsec x hx, 0x02, ?_, rfl⟩
    simp only [Table.pmt, List.append_assoc]
    rw [header_head]
    rfl
  · intro pid hp u s cc
    obtain ⟨s', h'⟩ := receive_streamM (Pmt.parse p) p pid hp gs.zipIdx _ hsec
      (fun u x => (fun ds => ({ t with descriptors := u.descriptors ++ ds, items := u.items ++ x.1 } : Pmt)) <$>
        (Descriptor.frames (shifted (t.program x.2))).mapM (Desc.parse p)) (by
        intro u x hx psi hb hs
        have hg : x.1 ∈ gs := (List.mem_zipIdx' hx).2 ▸ List.getElem_mem _
        exact parse_section p u t ht _ _ (Nat.mod_lt _ (by omega)) (Nat.mod_lt _ (by omega)) x.2 x.1 (fun i hi => mem_of_group P.all hg hi) psi hb hs)
      (fun u psi _ h1 h2 => (Pmt.ignores p).short u psi h1 h2) u s cc
    refine ⟨s', h'.trans (congrArg (fun x => (fun v => (v, s')) <$> x) ?_)⟩
    obtain ⟨g, r, rfl⟩ := List.exists_cons_of_ne_nil P.nonempty
    rw [List.zipIdx_cons, List.foldlM_cons, collectPmt, readBackShifted_good p t.descriptors ht.program.fits.1]
    simp only [Nat.zero_add]
    rw [show t.program 0 = t.descriptors.flatMap Desc.wire by rw [program, if_pos rfl]]
    cases hm : (Descriptor.frames (shifted (t.descriptors.flatMap Desc.wire))).mapM (Desc.parse p) with
    | error e => rfl
    | ok ds =>
      rw [map_ok, map_ok, ok_bind]
      have hall : t.items = g ++ r.flatten := by rw [← P.all]; rfl
      rw [hall]
      have key : ∀ (r : List (List PmtItem)) (k : Nat), 0 < k → ∀ u : Pmt, (∃ ds is, u = { t with descriptors := ds, items := is }) →
          (r.zipIdx k).foldlM (fun u x => (fun ds => ({ t with descriptors := u.descriptors ++ ds, items := u.items ++ x.1 } : Pmt)) <$>
            (Descriptor.frames (shifted (t.program x.2))).mapM (Desc.parse p)) u = (.ok { u with items := u.items ++ r.flatten } : R Pmt) := by
        intro r
        induction r with
        | nil => intro k _ u _; simp [pure_eq_ok]
        | cons g r ih =>
          intro k hk u hu
          obtain ⟨ds, is, rfl⟩ := hu
          rw [List.zipIdx_cons, List.foldlM_cons]
          simp only []
          rw [show t.program k = [] by rw [program, if_neg (by omega)], shifted_nil, map_ok, ok_bind, ih (k + 1) (by omega) _ ⟨_, _, rfl⟩]
          simp
      rw [key r 1 (by omega) _ ⟨_, _, rfl⟩]
      simp

theorem forall₂_imp {α β : Type} {R S : α → β → Prop} {l : List α} {m : List β} (h : List.Forall₂ R l m) (f : ∀ a b, R a b → S a b) : List.Forall₂ S l m := by
  induction h with
  | nil => exact .nil
  | cons h _ ih => exact .cons (f _ _ h) ih

/-- The sections of each table of a list. -/
def AllSent (p : Profile) (l : List AnyTable) (W : List (List (List UInt8))) : Prop := List.Forall₂ (SentAs p) l W

theorem sendAll_stream (p : Profile) (pid : UInt16) (hp : pid.toNat < 8192) (l : List AnyTable) (W : List (List (List UInt8))) (h : AllSent p l W)
    (cc : UInt8) (hc : cc.toNat < 16) (dst : List UInt8) :
    ∃ cc', sendAll p pid l cc dst = .ok (cc', dst ++ (stream pid.toNat cc.toNat W.flatten).flatten) := by
  induction h generalizing cc dst with
  | nil => exact ⟨cc, by simp [sendAll, stream]⟩
  | @cons x secs l W hx _ ih =>
    have hcc : (UInt8.ofNat ((cc.toNat + streamCount secs) % 16)).toNat = (cc.toNat + streamCount secs) % 16 := by rw [UInt8.toNat_ofNat']; omega
    obtain ⟨cc', h'⟩ := ih (UInt8.ofNat ((cc.toNat + streamCount secs) % 16)) (by rw [hcc]; omega) (dst ++ (stream pid.toNat cc.toNat secs).flatten)
    refine ⟨cc', ?_⟩
    rw [sendAll, hx.send pid cc dst hp hc, ok_bind]
    simp only []
    rw [h', hcc, stream_cc, List.flatten_cons, stream_append, List.flatten_append, List.append_assoc]

theorem receiveAll {α : Type} (parse : α → Psi → R α) (after : α → AnyTable → R α) (p : Profile) (pid : Nat) (l : List AnyTable)
    (W : List (List (List UInt8))) (h : List.Forall₂ (fun x secs => ∀ (u : α) (s : Psi) (cc : Nat),
      ∃ s', Spec.receive parse p u s (stream pid cc secs) = (fun v => (v, s')) <$> after u x) l W) (u : α) (s : Psi) (cc : Nat) :
    ∃ s', Spec.receive parse p u s (stream pid cc W.flatten) = (fun v => (v, s')) <$> l.foldlM after u := by
  induction h generalizing u s cc with
  | nil => exact ⟨s, rfl⟩
  | @cons x secs l W hx _ ih =>
    obtain ⟨s1, h1⟩ := hx u s cc
    rw [List.flatten_cons, stream_append, receive_append, h1, List.foldlM_cons]
    cases ha : after u x with
    | error e => exact ⟨s, rfl⟩
    | ok v =>
      obtain ⟨s2, h2⟩ := ih v s1 (cc + streamCount secs)
      exact ⟨s2, h2⟩

theorem foldlM_ok {α β : Type} (f : α → β → α) (l : List β) (u : α) : l.foldlM (fun u x => (.ok (f u x) : R α)) u = .ok (l.foldl f u) := by
  induction l generalizing u with
  | nil => rfl
  | cons x l ih => rw [List.foldlM_cons, ok_bind, ih]; rfl

/-- Everything about one table that is needed for a PID it shares with others. -/
structure Shared (p : Profile) (x : AnyTable) (secs : List (List UInt8)) : Prop where
  sent : SentAs p x secs
  pat : ∀ (pid : Nat), pid < 8192 → ∀ (u : Pat) (s : Psi) (cc : Nat), ∃ s', Spec.receive (Pat.parse p) p u s (stream pid cc secs) = .ok (collectPat u x, s')
  pmt : ∀ (pid : Nat), pid < 8192 → ∀ (u : Pmt) (s : Psi) (cc : Nat), ∃ s', Spec.receive (Pmt.parse p) p u s (stream pid cc secs) = (fun v => (v, s')) <$> collectPmt p u x
  nit : ∀ (pid : Nat), pid < 8192 → ∀ (u : Nit) (s : Psi) (cc : Nat), ∃ s', Spec.receive (Nit.parse p) p u s (stream pid cc secs) = .ok (collectNit u x, s')
  sdt : ∀ (pid : Nat), pid < 8192 → ∀ (u : Sdt) (s : Psi) (cc : Nat), ∃ s', Spec.receive (Sdt.parse p) p u s (stream pid cc secs) = .ok (collectSdt u x, s')
  eit : ∀ (pid : Nat), pid < 8192 → ∀ (u : Eit) (s : Psi) (cc : Nat), ∃ s', Spec.receive (Eit.parse p) p u s (stream pid cc secs) = .ok (collectEit u x, s')
  tdt : ∀ (pid : Nat), pid < 8192 → ∀ (u : Tdt) (s : Psi) (cc : Nat), ∃ s', Spec.receive (Tdt.parse p) p u s (stream pid cc secs) = .ok (collectTdt u x, s')
  tot : ∀ (pid : Nat), pid < 8192 → ∀ (u : Tot) (s : Psi) (cc : Nat), ∃ s', Spec.receive (Tot.parse p) p u s (stream pid cc secs) = .ok (collectTot u x, s')

theorem shared (p : Profile) (x : AnyTable) (h : TableOk x) : ∃ secs, Shared p x secs := by
  have n1 : ∀ b : UInt8, b = 0x02 ∨ b = 0x40 ∨ b = 0x41 ∨ b = 0x42 ∨ b = 0x46 ∨ b = 0x70 ∨ b = 0x73 ∨ b = 0 → ¬ (0x4E ≤ b.toNat ∧ b.toNat ≤ 0x6F) := by
    rintro b (rfl | rfl | rfl | rfl | rfl | rfl | rfl | rfl) <;> decide
  have n2 : ∀ b : UInt8, (0x4E ≤ b.toNat ∧ b.toNat ≤ 0x6F) → ¬ (b = 0x02 ∨ b = 0x40 ∨ b = 0x41 ∨ b = 0x42 ∨ b = 0x46 ∨ b = 0x70 ∨ b = 0x73 ∨ b = 0) :=
    fun b h h' => n1 b h' h
  have ig : ∀ {α : Type} {parse : α → Psi → R α} {id : UInt8 → Prop} (_ : Ignores parse id) {secs : List (List UInt8)} (_ : SentAs p x secs)
      (_ : ∀ b, idOf x b → ¬ id b) (pid : Nat) (_ : pid < 8192) (u : α) (s : Psi) (cc : Nat),
      ∃ s', Spec.receive parse p u s (stream pid cc secs) = .ok (u, s') := fun H _ hs hd pid hp u s cc => H.receive p hs hd pid hp u s cc
  cases x with
  | pat t =>
    obtain ⟨secs, hs, ho⟩ := (Pat.own p t h).own
    exact ⟨secs, hs, ho, ig (Pmt.ignores p) hs (by rintro b rfl; decide), ig (Nit.ignores p) hs (by rintro b rfl; decide),
      ig (Sdt.ignores p) hs (by rintro b rfl; decide), ig (Eit.ignores p) hs (by rintro b rfl; decide), ig (Tdt.ignores p) hs (by rintro b rfl; decide),
      ig (Tot.ignores p) hs (by rintro b rfl; decide)⟩
  | pmt t =>
    obtain ⟨secs, hs, ho⟩ := (Pmt.own p t h).own
    exact ⟨secs, hs, ig (Pat.ignores p) hs (by rintro b rfl; decide), ho, ig (Nit.ignores p) hs (by rintro b rfl; decide),
      ig (Sdt.ignores p) hs (by rintro b rfl; decide), ig (Eit.ignores p) hs (by rintro b rfl; decide), ig (Tdt.ignores p) hs (by rintro b rfl; decide),
      ig (Tot.ignores p) hs (by rintro b rfl; decide)⟩
  | nit t =>
    obtain ⟨secs, hs, ho⟩ := (Nit.own p t h).own
    exact ⟨secs, hs, ig (Pat.ignores p) hs (by rintro b (rfl | rfl) <;> decide), ig (Pmt.ignores p) hs (by rintro b (rfl | rfl) <;> decide), ho,
      ig (Sdt.ignores p) hs (by rintro b (rfl | rfl) <;> decide), ig (Eit.ignores p) hs (by rintro b (rfl | rfl) <;> decide),
      ig (Tdt.ignores p) hs (by rintro b (rfl | rfl) <;> decide), ig (Tot.ignores p) hs (by rintro b (rfl | rfl) <;> decide)⟩
  | sdt t =>
    obtain ⟨secs, hs, ho⟩ := (Sdt.own p t h).own
    exact ⟨secs, hs, ig (Pat.ignores p) hs (by rintro b (rfl | rfl) <;> decide), ig (Pmt.ignores p) hs (by rintro b (rfl | rfl) <;> decide),
      ig (Nit.ignores p) hs (by rintro b (rfl | rfl) <;> decide), ho, ig (Eit.ignores p) hs (by rintro b (rfl | rfl) <;> decide),
      ig (Tdt.ignores p) hs (by rintro b (rfl | rfl) <;> decide), ig (Tot.ignores p) hs (by rintro b (rfl | rfl) <;> decide)⟩
  | eit t =>
    obtain ⟨secs, hs, ho⟩ := (Eit.own p t h).own
    exact ⟨secs, hs, ig (Pat.ignores p) hs (fun b hb e => n2 b hb (by simp [e])), ig (Pmt.ignores p) hs (fun b hb e => n2 b hb (by simp [e])),
      ig (Nit.ignores p) hs (fun b hb e => n2 b hb (by rcases e with e | e <;> simp [e])),
      ig (Sdt.ignores p) hs (fun b hb e => n2 b hb (by rcases e with e | e <;> simp [e])), ho,
      ig (Tdt.ignores p) hs (fun b hb e => n2 b hb (by simp [e])), ig (Tot.ignores p) hs (fun b hb e => n2 b hb (by simp [e]))⟩
  | tdt t =>
    obtain ⟨secs, hs, ho⟩ := (Tdt.own p t h).own
    exact ⟨secs, hs, ig (Pat.ignores p) hs (by rintro b rfl; decide), ig (Pmt.ignores p) hs (by rintro b rfl; decide), ig (Nit.ignores p) hs (by rintro b rfl; decide),
      ig (Sdt.ignores p) hs (by rintro b rfl; decide), ig (Eit.ignores p) hs (by rintro b rfl; decide), ho,
      ig (Tot.ignores p) hs (by rintro b rfl; decide)⟩
  | tot t =>
    obtain ⟨secs, hs, ho⟩ := (Tot.own p t h).own
    exact ⟨secs, hs, ig (Pat.ignores p) hs (by rintro b rfl; decide), ig (Pmt.ignores p) hs (by rintro b rfl; decide), ig (Nit.ignores p) hs (by rintro b rfl; decide),
      ig (Sdt.ignores p) hs (by rintro b rfl; decide), ig (Eit.ignores p) hs (by rintro b rfl; decide), ig (Tdt.ignores p) hs (by rintro b rfl; decide), ho⟩

theorem sharedAll (p : Profile) (l : List AnyTable) (h : ∀ x ∈ l, TableOk x) : ∃ W, List.Forall₂ (Shared p) l W := by
  induction l with
  | nil => exact ⟨[], .nil⟩
  | cons x l ih =>
    obtain ⟨secs, h1⟩ := shared p x (h x List.mem_cons_self)
    obtain ⟨W, h2⟩ := ih fun y hy => h y (List.mem_cons_of_mem _ hy)
    exact ⟨secs :: W, .cons h1 h2⟩

/-- C107: tables of any kinds, sent one after the other on one PID.  Whatever object is given all the packets, with whatever it held before
and whatever the reassembler held before, collects the tables of its own kind in order (their entries added, the other fields those of
the last), as if the others had not been sent. -/
theorem C107_shared_pid (p : Profile) (l : List AnyTable) (h : ∀ x ∈ l, TableOk x) (pid : UInt16) (cc : UInt8) (dst : List UInt8)
    (hp : pid.toNat < 8192) (hc : cc.toNat < 16) :
    ∃ cc' pks, sendAll p pid l cc dst = .ok (cc', dst ++ pks.flatten) ∧ (∀ pk ∈ pks, IsTsPacket pid.toNat pk) ∧
      (∀ (u : Pat) (s : Psi), ∃ s', receive (Pat.parse p) p u s pks = .ok (l.foldl collectPat u, s')) ∧
      (∀ (u : Pmt) (s : Psi), ∃ s', receive (Pmt.parse p) p u s pks = (do .ok (← l.foldlM (collectPmt p) u, s'))) ∧
      (∀ (u : Nit) (s : Psi), ∃ s', receive (Nit.parse p) p u s pks = .ok (l.foldl collectNit u, s')) ∧
      (∀ (u : Sdt) (s : Psi), ∃ s', receive (Sdt.parse p) p u s pks = .ok (l.foldl collectSdt u, s')) ∧
      (∀ (u : Eit) (s : Psi), ∃ s', receive (Eit.parse p) p u s pks = .ok (l.foldl collectEit u, s')) ∧
      (∀ (u : Tdt) (s : Psi), ∃ s', receive (Tdt.parse p) p u s pks = .ok (l.foldl collectTdt u, s')) ∧
      ∀ (u : Tot) (s : Psi), ∃ s', receive (Tot.parse p) p u s pks = .ok (l.foldl collectTot u, s') := by
  obtain ⟨W, hW⟩ := sharedAll p l h
  obtain ⟨cc', hs⟩ := sendAll_stream p pid hp l W (forall₂_imp hW fun _ _ h => h.sent) cc hc dst
  have total : ∀ {α : Type} (parse : α → Psi → R α) (after : α → AnyTable → α) (_ : List.Forall₂ (fun x secs => ∀ (u : α) (s : Psi) (cc : Nat),
      ∃ s', Spec.receive parse p u s (stream pid.toNat cc secs) = .ok (after u x, s')) l W) (u : α) (s : Psi),
      ∃ s', Spec.receive parse p u s (stream pid.toNat cc.toNat W.flatten) = .ok (l.foldl after u, s') := by
    intro α parse after hf u s
    obtain ⟨s', h'⟩ := receiveAll parse (fun u x => .ok (after u x)) p pid.toNat l W hf u s cc.toNat
    exact ⟨s', by rw [h', foldlM_ok, map_ok]⟩
  refine ⟨cc', _, hs, stream_packets _ _ hp _, total _ _ (forall₂_imp hW fun _ _ h => h.pat _ hp), ?_, total _ _ (forall₂_imp hW fun _ _ h => h.nit _ hp),
    total _ _ (forall₂_imp hW fun _ _ h => h.sdt _ hp), total _ _ (forall₂_imp hW fun _ _ h => h.eit _ hp), total _ _ (forall₂_imp hW fun _ _ h => h.tdt _ hp),
    total _ _ (forall₂_imp hW fun _ _ h => h.tot _ hp)⟩
  intro u s
  obtain ⟨s', h'⟩ := receiveAll (Pmt.parse p) (collectPmt p) p pid.toNat l W (forall₂_imp hW fun _ _ h => h.pmt _ hp) u s cc.toNat
  refine ⟨s', h'.trans ?_⟩
  cases l.foldlM (collectPmt p) u <;> rfl

/-- C107: two tables of one kind that describe different things (the services of this and of another transport stream, say) are not told
apart: an object that is given both has the fields of the second and the entries of both. -/
theorem C107_actual_other (p : Profile) (a b : Sdt) (ha : a.InRange) (hb : b.InRange) (pid : UInt16) (cc : UInt8) (dst : List UInt8) (s : Psi)
    (hp : pid.toNat < 8192) (hc : cc.toNat < 16) :
    ∃ cc' pks s', sendAll p pid [.sdt a, .sdt b] cc dst = .ok (cc', dst ++ pks.flatten) ∧
      receive (Sdt.parse p) p Sdt.default s pks = .ok ({ b with items := a.items ++ b.items }, s') := by
  obtain ⟨cc', pks, h1, -, -, -, -, h2, -⟩ := C107_shared_pid p [.sdt a, .sdt b] (by
    intro x hx
    rcases List.mem_cons.1 hx with rfl | hx
    · exact ha
    · rw [List.mem_singleton.1 hx]; exact hb) pid cc dst hp hc
  obtain ⟨s', h3⟩ := h2 Sdt.default s
  exact ⟨cc', pks, s', h1, h3⟩

/-- C107: the TDT and the TOT share PID 0x14.  A TDT object follows the TDTs, a TOT object the TOTs. -/
theorem C107_clock (p : Profile) (a b : Tdt) (o : Tot) (ha : TimeInRange a.time) (hb : TimeInRange b.time) (ho : o.InRange)
    (he : ∀ d ∈ o.descriptors, d.Exact) (cc : UInt8) (dst : List UInt8) (s : Psi) (hc : cc.toNat < 16) :
    ∃ cc' pks, sendAll p 0x14 [.tdt a, .tot o, .tdt b] cc dst = .ok (cc', dst ++ pks.flatten) ∧
      (∃ s', receive (Tdt.parse p) p Tdt.default s pks = .ok (b, s')) ∧ ∃ s', receive (Tot.parse p) p Tot.default s pks = .ok (o, s') := by
  obtain ⟨cc', pks, h1, -, -, -, -, -, -, h2, h3⟩ := C107_shared_pid p [.tdt a, .tot o, .tdt b] (by
    intro x hx
    simp only [List.mem_cons, List.not_mem_nil, or_false] at hx
    rcases hx with rfl | rfl | rfl
    · exact ha
    · exact ⟨ho, he⟩
    · exact hb) 0x14 cc dst (by decide) hc
  exact ⟨cc', pks, h1, h2 Tdt.default s, h3 Tot.default s⟩

/-! ## Concrete cases -/

/-- Everything on one PID. -/
example : ∀ x ∈ [AnyTable.sdt sampleSdt, .pat samplePat, .nit sampleNit, .eit sampleEit, .eit sampleSchedule, .pmt samplePmt2, .tdt ⟨1700000000⟩,
    .tot sampleTot, .sdt sampleSdt], TableOk x := by
  intro x hx
  simp only [List.mem_cons, List.not_mem_nil, or_false] at hx
  rcases hx with rfl | rfl | rfl | rfl | rfl | rfl | rfl | rfl | rfl
  · exact sampleSdt_inRange
  · exact ⟨by decide, by decide, by decide⟩
  · exact sampleNit_inRange
  · exact ⟨sampleEit_inRange, .inl rfl⟩
  · exact ⟨sampleSchedule_inRange, .inr (.inr sampleSchedule_ok)⟩
  · exact samplePmt2_inRange
  · unfold TableOk TimeInRange unixEpochMjd; decide
  · exact ⟨⟨by unfold TimeInRange unixEpochMjd; decide, by decide +kernel, by decide +kernel⟩, by decide +kernel⟩
  · exact sampleSdt_inRange

/-- What an EIT object has collected then: the event of the first table and the events of the second. -/
example : ([AnyTable.eit sampleEit, .tdt ⟨1700000000⟩, .eit sampleSchedule].foldl collectEit Eit.default).items = sampleEit.items ++ sampleSchedule.items := rfl

end Mpegts
