import Verif.Props.C107
import Verif.Props.C110Eit
import Verif.Props.C125

/-! # C133: tables with a table id that is not of their kind

The table id of an SDT, NIT or EIT is a public field, zero in a default value.  It is sent as it is. -/

namespace Mpegts
open Spec Spec.Table Spec.Schedule

/-- Sections that begin with ids an object does not read leave it as it was. -/
theorem Ignores.all {α : Type} {parse : α → Psi → R α} {id : UInt8 → Prop} (H : Ignores parse id) (p : Profile) {secs : List (List UInt8)}
    (hx : ∀ s ∈ secs, IsSection s ∧ ∃ b, s.head? = some b ∧ ¬ id b) (pid : Nat) (hp : pid < 8192) (t : α) (s : Psi) (cc : Nat) :
    ∃ s', Spec.receive parse p t s (Spec.Table.stream pid cc secs) = .ok (t, s') := by
  obtain ⟨s', h⟩ := receive_stream parse p pid hp secs (fun x => x) (fun x h => (hx x h).1) (fun t _ => t) (by
    intro t sec hs psi hb _
    obtain ⟨b, h1, h2⟩ := (hx sec hs).2
    exact H.other t psi b (by rw [hb]; exact h1) h2) (fun t psi _ h1 h2 => H.short t psi h1 h2) t s cc
  rw [List.map_id'] at h
  exact ⟨s', h.trans (congrArg (fun x => Except.ok (x, s')) (foldl_same secs t))⟩

/-- Sections with table id zero are taken for parts of a PAT. -/
theorem Pat.stream_zero (p : Profile) {secs : List (List UInt8)} (hx : ∀ s ∈ secs, IsSection s ∧ 12 ≤ s.length ∧ s.head? = some 0 ∧
      ∀ psi : Psi, psi.buffer = s → psi.size = s.length → Intact 12 psi)
    (pid : Nat) (hp : pid < 8192) (u : Pat) (s : Psi) (cc : Nat) :
    ∃ s', Spec.receive (Pat.parse p) p u s (Spec.Table.stream pid cc secs) = .ok (secs.foldl Reading.pat u, s') := by
  obtain ⟨s', h⟩ := receive_stream (Pat.parse p) p pid hp secs (fun x => x) (fun x h => (hx x h).1) Reading.pat (by
    intro t sec hs psi hb hz
    obtain ⟨-, h12, h0, hi⟩ := hx sec hs
    have h := ((Pat.C125_pat p t psi).2 (by rintro ⟨-, e⟩; rw [hb] at e; rw [e] at h0; cases h0)).1 ⟨by rw [hb]; exact h0, hi psi hb hz⟩
    rw [h, hb, hz, List.take_length])
    (fun t psi _ h1 h2 => (Pat.ignores p).short t psi h1 h2) u s cc
  rw [List.map_id'] at h
  exact ⟨s', h⟩

theorem stream_ne {pid cc : Nat} {secs : List (List UInt8)} (h : secs ≠ []) : Spec.Table.stream pid cc secs ≠ [] := by
  cases secs with
  | nil => exact absurd rfl h
  | cons a r =>
    intro e
    rw [Spec.Table.stream, List.append_eq_nil_iff] at e
    have := congrArg List.length e.1
    simp only [packets, List.length_map, List.length_range, packetCount, List.length_nil] at this
    omega

namespace Sdt

theorem wire_sections (t : Sdt) (gs : List (List SdtItem)) (P : Packed (fun i => (entry i).length) 1020 11 11 t.items gs) :
    ∀ s ∈ t.wire gs, IsSection s ∧ 12 ≤ s.length ∧ s.head? = some t.tableId ∧
      ∀ psi : Psi, psi.buffer = s → psi.size = s.length → Intact 12 psi := by
  intro s hs
  have hle := wire_le t gs P s hs
  obtain ⟨x, -, rfl⟩ := List.mem_map.1 hs
  have hl : 3 ≤ (Table.sdt t.tableId.toNat t.tsid.toNat (t.version.toNat % 32) (x.2 % 256) ((gs.length - 1) % 256) t.onid.toNat
      (x.1.flatMap entry)).length := by simp [Table.sdt]; omega
  have hlen := complete_length hl
  refine ⟨complete_isSection hl (by omega), by rw [hlen]; simp [Table.sdt], ?_, fun psi hb hz => ?_⟩
  · rw [Table.sdt, List.append_assoc, List.append_assoc, header_head, UInt8.ofNat_toNat]
  · exact complete_intact _ hl psi hb hz 12 (by simp [Table.sdt])

/-- C133 fails for SDTs: with any other table id than 0x42 and 0x46, the packets are sent, but an SDT object that is given them stays as it
was. -/
theorem C133_sdt_refuted (p : Profile) (t : Sdt) (hid : t.tableId ≠ 0x42 ∧ t.tableId ≠ 0x46) (hr : ∀ i ∈ t.items, ItemInRange i) (pid : UInt16)
    (cc : UInt8) (dst : List UInt8) (hp : pid.toNat < 8192) (hc : cc.toNat < 16) :
    ∃ cc' pks, t.demux p pid cc dst = .ok (cc', dst ++ pks.flatten) ∧ pks ≠ [] ∧ (∀ pk ∈ pks, IsTsPacket pid.toNat pk) ∧
      ∀ (u : Sdt) (s : Psi), ∃ s', receive (Sdt.parse p) p u s pks = .ok (u, s') := by
  obtain ⟨gs, P, h⟩ := C57_wire p t hr pid cc dst hp hc
  have hw := wire_sections t gs P
  refine ⟨_, _, h, ?_, ?_, fun u s => ?_⟩
  · exact stream_ne (by rw [wire]; simpa using P.nonempty)
  · exact stream_packets _ _ hp _
  · exact (Sdt.ignores p).all p (fun x hx => ⟨(hw x hx).1, _, (hw x hx).2.2.1, by simpa using hid⟩) pid.toNat hp u s cc.toNat

/-- C133: an SDT whose table id is left at zero is taken for a PAT by every PAT object that is given the packets: the bytes of its services for
programs. -/
theorem C133_sdt_pat_refuted (p : Profile) (t : Sdt) (hid : t.tableId = 0) (hr : ∀ i ∈ t.items, ItemInRange i) (pid : UInt16)
    (cc : UInt8) (dst : List UInt8) (hp : pid.toNat < 8192) (hc : cc.toNat < 16) :
    ∃ cc' gs, t.demux p pid cc dst = .ok (cc', dst ++ (stream pid.toNat cc.toNat (t.wire gs)).flatten) ∧ t.wire gs ≠ [] ∧
      ∀ (u : Pat) (s : Psi), ∃ s', receive (Pat.parse p) p u s (stream pid.toNat cc.toNat (t.wire gs)) = .ok ((t.wire gs).foldl Reading.pat u, s') := by
  obtain ⟨gs, P, h⟩ := C57_wire p t hr pid cc dst hp hc
  have hw := wire_sections t gs P
  refine ⟨_, gs, h, ?_, fun u s => ?_⟩
  · rw [wire]; simpa using P.nonempty
  · exact Pat.stream_zero p (fun x hx => ⟨(hw x hx).1, (hw x hx).2.1, by rw [(hw x hx).2.2.1, hid], (hw x hx).2.2.2⟩) pid.toNat hp u s cc.toNat

/-- C133, what holds: with the ids 0x42 and 0x46 an SDT arrives, with its id. -/
theorem C133_sdt_partial (p : Profile) (t : Sdt) (ht : t.InRange) (pid : UInt16) (cc : UInt8) (dst : List UInt8) (hp : pid.toNat < 8192)
    (hc : cc.toNat < 16) :
    ∃ cc' pks, t.demux p pid cc dst = .ok (cc', dst ++ pks.flatten) ∧
      ∀ (u : Sdt) (s : Psi), ∃ s', receive (Sdt.parse p) p u s pks = .ok ({ t with items := u.items ++ t.items }, s') := by
  obtain ⟨secs, h1, h2⟩ := (Sdt.own p t ht).own
  refine ⟨_, _, h1.send pid cc dst hp hc, fun u s => ?_⟩
  exact h2 pid.toNat hp u s cc.toNat

end Sdt

namespace Nit

theorem wire_sections (t : Nit) (gs : List (List NitItem))
    (P : Packed (fun i => (entry i).length) 1020 (12 + (t.descriptors.flatMap Desc.wire).length) 12 t.items gs) :
    ∀ s ∈ t.wire gs, IsSection s ∧ 12 ≤ s.length ∧ s.head? = some t.tableId ∧
      ∀ psi : Psi, psi.buffer = s → psi.size = s.length → Intact 12 psi := by
  intro s hs
  have hle := wire_le t gs P s hs
  obtain ⟨x, -, rfl⟩ := List.mem_map.1 hs
  have hl : 8 ≤ (Table.nit t.tableId.toNat t.networkId.toNat (t.version.toNat % 32) (x.2 % 256) ((gs.length - 1) % 256) (t.network x.2)
      (x.1.flatMap entry)).length := by simp [Table.nit]
  have hlen := complete_length (h3 := Nat.le_trans (by omega) hl)
  refine ⟨complete_isSection (by omega) (by omega), by omega, ?_, fun psi hb hz => ?_⟩
  · simp only [Table.nit, List.append_assoc]
    rw [header_head, UInt8.ofNat_toNat]
  · exact complete_intact _ (by omega) psi hb hz 12 (by omega)

/-- C133 fails for NITs: with any other table id than 0x40 and 0x41, the packets are sent, but a NIT object that is given them stays as it
was. -/
theorem C133_nit_refuted (p : Profile) (t : Nit) (hid : t.tableId ≠ 0x40 ∧ t.tableId ≠ 0x41) (hn : NetworkInRange t)
    (hr : ∀ i ∈ t.items, ItemInRange i) (pid : UInt16) (cc : UInt8) (dst : List UInt8) (hp : pid.toNat < 8192) (hc : cc.toNat < 16) :
    ∃ cc' pks, t.demux p pid cc dst = .ok (cc', dst ++ pks.flatten) ∧ pks ≠ [] ∧ (∀ pk ∈ pks, IsTsPacket pid.toNat pk) ∧
      ∀ (u : Nit) (s : Psi), ∃ s', receive (Nit.parse p) p u s pks = .ok (u, s') := by
  obtain ⟨gs, P, h⟩ := C56_wire p t hn hr pid cc dst hp hc
  have hw := wire_sections t gs P
  refine ⟨_, _, h, ?_, ?_, fun u s => ?_⟩
  · exact stream_ne (by rw [wire]; simpa using P.nonempty)
  · exact stream_packets _ _ hp _
  · exact (Nit.ignores p).all p (fun x hx => ⟨(hw x hx).1, _, (hw x hx).2.2.1, by simpa using hid⟩) pid.toNat hp u s cc.toNat

/-- C133: a NIT whose table id is left at zero is taken for a PAT by every PAT object that is given the packets: the bytes of its descriptors
and transport streams for programs. -/
theorem C133_nit_pat_refuted (p : Profile) (t : Nit) (hid : t.tableId = 0) (hn : NetworkInRange t) (hr : ∀ i ∈ t.items, ItemInRange i) (pid : UInt16)
    (cc : UInt8) (dst : List UInt8) (hp : pid.toNat < 8192) (hc : cc.toNat < 16) :
    ∃ cc' gs, t.demux p pid cc dst = .ok (cc', dst ++ (stream pid.toNat cc.toNat (t.wire gs)).flatten) ∧ t.wire gs ≠ [] ∧
      ∀ (u : Pat) (s : Psi), ∃ s', receive (Pat.parse p) p u s (stream pid.toNat cc.toNat (t.wire gs)) = .ok ((t.wire gs).foldl Reading.pat u, s') := by
  obtain ⟨gs, P, h⟩ := C56_wire p t hn hr pid cc dst hp hc
  have hw := wire_sections t gs P
  refine ⟨_, gs, h, ?_, fun u s => ?_⟩
  · rw [wire]; simpa using P.nonempty
  · exact Pat.stream_zero p (fun x hx => ⟨(hw x hx).1, (hw x hx).2.1, by rw [(hw x hx).2.2.1, hid], (hw x hx).2.2.2⟩) pid.toNat hp u s cc.toNat

/-- C133, what holds: with the ids 0x40 and 0x41 a NIT arrives, with its id. -/
theorem C133_nit_partial (p : Profile) (t : Nit) (ht : t.InRange) (pid : UInt16) (cc : UInt8) (dst : List UInt8) (hp : pid.toNat < 8192)
    (hc : cc.toNat < 16) :
    ∃ cc' pks, t.demux p pid cc dst = .ok (cc', dst ++ pks.flatten) ∧
      ∀ (u : Nit) (s : Psi), ∃ s', receive (Nit.parse p) p u s pks =
        .ok ({ t with descriptors := u.descriptors ++ t.descriptors, items := u.items ++ t.items }, s') := by
  obtain ⟨secs, h1, h2⟩ := (Nit.own p t ht).own
  refine ⟨_, _, h1.send pid cc dst hp hc, fun u s => ?_⟩
  exact h2 pid.toNat hp u s cc.toNat

end Nit

namespace Eit

theorem place_tables (l : List EitItem) : ∀ (limit : Nat) (pos : Nat × Nat) (x : ScheduleAny.Sect EitItem), pos.2 < 256 →
    pos.1 * 256 + pos.2 + 8 * l.length < 65536 →
    ∀ y ∈ ScheduleAny.place (·.start.toNat) (fun i => (entry i).length) 4078 limit pos x l,
      y.table = x.table ∨ (pos.1 ≤ y.table ∧ y.table * 256 ≤ pos.1 * 256 + pos.2 + 8 * l.length) := by
  induction l with
  | nil =>
    intro limit pos x _ _ y hy
    rw [ScheduleAny.place, List.mem_singleton] at hy
    exact .inl (by rw [hy])
  | cons i r ih =>
    intro limit pos x h2 h y hy
    rw [List.length_cons] at h ⊢
    rw [ScheduleAny.place] at hy
    split at hy
    · rcases List.mem_cons.1 hy with rfl | hy
      · exact .inl rfl
      · have key : (ScheduleAny.nextSegment pos).2 < 256 ∧ pos.1 ≤ (ScheduleAny.nextSegment pos).1 ∧
            (ScheduleAny.nextSegment pos).1 * 256 + (ScheduleAny.nextSegment pos).2 ≤ pos.1 * 256 + pos.2 + 8 := by
          obtain ⟨a, b⟩ := pos
          simp only [] at h h2
          have hm : b / 8 = 31 → (a + 1) % 256 = a + 1 := fun _ => Nat.mod_eq_of_lt (by omega)
          rw [ScheduleAny.nextSegment]
          split
          · rename_i hb
            simp only [] at hb ⊢
            rw [hm hb]
            omega
          · simp only [] at *
            omega
        generalize ScheduleAny.nextSegment pos = q at key hy
        have hq : q.1 * 256 + q.2 + 8 * r.length < 65536 := by
          obtain ⟨-, -, k⟩ := key
          clear hy ih h2
          have e : 8 * (r.length + 1) = 8 * r.length + 8 := by rw [Nat.mul_add]
          rw [e] at h
          exact Nat.lt_of_le_of_lt (Nat.add_le_add_right k _) (by rw [Nat.add_assoc _ 8, Nat.add_comm 8]; exact h)
        have := ih _ q _ key.1 hq y hy
        simp only [] at this
        omega
    · split at hy
      · rcases List.mem_cons.1 hy with rfl | hy
        · exact .inl rfl
        · have := ih _ _ _ (by simp only [ScheduleAny.nextNumber]; omega) (by simp only [ScheduleAny.nextNumber]; omega) y hy
          simp only [ScheduleAny.nextNumber] at this
          omega
      · have := ih _ _ _ h2 (by omega) y hy
        simp only [] at this
        omega

/-- Every 32 events can get to the next sub-table at most once. -/
theorem sects_tables (t : Eit) (hn : t.tableId.toNat / 16 * 16 + (t.items.length + 8) / 32 < 256) : ∀ y ∈ t.sects, y.table = t.tableId.toNat ∨
    (t.tableId.toNat / 16 * 16 ≤ y.table ∧ y.table ≤ t.tableId.toNat / 16 * 16 + (t.items.length + 8) / 32) := by
  intro y hy
  rw [sects, List.mem_append] at hy
  rcases hy with hy | hy
  · obtain ⟨j, -, rfl⟩ := List.mem_map.1 hy
    refine .inr ?_
    simp only [base]
    omega
  · have hf : t.firstSegment ≤ 7 := by
      simp only [firstSegment, segmentOf, origin, midnight, segmentLength, day]
      omega
    have := place_tables t.items _ _ _ (by simp only []; omega) (by simp only [base]; omega) y hy
    simp only [base] at this
    omega

/-- C133 fails for EITs: with a table id below 0x4E or above 0x6F, the packets are sent, but an EIT object that is given them stays as it was, as long
as the events (at most one sub-table more for every 32) do not count the table id up to those of an EIT: with the default id, zero, for all schedules of up to
2487 events.  (For longer ones see C100_delivery_partial.) -/
theorem C133_eit_refuted (p : Profile) (t : Eit) (hne : t.items ≠ [])
    (hid : (t.tableId.toNat < 0x4E ∧ t.tableId.toNat / 16 * 16 + (t.items.length + 8) / 32 < 0x4E) ∨
      (0x6F < t.tableId.toNat ∧ t.tableId.toNat / 16 * 16 + (t.items.length + 8) / 32 < 256))
    (hr : ∀ i ∈ t.items, ItemInRange i) (hno : ¬ (p = .debug ∧ t.Overflow)) (pid : UInt16) (cc : UInt8) (dst : List UInt8)
    (hp : pid.toNat < 8192) (hc : cc.toNat < 16) :
    ∃ cc' pks, t.demux p pid cc dst = .ok (cc', dst ++ pks.flatten) ∧ pks ≠ [] ∧ (∀ pk ∈ pks, IsTsPacket pid.toNat pk) ∧
      ∀ (u : Eit) (s : Psi), ∃ s', receive (Eit.parse p) p u s pks = .ok (u, s') := by
  have h := C100_wire_partial p t ⟨by rintro e; rw [e] at hid; revert hid; simp, by rintro e; rw [e] at hid; revert hid; simp⟩ hne hr pid cc dst hp hc
  rw [if_neg hno] at h
  refine ⟨_, _, h, stream_ne t.wireAny_ne, stream_packets _ _ hp _, fun u s => ?_⟩
  refine (Eit.ignores p).all p (fun x hx => ?_) pid.toNat hp u s cc.toNat
  have hle := wireAny_le t hr x hx
  obtain ⟨y, hy, rfl⟩ := List.mem_map.1 hx
  rw [anySection, section_length] at hle
  have hlt := t.tableId.toNat_lt
  refine ⟨?_, UInt8.ofNat y.1.table, ?_, ?_⟩
  · rw [anySection, section_eq]
    exact complete_isSection (by simp; omega) (by simp only [List.length_append, header_length, rest_length]; omega)
  · rw [anySection, section_eq, header_head]
  · have := sects_tables t (by omega) y.1 (withLast_memAny _ y hy).1
    rw [UInt8.toNat_ofNat']
    omega

end Eit

/-! ## Concrete cases -/

/-- Services whose table id has been forgotten. -/
def noIdSdt : Sdt := { sampleSdt with tableId := Sdt.default.tableId }
/-- A network whose table id has been forgotten. -/
def noIdNit : Nit := { sampleNit with tableId := Nit.default.tableId }
/-- Events whose table id has been forgotten. -/
def noIdEit : Eit := { sampleSchedule with tableId := Eit.default.tableId }

example (p : Profile) : ∃ cc' pks, noIdSdt.demux p 0x11 3 [] = .ok (cc', [] ++ pks.flatten) ∧ pks ≠ [] ∧ (∀ pk ∈ pks, IsTsPacket 0x11 pk) ∧
    ∀ (u : Sdt) (s : Psi), ∃ s', receive (Sdt.parse p) p u s pks = .ok (u, s') :=
  Sdt.C133_sdt_refuted p noIdSdt (by decide) (fun i hi => (sampleSdt_inRange.items i hi).1) 0x11 3 [] (by decide) (by decide)
example (p : Profile) : ∃ cc' gs, noIdSdt.demux p 0x11 3 [] = .ok (cc', [] ++ (stream 0x11 3 (noIdSdt.wire gs)).flatten) ∧ noIdSdt.wire gs ≠ [] ∧
    ∀ (u : Pat) (s : Psi), ∃ s', receive (Pat.parse p) p u s (stream 0x11 3 (noIdSdt.wire gs)) = .ok ((noIdSdt.wire gs).foldl Reading.pat u, s') :=
  Sdt.C133_sdt_pat_refuted p noIdSdt rfl (fun i hi => (sampleSdt_inRange.items i hi).1) 0x11 3 [] (by decide) (by decide)
/-- Two services become seven programs. -/
example : (noIdSdt.wire [noIdSdt.items]).foldl Reading.pat Pat.default = ⟨17, 0x1234, [⟨43981, 7936⟩, ⟨510, 4112⟩, ⟨18441, 257⟩, ⟨16645, 4096⟩, ⟨322, 895⟩, ⟨769, 515⟩, ⟨65535, 7648⟩]⟩ := by decide +kernel
example (p : Profile) : ∃ cc' pks, sampleSdt.demux p 0x11 3 [] = .ok (cc', [] ++ pks.flatten) ∧
    ∀ (u : Sdt) (s : Psi), ∃ s', receive (Sdt.parse p) p u s pks = .ok ({ sampleSdt with items := u.items ++ sampleSdt.items }, s') :=
  Sdt.C133_sdt_partial p sampleSdt sampleSdt_inRange 0x11 3 [] (by decide) (by decide)
example (p : Profile) : ∃ cc' pks, noIdNit.demux p 0x10 3 [] = .ok (cc', [] ++ pks.flatten) ∧ pks ≠ [] ∧ (∀ pk ∈ pks, IsTsPacket 0x10 pk) ∧
    ∀ (u : Nit) (s : Psi), ∃ s', receive (Nit.parse p) p u s pks = .ok (u, s') :=
  Nit.C133_nit_refuted p noIdNit (by decide) sampleNit_inRange.network.1 (fun i hi => (sampleNit_inRange.items i hi).1) 0x10 3 [] (by decide) (by decide)
example (p : Profile) : ∃ cc' gs, noIdNit.demux p 0x10 3 [] = .ok (cc', [] ++ (stream 0x10 3 (noIdNit.wire gs)).flatten) ∧ noIdNit.wire gs ≠ [] ∧
    ∀ (u : Pat) (s : Psi), ∃ s', receive (Pat.parse p) p u s (stream 0x10 3 (noIdNit.wire gs)) = .ok ((noIdNit.wire gs).foldl Reading.pat u, s') :=
  Nit.C133_nit_pat_refuted p noIdNit rfl sampleNit_inRange.network.1 (fun i hi => (sampleNit_inRange.items i hi).1) 0x10 3 [] (by decide) (by decide)
example (p : Profile) : ∃ cc' pks, sampleNit.demux p 0x10 3 [] = .ok (cc', [] ++ pks.flatten) ∧
    ∀ (u : Nit) (s : Psi), ∃ s', receive (Nit.parse p) p u s pks =
      .ok ({ sampleNit with descriptors := u.descriptors ++ sampleNit.descriptors, items := u.items ++ sampleNit.items }, s') :=
  Nit.C133_nit_partial p sampleNit sampleNit_inRange 0x10 3 [] (by decide) (by decide)
example (p : Profile) : ∃ cc' pks, noIdEit.demux p 0x12 3 [] = .ok (cc', [] ++ pks.flatten) ∧ pks ≠ [] ∧ (∀ pk ∈ pks, IsTsPacket 0x12 pk) ∧
    ∀ (u : Eit) (s : Psi), ∃ s', receive (Eit.parse p) p u s pks = .ok (u, s') :=
  Eit.C133_eit_refuted p noIdEit (by decide) (by decide) (fun i hi => (sampleSchedule_inRange.items i hi).1)
    (fun h => absurd h.2 (by decide +kernel)) 0x12 3 [] (by decide) (by decide)

end Mpegts
