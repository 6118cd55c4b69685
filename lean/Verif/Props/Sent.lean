import Verif.Props.C91
import Verif.Props.C100
import Verif.Spec.Sends

/-! # What is sent: sizes (C63), numbers (C64), versions (C68), places in a schedule (C60), schedules of any length (C100) -/

namespace Mpegts
open Spec Spec.Table Spec.Schedule

theorem isSection_complete {body : List UInt8} (h3 : 3 ≤ body.length) (h : (complete body).length ≤ 4096) : IsSection (complete body) := by
  rw [complete_length h3] at h
  exact complete_isSection h3 (by omega)

theorem version_bits {a v : Nat} (h : a = 0xC1 + 2 * (v % 32)) : a / 2 % 32 = v % 32 := by omega

/-- Packets are given back by their concatenation. -/
theorem flatten_inj {a b : List (List UInt8)} (ha : ∀ x ∈ a, x.length = 188) (hb : ∀ x ∈ b, x.length = 188) (h : a.flatten = b.flatten) : a = b := by
  induction a generalizing b with
  | nil =>
    cases b with
    | nil => rfl
    | cons y r =>
      have := congrArg List.length h
      have h1 := hb y List.mem_cons_self
      rw [List.flatten_cons, List.length_append, List.flatten_nil, List.length_nil] at this
      omega
  | cons x q ih =>
    cases b with
    | nil =>
      have := congrArg List.length h
      have h1 := ha x List.mem_cons_self
      rw [List.flatten_cons, List.length_append, List.flatten_nil, List.length_nil] at this
      omega
    | cons y r =>
      rw [List.flatten_cons, List.flatten_cons] at h
      obtain ⟨h1, h2⟩ := List.append_inj h (by rw [ha x List.mem_cons_self, hb y List.mem_cons_self])
      rw [h1, ih (fun z hz => ha z (List.mem_cons_of_mem _ hz)) (fun z hz => hb z (List.mem_cons_of_mem _ hz)) h2]

/-- The packets of a call that sends `secs` are the packets of `secs`. -/
theorem sent_packets {r : R (UInt8 × List UInt8)} {pid : UInt16} {cc : UInt8} {dst : List UInt8} {secs : List (List UInt8)} (hp : pid.toNat < 8192)
    (h : r = .ok (UInt8.ofNat ((cc.toNat + streamCount secs) % 16), dst ++ (stream pid.toNat cc.toNat secs).flatten))
    {cc' : UInt8} {pks : List (List UInt8)} (h1 : r = .ok (cc', dst ++ pks.flatten)) (h2 : ∀ pk ∈ pks, IsTsPacket pid.toNat pk) :
    pks = stream pid.toNat cc.toNat secs := by
  rw [h] at h1
  have e := (Prod.mk.inj (Except.ok.inj h1)).2
  exact (flatten_inj (fun x hx => (stream_packets _ _ hp _ x hx).1) (fun x hx => (h2 x hx).1) (List.append_cancel_left e)).symm

namespace Pat

theorem sends (p : Profile) (t : Pat) (pid : UInt16) (cc : UInt8) (dst : List UInt8) (hp : pid.toNat < 8192) (hc : cc.toNat < 16) :
    Sends (t.demux p pid cc dst) pid cc dst [t.wire (t.items.take 253)] := by
  refine ⟨?_, ?_⟩
  · intro sec hs
    rw [List.mem_singleton] at hs
    subst hs
    exact wire_isSection t _ (by rw [List.length_take]; omega)
  · rw [C54_wire p t pid cc dst hp hc]
    simp [streamCount, stream]

/-- C63: a PAT is sent in one section of at most 1024 bytes: 12 and four for each of its first 253 programmes. -/
theorem C63_pat (p : Profile) (t : Pat) (pid : UInt16) (cc : UInt8) (dst : List UInt8) (hp : pid.toNat < 8192) (hc : cc.toNat < 16) :
    ∃ sec, Sends (t.demux p pid cc dst) pid cc dst [sec] ∧ sec.length = 12 + 4 * min 253 t.items.length ∧ sec.length ≤ 1024 :=
  ⟨_, sends p t pid cc dst hp hc, wire_le t⟩

/-- C64: the section of a PAT has number 0, and so has the last. -/
theorem C64_pat (p : Profile) (t : Pat) (pid : UInt16) (cc : UInt8) (dst : List UInt8) (hp : pid.toNat < 8192) (hc : cc.toNat < 16) :
    ∃ sec, Sends (t.demux p pid cc dst) pid cc dst [sec] ∧ numberOf sec = 0 ∧ lastOf sec = 0 := by
  refine ⟨_, sends p t pid cc dst hp hc, ?_⟩
  have := section_fields 0 0b1011 t.tsid.toNat (t.version.toNat % 32) 0 0 ((t.items.take 253).flatMap entry) (by omega) t.tsid.toNat_lt (by omega)
    (by omega) (by omega)
  exact ⟨this.2.2.2.2.2.1, this.2.2.2.2.2.2.1⟩

/-- C68: whatever the version of a PAT, its five low bits are sent, and a receiver gets them back. -/
theorem C68_pat (p : Profile) (t : Pat) (pid : UInt16) (cc : UInt8) (dst : List UInt8) (s : Psi) (hp : pid.toNat < 8192) (hc : cc.toNat < 16) :
    ∃ sec, Sends (t.demux p pid cc dst) pid cc dst [sec] ∧ versionOf sec = t.version.toNat % 32 ∧
      ∃ u s', receive (Pat.parse p) p Pat.default s (stream pid.toNat cc.toNat [sec]) = .ok (u, s') ∧ u.version.toNat = t.version.toNat % 32 := by
  refine ⟨_, sends p t pid cc dst hp hc, version_bits (wire_version t _), ?_⟩
  obtain ⟨s', h⟩ := receive_wire p t Pat.default (t.items.take 253) (by rw [List.length_take]; omega) s pid.toNat cc.toNat hp
  have e : stream pid.toNat cc.toNat [t.wire (t.items.take 253)] = packets pid.toNat cc.toNat (t.wire (t.items.take 253)) := by
    rw [stream, stream, List.append_nil]
  refine ⟨_, s', e ▸ h, ?_⟩
  simp only [UInt8.toNat_ofNat']
  omega

end Pat

namespace Pmt

theorem sends (p : Profile) (t : Pmt) (hn : ProgramInRange t) (hr : ∀ i ∈ t.items, ItemInRange i) (pid : UInt16) (cc : UInt8)
    (dst : List UInt8) (hp : pid.toNat < 8192) (hc : cc.toNat < 16) :
    ∃ gs, Packed (fun i => (entry i).length) 1020 (12 + (t.descriptors.flatMap Desc.wire).length) 12 t.items gs ∧
      Sends (t.demux p pid cc dst) pid cc dst (t.wire gs) := by
  obtain ⟨gs, P, h⟩ := C55_wire p t hn hr pid cc dst hp hc
  refine ⟨gs, P, ?_, h⟩
  intro sec hs
  have hl := wire_le t gs P sec hs
  obtain ⟨x, hx, rfl⟩ := List.mem_map.1 hs
  exact isSection_complete (by simp [Table.pmt]; omega) (by omega)

/-- C63: no section of a PMT whose parts fit is longer than 1024 bytes. -/
theorem C63_pmt (p : Profile) (t : Pmt) (hn : ProgramInRange t) (hr : ∀ i ∈ t.items, ItemInRange i) (pid : UInt16) (cc : UInt8)
    (dst : List UInt8) (hp : pid.toNat < 8192) (hc : cc.toNat < 16) :
    ∃ secs, Sends (t.demux p pid cc dst) pid cc dst secs ∧ ∀ sec ∈ secs, sec.length ≤ 1024 := by
  obtain ⟨gs, P, h⟩ := sends p t hn hr pid cc dst hp hc
  exact ⟨_, h, wire_le t gs P⟩

/-- C64: the sections of a PMT are numbered from 0, and all carry the number of the last. -/
theorem C64_pmt (p : Profile) (t : Pmt) (hn : ProgramInRange t) (hr : ∀ i ∈ t.items, ItemInRange i) (pid : UInt16) (cc : UInt8)
    (dst : List UInt8) (hp : pid.toNat < 8192) (hc : cc.toNat < 16) :
    ∃ secs, Sends (t.demux p pid cc dst) pid cc dst secs ∧ (secs.length ≤ 256 → ∀ (i : Nat) sec, secs[i]? = some sec →
      numberOf sec = i ∧ lastOf sec = secs.length - 1) := by
  obtain ⟨gs, P, h⟩ := sends p t hn hr pid cc dst hp hc
  refine ⟨_, h, fun hl => ?_⟩
  have hg : (t.wire gs).length = gs.length := by simp [wire]
  rw [hg] at hl ⊢
  exact (wire_numbers t gs hl).2

/-- C68: whatever the version of a PMT, its five low bits are in every section, and a receiver that does not panic gets them back. -/
theorem C68_pmt (p : Profile) (t : Pmt) (ht : InRange { t with version := 0 }) (pid : UInt16) (cc : UInt8)
    (dst : List UInt8) (s : Psi) (hp : pid.toNat < 8192) (hc : cc.toNat < 16) :
    ∃ secs, Sends (t.demux p pid cc dst) pid cc dst secs ∧ (∀ sec ∈ secs, versionOf sec = t.version.toNat % 32) ∧
      ∀ u s', receive (Pmt.parse p) p Pmt.default s (stream pid.toNat cc.toNat secs) = .ok (u, s') → u.version.toNat = t.version.toNat % 32 := by
  obtain ⟨gs, P, h⟩ := sends p t ht.program (fun i hi => (ht.items i hi).1) pid cc dst hp hc
  refine ⟨_, h, fun sec hs => version_bits (wire_version t gs sec hs), ?_⟩
  have hv : (t.version % 32).toNat = t.version.toNat % 32 := by rw [UInt8.toNat_mod]; rfl
  have ht' : InRange { t with version := t.version % 32 } := ⟨by simp only [hv]; omega, ht.pcr, ht.program, ht.items⟩
  obtain ⟨gs', P', h'⟩ := sends p { t with version := t.version % 32 } ht'.program (fun i hi => (ht'.items i hi).1) pid cc dst hp hc
  have e : gs' = gs := P'.unique P
  subst e
  have ew : wire { t with version := t.version % 32 } gs' = t.wire gs' := by
    simp only [wire, hv, Nat.mod_mod]; rfl
  rw [ew] at h'
  obtain ⟨cc', pks, h1, h2, h3, h4⟩ := C55_received_partial p _ ht' pid cc dst s hp hc
  have hpk := sent_packets hp h'.2 h1 h2
  subst hpk
  intro u s' hr
  have ho := loop_outcome p (shifted (t.descriptors.flatMap Desc.wire))
  by_cases hpan : LoopPanics p (shifted (t.descriptors.flatMap Desc.wire))
  · rw [h4 (ho.bad hpan)] at hr; cases hr
  · obtain ⟨ds, hds⟩ := ho.good hpan
    obtain ⟨s'', hr'⟩ := h3 ds hds
    rw [hr'] at hr
    cases hr
    exact hv

end Pmt

namespace Nit

theorem sends (p : Profile) (t : Nit) (hn : NetworkInRange t) (hr : ∀ i ∈ t.items, ItemInRange i) (pid : UInt16) (cc : UInt8)
    (dst : List UInt8) (hp : pid.toNat < 8192) (hc : cc.toNat < 16) :
    ∃ gs, Packed (fun i => (entry i).length) 1020 (12 + (t.descriptors.flatMap Desc.wire).length) 12 t.items gs ∧
      Sends (t.demux p pid cc dst) pid cc dst (t.wire gs) := by
  obtain ⟨gs, P, h⟩ := C56_wire p t hn hr pid cc dst hp hc
  refine ⟨gs, P, ?_, h⟩
  intro sec hs
  have hl := wire_le t gs P sec hs
  obtain ⟨x, hx, rfl⟩ := List.mem_map.1 hs
  exact isSection_complete (by simp [Table.nit]; omega) (by omega)

/-- C63: no section of a NIT whose parts fit is longer than 1024 bytes. -/
theorem C63_nit (p : Profile) (t : Nit) (hn : NetworkInRange t) (hr : ∀ i ∈ t.items, ItemInRange i) (pid : UInt16) (cc : UInt8)
    (dst : List UInt8) (hp : pid.toNat < 8192) (hc : cc.toNat < 16) :
    ∃ secs, Sends (t.demux p pid cc dst) pid cc dst secs ∧ ∀ sec ∈ secs, sec.length ≤ 1024 := by
  obtain ⟨gs, P, h⟩ := sends p t hn hr pid cc dst hp hc
  exact ⟨_, h, wire_le t gs P⟩

/-- C64: the sections of a NIT are numbered from 0, and all carry the number of the last. -/
theorem C64_nit (p : Profile) (t : Nit) (hn : NetworkInRange t) (hr : ∀ i ∈ t.items, ItemInRange i) (pid : UInt16) (cc : UInt8)
    (dst : List UInt8) (hp : pid.toNat < 8192) (hc : cc.toNat < 16) :
    ∃ secs, Sends (t.demux p pid cc dst) pid cc dst secs ∧ (secs.length ≤ 256 → ∀ (i : Nat) sec, secs[i]? = some sec →
      numberOf sec = i ∧ lastOf sec = secs.length - 1) := by
  obtain ⟨gs, P, h⟩ := sends p t hn hr pid cc dst hp hc
  refine ⟨_, h, fun hl => ?_⟩
  have hg : (t.wire gs).length = gs.length := by simp [wire]
  rw [hg] at hl ⊢
  exact (wire_numbers t gs hl).2

/-- C68: whatever the version of a NIT, its five low bits are in every section, and a receiver gets them back. -/
theorem C68_nit (p : Profile) (t : Nit) (ht : InRange { t with version := 0 }) (pid : UInt16) (cc : UInt8)
    (dst : List UInt8) (s : Psi) (hp : pid.toNat < 8192) (hc : cc.toNat < 16) :
    ∃ secs, Sends (t.demux p pid cc dst) pid cc dst secs ∧ (∀ sec ∈ secs, versionOf sec = t.version.toNat % 32) ∧
      ∃ u s', receive (Nit.parse p) p Nit.default s (stream pid.toNat cc.toNat secs) = .ok (u, s') ∧ u.version.toNat = t.version.toNat % 32 := by
  obtain ⟨gs, P, h⟩ := sends p t ht.network.1 (fun i hi => (ht.items i hi).1) pid cc dst hp hc
  refine ⟨_, h, fun sec hs => version_bits (wire_version t gs sec hs), ?_⟩
  have hv : (t.version % 32).toNat = t.version.toNat % 32 := by rw [UInt8.toNat_mod]; rfl
  have ht' : InRange { t with version := t.version % 32 } := ⟨ht.id, by simp only [hv]; omega, ht.network, ht.items⟩
  obtain ⟨gs', P', h'⟩ := sends p { t with version := t.version % 32 } ht'.network.1 (fun i hi => (ht'.items i hi).1) pid cc dst hp hc
  have e : gs' = gs := P'.unique P
  subst e
  have ew : wire { t with version := t.version % 32 } gs' = t.wire gs' := by
    simp only [wire, hv, Nat.mod_mod]; rfl
  rw [ew] at h'
  obtain ⟨cc', pks, s', h1, h2, h3⟩ := C56_round_trip p _ ht' pid cc dst s hp hc
  have hpk := sent_packets hp h'.2 h1 h2
  subst hpk
  exact ⟨_, _, h3, hv⟩

end Nit

namespace Sdt

theorem sends (p : Profile) (t : Sdt) (hr : ∀ i ∈ t.items, ItemInRange i) (pid : UInt16) (cc : UInt8)
    (dst : List UInt8) (hp : pid.toNat < 8192) (hc : cc.toNat < 16) :
    ∃ gs, Packed (fun i => (entry i).length) 1020 11 11 t.items gs ∧ Sends (t.demux p pid cc dst) pid cc dst (t.wire gs) := by
  obtain ⟨gs, P, h⟩ := C57_wire p t hr pid cc dst hp hc
  refine ⟨gs, P, ?_, h⟩
  intro sec hs
  have hl := wire_le t gs P sec hs
  obtain ⟨x, hx, rfl⟩ := List.mem_map.1 hs
  exact isSection_complete (by simp [Table.sdt]; omega) (by omega)

/-- C63: no section of an SDT whose entries fit is longer than 1024 bytes. -/
theorem C63_sdt (p : Profile) (t : Sdt) (hr : ∀ i ∈ t.items, ItemInRange i) (pid : UInt16) (cc : UInt8)
    (dst : List UInt8) (hp : pid.toNat < 8192) (hc : cc.toNat < 16) :
    ∃ secs, Sends (t.demux p pid cc dst) pid cc dst secs ∧ ∀ sec ∈ secs, sec.length ≤ 1024 := by
  obtain ⟨gs, P, h⟩ := sends p t hr pid cc dst hp hc
  exact ⟨_, h, wire_le t gs P⟩

/-- C64: the sections of an SDT are numbered from 0, and all carry the number of the last. -/
theorem C64_sdt (p : Profile) (t : Sdt) (hr : ∀ i ∈ t.items, ItemInRange i) (pid : UInt16) (cc : UInt8)
    (dst : List UInt8) (hp : pid.toNat < 8192) (hc : cc.toNat < 16) :
    ∃ secs, Sends (t.demux p pid cc dst) pid cc dst secs ∧ (secs.length ≤ 256 → ∀ (i : Nat) sec, secs[i]? = some sec →
      numberOf sec = i ∧ lastOf sec = secs.length - 1) := by
  obtain ⟨gs, P, h⟩ := sends p t hr pid cc dst hp hc
  refine ⟨_, h, fun hl => ?_⟩
  have hg : (t.wire gs).length = gs.length := by simp [wire]
  rw [hg] at hl ⊢
  exact (wire_numbers t gs hl).2

/-- C68: whatever the version of an SDT, its five low bits are in every section, and a receiver gets them back. -/
theorem C68_sdt (p : Profile) (t : Sdt) (ht : InRange { t with version := 0 }) (pid : UInt16) (cc : UInt8)
    (dst : List UInt8) (s : Psi) (hp : pid.toNat < 8192) (hc : cc.toNat < 16) :
    ∃ secs, Sends (t.demux p pid cc dst) pid cc dst secs ∧ (∀ sec ∈ secs, versionOf sec = t.version.toNat % 32) ∧
      ∃ u s', receive (Sdt.parse p) p Sdt.default s (stream pid.toNat cc.toNat secs) = .ok (u, s') ∧ u.version.toNat = t.version.toNat % 32 := by
  obtain ⟨gs, P, h⟩ := sends p t (fun i hi => (ht.items i hi).1) pid cc dst hp hc
  refine ⟨_, h, fun sec hs => version_bits (wire_version t gs sec hs), ?_⟩
  have hv : (t.version % 32).toNat = t.version.toNat % 32 := by rw [UInt8.toNat_mod]; rfl
  have ht' : InRange { t with version := t.version % 32 } := ⟨ht.id, by simp only [hv]; omega, ht.items⟩
  obtain ⟨gs', P', h'⟩ := sends p { t with version := t.version % 32 } (fun i hi => (ht'.items i hi).1) pid cc dst hp hc
  have e : gs' = gs := P'.unique P
  subst e
  have ew : wire { t with version := t.version % 32 } gs' = t.wire gs' := by
    simp only [wire, hv, Nat.mod_mod]
  rw [ew] at h'
  obtain ⟨cc', pks, s', h1, h2, h3⟩ := C57_round_trip p _ ht' pid cc dst s hp hc
  have hpk := sent_packets hp h'.2 h1 h2
  subst hpk
  exact ⟨_, _, h3, hv⟩

end Sdt

namespace Eit
open Spec.ScheduleAny (Sect)

theorem section_isSection (t : Eit) (tid n l sl lt : Nat) (g : List EitItem) (h : (g.flatMap entry).length ≤ 4078) :
    IsSection (t.section' tid n l sl lt g) := by
  rw [section_eq]
  exact complete_isSection (by simp; omega) (by simp only [List.length_append, header_length, rest_length]; omega)

/-! ## Present and following -/

theorem sendsPf (p : Profile) (t : Eit) (hid : t.tableId = 0x4E ∨ t.tableId = 0x4F) (hr : ∀ i ∈ t.items, ItemInRange i) (pid : UInt16) (cc : UInt8)
    (dst : List UInt8) (hp : pid.toNat < 8192) (hc : cc.toNat < 16) : Sends (t.demux p pid cc dst) pid cc dst t.wirePf := by
  refine ⟨?_, C58_wire p t hid hr pid cc dst hp hc⟩
  intro sec hs
  obtain ⟨x, hx, rfl⟩ := List.mem_map.1 hs
  refine section_isSection t _ _ _ _ _ _ ?_
  have h1 : x.1 ∈ t.items := (List.mem_zipIdx' hx).2 ▸ List.getElem_mem _
  have h2 := (hr x.1 h1).2.2.2.2.2
  simp only [List.flatMap_cons, List.flatMap_nil, List.append_nil]
  omega

/-- C63: no section of a present/following EIT is longer than 4096 bytes. -/
theorem C63_eit_pf (p : Profile) (t : Eit) (hid : t.tableId = 0x4E ∨ t.tableId = 0x4F) (hr : ∀ i ∈ t.items, ItemInRange i) (pid : UInt16) (cc : UInt8)
    (dst : List UInt8) (hp : pid.toNat < 8192) (hc : cc.toNat < 16) :
    ∃ secs, Sends (t.demux p pid cc dst) pid cc dst secs ∧ ∀ sec ∈ secs, sec.length ≤ 4096 :=
  ⟨_, sendsPf p t hid hr pid cc dst hp hc, wirePf_le t hr⟩

/-- C64: a present/following EIT with at most 256 events has a section for each; they are numbered from 0, all carry the number of the
last, also as that of the last of the segment, and the table id as that of the last table. -/
theorem C64_eit_pf (p : Profile) (t : Eit) (hid : t.tableId = 0x4E ∨ t.tableId = 0x4F) (hr : ∀ i ∈ t.items, ItemInRange i) (pid : UInt16) (cc : UInt8)
    (dst : List UInt8) (hp : pid.toNat < 8192) (hc : cc.toNat < 16) :
    ∃ secs, Sends (t.demux p pid cc dst) pid cc dst secs ∧ secs.length = t.items.length ∧ (secs.length ≤ 256 → ∀ (i : Nat) sec, secs[i]? = some sec →
      numberOf sec = i ∧ lastOf sec = secs.length - 1 ∧ segmentLastOf sec = secs.length - 1 ∧ lastTableOf sec = t.tableId.toNat) := by
  have hl : t.wirePf.length = t.items.length := by simp [wirePf]
  refine ⟨_, sendsPf p t hid hr pid cc dst hp hc, hl, fun h => ?_⟩
  rw [hl] at h ⊢
  exact (wirePf_numbers t h).2

/-- C68: whatever the version of a present/following EIT with events, its five low bits are in every section, and a receiver gets them back. -/
theorem C68_eit_pf (p : Profile) (t : Eit) (hid : t.tableId = 0x4E ∨ t.tableId = 0x4F) (ht : InRange { t with version := 0 }) (hne : t.items ≠ [])
    (pid : UInt16) (cc : UInt8) (dst : List UInt8) (s : Psi) (hp : pid.toNat < 8192) (hc : cc.toNat < 16) :
    ∃ secs, Sends (t.demux p pid cc dst) pid cc dst secs ∧ (∀ sec ∈ secs, versionOf sec = t.version.toNat % 32) ∧
      ∃ u s', receive (Eit.parse p) p Eit.default s (stream pid.toNat cc.toNat secs) = .ok (u, s') ∧ u.version.toNat = t.version.toNat % 32 := by
  refine ⟨_, sendsPf p t hid (fun i hi => (ht.items i hi).1) pid cc dst hp hc, fun sec hs => version_bits (wirePf_version t sec hs), ?_⟩
  have hv : (t.version % 32).toNat = t.version.toNat % 32 := by rw [UInt8.toNat_mod]; rfl
  have ht' : InRange { t with version := t.version % 32 } := ⟨by simp only [hv]; omega, ht.items⟩
  have h' := sendsPf p { t with version := t.version % 32 } hid (fun i hi => (ht'.items i hi).1) pid cc dst hp hc
  have ew : wirePf { t with version := t.version % 32 } = t.wirePf := by
    simp only [wirePf, section', hv, Nat.mod_mod]
  rw [ew] at h'
  obtain ⟨cc', pks, s', h1, h2, h3⟩ := C58_round_trip_partial p { t with version := t.version % 32 } hid ht' hne pid cc dst s hp hc
  have hpk := sent_packets hp h'.2 h1 h2
  subst hpk
  exact ⟨_, _, h3, hv⟩

/-! ## Schedules -/

theorem sendsSchedule (p : Profile) (t : Eit) (h : t.Schedulable) (pid : UInt16) (cc : UInt8)
    (dst : List UInt8) (hp : pid.toNat < 8192) (hc : cc.toNat < 16) : Sends (t.demux p pid cc dst) pid cc dst t.wireSchedule := by
  refine ⟨?_, C60_wire_partial p t h pid cc dst hp hc⟩
  intro sec hs
  have hl := wireSchedule_le t h sec hs
  obtain ⟨x, hx, rfl⟩ := List.mem_map.1 hs
  rw [slotSection, section_length] at hl
  exact section_isSection t _ _ _ _ _ _ (by omega)

/-- C63: no section of a schedule is longer than 4096 bytes. -/
theorem C63_eit_schedule (p : Profile) (t : Eit) (h : t.Schedulable) (pid : UInt16) (cc : UInt8)
    (dst : List UInt8) (hp : pid.toNat < 8192) (hc : cc.toNat < 16) :
    ∃ secs, Sends (t.demux p pid cc dst) pid cc dst secs ∧ ∀ sec ∈ secs, sec.length ≤ 4096 :=
  ⟨_, sendsSchedule p t h pid cc dst hp hc, wireSchedule_le t h⟩

/-- C68: whatever the version of a schedule, its five low bits are in every section, and a receiver gets them back. -/
theorem C68_eit_schedule (p : Profile) (t : Eit) (h : t.Schedulable) (ht : InRange { t with version := 0 }) (pid : UInt16) (cc : UInt8)
    (dst : List UInt8) (s : Psi) (hp : pid.toNat < 8192) (hc : cc.toNat < 16) :
    ∃ secs, Sends (t.demux p pid cc dst) pid cc dst secs ∧ (∀ sec ∈ secs, versionOf sec = t.version.toNat % 32) ∧
      ∃ u s', receive (Eit.parse p) p Eit.default s (stream pid.toNat cc.toNat secs) = .ok (u, s') ∧ u.version.toNat = t.version.toNat % 32 := by
  refine ⟨_, sendsSchedule p t h pid cc dst hp hc, fun sec hs => version_bits (wireSchedule_version t h sec hs), ?_⟩
  have hv : (t.version % 32).toNat = t.version.toNat % 32 := by rw [UInt8.toNat_mod]; rfl
  have ht' : InRange { t with version := t.version % 32 } := ⟨by simp only [hv]; omega, ht.items⟩
  have hs' : Schedulable { t with version := t.version % 32 } := ⟨h.table, h.nonempty, h.events, h.span, h.capacity⟩
  have h' := sendsSchedule p { t with version := t.version % 32 } hs' pid cc dst hp hc
  have ew : wireSchedule { t with version := t.version % 32 } = t.wireSchedule := by
    simp only [wireSchedule]
    refine List.map_congr_left (l := withLast t.slots) fun x _ => ?_
    simp only [slotSection, section', hv, Nat.mod_mod]
    rfl
  rw [ew] at h'
  obtain ⟨cc', pks, s', last, h1, h2, -, h3⟩ := C59_delivery_partial p _ hs' ht' pid cc dst s hp hc
  have hpk := sent_packets hp h'.2 h1 h2
  subst hpk
  exact ⟨_, _, h3, hv⟩

/-! ### Where the events of a schedule are -/

theorem getElem_withLast {α : Type} (l : List (Slot α)) (k : Nat) (x : Slot α) (h : l[k]? = some x) : ∃ n, (withLast l)[k]? = some (x, n) := by
  rw [← withLast_fst l, List.getElem?_map] at h
  cases hg : (withLast l)[k]? with
  | none => rw [hg] at h; cases h
  | some y =>
    rw [hg] at h
    cases h
    exact ⟨y.2, rfl⟩

/-- The `k`-th section of a schedule. -/
theorem schedule_at (t : Eit) (h : t.Schedulable) (k : Nat) (sec : List UInt8) (hs : t.wireSchedule[k]? = some sec) :
    ∃ x, t.slots[k]? = some x ∧ tableIdOf sec = x.table ∧ numberOf sec = x.number ∧ segmentLastOf sec = x.number ∧ x.index < 8 ∧
      eventBytes sec = x.events.flatMap entry := by
  rw [wireSchedule, List.getElem?_map] at hs
  cases hg : (withLast t.slots)[k]? with
  | none => rw [hg] at hs; cases hs
  | some y =>
    rw [hg] at hs
    have hs := Option.some.inj hs
    subst hs
    have hy := List.mem_of_getElem? hg
    obtain ⟨r1, -, r3, -, r5, -⟩ := slot_read t h y hy
    have hi := (slot_numbers t h y hy).2.2.1
    refine ⟨y.1, ?_, r1, r3, r5, hi, ?_⟩
    · rw [← withLast_fst t.slots, List.getElem?_map, hg]; rfl
    · obtain ⟨⟨-, a2, a3, -⟩, -, -, -, a5⟩ := withLast_ok t h y hy
      have := lastTable_lt t h
      exact (section_read t y.1.table y.1.number y.2 y.1.number (t.base + segmentOf t.origin t.lastStart / 32) y.1.events a2 a3 a5 a3
        (by omega)).2.2.2.2.2.2.2.2.2.2

theorem schedule_carry (t : Eit) (h : t.Schedulable) : Carry entry t.wireSchedule (t.slots.map (·.events)) := by
  refine ⟨?_, ?_⟩
  · rw [wireSchedule, List.length_map, List.length_map, ← List.length_map (as := withLast t.slots) (·.1), withLast_fst]
  · intro k sec g hs hg
    obtain ⟨x, hx, -, -, -, -, he⟩ := schedule_at t h k sec hs
    rw [List.getElem?_map, hx] at hg
    cases hg
    exact he

theorem schedule_groups (t : Eit) : (t.slots.map (·.events)).flatten = t.items := by
  rw [← List.flatMap_def, slots_events]

/-- The sub-table of a slot is that of its segment. -/
theorem slot_table (t : Eit) (hb : t.tableId.toNat % 16 = 0) : ∀ s ∈ t.slots, s.table = t.base + s.segment / 32 := by
  have hf := t.firstSegment_lt
  have key : ∀ (l : List EitItem) (s : Slot EitItem), s.table = t.base + s.segment / 32 →
      ∀ x ∈ place (·.start.toNat) (fun i => (entry i).length) 4078 t.origin t.base s l, x.table = t.base + x.segment / 32 := by
    intro l
    induction l with
    | nil => intro s hs x hx; rw [place, List.mem_singleton] at hx; subst hx; exact hs
    | cons i r ih =>
      intro s hs x hx
      rw [place] at hx
      split at hx
      · rcases List.mem_cons.1 hx with rfl | hx
        · exact hs
        · exact ih _ (by simp only []) x hx
      · split at hx
        · rcases List.mem_cons.1 hx with rfl | hx
          · exact hs
          · exact ih _ (by simp only []) x hx
        · exact ih { s with events := s.events ++ [i] } hs x hx
  intro s hs
  rcases List.mem_append.1 hs with hs | hs
  · obtain ⟨k, hk, rfl⟩ := List.mem_map.1 hs
    rw [List.mem_range] at hk
    simp only []; omega
  · exact key t.items _ (by unfold base; simp only []; omega) s hs

theorem schedule_segment (t : Eit) (h : t.Schedulable) (hb : t.tableId.toNat % 16 = 0) (k : Nat) (sec : List UInt8) (hs : t.wireSchedule[k]? = some sec) :
    ∃ x, t.slots[k]? = some x ∧ segmentAt t.base sec = x.segment := by
  obtain ⟨x, hx, h1, h2, -, h4, -⟩ := schedule_at t h k sec hs
  refine ⟨x, hx, ?_⟩
  rw [segmentAt, h1, h2, slot_table t hb x (List.mem_of_getElem? hx), Slot.number]
  omega

theorem first_group {β : Type} (l : List (Slot β)) (i : β) (n : Nat)
    (h : (l.flatMap fun x => x.events.map fun i => (i, x.segment)).head? = some (i, n)) :
    ∃ (k : Nat) (x : Slot β) (r : List β), l[k]? = some x ∧ x.events = i :: r ∧ x.segment = n ∧ ∀ j, j < k → (l.map (·.events))[j]? = some [] := by
  induction l with
  | nil => cases h
  | cons x r ih =>
    cases he : x.events with
    | nil =>
      rw [List.flatMap_cons, he] at h
      obtain ⟨k, y, q, h1, h2, h3, h4⟩ := ih h
      refine ⟨k + 1, y, q, h1, h2, h3, fun j hj => ?_⟩
      cases j with
      | zero => rw [List.map_cons, he]; rfl
      | succ j => exact h4 j (by omega)
    | cons a q =>
      rw [List.flatMap_cons, he] at h
      cases h
      exact ⟨0, x, q, rfl, he, rfl, fun j hj => by omega⟩

/-- C60 fails: the first event of every schedule is sent in the segment after the one in which it starts.  (`groups` are the events of the
sections; the sections before are empty.) -/
theorem C60_first_refuted (p : Profile) (t : Eit) (h : t.Schedulable) (hb : t.tableId.toNat % 16 = 0) (i : EitItem) (hi : t.items.head? = some i)
    (pid : UInt16) (cc : UInt8) (dst : List UInt8) (hp : pid.toNat < 8192) (hc : cc.toNat < 16) :
    ∃ secs groups, Sends (t.demux p pid cc dst) pid cc dst secs ∧ Carry entry secs groups ∧ groups.flatten = t.items ∧
      ∃ (k : Nat) (sec : List UInt8) (r : List EitItem), secs[k]? = some sec ∧ groups[k]? = some (i :: r) ∧ (∀ j, j < k → groups[j]? = some []) ∧
        segmentAt t.base sec = segmentOf t.origin i.start.toNat + 1 := by
  refine ⟨_, _, sendsSchedule p t h pid cc dst hp hc, schedule_carry t h, schedule_groups t, ?_⟩
  obtain ⟨k, x, r, h1, h2, h3, h4⟩ := first_group t.slots i _ (placed_first t i hi)
  obtain ⟨n, hn⟩ := getElem_withLast t.slots k x h1
  have hs : t.wireSchedule[k]? = some (t.slotSection (x, n)) := by rw [wireSchedule, List.getElem?_map, hn]; rfl
  obtain ⟨y, hy, hseg⟩ := schedule_segment t h hb k _ hs
  rw [h1] at hy
  cases hy
  exact ⟨k, _, r, hs, by rw [List.getElem?_map, h1, ← h2]; rfl, h4, by rw [hseg, h3]⟩

theorem placed_mem (t : Eit) (k : Nat) (x : Slot EitItem) (hx : t.slots[k]? = some x) (i : EitItem) (hi : i ∈ x.events) : (i, x.segment) ∈ t.placed :=
  List.mem_flatMap.2 ⟨x, List.mem_of_getElem? hx, List.mem_map.2 ⟨i, hi, rfl⟩⟩

/-- C60, what holds: if the events are in order and no segment between two of them is left out, every event is sent in its segment, except
those that start in the same segment as the first, which are sent in the next. -/
theorem C60_segment_partial (p : Profile) (t : Eit) (h : t.Schedulable) (hb : t.tableId.toNat % 16 = 0)
    (hcn : t.items.IsChain fun a b => segmentOf t.origin a.start.toNat ≤ segmentOf t.origin b.start.toNat ∧
      segmentOf t.origin b.start.toNat ≤ segmentOf t.origin a.start.toNat + 1)
    (pid : UInt16) (cc : UInt8) (dst : List UInt8) (hp : pid.toNat < 8192) (hc : cc.toNat < 16) :
    ∃ secs groups, Sends (t.demux p pid cc dst) pid cc dst secs ∧ Carry entry secs groups ∧ groups.flatten = t.items ∧
      ∀ (k : Nat) sec g i, secs[k]? = some sec → groups[k]? = some g → i ∈ g →
        segmentAt t.base sec = max (segmentOf t.origin i.start.toNat) (segmentOf t.origin t.firstStart + 1) := by
  refine ⟨_, _, sendsSchedule p t h pid cc dst hp hc, schedule_carry t h, schedule_groups t, ?_⟩
  intro k sec g i hs hg hi
  obtain ⟨x, hx, hseg⟩ := schedule_segment t h hb k sec hs
  rw [List.getElem?_map, hx] at hg
  cases hg
  rw [hseg]
  exact placed_segment t hcn (i, x.segment) (placed_mem t k x hx i hi)

/-- C60 fails after a gap: of two events, the second of which starts three segments after the first or later, the second is sent only two
segments after that of the first. -/
theorem C60_gap_refuted (p : Profile) (t : Eit) (h : t.Schedulable) (hb : t.tableId.toNat % 16 = 0) (x y : EitItem) (hxy : t.items = [x, y])
    (hg : segmentOf t.origin x.start.toNat + 3 ≤ segmentOf t.origin y.start.toNat)
    (pid : UInt16) (cc : UInt8) (dst : List UInt8) (hp : pid.toNat < 8192) (hc : cc.toNat < 16) :
    ∃ secs groups, Sends (t.demux p pid cc dst) pid cc dst secs ∧ Carry entry secs groups ∧ groups.flatten = t.items ∧
      ∀ (k : Nat) sec g, secs[k]? = some sec → groups[k]? = some g →
        (x ∈ g → segmentAt t.base sec = segmentOf t.origin x.start.toNat + 1) ∧ (y ∈ g → segmentAt t.base sec = segmentOf t.origin x.start.toNat + 2) := by
  refine ⟨_, _, sendsSchedule p t h pid cc dst hp hc, schedule_carry t h, schedule_groups t, ?_⟩
  intro k sec g hs hgr
  obtain ⟨z, hz, hseg⟩ := schedule_segment t h hb k sec hs
  rw [List.getElem?_map, hz] at hgr
  cases hgr
  rw [hseg]
  have hne : x ≠ y := by
    intro e
    rw [e] at hg
    omega
  have hm := fun i hi => placed_mem t k z hz i hi
  rw [placed_gap t x y hxy hg] at hm
  constructor
  · intro hi
    have := hm x hi
    simp only [List.mem_cons, Prod.mk.injEq, List.not_mem_nil, or_false] at this
    rcases this with e | e
    · exact e.2
    · exact (hne e.1).elim
  · intro hi
    have := hm y hi
    simp only [List.mem_cons, Prod.mk.injEq, List.not_mem_nil, or_false] at this
    rcases this with e | e
    · exact (hne e.1.symm).elim
    · exact e.2

/-- C60 fails for segments with several sections: the standard wants them all to carry the number of the last section of the
segment, but each carries its own number. -/
theorem C60_segment_last_refuted (p : Profile) (t : Eit) (h : t.Schedulable) (pid : UInt16) (cc : UInt8) (dst : List UInt8)
    (hp : pid.toNat < 8192) (hc : cc.toNat < 16) :
    ∃ secs, Sends (t.demux p pid cc dst) pid cc dst secs ∧ (∀ sec ∈ secs, segmentLastOf sec = numberOf sec) ∧
      ∀ a ∈ secs, ∀ b ∈ secs, tableIdOf a = tableIdOf b → numberOf a / 8 = numberOf b / 8 → numberOf a ≠ numberOf b →
        segmentLastOf a ≠ segmentLastOf b := by
  have key : ∀ sec ∈ t.wireSchedule, segmentLastOf sec = numberOf sec := by
    intro sec hs
    obtain ⟨k, hk⟩ := List.getElem?_of_mem hs
    obtain ⟨x, -, -, h1, h2, -⟩ := schedule_at t h k sec hk
    rw [h1, h2]
  refine ⟨_, sendsSchedule p t h pid cc dst hp hc, key, ?_⟩
  intro a ha b hb _ _ hne
  rw [key a ha, key b hb]
  exact hne

/-- C60 fails for an EIT whose table id is not that of the first sub-table (as that of a received schedule may be): its first event,
which starts within the four days of the first sub-table, is sent with that id. -/
theorem C60_table_refuted (p : Profile) (t : Eit) (h : t.Schedulable) (i : EitItem) (r : List EitItem) (hi : t.items = i :: r)
    (hb : t.tableId.toNat % 16 ≠ 0) (hl : (entry i).length < 4078) (pid : UInt16) (cc : UInt8) (dst : List UInt8)
    (hp : pid.toNat < 8192) (hc : cc.toNat < 16) :
    ∃ secs groups, Sends (t.demux p pid cc dst) pid cc dst secs ∧ Carry entry secs groups ∧ groups.flatten = t.items ∧
      segmentOf t.origin i.start.toNat < 32 ∧
      ∃ (k : Nat) (sec : List UInt8) (g : List EitItem), secs[k]? = some sec ∧ groups[k]? = some g ∧ i ∈ g ∧
        tableIdOf sec = t.tableId.toNat ∧ tableIdOf sec ≠ t.base := by
  refine ⟨_, _, sendsSchedule p t h pid cc dst hp hc, schedule_carry t h, schedule_groups t, ?_, ?_⟩
  · have := t.firstSegment_lt
    have hF : t.firstStart = i.start.toNat := by rw [firstStart, hi]; rfl
    rw [firstSegment, hF] at this
    omega
  · obtain ⟨s, hs, h1, -, h3, h4⟩ := slots_table t i r hi hb hl
    obtain ⟨k, hk⟩ := List.getElem?_of_mem hs
    obtain ⟨n, hn⟩ := getElem_withLast t.slots k s hk
    have hw : t.wireSchedule[k]? = some (t.slotSection (s, n)) := by rw [wireSchedule, List.getElem?_map, hn]; rfl
    obtain ⟨y, hy, e1, -⟩ := schedule_at t h k _ hw
    rw [hk] at hy
    cases hy
    exact ⟨k, _, s.events, hw, by rw [List.getElem?_map, hk]; rfl, h1, by rw [e1, h3], by rw [e1]; exact h4⟩

/-! ## Schedules of any length -/

theorem sendsAny (p : Profile) (t : Eit) (hid : t.tableId ≠ 0x4E ∧ t.tableId ≠ 0x4F) (hne : t.items ≠ []) (hev : ∀ i ∈ t.items, ItemInRange i)
    (hno : ¬ (p = .debug ∧ t.Overflow)) (pid : UInt16) (cc : UInt8) (dst : List UInt8) (hp : pid.toNat < 8192) (hc : cc.toNat < 16) :
    Sends (t.demux p pid cc dst) pid cc dst t.wireAny := by
  refine ⟨?_, by rw [C100_wire_partial p t hid hne hev pid cc dst hp hc, if_neg hno]⟩
  intro sec hs
  obtain ⟨x, hx, rfl⟩ := List.mem_map.1 hs
  exact section_isSection t _ _ _ _ _ _ (sects_ok t hev x.1 (withLast_memAny _ x hx).1).2.2.1

theorem withLast_lt (t : Eit) (hev : ∀ i ∈ t.items, ItemInRange i) : ∀ x ∈ ScheduleAny.withLast t.sects, x.2 < 256 := by
  intro x hx
  rcases (withLast_memAny _ x hx).2 with h | ⟨y, hy, h⟩
  · omega
  · have := (sects_ok t hev y hy).2.1
    omega

/-- The fields of a section. -/
theorem any_read (t : Eit) (hev : ∀ i ∈ t.items, ItemInRange i) (x : Sect EitItem × Nat) (hx : x ∈ ScheduleAny.withLast t.sects) :
    tableIdOf (t.anySection x) = x.1.table ∧ numberOf (t.anySection x) = x.1.number ∧ lastOf (t.anySection x) = x.2 ∧
    segmentLastOf (t.anySection x) = x.1.number ∧ lastTableOf (t.anySection x) = t.lastTable ∧ eventBytes (t.anySection x) = x.1.events.flatMap entry := by
  obtain ⟨a1, a2, -, -⟩ := sects_ok t hev x.1 (withLast_memAny _ x hx).1
  obtain ⟨-, s2, -, -, s5, s6, -, -, s9, s10, s11⟩ := section_read t x.1.table x.1.number x.2 x.1.number t.lastTable x.1.events a1 a2
    (withLast_lt t hev x hx) a2 (Nat.mod_lt _ (by omega))
  exact ⟨s2, s5, s6, s9, s10, s11⟩

theorem any_at (t : Eit) (hev : ∀ i ∈ t.items, ItemInRange i) (k : Nat) (sec : List UInt8) (hs : t.wireAny[k]? = some sec) :
    ∃ x, t.sects[k]? = some x ∧ tableIdOf sec = x.table ∧ numberOf sec = x.number ∧ eventBytes sec = x.events.flatMap entry := by
  rw [wireAny, List.getElem?_map] at hs
  cases hg : (ScheduleAny.withLast t.sects)[k]? with
  | none => rw [hg] at hs; cases hs
  | some y =>
    rw [hg] at hs
    have hs := Option.some.inj hs
    subst hs
    obtain ⟨r1, r2, -, -, -, r6⟩ := any_read t hev y (List.mem_of_getElem? hg)
    refine ⟨y.1, ?_, r1, r2, r6⟩
    rw [← withLast_fstAny t.sects, List.getElem?_map, hg]; rfl

theorem any_length (t : Eit) : t.wireAny.length = t.sects.length := by
  rw [wireAny, List.length_map, ← List.length_map (as := ScheduleAny.withLast t.sects) (·.1), withLast_fstAny]

theorem any_carry (t : Eit) (hev : ∀ i ∈ t.items, ItemInRange i) : Carry entry t.wireAny (t.sects.map (·.events)) := by
  refine ⟨by rw [any_length, List.length_map], ?_⟩
  intro k sec g hs hg
  obtain ⟨x, hx, -, -, he⟩ := any_at t hev k sec hs
  rw [List.getElem?_map, hx] at hg
  cases hg
  exact he

theorem any_groups (t : Eit) : (t.sects.map (·.events)).flatten = t.items := by
  rw [← List.flatMap_def, sects_events]

/-- C100: no event is left out, none is sent twice, and the order is kept. -/
theorem C100_events (p : Profile) (t : Eit) (hid : t.tableId ≠ 0x4E ∧ t.tableId ≠ 0x4F) (hne : t.items ≠ []) (hev : ∀ i ∈ t.items, ItemInRange i)
    (hno : ¬ (p = .debug ∧ t.Overflow)) (pid : UInt16) (cc : UInt8) (dst : List UInt8) (hp : pid.toNat < 8192) (hc : cc.toNat < 16) :
    ∃ secs groups, Sends (t.demux p pid cc dst) pid cc dst secs ∧ Carry entry secs groups ∧ groups.flatten = t.items :=
  ⟨_, _, sendsAny p t hid hne hev hno pid cc dst hp hc, any_carry t hev, any_groups t⟩

/-- C100: a section never exceeds the 4096 bytes of the standard. -/
theorem C100_length (p : Profile) (t : Eit) (hid : t.tableId ≠ 0x4E ∧ t.tableId ≠ 0x4F) (hne : t.items ≠ []) (hev : ∀ i ∈ t.items, ItemInRange i)
    (hno : ¬ (p = .debug ∧ t.Overflow)) (pid : UInt16) (cc : UInt8) (dst : List UInt8) (hp : pid.toNat < 8192) (hc : cc.toNat < 16) :
    ∃ secs, Sends (t.demux p pid cc dst) pid cc dst secs ∧ ∀ sec ∈ secs, sec.length ≤ 4096 :=
  ⟨_, sendsAny p t hid hne hev hno pid cc dst hp hc, wireAny_le t hev⟩

theorem wireAny_pairwise (t : Eit) (hb : t.tableId.toNat % 16 = 0) (h : ¬ t.Overflow) (hev : ∀ i ∈ t.items, ItemInRange i) :
    t.wireAny.Pairwise fun a b => 256 * tableIdOf a + numberOf a < 256 * tableIdOf b + numberOf b := by
  have hu := sects_unique t hb h
  rw [← withLast_fstAny t.sects, List.pairwise_map] at hu
  rw [wireAny, List.pairwise_map]
  refine List.Pairwise.imp_of_mem ?_ hu
  intro a b ha hb' hab
  obtain ⟨a1, a2, -⟩ := any_read t hev a ha
  obtain ⟨b1, b2, -⟩ := any_read t hev b hb'
  rw [a1, a2, b1, b2]
  exact hab

/-- C100, what holds: as long as no count overflows, no two sections have the same table id and number, and they are sent in the order
of table id and number.  (The table id of the EIT must be that of the first sub-table, as `C60_table_refuted` shows.) -/
theorem C100_unique_partial (p : Profile) (t : Eit) (hb : t.tableId.toNat % 16 = 0) (hne : t.items ≠ []) (hev : ∀ i ∈ t.items, ItemInRange i)
    (hno : ¬ t.Overflow) (pid : UInt16) (cc : UInt8) (dst : List UInt8) (hp : pid.toNat < 8192) (hc : cc.toNat < 16) :
    ∃ secs, Sends (t.demux p pid cc dst) pid cc dst secs ∧
      secs.Pairwise fun a b => 256 * tableIdOf a + numberOf a < 256 * tableIdOf b + numberOf b := by
  have hid : t.tableId ≠ 0x4E ∧ t.tableId ≠ 0x4F := by
    constructor <;> (intro e; rw [e] at hb; revert hb; decide)
  exact ⟨_, sendsAny p t hid hne hev (fun h => hno h.2) pid cc dst hp hc, wireAny_pairwise t hb hno hev⟩

theorem sects_shift (t : Eit) (k : Nat) : t.sects[t.firstSegment + 1 + k]? = t.eventSects[k]? := by
  rw [sects, List.getElem?_append_right (by simp)]
  refine congrArg (fun n => t.eventSects[n]?) ?_
  simp

/-- C100 fails if the events of a segment need more than eight sections: the sections after the eighth have the numbers of the next segment,
although all their events start before it.  (Before the sections with events there are one more than the number of the segment of the
first event.) -/
theorem C100_spill_refuted (p : Profile) (t : Eit) (hid : t.tableId ≠ 0x4E ∧ t.tableId ≠ 0x4F) (hne : t.items ≠ []) (hev : ∀ i ∈ t.items, ItemInRange i)
    (hno : ¬ (p = .debug ∧ t.Overflow)) (hseg : ∀ i ∈ t.items, segmentOf t.origin i.start.toNat < t.firstSegment + 2)
    (pid : UInt16) (cc : UInt8) (dst : List UInt8) (hp : pid.toNat < 8192) (hc : cc.toNat < 16) :
    ∃ secs groups, Sends (t.demux p pid cc dst) pid cc dst secs ∧ Carry entry secs groups ∧ groups.flatten = t.items ∧
      ∀ k, 8 ≤ k → k < 16 → ∀ sec, secs[t.firstSegment + 1 + k]? = some sec → tableIdOf sec = t.base ∧ numberOf sec / 8 = t.firstSegment + 2 := by
  refine ⟨_, _, sendsAny p t hid hne hev hno pid cc dst hp hc, any_carry t hev, any_groups t, ?_⟩
  intro k h8 h16 sec hs
  obtain ⟨x, hx, h1, h2, -⟩ := any_at t hev _ sec hs
  rw [sects_shift] at hx
  obtain ⟨e1, e2, -⟩ := sects_spill t hseg k ⟨h8, h16⟩ x hx
  rw [h1, h2]
  exact ⟨e1, e2⟩

/-- C100 fails if they need more than 256: two sections have the same table id and number. -/
theorem C100_duplicate_refuted (p : Profile) (t : Eit) (hid : t.tableId ≠ 0x4E ∧ t.tableId ≠ 0x4F) (hne : t.items ≠ [])
    (hev : ∀ i ∈ t.items, ItemInRange i) (hno : ¬ (p = .debug ∧ t.Overflow))
    (hseg : ∀ i ∈ t.items, segmentOf t.origin i.start.toNat < t.firstSegment + 2)
    (pid : UInt16) (cc : UInt8) (dst : List UInt8) (hp : pid.toNat < 8192) (hc : cc.toNat < 16) :
    ∃ secs, Sends (t.demux p pid cc dst) pid cc dst secs ∧
      ∀ k a b, t.firstSegment + 2 ≤ k → secs[k]? = some a → secs[k + 256]? = some b → tableIdOf a = tableIdOf b ∧ numberOf a = numberOf b := by
  refine ⟨_, sendsAny p t hid hne hev hno pid cc dst hp hc, ?_⟩
  intro k a b hk ha hb
  obtain ⟨j, rfl⟩ : ∃ j, k = t.firstSegment + 1 + (j + 1) := ⟨k - (t.firstSegment + 2), by omega⟩
  obtain ⟨x, hx, a1, a2, -⟩ := any_at t hev _ a ha
  obtain ⟨y, hy, b1, b2, -⟩ := any_at t hev _ b hb
  rw [sects_shift] at hx
  rw [show t.firstSegment + 1 + (j + 1) + 256 = t.firstSegment + 1 + (j + 257) by omega, sects_shift] at hy
  rw [a1, a2, b1, b2]
  exact sects_duplicate t hseg j x y hx hy

/-- C100 fails for a schedule of the actual transport stream (table id 0x50) that continues after the 64th day: the events after the 512th segment
are sent with the table ids of the schedules of other transport streams. -/
theorem C100_other_refuted (p : Profile) (t : Eit) (hid : t.tableId = 0x50) (hne : t.items ≠ []) (hev : ∀ i ∈ t.items, ItemInRange i)
    (h0 : ∀ i ∈ t.items, (entry i).length < 4078) (h : t.EachSegment) (hno : ¬ (p = .debug ∧ t.Overflow))
    (pid : UInt16) (cc : UInt8) (dst : List UInt8) (hp : pid.toNat < 8192) (hc : cc.toNat < 16) :
    ∃ secs groups, Sends (t.demux p pid cc dst) pid cc dst secs ∧ Carry entry secs groups ∧ groups.flatten = t.items ∧
      ∀ (k : Nat) i, 512 ≤ t.firstSegment + 1 + k → t.firstSegment + 1 + k < 1024 → t.items[k]? = some i →
        ∃ sec, secs[t.firstSegment + 1 + k]? = some sec ∧ groups[t.firstSegment + 1 + k]? = some [i] ∧ 0x60 ≤ tableIdOf sec ∧ tableIdOf sec ≤ 0x6F := by
  refine ⟨_, _, sendsAny p t (by rw [hid]; decide) hne hev hno pid cc dst hp hc, any_carry t hev, any_groups t, ?_⟩
  intro k i h1 h2 hi
  have he := eventSects_each t (by rw [hid]; rfl) hne h0 h
  have hbase : t.base = 0x50 := by rw [base, hid]; rfl
  have hx : t.sects[t.firstSegment + 1 + k]? = some ⟨(t.base + (t.firstSegment + 1 + k) / 32) % 256, 8 * ((t.firstSegment + 1 + k) % 32), [i]⟩ := by
    rw [sects_shift, he, List.getElem?_map, List.getElem?_zipIdx, hi]; simp
  have hlen : t.firstSegment + 1 + k < t.wireAny.length := by
    rw [any_length]
    exact (List.getElem?_eq_some_iff.1 hx).1
  refine ⟨_, List.getElem?_eq_getElem hlen, by rw [List.getElem?_map, hx]; rfl, ?_⟩
  obtain ⟨y, hy, e1, -⟩ := any_at t hev _ _ (List.getElem?_eq_getElem hlen)
  rw [hx] at hy
  cases hy
  rw [e1, hbase]
  simp only []
  omega

/-! ### The numbers of a schedule -/

/-- A schedule within the capacity of the standard does not overflow. -/
theorem Schedulable.noOverflow {t : Eit} (h : t.Schedulable) : ¬ t.Overflow := by
  intro ho
  have h1 := C60_wire_partial .debug t h 0 0 [] (by decide) (by decide)
  have hid : t.tableId ≠ 0x4E ∧ t.tableId ≠ 0x4F := by
    have := h.table
    constructor <;> (intro e; rw [e] at this; revert this; decide)
  rw [C100_wire_partial .debug t hid h.nonempty h.events 0 0 [] (by decide) (by decide), if_pos ⟨rfl, ho⟩] at h1
  cases h1

theorem lastNumber_max (l : List (Sect EitItem)) (h256 : ∀ s ∈ l, s.number < 256)
    (hp : l.Pairwise fun a b => 256 * a.table + a.number < 256 * b.table + b.number) (h0 : ∀ s ∈ l, s.table ≠ 0) :
    ∀ x ∈ ScheduleAny.withLast l, (∃ y ∈ l, y.table = x.1.table ∧ y.number = x.2) ∧ x.1.number ≤ x.2 ∧
      ∀ y ∈ l, y.table = x.1.table → y.number ≤ x.2 := by
  have key : ∀ (r : List (Sect EitItem)) (s : Sect EitItem), (∀ z ∈ s :: r, z.number < 256) →
      (s :: r).Pairwise (fun a b => 256 * a.table + a.number < 256 * b.table + b.number) → (∀ z ∈ s :: r, z.table ≠ 0) →
      (∃ y ∈ s :: r, y.table = s.table ∧ y.number = ScheduleAny.lastNumber s r) ∧ ∀ y ∈ s :: r, y.table = s.table → y.number ≤ ScheduleAny.lastNumber s r := by
    intro r
    induction r with
    | nil =>
      intro s _ _ h0
      rw [ScheduleAny.lastNumber, if_neg (h0 s List.mem_cons_self)]
      refine ⟨⟨s, List.mem_cons_self, rfl, rfl⟩, ?_⟩
      intro y hy _
      rw [List.mem_singleton] at hy
      rw [hy]
    | cons b q ih =>
      intro s h256 hp h0
      have hp' := List.pairwise_cons.1 hp
      obtain ⟨i1, i2⟩ := ih b (fun z hz => h256 z (List.mem_cons_of_mem _ hz)) hp'.2 (fun z hz => h0 z (List.mem_cons_of_mem _ hz))
      rw [ScheduleAny.lastNumber]
      have hsb := hp'.1 b List.mem_cons_self
      have nb := h256 b (List.mem_cons_of_mem _ List.mem_cons_self)
      have ns := h256 s List.mem_cons_self
      split
      · next e =>
        obtain ⟨y, hy, y1, y2⟩ := i1
        refine ⟨⟨y, List.mem_cons_of_mem _ hy, by rw [y1, e], y2⟩, ?_⟩
        intro z hz hzt
        rcases List.mem_cons.1 hz with rfl | hz
        · have := i2 b List.mem_cons_self rfl
          omega
        · exact i2 z hz (by rw [hzt, e])
      · next e =>
        refine ⟨⟨s, List.mem_cons_self, rfl, rfl⟩, ?_⟩
        intro z hz hzt
        rcases List.mem_cons.1 hz with rfl | hz
        · omega
        · have h1 : 256 * b.table + b.number ≤ 256 * z.table + z.number := by
            rcases List.mem_cons.1 hz with rfl | hz
            · omega
            · have := (List.pairwise_cons.1 hp'.2).1 z hz
              omega
          have := h256 z (List.mem_cons_of_mem _ (by exact hz))
          omega
  induction l with
  | nil => intro x hx; cases hx
  | cons s r ih =>
    intro x hx
    have hp' := List.pairwise_cons.1 hp
    rw [ScheduleAny.withLast] at hx
    rcases List.mem_cons.1 hx with rfl | hxr
    · obtain ⟨k1, k2⟩ := key r s h256 hp h0
      exact ⟨k1, k2 s List.mem_cons_self rfl, k2⟩
    · obtain ⟨⟨y, hy, y1, y2⟩, j2, j3⟩ := ih (fun z hz => h256 z (List.mem_cons_of_mem _ hz)) hp'.2 (fun z hz => h0 z (List.mem_cons_of_mem _ hz)) x hxr
      refine ⟨⟨y, List.mem_cons_of_mem _ hy, y1, y2⟩, j2, ?_⟩
      intro z hz hzt
      rcases List.mem_cons.1 hz with rfl | hz
      · have hm := hp'.1 x.1 (withLast_memAny r x hxr).1
        have := h256 x.1 (List.mem_cons_of_mem _ (withLast_memAny r x hxr).1)
        omega
      · exact j3 z hz hzt

/-- C64: the sections of a schedule are sent in the order of their table ids and numbers, no two of them have both in common; every
section carries the number of the last section with its table id; and all carry the id of the last sub-table, that of the last event of the list. -/
theorem C64_eit_schedule (p : Profile) (t : Eit) (h : t.Schedulable) (hb : t.tableId.toNat % 16 = 0) (pid : UInt16) (cc : UInt8)
    (dst : List UInt8) (hp : pid.toNat < 8192) (hc : cc.toNat < 16) :
    ∃ secs, Sends (t.demux p pid cc dst) pid cc dst secs ∧
      (secs.Pairwise fun a b => 256 * tableIdOf a + numberOf a < 256 * tableIdOf b + numberOf b) ∧
      ∀ sec ∈ secs, (∃ b ∈ secs, tableIdOf b = tableIdOf sec ∧ numberOf b = lastOf sec) ∧
        (∀ b ∈ secs, tableIdOf b = tableIdOf sec → numberOf b ≤ lastOf sec) ∧
        lastTableOf sec = t.tableId.toNat + segmentOf t.origin t.lastStart / 32 := by
  have hid : t.tableId ≠ 0x4E ∧ t.tableId ≠ 0x4F := by
    constructor <;> (intro e; rw [e] at hb; revert hb; decide)
  have hev := h.events
  have hno := h.noOverflow
  refine ⟨_, sendsAny p t hid h.nonempty hev (fun e => hno e.2) pid cc dst hp hc, wireAny_pairwise t hb hno hev, ?_⟩
  intro sec hs
  obtain ⟨x, hx, rfl⟩ := List.mem_map.1 hs
  obtain ⟨r1, r2, r3, -, r5, -⟩ := any_read t hev x hx
  have htab : ∀ s ∈ t.sects, s.table ≠ 0 := by
    have hu := sects_unique t hb hno
    have hbase : 0x50 ≤ t.base := by have := h.table; unfold base; omega
    have h0 : t.sects = ⟨t.base, 8 * 0, []⟩ :: t.sects.tail := by
      rw [sects, List.range_succ_eq_map]; rfl
    intro s hs
    rw [h0] at hu hs
    have n := (sects_ok t hev)
    rcases List.mem_cons.1 hs with rfl | hs
    · simp only []; omega
    · have h1 := (List.pairwise_cons.1 hu).1 s hs
      have h2 := (n s (List.mem_of_mem_tail hs)).2.1
      simp only [] at h1
      omega
  obtain ⟨⟨y, hy, y1, y2⟩, -, m3⟩ := lastNumber_max t.sects (fun s hs => (sects_ok t hev s hs).2.1) (sects_unique t hb hno) htab x hx
  have hfind : ∀ b ∈ t.wireAny, ∃ s ∈ t.sects, tableIdOf b = s.table ∧ numberOf b = s.number := by
    intro b hb'
    obtain ⟨k, hk⟩ := List.getElem?_of_mem hb'
    obtain ⟨z, hz, e1, e2, -⟩ := any_at t hev k b hk
    exact ⟨z, List.mem_of_getElem? hz, e1, e2⟩
  refine ⟨?_, ?_, ?_⟩
  · rw [← withLast_fstAny t.sects] at hy
    obtain ⟨z, hz, rfl⟩ := List.mem_map.1 hy
    obtain ⟨z1, z2, -⟩ := any_read t hev z hz
    exact ⟨_, List.mem_map_of_mem hz, by rw [z1, r1, y1], by rw [z2, r3, y2]⟩
  · intro b hb' hbt
    obtain ⟨s, hs', e1, e2⟩ := hfind b hb'
    rw [e2, r3]
    exact m3 s hs' (by rw [← e1, hbt, r1])
  · rw [r5]
    have hlt := lastTable_lt t h
    have hl := h.span _ (List.getLast_mem h.nonempty)
    have hL : t.lastStart = (t.items.getLast h.nonempty).start.toNat := by rw [lastStart, List.getLast?_eq_some_getLast h.nonempty]; rfl
    rw [← hL] at hl
    have htb : t.tableId.toNat = t.base := by unfold base; omega
    have hl64 : t.lastStart < 2 ^ 64 := by rw [hL]; exact UInt64.toNat_lt _
    rw [lastTable, htb, segmentOf, show (t.lastStart + 2 ^ 64 - t.origin) % 2 ^ 64 = t.lastStart - t.origin by omega]
    rw [segmentOf] at hlt
    exact Nat.mod_eq_of_lt (by omega)

end Eit

/-! ## The hypotheses are met -/

/-- A service whose only descriptor takes 100 bytes. -/
def sentService : SdtItem := ⟨1, 0, 1, 4, 0, [.d4D ⟨⟨0, [0x65, 0x6E, 0x67]⟩, ⟨0, [0x41]⟩, ⟨0, List.replicate 90 0x42⟩⟩]⟩
/-- Thirty of them do not fit into one section; the version has eight bits. -/
def sentSdt : Sdt := { tableId := 0x42, version := 0xE7, tsid := 1, onid := 2, items := List.replicate 30 sentService }

theorem sentService_ok : Sdt.ItemInRange sentService := by decide +kernel
theorem sentSdt_ok : ∀ i ∈ sentSdt.items, Sdt.ItemInRange i := fun i hi => by
  rw [List.eq_of_mem_replicate hi]; exact sentService_ok

example (p : Profile) : ∃ secs, Sends (sentSdt.demux p 0x11 7 []) 0x11 7 [] secs ∧ (secs.length ≤ 256 → ∀ (i : Nat) sec, secs[i]? = some sec →
    numberOf sec = i ∧ lastOf sec = secs.length - 1) := Sdt.C64_sdt p sentSdt sentSdt_ok 0x11 7 [] (by decide) (by decide)
example (p : Profile) : ∃ secs, Sends (sentSdt.demux p 0x11 7 []) 0x11 7 [] secs ∧ ∀ sec ∈ secs, sec.length ≤ 1024 :=
  Sdt.C63_sdt p sentSdt sentSdt_ok 0x11 7 [] (by decide) (by decide)
/-- Of the version 0xE7 the bits 7 are sent. -/
example (p : Profile) : ∃ secs, Sends (sentSdt.demux p 0x11 7 []) 0x11 7 [] secs ∧ (∀ sec ∈ secs, versionOf sec = 7) ∧
    ∃ u s', receive (Sdt.parse p) p Sdt.default Psi.default (stream 0x11 7 secs) = .ok (u, s') ∧ u.version.toNat = 7 :=
  Sdt.C68_sdt p sentSdt ⟨.inl rfl, by decide, fun i hi => ⟨sentSdt_ok i hi, by rw [List.eq_of_mem_replicate hi]; decide +kernel⟩⟩ 0x11 7 []
    Psi.default (by decide) (by decide)
example (p : Profile) : ∃ secs, Sends (samplePmt2.demux p 0x100 7 []) 0x100 7 [] secs ∧ ∀ sec ∈ secs, sec.length ≤ 1024 :=
  Pmt.C63_pmt p samplePmt2 samplePmt2_inRange.program (fun i hi => (samplePmt2_inRange.items i hi).1) 0x100 7 [] (by decide) (by decide)
example (p : Profile) : ∃ secs, Sends (sampleNit.demux p 0x10 7 []) 0x10 7 [] secs ∧ ∀ sec ∈ secs, sec.length ≤ 1024 :=
  Nit.C63_nit p sampleNit sampleNit_inRange.network.1 (fun i hi => (sampleNit_inRange.items i hi).1) 0x10 7 [] (by decide) (by decide)
/-- A section of the schedule with its number, the last number, and the last table id. -/
example (p : Profile) : ∃ secs, Sends (sampleSchedule.demux p 0x12 3 []) 0x12 3 [] secs ∧
    (secs.Pairwise fun a b => 256 * tableIdOf a + numberOf a < 256 * tableIdOf b + numberOf b) ∧
    ∀ sec ∈ secs, (∃ b ∈ secs, tableIdOf b = tableIdOf sec ∧ numberOf b = lastOf sec) ∧
      (∀ b ∈ secs, tableIdOf b = tableIdOf sec → numberOf b ≤ lastOf sec) ∧ lastTableOf sec = 0x50 := by
  have e : sampleSchedule.tableId.toNat + segmentOf sampleSchedule.origin sampleSchedule.lastStart / 32 = 0x50 := by decide +kernel
  have h := Eit.C64_eit_schedule p sampleSchedule sampleSchedule_ok (by decide) 0x12 3 [] (by decide) (by decide)
  rw [e] at h
  exact h
/-- The first event of the schedule starts in the segment 7 and is sent in the segment 8. -/
example (p : Profile) (i : EitItem) (hi : sampleSchedule.items.head? = some i) :
    ∃ secs groups, Sends (sampleSchedule.demux p 0x12 3 []) 0x12 3 [] secs ∧ Carry Eit.entry secs groups ∧ groups.flatten = sampleSchedule.items ∧
      ∃ (k : Nat) (sec : List UInt8) (r : List EitItem), secs[k]? = some sec ∧ groups[k]? = some (i :: r) ∧ (∀ j, j < k → groups[j]? = some []) ∧
        segmentAt sampleSchedule.base sec = segmentOf sampleSchedule.origin i.start.toNat + 1 :=
  Eit.C60_first_refuted p sampleSchedule sampleSchedule_ok (by decide) i hi 0x12 3 [] (by decide) (by decide)
/-- Two sections of `sampleLong` belong to one segment. -/
example : ∃ a ∈ sampleLong.wireSchedule, ∃ b ∈ sampleLong.wireSchedule, tableIdOf a = tableIdOf b ∧ numberOf a / 8 = numberOf b / 8 ∧
    numberOf a ≠ numberOf b := by
  obtain ⟨x, hx, y, hy, h1, h2⟩ : ∃ x ∈ withLast sampleLong.slots, ∃ y ∈ withLast sampleLong.slots, x.1.segment = y.1.segment ∧ x.1.index ≠ y.1.index := by
    decide +kernel
  obtain ⟨a1, -, a3, -⟩ := Eit.slot_read sampleLong sampleLong_ok x hx
  obtain ⟨b1, -, b3, -⟩ := Eit.slot_read sampleLong sampleLong_ok y hy
  have ia := (Eit.slot_numbers sampleLong sampleLong_ok x hx).2.2.1
  have ib := (Eit.slot_numbers sampleLong sampleLong_ok y hy).2.2.1
  refine ⟨_, List.mem_map_of_mem hx, _, List.mem_map_of_mem hy, ?_, ?_, ?_⟩
  · rw [tableIdOf, tableIdOf]
    refine a1.trans (Eq.trans ?_ b1.symm)
    rw [Eit.slot_table sampleLong (by decide) _ (Eit.withLast_mem _ x hx).1, Eit.slot_table sampleLong (by decide) _ (Eit.withLast_mem _ y hy).1, h1]
  · have e1 : numberOf (sampleLong.slotSection x) = _ := a3
    have e2 : numberOf (sampleLong.slotSection y) = _ := b3
    rw [e1, e2, Slot.number, Slot.number, h1]
    omega
  · have e1 : numberOf (sampleLong.slotSection x) = _ := a3
    have e2 : numberOf (sampleLong.slotSection y) = _ := b3
    rw [e1, e2, Slot.number, Slot.number, h1]
    omega
/-- 300 events of half a section each. -/
example : ∃ secs, Sends ((sampleBig 300).demux .release 0x12 3 []) 0x12 3 [] secs ∧
    ∀ k a b, (sampleBig 300).firstSegment + 2 ≤ k → secs[k]? = some a → secs[k + 256]? = some b → tableIdOf a = tableIdOf b ∧ numberOf a = numberOf b :=
  Eit.C100_duplicate_refuted .release (sampleBig 300) (by decide) (by decide)
    (fun i hi => by rw [List.eq_of_mem_replicate hi]; exact bigEvent_ok) (by decide) (sampleBig_segment 300 (by decide)) 0x12 3 [] (by decide) (by decide)
example : 257 + ((sampleBig 300).firstSegment + 2) < (sampleBig 300).wireAny.length := by
  have := (sampleBig 300).firstSegment_lt
  rw [Eit.any_length, Eit.sects, List.length_append, sampleBig_length 300 (by decide)]
  simp
  omega

end Mpegts
