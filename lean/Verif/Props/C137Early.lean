import Verif.Props.C137Schedule
import Verif.Props.C106

/-! # C137 for events with days before 1970 -/

namespace Mpegts
open Spec Spec.Table Spec.Schedule Spec.ScheduleAny
open Spec.Calendar (day)

theorem foldlM_panic {α β : Type} (step : α → β → R α) (l : List β) (h : ∀ x ∈ l, ∀ u, step u x = panic ∨ ∃ v, step u x = .ok v) (x : β)
    (hx : x ∈ l) (hp : ∀ u, step u x = panic) (u : α) : l.foldlM step u = panic := by
  induction l generalizing u with
  | nil => cases hx
  | cons y r ih =>
    rw [List.foldlM_cons]
    rcases h y List.mem_cons_self u with e | ⟨v, e⟩
    · rw [e]; rfl
    · rw [e, ok_bind]
      rcases List.mem_cons.1 hx with rfl | hx
      · rw [hp u] at e; cases e
      · exact ih (fun z hz => h z (List.mem_cons_of_mem _ hz)) hx v

namespace Eit

theorem utc_length (x : Nat) : (AnyValue.utc x).length = 5 := by simp [AnyValue.utc]

theorem entry_day (i : EitItem) : field (anyEntry i) 2 2 = day i.start.toNat := by
  have e : anyEntry i = beBytes 2 i.eventId.toNat ++ (beBytes 2 (unixEpochMjd + i.start.toNat / 86400) ++
      (beBytes 3 (Descriptor.hhmmss (i.start.toNat % 2 ^ 32 % 86400)) ++ (beBytes 3 (Descriptor.hhmmss (i.duration.toNat % 86400)) ++
      Spec.Spill.sized (AnyValue.overlay [(3, i.status.toNat), (1, i.caMode.toNat)]) (i.descriptors.flatMap Desc.emitted)))) := by
    simp only [anyEntry, AnyValue.eitEntry, AnyValue.utc, List.append_assoc]
  rw [field, e, List.drop_left' (by simp), List.take_left' (by simp), beNat_beBytes]
  rfl

theorem entry_frame (i : EitItem) (h : (i.descriptors.flatMap Desc.emitted).length < 4096) :
    12 ≤ (anyEntry i).length ∧ 12 + beNat (((anyEntry i).drop (12 - 2)).take 2) % 4096 = (anyEntry i).length := by
  have e : anyEntry i = (beBytes 2 i.eventId.toNat ++ AnyValue.utc i.start.toNat ++ beBytes 3 (Descriptor.hhmmss (i.duration.toNat % 86400))) ++
      Spec.Spill.sized (AnyValue.overlay [(3, i.status.toNat), (1, i.caMode.toNat)]) (i.descriptors.flatMap Desc.emitted) := rfl
  have hl : (beBytes 2 i.eventId.toNat ++ AnyValue.utc i.start.toNat ++ beBytes 3 (Descriptor.hhmmss (i.duration.toNat % 86400))).length = 10 := by
    simp [utc_length]
  have h2 : (anyEntry i).length = 12 + (i.descriptors.flatMap Desc.emitted).length := by
    rw [e, List.length_append, hl, Spec.Spill.sized, List.length_append]; simp; omega
  refine ⟨by omega, ?_⟩
  rw [h2, show 12 - 2 = 10 from rfl, e, List.drop_left' hl, Spec.Spill.sized, List.take_left' (by simp), beNat_beBytes, Nat.mod_eq_of_lt (a := List.length _) (by omega),
    Nat.mul_comm, ← Nat.two_pow_add_eq_or_of_lt (i := 12) h]
  omega

/-- What the parser sees of a section. -/
theorem section_seen (tid pnr version n l tsid onid sl lt : Nat) (e : List UInt8) (ht : tid < 256) (hp : pnr < 65536) (hv : version < 32)
    (hn : n < 256) (hl : l < 256) :
    let sec := complete (Table.eit tid pnr version n l tsid onid sl lt e)
    sec.head? = some (UInt8.ofNat tid) ∧ (sec.take (sec.length - 4)).drop 14 = e := by
  have e1 : Table.eit tid pnr version n l tsid onid sl lt e =
      header tid 0b1111 pnr version n l ++ (beBytes 2 tsid ++ beBytes 2 onid ++ beBytes 1 sl ++ beBytes 1 lt ++ e) := by
    simp only [Table.eit, List.append_assoc]
  rw [e1]
  obtain ⟨s1, s2, -, -, -, -, -, -, s9, -⟩ := section_fields tid 0b1111 pnr version n l
    (beBytes 2 tsid ++ beBytes 2 onid ++ beBytes 1 sl ++ beBytes 1 lt ++ e) ht hp hv hn hl
  exact ⟨s2, (s9 6).trans (List.drop_left' (by simp))⟩

theorem early_parse (u : Eit) (tid pnr version n l tsid onid sl lt : Nat) (ht : 0x4E ≤ tid ∧ tid ≤ 0x6F) (hp : pnr < 65536) (hv : version < 32)
    (hn : n < 256) (hl : l < 256) (g : List EitItem) (hg : ∀ i ∈ g, (i.descriptors.flatMap Desc.emitted).length < 4096)
    (i : EitItem) (hi : i ∈ g) (hd : day i.start.toNat < unixEpochMjd) (psi : Psi)
    (hb : psi.buffer = complete (Table.eit tid pnr version n l tsid onid sl lt (g.flatMap anyEntry)))
    (hs : psi.size = (complete (Table.eit tid pnr version n l tsid onid sl lt (g.flatMap anyEntry))).length) :
    u.parse .debug psi = panic := by
  obtain ⟨r1, r2⟩ := section_seen tid pnr version n l tsid onid sl lt (g.flatMap anyEntry) (by omega) hp hv hn hl
  have hlen : (Table.eit tid pnr version n l tsid onid sl lt (g.flatMap anyEntry)).length = 14 + (g.flatMap anyEntry).length :=
    spill_length _ _ _ _ _ _ _ _ _ _
  have ht' : (UInt8.ofNat tid).toNat = tid := by rw [UInt8.toNat_ofNat']; omega
  refine (C67_eit_partial .debug u psi).bad (.inr ⟨⟨⟨UInt8.ofNat tid, by rw [hb]; exact r1, by omega, by omega⟩,
    complete_intact _ (by omega) psi hb hs 18 (by omega)⟩, anyEntry i, ?_, .inl ⟨rfl, .inl (by rw [entry_day]; exact hd)⟩⟩)
  rw [hb, hs, r2, entries_flatMap 12 (by decide) anyEntry g fun x hx => entry_frame x (hg x hx)]
  exact List.mem_map_of_mem hi

/-- Receiving such sections, if one has an event whose day is before 1970, panics. -/
theorem early_receive (pnr version tsid onid : Nat) (hp : pnr < 65536) (hv : version < 32)
    (l : List (Nat × Nat × Nat × Nat × Nat × List EitItem))
    (h : ∀ x ∈ l, (0x4E ≤ x.1 ∧ x.1 ≤ 0x6F) ∧ x.2.1 < 256 ∧ x.2.2.1 < 256 ∧ (x.2.2.2.2.2.flatMap anyEntry).length ≤ 4078)
    (i : EitItem) (x : Nat × Nat × Nat × Nat × Nat × List EitItem) (hx : x ∈ l) (hi : i ∈ x.2.2.2.2.2) (hd : day i.start.toNat < unixEpochMjd)
    (pid : Nat) (hpid : pid < 8192) (cc : Nat) (u : Eit) (s : Psi) :
    receive (Eit.parse .debug) .debug u s (stream pid cc (l.map fun x =>
      Spec.Spill.complete (Table.eit x.1 pnr version x.2.1 x.2.2.1 tsid onid x.2.2.2.1 x.2.2.2.2.1 (x.2.2.2.2.2.flatMap anyEntry)))) = panic := by
  have hlen := fun x : Nat × Nat × Nat × Nat × Nat × List EitItem =>
    spill_length x.1 pnr version x.2.1 x.2.2.1 tsid onid x.2.2.2.1 x.2.2.2.2.1 (x.2.2.2.2.2.flatMap anyEntry)
  rw [List.map_congr_left fun x hx => spill_complete x.1 pnr version x.2.1 x.2.2.1 tsid onid x.2.2.2.1 x.2.2.2.2.1 _ (h x hx).2.2.2]
  obtain ⟨s', e⟩ := receive_streamM (Eit.parse .debug) .debug pid hpid l
    (fun x => complete (Table.eit x.1 pnr version x.2.1 x.2.2.1 tsid onid x.2.2.2.1 x.2.2.2.2.1 (x.2.2.2.2.2.flatMap anyEntry)))
    (by
      intro x hx
      have := (h x hx).2.2.2
      have := hlen x
      exact complete_isSection (by omega) (by omega))
    (fun u x => Eit.parse .debug u { Psi.default with
      buffer := complete (Table.eit x.1 pnr version x.2.1 x.2.2.1 tsid onid x.2.2.2.1 x.2.2.2.2.1 (x.2.2.2.2.2.flatMap anyEntry)),
      size := (complete (Table.eit x.1 pnr version x.2.1 x.2.2.1 tsid onid x.2.2.2.1 x.2.2.2.2.1 (x.2.2.2.2.2.flatMap anyEntry))).length })
    (by
      intro u x _ psi hb hs
      cases psi
      subst hb hs
      rfl)
    (by
      intro u psi hx hlt h183
      refine C65_eit .debug u psi (.inr (by intro e; rw [e] at h183; simp at h183)) ?_
      rintro ⟨-, -, h, -⟩
      omega)
    u s cc
  rw [e, foldlM_panic _ l ?_ x hx ?_]
  · rfl
  · intro y _ v
    have o := C67_eit_partial .debug v { Psi.default with
      buffer := complete (Table.eit y.1 pnr version y.2.1 y.2.2.1 tsid onid y.2.2.2.1 y.2.2.2.2.1 (y.2.2.2.2.2.flatMap anyEntry)),
      size := (complete (Table.eit y.1 pnr version y.2.1 y.2.2.1 tsid onid y.2.2.2.1 y.2.2.2.2.1 (y.2.2.2.2.2.flatMap anyEntry))).length }
    exact (Classical.em _).imp o.bad o.good
  · intro v
    obtain ⟨h1, h2, h3, h4⟩ := h x hx
    refine early_parse v x.1 pnr version x.2.1 x.2.2.1 tsid onid x.2.2.2.1 x.2.2.2.2.1 h1 hp hv h2 h3 x.2.2.2.2.2 ?_ i hi hd _ rfl rfl
    intro j hj
    have : (anyEntry j).length ≤ (x.2.2.2.2.2.flatMap anyEntry).length := by
      rw [List.length_flatMap]
      exact size_le_sum (fun i => (anyEntry i).length) hj
    have h2 : (anyEntry j).length = 12 + (j.descriptors.flatMap Desc.emitted).length := by
      simp [anyEntry, AnyValue.eitEntry, Spec.Spill.sized, utc_length]; omega
    omega

theorem redate_length (f : UInt64 → UInt64) (i : EitItem) : (anyEntry (i.redate f)).length = (anyEntry i).length := by
  simp [anyEntry, EitItem.redate, AnyValue.eitEntry, Spec.Spill.sized, utc_length]

end Eit

/-- C137 fails for present/following EITs: a table that would be received if its events were at other times `f`, for example in 2020, is sent
without notice, and if the day number of one event modulo 2^16 is before 1970, a receiver compiled with overflow checks panics. -/
theorem C137_eit_early_refuted (p : Profile) (f : UInt64 → UInt64) (t : Eit) (hid : t.tableId = 0x4E ∨ t.tableId = 0x4F)
    (ht : (t.redate f).InRange) (i : EitItem) (hi : i ∈ t.items) (hd : day i.start.toNat < unixEpochMjd) (pid : UInt16) (cc : UInt8) (dst : List UInt8)
    (u : Eit) (s : Psi) (hp : pid.toNat < 8192) (hc : cc.toNat < 16) :
    ∃ cc' pks, t.demux p pid cc dst = .ok (cc', dst ++ pks.flatten) ∧ (∀ pk ∈ pks, IsTsPacket pid.toNat pk) ∧
      receive (Eit.parse .debug) .debug u s pks = panic := by
  have hd' : ∀ j ∈ t.items, Eit.ItemInRange (j.redate f) := fun j hj => (ht.items _ (List.mem_map_of_mem hj)).1
  have hnr : ¬ ∃ d ∈ t.allDescriptors, d.Refused := by
    rintro ⟨d, hm, hr⟩
    obtain ⟨j, hj, hdj⟩ := List.mem_flatMap.1 hm
    exact Eit.good_unrefused _ (hd' j hj).2.2.2.2.1 d hdj hr
  have hsend := Eit.C110_eit p t hid pid cc dst hp hc
  rw [if_neg fun h => hnr h.2] at hsend
  refine ⟨_, _, hsend, stream_packets _ _ hp _, ?_⟩
  have e : t.allPf = (t.items.zipIdx.map fun x => (t.tableId.toNat, x.2 % 256, (t.items.length - 1) % 256, (t.items.length - 1) % 256, t.tableId.toNat, [x.1])).map
      fun x : Nat × Nat × Nat × Nat × Nat × List EitItem =>
        Spec.Spill.complete (Table.eit x.1 t.pnr.toNat (t.version.toNat % 32) x.2.1 x.2.2.1 t.tsid.toNat t.onid.toNat x.2.2.2.1 x.2.2.2.2.1 (x.2.2.2.2.2.flatMap Eit.anyEntry)) := by
    rw [List.map_map]; rfl
  rw [e]
  obtain ⟨k, hk⟩ : ∃ k, (i, k) ∈ t.items.zipIdx := by
    obtain ⟨k, hk, e⟩ := List.mem_iff_getElem.1 hi
    exact ⟨k, List.mem_zipIdx_iff_getElem?.2 (by simp [hk, e])⟩
  refine Eit.early_receive _ _ _ _ t.pnr.toNat_lt (by omega) _ ?_ i _ (List.mem_map_of_mem hk) List.mem_cons_self hd _ hp _ _ _
  intro x hx
  obtain ⟨y, hy, rfl⟩ := List.mem_map.1 hx
  have h1 := (hd' _ (List.fst_mem_of_mem_zipIdx hy)).2.2.2.2.2
  rw [← Eit.entry_any _ (hd' _ (List.fst_mem_of_mem_zipIdx hy)), Eit.redate_length] at h1
  have h2 : 0x4E ≤ t.tableId.toNat ∧ t.tableId.toNat ≤ 0x6F := by rcases hid with e | e <;> rw [e] <;> decide
  refine ⟨h2, ?_, ?_, ?_⟩
  · show _ % 256 < 256; omega
  · show _ % 256 < 256; omega
  · simp; omega

/-- C137 fails for EIT schedules in the same way. -/
theorem C137_schedule_early_refuted (p : Profile) (f : UInt64 → UInt64) (t : Eit) (hid : t.tableId ≠ 0x4E ∧ t.tableId ≠ 0x4F)
    (ht : (t.redate f).InRange) (hno : ¬ (p = .debug ∧ t.AnyOverflow)) (hall : ∀ s ∈ t.allSects, 0x4E ≤ s.table ∧ s.table ≤ 0x6F)
    (i : EitItem) (hi : i ∈ t.items) (hd : day i.start.toNat < unixEpochMjd) (pid : UInt16) (cc : UInt8) (dst : List UInt8)
    (u : Eit) (s : Psi) (hp : pid.toNat < 8192) (hc : cc.toNat < 16) :
    ∃ cc' pks, t.demux p pid cc dst = .ok (cc', dst ++ pks.flatten) ∧ (∀ pk ∈ pks, IsTsPacket pid.toNat pk) ∧
      receive (Eit.parse .debug) .debug u s pks = panic := by
  have hd' : ∀ j ∈ t.items, Eit.ItemInRange (j.redate f) := fun j hj => (ht.items _ (List.mem_map_of_mem hj)).1
  have hnr : ¬ ∃ d ∈ t.allDescriptors, d.Refused := by
    rintro ⟨d, hm, hr⟩
    obtain ⟨j, hj, hdj⟩ := List.mem_flatMap.1 hm
    exact Eit.good_unrefused _ (hd' j hj).2.2.2.2.1 d hdj hr
  have hsend := Eit.C110_schedule p t hid (List.ne_nil_of_mem hi) pid cc dst hp hc
  rw [if_neg (by rintro ⟨e, h | h⟩; exacts [hnr h, hno ⟨e, h⟩])] at hsend
  have hcount : ∀ j ∈ t.items, Eit.anyCount j = (Eit.anyEntry j).length := by
    intro j hj
    rw [← Eit.redate_length f, Eit.entry_any _ (hd' j hj), ← Eit.size_entry _ (hd' j hj), Eit.counted_size]
    rfl
  have hroom : ∀ x ∈ t.allSects, (x.events.flatMap Eit.anyEntry).length ≤ 4078 := by
    intro x hx
    rw [List.length_flatMap]
    rw [Eit.allSects_eq, Eit.place_congr _ _ (fun i => (Eit.anyEntry i).length) _ _ _ hcount, List.mem_append] at hx
    rcases hx with hx | hx
    · obtain ⟨k, -, rfl⟩ := List.mem_map.1 hx
      simp
    · refine Eit.place_room _ _ _ _ ?_ _ _ _ (by simp) x hx
      intro j hj
      have := (hd' j hj).2.2.2.2.2
      rw [← Eit.redate_length f, Eit.entry_any _ (hd' j hj)]
      omega
  have hw := Eit.withLast_sections t.allSects fun x hx => (Eit.allSects_ok t x hx).2
  obtain ⟨x, hx, hix⟩ : ∃ x ∈ withLast t.allSects, i ∈ x.1.events := by
    have h1 := Eit.allSects_events t ▸ hi
    obtain ⟨y, hy, h2⟩ := List.mem_flatMap.1 h1
    rw [← Eit.withLast_fstAny t.allSects] at hy
    obtain ⟨x, hx, rfl⟩ := List.mem_map.1 hy
    exact ⟨x, hx, h2⟩
  refine ⟨_, _, hsend, stream_packets _ _ hp _, ?_⟩
  have e : t.allWire = ((withLast t.allSects).map fun x => (x.1.table, x.1.number, x.2, x.1.number,
        ScheduleAny.lastTable (·.start.toNat) t.tableId.toNat t.items, x.1.events)).map
      fun x : Nat × Nat × Nat × Nat × Nat × List EitItem =>
        Spec.Spill.complete (Table.eit x.1 t.pnr.toNat (t.version.toNat % 32) x.2.1 x.2.2.1 t.tsid.toNat t.onid.toNat x.2.2.2.1 x.2.2.2.2.1 (x.2.2.2.2.2.flatMap Eit.anyEntry)) := by
    rw [List.map_map]; rfl
  rw [e]
  refine Eit.early_receive _ _ _ _ t.pnr.toNat_lt (by omega) _ ?_ i _ (List.mem_map_of_mem hx) hix hd _ hp _ _ _
  intro z hz
  obtain ⟨y, hy, rfl⟩ := List.mem_map.1 hz
  have hy1 := (hw y hy).1
  exact ⟨hall _ hy1, (Eit.allSects_ok t _ hy1).2, (hw y hy).2, hroom _ hy1⟩

theorem complete_three (a b c : UInt8) (r : List UInt8) : ∃ l1 l2 tail, complete ([a, b, c] ++ r) = [a, l1, l2] ++ (r ++ tail) := by
  simp only [complete, beBytes, List.cons_append, List.nil_append, List.take_succ_cons, List.take_zero, List.drop_succ_cons, List.drop_zero]
  exact ⟨_, _, _, rfl⟩

namespace Tot

/-- A section that is not too long is completed as the standard prescribes. -/
theorem spill_tot (time : Nat) (D : List UInt8) (h : D.length ≤ 4084) :
    Spec.Spill.complete (AnyValue.tot time D) = complete (AnyValue.tot time D) := by
  have hl := any_length time D
  have hd : ((AnyValue.tot time D).getD 1 0).toNat = 0x70 := by
    simp only [AnyValue.tot, List.cons_append, List.nil_append, List.getD_cons_succ, List.getD_cons_zero]
    decide
  have e1 : (112 / 16 * 4096 ||| (10 + D.length + 1) % 65536 : Nat) = 112 / 16 * 4096 + (10 + D.length - 3 + 4) := by
    rw [Nat.mod_eq_of_lt (by omega), show 10 + D.length - 3 + 4 = 10 + D.length + 1 by omega]
    exact (Nat.two_pow_add_eq_or_of_lt (i := 12) (by omega) 7).symm
  unfold Spec.Spill.complete complete
  simp only [hd, hl, e1]

end Tot

/-- C137 fails for TOTs: whatever its descriptors, if they fit, a TOT whose day number modulo 2^16 is before 1970 is sent without notice, and a
receiver compiled with overflow checks panics. -/
theorem C137_tot_early_refuted (p : Profile) (t u : Tot) (hd : day t.time.toNat < unixEpochMjd) (hr : ∀ d ∈ t.descriptors, ¬ d.Refused)
    (hlen : (t.descriptors.flatMap Desc.emitted).length ≤ 4084) (pid : UInt16) (cc : UInt8) (dst : List UInt8) (s : Psi)
    (hp : pid.toNat < 8192) (hc : cc.toNat < 16) :
    ∃ cc' pks, t.demux p pid cc dst = .ok (cc', dst ++ pks.flatten) ∧ (∀ pk ∈ pks, IsTsPacket pid.toNat pk) ∧
      receive (Tot.parse .debug) .debug u s pks = panic := by
  have hsend := Tot.C110_tot p t pid cc dst hp hc
  rw [if_neg fun h => let ⟨d, h1, h2⟩ := h.2; hr d h1 h2] at hsend
  have hl := Tot.any_length t.time.toNat (t.descriptors.flatMap Desc.emitted)
  refine ⟨_, _, hsend, fun pk hpk => stream_packets pid.toNat cc.toNat hp [t.anySection] pk (by simpa [stream] using hpk), ?_⟩
  have e : t.anySection = complete (AnyValue.tot t.time.toNat (t.descriptors.flatMap Desc.emitted)) := Tot.spill_tot _ _ hlen
  have hcl := complete_length (body := AnyValue.tot t.time.toNat (t.descriptors.flatMap Desc.emitted)) (by omega)
  have hsec : IsSection t.anySection := by
    rw [e]
    exact complete_isSection (by omega) (by omega)
  rw [receive_section _ _ _ _ _ _ _ hsec hp (by
    intro psi h1 h2 h3
    refine Tot.C65_tot .debug u psi (.inr (by intro e; rw [e] at h3; simp at h3)) ?_
    rintro ⟨-, -, h, -⟩
    omega)]
  dsimp only
  have hb : ({ s with buffer := t.anySection, size := t.anySection.length, cc := UInt8.ofNat ((cc.toNat + packetCount t.anySection.length - 1) % 16) } : Psi).buffer =
    complete (AnyValue.tot t.time.toNat (t.descriptors.flatMap Desc.emitted)) := e
  obtain ⟨l1, l2, tail, hc3⟩ := complete_three 0x73 0x70 0 (beBytes 2 (unixEpochMjd + t.time.toNat / 86400) ++
    (beBytes 3 (Descriptor.hhmmss (t.time.toNat % 2 ^ 32 % 86400)) ++ Spec.Spill.sized 0b1111 (t.descriptors.flatMap Desc.emitted)))
  have hcomp : t.anySection = [0x73, l1, l2] ++ (beBytes 2 (unixEpochMjd + t.time.toNat / 86400) ++
      (beBytes 3 (Descriptor.hhmmss (t.time.toNat % 2 ^ 32 % 86400)) ++ Spec.Spill.sized 0b1111 (t.descriptors.flatMap Desc.emitted) ++ tail)) := by
    rw [e, show AnyValue.tot t.time.toNat (t.descriptors.flatMap Desc.emitted) = [0x73, 0x70, 0] ++ (beBytes 2 (unixEpochMjd + t.time.toNat / 86400) ++
      (beBytes 3 (Descriptor.hhmmss (t.time.toNat % 2 ^ 32 % 86400)) ++ Spec.Spill.sized 0b1111 (t.descriptors.flatMap Desc.emitted))) by
        simp only [AnyValue.tot, AnyValue.utc, List.append_assoc], hc3]
    simp only [List.append_assoc]
  have hf : field t.anySection 3 2 = day t.time.toNat := by
    rw [field, hcomp, List.drop_left' (by simp), List.take_left' (by simp), beNat_beBytes]
    rfl
  rw [(Tot.C67_tot_partial .debug u _).bad (.inr ⟨⟨?_, complete_intact _ (by omega) _ hb (by rw [e]) 14 (by omega)⟩, .inl ⟨rfl, .inl ?_⟩⟩)]
  · rfl
  · show t.anySection.head? = _
    rw [hcomp]; rfl
  · show field t.anySection 3 2 < _
    rw [hf]; exact hd

/-! ## Examples -/

/-- A TOT of 23 April 2038. -/
example (p : Profile) (s : Psi) := C137_tot_early_refuted p { sampleTot with time := 2155593600 } ⟨0, []⟩ (by decide) (by decide +kernel) (by decide +kernel) 20 0 [] s
  (by decide) (by decide)

/-- An event of 23 April 2038, and one of the day before. -/
def nextEit : Eit := { Eit.default with tableId := 0x4E, items := [⟨6, 2155507200, 3600, 4, 0, []⟩, ⟨7, 2155593600, 3600, 4, 0, []⟩] }

example (p : Profile) (s : Psi) := C137_eit_early_refuted p (fun _ => 0) nextEit (.inl rfl) ⟨by decide, by unfold Eit.ItemInRange TimeInRange; decide +kernel⟩
  ⟨7, 2155593600, 3600, 4, 0, []⟩ (by decide) (by decide) 18 0 [] Eit.default s (by decide) (by decide)

/-- The same events in a schedule. -/
def nextSchedule : Eit := { nextEit with tableId := 0x50 }

example (s : Psi) := C137_schedule_early_refuted .release (fun _ => 0) nextSchedule (by decide) ⟨by decide, by unfold Eit.ItemInRange TimeInRange; decide +kernel⟩
  (by simp) (by decide +kernel) ⟨7, 2155593600, 3600, 4, 0, []⟩ (by decide) (by decide) 18 0 [] Eit.default s (by decide) (by decide)

/-- A schedule of 1 and 2 January 2150, which are received as of July 1970. -/
def schedule2150 : Eit := { Eit.default with tableId := 0x50, items := [⟨6, 5680281600, 3600, 4, 0, []⟩, ⟨7, 5680368000, 3600, 4, 0, []⟩] }

example : schedule2150.dated.items = [⟨6, 208 * 86400 + 63104, 3600, 4, 0, []⟩, ⟨7, 209 * 86400 + 63104, 3600, 4, 0, []⟩] := by decide +kernel
example (s : Psi) := C137_schedule_partial .release schedule2150 (by decide) (by decide) (by decide +kernel) ⟨by decide, by decide +kernel⟩
  (by simp) (by decide +kernel) 18 0 [] s (by decide) (by decide)

end Mpegts
