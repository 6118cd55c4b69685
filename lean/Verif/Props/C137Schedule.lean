import Verif.Props.C137
import Verif.Props.C103Debug

/-! # C137 for EIT schedules -/

namespace Mpegts
open Spec Spec.Table Spec.Schedule Spec.ScheduleAny
open Spec.Calendar (shown)

namespace Eit

/-- A section that is not too long is completed as the standard prescribes. -/
theorem spill_complete (tid pnr version n l tsid onid sl lt : Nat) (e : List UInt8) (h : e.length ≤ 4078) :
    Spec.Spill.complete (Table.eit tid pnr version n l tsid onid sl lt e) = complete (Table.eit tid pnr version n l tsid onid sl lt e) := by
  have hl : (Table.eit tid pnr version n l tsid onid sl lt e).length = 14 + e.length := spill_length _ _ _ _ _ _ _ _ _ _
  have hd : ((Table.eit tid pnr version n l tsid onid sl lt e).getD 1 0).toNat = 0xF0 := by
    simp only [Table.eit, header, beBytes, List.cons_append, List.nil_append, List.getD_cons_succ, List.getD_cons_zero]
    decide
  have e1 : (240 / 16 * 4096 ||| (14 + e.length + 1) % 65536 : Nat) = 240 / 16 * 4096 + (14 + e.length - 3 + 4) := by
    rw [Nat.mod_eq_of_lt (by omega), show 14 + e.length - 3 + 4 = 14 + e.length + 1 by omega]
    exact (Nat.two_pow_add_eq_or_of_lt (i := 12) (by omega) 15).symm
  unfold Spec.Spill.complete complete
  simp only [hd, hl, e1]

/-- The sections of placed events are not longer than there is room. -/
theorem place_room (start taken : EitItem → Nat) (room : Nat) (l : List EitItem) (hl : ∀ i ∈ l, taken i ≤ room) (limit : Nat) (pos : Nat × Nat)
    (s : Sect EitItem) (hs : (s.events.map taken).sum ≤ room) :
    ∀ x ∈ AnyValue.place start taken taken room limit pos s l, (x.events.map taken).sum ≤ room := by
  induction l generalizing limit pos s with
  | nil =>
    intro x hx
    obtain rfl := List.mem_singleton.1 hx
    exact hs
  | cons i r ih =>
    have hi := hl i List.mem_cons_self
    have ih := fun limit pos s hs => ih (fun x hx => hl x (List.mem_cons_of_mem _ hx)) limit pos s hs
    intro x hx
    rw [AnyValue.place] at hx
    split at hx
    · rcases List.mem_cons.1 hx with rfl | hx
      · exact hs
      · exact ih _ _ _ (by simpa using hi) x hx
    · split at hx
      · rcases List.mem_cons.1 hx with rfl | hx
        · exact hs
        · exact ih _ _ _ (by simpa using hi) x hx
      · exact ih _ _ _ (by simp; omega) x hx

theorem place_congr (start c c' taken : EitItem → Nat) (room : Nat) (l : List EitItem) (hl : ∀ i ∈ l, c i = c' i) (limit : Nat) (pos : Nat × Nat)
    (s : Sect EitItem) : AnyValue.place start c taken room limit pos s l = AnyValue.place start c' taken room limit pos s l := by
  induction l generalizing limit pos s with
  | nil => rfl
  | cons i r ih =>
    have ih := fun limit pos s => ih (fun x hx => hl x (List.mem_cons_of_mem _ hx)) limit pos s
    rw [AnyValue.place, AnyValue.place, hl i List.mem_cons_self]
    simp only [ih]

/-- What a receiver makes of sections with these events. -/
theorem receive_sects (p : Profile) (t : Eit) (hv : t.version.toNat < 32) (lt : Nat) (hlt : lt < 256) (l : List (Sect EitItem × Nat))
    (h : ∀ x ∈ l, x.1.table < 256 ∧ x.1.number < 256 ∧ x.2 < 256 ∧ (x.1.events.flatMap entry).length ≤ 4078 ∧
      ∀ i ∈ x.1.events, ItemInRange i ∧ ∀ d ∈ i.descriptors, d.Exact)
    (he : ∀ x ∈ l, 0x4E ≤ x.1.table ∧ x.1.table ≤ 0x6F) (hne : l ≠ []) (pid : Nat) (hp : pid < 8192) (cc : Nat) (s : Psi) :
    ∃ s' id, receive (Eit.parse p) p Eit.default s
        (stream pid cc (l.map fun x => t.section' x.1.table x.1.number x.2 x.1.number lt x.1.events)) =
      .ok ({ t with tableId := id, items := l.flatMap (·.1.events) }, s') := by
  have hrec := receive_stream (Eit.parse p) p pid hp l (fun x => t.section' x.1.table x.1.number x.2 x.1.number lt x.1.events)
    (by
      intro x hx
      have := (h x hx).2.2.2.1
      rw [section_eq]
      exact complete_isSection (by simp; omega) (by simp only [List.length_append, header_length, rest_length]; omega))
    (fun u x => { t with tableId := UInt8.ofNat x.1.table, items := u.items ++ x.1.events })
    (by
      intro u x hx psi hb hs
      obtain ⟨-, a2, a3, -, a5⟩ := h x hx
      exact parse_section p u t hv _ _ _ _ _ (he x hx) a2 a3 a2 hlt x.1.events a5 psi hb hs)
    (by
      intro u psi hx hlt h183
      refine C65_eit p u psi (.inr (by intro e; rw [e] at h183; simp at h183)) ?_
      rintro ⟨-, -, h, -⟩
      omega)
    Eit.default s cc
  obtain ⟨s', hrr⟩ := hrec
  have hf : ∀ (l : List (Sect EitItem × Nat)) (u : Eit), l ≠ [] →
      ∃ id, l.foldl (fun u x => ({ t with tableId := UInt8.ofNat x.1.table, items := u.items ++ x.1.events } : Eit)) u =
        { t with tableId := id, items := u.items ++ l.flatMap (·.1.events) } := by
    intro l
    induction l with
    | nil => intro u h; exact absurd rfl h
    | cons x r ih =>
      intro u _
      by_cases hr : r = []
      · subst hr
        exact ⟨UInt8.ofNat x.1.table, by simp⟩
      · obtain ⟨id, e⟩ := ih { t with tableId := UInt8.ofNat x.1.table, items := u.items ++ x.1.events } hr
        exact ⟨id, by rw [List.foldl_cons, e, List.flatMap_cons, List.append_assoc]⟩
  obtain ⟨id, e⟩ := hf l Eit.default hne
  refine ⟨s', id, ?_⟩
  rw [hrr, e]
  rfl

theorem entry_any (i : EitItem) (h : ItemInRange i) : anyEntry i = entry i := by
  have h1 := assemble_all .release i (by simp) []
  have h2 := assemble_entry .release i h []
  rw [h1] at h2
  simpa using h2

theorem withLast_sections (l : List (Sect EitItem)) (h : ∀ s ∈ l, s.number < 256) : ∀ x ∈ withLast l, x.1 ∈ l ∧ x.2 < 256 := by
  intro x hx
  obtain ⟨h1, h2⟩ := withLast_memAny _ x hx
  refine ⟨h1, ?_⟩
  rcases h2 with e | ⟨y, hy, e⟩
  · omega
  · have := h y hy
    omega

theorem good_unrefused (ds : Descriptors) (h : Good ds) : ∀ d ∈ ds, ¬ d.Refused := by
  intro d hd hr
  have h1 := C32_wire_format_partial .debug d [] (h d hd).1 (h d hd).2
  rw [desc_any, if_pos ⟨rfl, hr⟩] at h1
  cases h1

theorem redate_entry (f : UInt64 → UInt64) (i : EitItem) (h : AnyValue.utc (f i.start).toNat = AnyValue.utc i.start.toNat) :
    anyEntry (i.redate f) = anyEntry i := by
  simp only [anyEntry, EitItem.redate, AnyValue.eitEntry, h]

theorem redate_count (f : UInt64 → UInt64) (i : EitItem) : anyCount (i.redate f) = anyCount i := rfl

theorem lastTable_byte {α : Type} (start : α → Nat) (id : Nat) (l : List α) : ScheduleAny.lastTable start id l < 256 := by
  unfold ScheduleAny.lastTable
  omega

end Eit

/-- A schedule whose events have times that are sent as other times are: these are received. -/
theorem schedule_redate (f : UInt64 → UInt64) (p : Profile) (t : Eit) (hid : t.tableId ≠ 0x4E ∧ t.tableId ≠ 0x4F) (hne : t.items ≠ [])
    (h : ∀ i ∈ t.items, AnyValue.utc (f i.start).toNat = AnyValue.utc i.start.toNat) (ht : (t.redate f).InRange) (hno : ¬ (p = .debug ∧ t.AnyOverflow))
    (hall : ∀ s ∈ t.allSects, 0x4E ≤ s.table ∧ s.table ≤ 0x6F) (pid : UInt16) (cc : UInt8) (dst : List UInt8) (s : Psi)
    (hp : pid.toNat < 8192) (hc : cc.toNat < 16) :
    ∃ cc' pks s' id, t.demux p pid cc dst = .ok (cc', dst ++ pks.flatten) ∧ (∀ pk ∈ pks, IsTsPacket pid.toNat pk) ∧
      receive (Eit.parse p) p Eit.default s pks = .ok ({ t.redate f with tableId := id }, s') := by
  have hd : ∀ i ∈ t.items, Eit.ItemInRange (i.redate f) ∧ ∀ d ∈ (i.redate f).descriptors, d.Exact :=
    fun i hi => ht.items _ (List.mem_map_of_mem hi)
  have he : ∀ i ∈ t.items, Eit.anyEntry i = Eit.entry (i.redate f) := by
    intro i hi
    rw [← Eit.entry_any _ (hd i hi).1]
    exact (Eit.redate_entry _ i (h i hi)).symm
  have hcount : ∀ i ∈ t.items, Eit.anyCount i = (Eit.anyEntry i).length := by
    intro i hi
    rw [he i hi, ← Eit.size_entry _ (hd i hi).1, Eit.counted_size]
    exact (Eit.redate_count _ i).symm
  have hroom : ∀ x ∈ t.allSects, (x.events.map fun i => (Eit.anyEntry i).length).sum ≤ 4078 := by
    intro x hx
    rw [Eit.allSects_eq, Eit.place_congr _ _ (fun i => (Eit.anyEntry i).length) _ _ _ hcount, List.mem_append] at hx
    rcases hx with hx | hx
    · obtain ⟨k, -, rfl⟩ := List.mem_map.1 hx
      simp
    · refine Eit.place_room _ _ _ _ ?_ _ _ _ (by simp) x hx
      intro i hi
      have := (hd i hi).1.2.2.2.2.2
      rw [he i hi]
      omega
  have hmem : ∀ x ∈ t.allSects, ∀ i ∈ x.events, i ∈ t.items := by
    intro x hx i hi
    rw [← Eit.allSects_events t]
    exact List.mem_flatMap.2 ⟨x, hx, hi⟩
  have hw := Eit.withLast_sections t.allSects fun x hx => (Eit.allSects_ok t x hx).2
  have hent : ∀ x ∈ t.allSects, x.events.flatMap Eit.anyEntry = (x.events.map (EitItem.redate f)).flatMap Eit.entry := by
    intro x hx
    rw [List.flatMap_map]
    rw [List.flatMap_def, List.flatMap_def, List.map_congr_left fun i hi => he i (hmem x hx i hi)]
  have hlen : ∀ x ∈ t.allSects, (x.events.flatMap Eit.anyEntry).length ≤ 4078 := by
    intro x hx
    rw [List.length_flatMap]
    exact hroom x hx
  obtain ⟨l, hwire, hflat, hl⟩ : ∃ l : List (Sect EitItem × Nat),
      t.allWire = l.map (fun x => (t.redate f).section' x.1.table x.1.number x.2 x.1.number
        (ScheduleAny.lastTable (·.start.toNat) t.tableId.toNat t.items) x.1.events) ∧
      l.flatMap (·.1.events) = t.items.map (EitItem.redate f) ∧
      ∀ x ∈ l, ∃ y ∈ t.allSects, x.1.table = y.table ∧ x.1.number = y.number ∧ x.1.events = y.events.map (EitItem.redate f) ∧ x.2 < 256 := by
    refine ⟨(ScheduleAny.withLast t.allSects).map fun x => (⟨x.1.table, x.1.number, x.1.events.map (EitItem.redate f)⟩, x.2), ?_, ?_, ?_⟩
    · rw [Eit.allWire, List.map_map]
      refine List.map_congr_left fun x hx => ?_
      have hx := (hw x hx).1
      show Eit.allSection _ _ _ _ _ _ _ = Eit.section' _ _ _ _ _ _ _
      rw [Eit.allSection, Eit.spill_complete _ _ _ _ _ _ _ _ _ _ (hlen _ hx), hent _ hx]
      rfl
    · rw [List.flatMap_map, ← Eit.allSects_events t, List.map_flatMap, ← Eit.withLast_fstAny t.allSects, List.flatMap_map]
      simp only [Eit.withLast_fstAny]
    · intro x hx
      obtain ⟨y, hy, rfl⟩ := List.mem_map.1 hx
      exact ⟨y.1, (hw y hy).1, rfl, rfl, rfl, (hw y hy).2⟩
  have hnr : ¬ ∃ d ∈ t.allDescriptors, d.Refused := by
    rintro ⟨d, hm, hr⟩
    obtain ⟨i, hi, hdi⟩ := List.mem_flatMap.1 hm
    exact Eit.good_unrefused _ (hd i hi).1.2.2.2.2.1 d hdi hr
  have hsend := Eit.C110_schedule p t hid hne pid cc dst hp hc
  rw [if_neg (by rintro ⟨e, h | h⟩; exacts [hnr h, hno ⟨e, h⟩])] at hsend
  obtain ⟨s', id, hr⟩ := Eit.receive_sects p (t.redate f) ht.version (ScheduleAny.lastTable (·.start.toNat) t.tableId.toNat t.items)
    (Eit.lastTable_byte _ _ _) l
    (by
      intro x hx
      obtain ⟨y, hy, e1, e2, e3, h2⟩ := hl x hx
      rw [e1, e2, e3]
      refine ⟨(Eit.allSects_ok t y hy).1, (Eit.allSects_ok t y hy).2, h2, by rw [← hent y hy]; exact hlen y hy, ?_⟩
      intro i hi
      obtain ⟨j, hj, rfl⟩ := List.mem_map.1 hi
      exact hd j (hmem y hy j hj))
    (by
      intro x hx
      obtain ⟨y, hy, e, -⟩ := hl x hx
      rw [e]
      exact hall y hy)
    (by
      rintro rfl
      exact hne (by simpa using hflat.symm))
    pid.toNat hp cc.toNat s
  refine ⟨_, _, s', id, hsend, stream_packets _ _ hp _, ?_⟩
  rw [hwire, hr, hflat]
  rfl

/-- C137 for EIT schedules, what holds: the events are placed by their true times, and received with the times the day numbers stand for, if these
are of 1970 or later. -/
theorem C137_schedule_partial (p : Profile) (t : Eit) (hid : t.tableId ≠ 0x4E ∧ t.tableId ≠ 0x4F) (hne : t.items ≠ [])
    (h : ∀ i ∈ t.items, unixEpochMjd ≤ Calendar.day i.start.toNat) (ht : t.dated.InRange) (hno : ¬ (p = .debug ∧ t.AnyOverflow))
    (hall : ∀ s ∈ t.allSects, 0x4E ≤ s.table ∧ s.table ≤ 0x6F) (pid : UInt16) (cc : UInt8) (dst : List UInt8) (s : Psi)
    (hp : pid.toNat < 8192) (hc : cc.toNat < 16) :
    ∃ cc' pks s' id, t.demux p pid cc dst = .ok (cc', dst ++ pks.flatten) ∧ (∀ pk ∈ pks, IsTsPacket pid.toNat pk) ∧
      receive (Eit.parse p) p Eit.default s pks = .ok ({ t.dated with tableId := id }, s') := by
  refine schedule_redate (fun x => UInt64.ofNat (shown x.toNat)) p t hid hne (fun i hi => ?_) ht hno hall pid cc dst s hp hc
  rw [u64_shown _ (h i hi), shown_utc _ (h i hi)]

end Mpegts
