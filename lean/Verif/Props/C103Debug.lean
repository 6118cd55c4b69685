import Verif.Props.C110Eit

/-! # C103 and C105 for every table, EIT schedules included -/

namespace Mpegts
open Spec Spec.Table Spec.Schedule

/-- Some count of a schedule passes the end of its type (`Spec.AnyValue.SomeOverflow`); only schedules count anything that can. -/
def AnyTable.Overflows : AnyTable → Prop
  | .eit t => (t.tableId ≠ 0x4E ∧ t.tableId ≠ 0x4F) ∧ t.AnyOverflow
  | _ => False

/-- C103: a program compiled with overflow checks panics for exactly these tables and arguments: a delivery system descriptor with a number it
refuses, a schedule with a count that overflows, a PID of 8192 or more, a counter of 16 or more; and for an EIT without events never. -/
theorem C103_debug (t : AnyTable) (pid : UInt16) (cc : UInt8) (dst : List UInt8) :
    t.demux .debug pid cc dst = panic ↔
      ¬ t.IsEmptyEit ∧ ((∃ d ∈ t.allDescriptors, d.Refused) ∨ t.Overflows ∨ 8192 ≤ pid.toNat ∨ 16 ≤ cc.toNat) := by
  by_cases hs : t.IsSchedule
  · cases t with
    | eit t =>
      by_cases hne : t.items = []
      · refine ⟨fun h => ?_, fun h => absurd hne h.1⟩
        have h : t.demux .debug pid cc dst = panic := h
        rw [t.demux_empty hne] at h
        cases h
      · by_cases h : 8192 ≤ pid.toNat ∨ 16 ≤ cc.toNat
        · exact ⟨fun _ => ⟨hne, .inr (.inr h)⟩, fun _ => debug_always (.eit t) hne pid cc dst (.inr h)⟩
        · have hp : pid.toNat < 8192 := Nat.lt_of_not_le fun h' => h (.inl h')
          have hc : cc.toNat < 16 := Nat.lt_of_not_le fun h' => h (.inr h')
          have e : (AnyTable.eit t).demux .debug pid cc dst = _ := t.C110_schedule .debug hs hne pid cc dst hp hc
          rw [e]
          by_cases hb : (∃ d ∈ t.allDescriptors, d.Refused) ∨ t.AnyOverflow
          · rw [if_pos ⟨rfl, hb⟩]
            exact ⟨fun _ => ⟨hne, hb.imp id fun h => .inl ⟨hs, h⟩⟩, fun _ => rfl⟩
          · rw [if_neg fun h => hb h.2]
            refine ⟨fun h => (nomatch h), fun ⟨_, h'⟩ => ?_⟩
            rcases h' with h' | ⟨_, h'⟩ | h'
            · exact absurd (.inl h') hb
            · exact absurd (.inr h') hb
            · exact absurd h' h
    | _ => exact hs.elim
  · rw [debug_others t hs pid cc dst]
    have : ¬ t.Overflows := by
      cases t with
      | eit t => exact fun h => hs h.1
      | _ => exact id
    simp [this]

namespace Eit
open Spec.ScheduleAny (Sect)

theorem place_sent (l : List EitItem) (limit : Nat) (pos : Nat × Nat) (s : Sect EitItem) :
    (AnyValue.place (·.start.toNat) anyCount (fun i => (anyEntry i).length) 4078 limit pos s l).flatMap (·.events) = s.events ++ l := by
  induction l generalizing limit pos s with
  | nil => simp [AnyValue.place]
  | cons i r ih =>
    rw [AnyValue.place]
    split
    · rw [List.flatMap_cons, ih]; rfl
    · split
      · rw [List.flatMap_cons, ih]; rfl
      · rw [ih]; simp

/-- Every event is in exactly one section, in order. -/
theorem allSects_events (t : Eit) : t.allSects.flatMap (·.events) = t.items := by
  rw [allSects_eq, List.flatMap_append, place_sent, List.nil_append]
  simp

/-- C105, the part that holds for EIT schedules: whatever the size of the events, all of them are sent, in order, and every section of at most
4098 bytes states its own size; of larger ones it is 12 bits.  (Full property: all sections state their size; false, see `C105_schedule_refuted`.) -/
theorem C105_schedule_partial (p : Profile) (t : Eit) (hid : t.tableId ≠ 0x4E ∧ t.tableId ≠ 0x4F) (hne : t.items ≠ [])
    (hok : ¬ (p = .debug ∧ ((∃ d ∈ t.allDescriptors, d.Refused) ∨ t.AnyOverflow))) (pid : UInt16) (cc : UInt8)
    (dst : List UInt8) (hp : pid.toNat < 8192) (hc : cc.toNat < 16) :
    t.demux p pid cc dst = .ok (UInt8.ofNat ((cc.toNat + streamCount t.allWire) % 16), dst ++ (stream pid.toNat cc.toNat t.allWire).flatten) ∧
      t.allSects.flatMap (·.events) = t.items ∧
      ∀ sec ∈ t.allWire, (IsSection sec ↔ sec.length ≤ 4098) ∧ declaredSize sec = 3 + (sec.length - 3) % 4096 := by
  refine ⟨by rw [C110_schedule p t hid hne pid cc dst hp hc, if_neg hok], t.allSects_events, ?_⟩
  intro sec hs
  obtain ⟨x, -, rfl⟩ := List.mem_map.1 hs
  rw [allSection]
  generalize hb : Table.eit x.1.table _ _ _ _ _ _ _ _ _ = b
  have h3 : b.length = 14 + (x.1.events.flatMap anyEntry).length := hb ▸ spill_length _ _ _ _ _ _ _ _ _ _
  refine ⟨Spill.isSection_iff (by omega), ?_⟩
  rw [Spill.complete_declared (by omega), Spill.complete_length (by omega)]
  refine congrArg (3 + · % 4096) ?_
  omega

/-- C105 fails for EIT schedules: an event of more than 4080 bytes is sent in a section with a wrong length. -/
theorem C105_schedule_refuted (p : Profile) (t : Eit) (hid : t.tableId ≠ 0x4E ∧ t.tableId ≠ 0x4F)
    (hok : ¬ (p = .debug ∧ ((∃ d ∈ t.allDescriptors, d.Refused) ∨ t.AnyOverflow))) (pid : UInt16) (cc : UInt8)
    (dst : List UInt8) (hp : pid.toNat < 8192) (hc : cc.toNat < 16) (i : EitItem) (hi : i ∈ t.items)
    (ho : 4080 < 12 + (i.descriptors.flatMap Desc.emitted).length) :
    ∃ cc' secs, t.demux p pid cc dst = .ok (cc', dst ++ (stream pid.toNat cc.toNat secs).flatten) ∧
      ∃ sec ∈ secs, 30 + (i.descriptors.flatMap Desc.emitted).length ≤ sec.length ∧ declaredSize sec = 3 + (sec.length - 3) % 4096 ∧
        declaredSize sec < sec.length ∧ ¬ IsSection sec := by
  obtain ⟨h1, h2, h3⟩ := C105_schedule_partial p t hid (List.ne_nil_of_mem hi) hok pid cc dst hp hc
  rw [← h2] at hi
  obtain ⟨s, hs, hi⟩ := List.mem_flatMap.1 hi
  rw [← withLast_fstAny t.allSects] at hs
  obtain ⟨x, hx, rfl⟩ := List.mem_map.1 hs
  have hm : _ ∈ t.allWire := List.mem_map_of_mem hx
  have hl := t.allSection_length x.1.table x.1.number x.2 x.1.number (ScheduleAny.lastTable (·.start.toNat) t.tableId.toNat t.items) x.1.events
  have he : (anyEntry i).length ≤ (x.1.events.flatMap anyEntry).length := by
    obtain ⟨a, b, e⟩ := List.append_of_mem hi
    rw [e]; simp; omega
  have hi12 : (anyEntry i).length = 12 + (i.descriptors.flatMap Desc.emitted).length := by
    simp [anyEntry, AnyValue.eitEntry, AnyValue.utc, Spill.sized_length]; omega
  have hd := (h3 _ hm).2
  refine ⟨_, _, h1, _, hm, by omega, hd, by omega, fun e => ?_⟩
  have := (h3 _ hm).1.1 e
  omega

end Eit

/-! ## Concrete cases -/

/-- Two events, the second with 4242 bytes of descriptors. -/
def giantSchedule : Eit := { sampleSchedule with items := [⟨1, 1700000000, 3600, 4, 1, []⟩, ⟨2, 1700003600, 3600, 4, 1, giantDescriptors⟩] }

theorem giant_sent : (giantDescriptors.flatMap Desc.emitted).length = 4242 := by decide +kernel
theorem giantSchedule_fine : ¬ giantSchedule.AnyOverflow := by decide +kernel
theorem giantSchedule_accepted : ¬ ∃ d ∈ giantSchedule.allDescriptors, d.Refused := by decide +kernel

example (p : Profile) : ∃ cc' secs, giantSchedule.demux p 0x12 3 [] = .ok (cc', [] ++ (stream 0x12 3 secs).flatten) ∧
    ∃ sec ∈ secs, 4272 ≤ sec.length ∧ declaredSize sec = 3 + (sec.length - 3) % 4096 ∧ declaredSize sec < sec.length ∧ ¬ IsSection sec := by
  have ho : 4080 < 12 + ((⟨2, 1700003600, 3600, 4, 1, giantDescriptors⟩ : EitItem).descriptors.flatMap Desc.emitted).length := by
    simp only [giant_sent]; omega
  have h := giantSchedule.C105_schedule_refuted p (by decide) (fun h => h.2.elim giantSchedule_accepted giantSchedule_fine) 0x12 3 [] (by decide)
    (by decide) ⟨2, 1700003600, 3600, 4, 1, giantDescriptors⟩ (List.mem_cons_of_mem _ List.mem_cons_self) ho
  simp only [giant_sent] at h
  exact h

/-- 257 sections for one segment: the number of the last of them overflows. -/
def crowdedSchedule : Eit := { sampleSchedule with items := List.replicate 270 ⟨1, 1700000000, 3600, 4, 1, giantDescriptors⟩ }

example (pid : UInt16) (cc : UInt8) (dst : List UInt8) : (AnyTable.eit crowdedSchedule).demux .debug pid cc dst = panic :=
  (C103_debug (.eit crowdedSchedule) pid cc dst).2 ⟨by show ¬ crowdedSchedule.items = []; decide,
    .inr (.inl ⟨by decide, by decide +kernel⟩)⟩

/-- And these are not: the giant schedule is sent in a program with overflow checks. -/
example (dst : List UInt8) : ¬ (AnyTable.eit giantSchedule).demux .debug 0x12 7 dst = panic := fun h => by
  rcases ((C103_debug (.eit giantSchedule) 0x12 7 dst).1 h).2 with h | h | h | h
  · exact giantSchedule_accepted h
  · exact giantSchedule_fine h.2
  · exact absurd h (by decide)
  · exact absurd h (by decide)

end Mpegts
