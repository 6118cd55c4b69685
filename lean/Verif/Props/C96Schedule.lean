import Verif.Props.C96
import Verif.Props.C100

/-! # C96: relaying EIT schedules -/

namespace Mpegts
open Spec Spec.Table Spec.Schedule
open Spec.ScheduleAny (Sect nextSegment nextNumber overflows)

/-! ## The placement depends on start times and sizes only -/

/-- A section with its events replaced. -/
def mapSect {α β : Type} (f : α → β) (s : Sect α) : Sect β := ⟨s.table, s.number, s.events.map f⟩

section
variable {α β : Type} (f : α → β) (start size : α → Nat) (start' size' : β → Nat)

theorem place_map (room : Nat) (l : List α) (J : α → Prop) (h1 : ∀ a, J a → start' (f a) = start a) (h2 : ∀ a, J a → size' (f a) = size a) (limit : Nat)
    (pos : Nat × Nat) (s : Sect α) (hs : ∀ a ∈ s.events, J a) (hl : ∀ a ∈ l, J a) :
    ScheduleAny.place start' size' room limit pos (mapSect f s) (l.map f) = (ScheduleAny.place start size room limit pos s l).map (mapSect f) := by
  induction l generalizing limit pos s with
  | nil => rfl
  | cons i r ih =>
    have hi := hl i List.mem_cons_self
    have ih := fun limit pos s hs => ih limit pos s hs fun a ha => hl a (List.mem_cons_of_mem _ ha)
    have hsum : ((mapSect f s).events.map size').sum = (s.events.map size).sum := by
      rw [mapSect, List.map_map]
      exact congrArg List.sum (List.map_congr_left fun a ha => h2 a (hs a ha))
    have h1i : ∀ a ∈ [i], J a := by intro a ha; rw [List.mem_singleton.1 ha]; exact hi
    rw [List.map_cons, ScheduleAny.place, ScheduleAny.place, h1 i hi, h2 i hi, hsum]
    split
    · rw [List.map_cons]
      exact congrArg _ (ih _ _ ⟨_, _, [i]⟩ h1i)
    · split
      · rw [List.map_cons]
        exact congrArg _ (ih _ _ ⟨_, _, [i]⟩ h1i)
      · have e : ({ mapSect f s with events := (mapSect f s).events ++ [f i] } : Sect β) = mapSect f { s with events := s.events ++ [i] } := by
          simp [mapSect]
        rw [e]
        exact ih _ _ _ (by
          intro a ha
          rcases List.mem_append.1 ha with ha | ha
          · exact hs a ha
          · exact h1i a ha)

theorem overflows_map (room : Nat) (l : List α) (J : α → Prop) (h1 : ∀ a, J a → start' (f a) = start a) (h2 : ∀ a, J a → size' (f a) = size a) (limit : Nat)
    (pos : Nat × Nat) (held : List α) (hs : ∀ a ∈ held, J a) (hl : ∀ a ∈ l, J a) :
    overflows start' size' room limit pos (held.map f) (l.map f) = overflows start size room limit pos held l := by
  induction l generalizing limit pos held with
  | nil => rfl
  | cons i r ih =>
    have hi := hl i List.mem_cons_self
    have ih := fun limit pos s hs => ih limit pos s hs fun a ha => hl a (List.mem_cons_of_mem _ ha)
    have hsum : ((held.map f).map size').sum = (held.map size).sum := by
      rw [List.map_map]
      exact congrArg List.sum (List.map_congr_left fun a ha => h2 a (hs a ha))
    have h1i : ∀ a ∈ [i], J a := by intro a ha; rw [List.mem_singleton.1 ha]; exact hi
    have e1 := fun limit pos => ih limit pos [i] h1i
    have e2 := fun limit pos => ih limit pos (held ++ [i]) (by
          intro a ha
          rcases List.mem_append.1 ha with ha | ha
          · exact hs a ha
          · exact h1i a ha)
    simp only [List.map_cons, List.map_nil, List.map_append] at e1 e2
    rw [List.map_cons, overflows, overflows, h1 i hi, h2 i hi, hsum, e1, e1, e2]

theorem firstStart_map (l : List α) (J : α → Prop) (h1 : ∀ a, J a → start' (f a) = start a) (hl : ∀ a ∈ l, J a) :
    ScheduleAny.firstStart start' (l.map f) = ScheduleAny.firstStart start l := by
  cases l with
  | nil => rfl
  | cons i r => simp [ScheduleAny.firstStart, h1 i (hl i List.mem_cons_self)]

theorem lastStart_map (l : List α) (J : α → Prop) (h1 : ∀ a, J a → start' (f a) = start a) (hl : ∀ a ∈ l, J a) :
    ScheduleAny.lastStart start' (l.map f) = ScheduleAny.lastStart start l := by
  by_cases hne : l = []
  · subst hne; rfl
  · simp [ScheduleAny.lastStart, List.getLast?_map, List.getLast?_eq_some_getLast hne, h1 _ (hl _ (List.getLast_mem hne))]

theorem sections_map (room id : Nat) (l : List α) (J : α → Prop) (h1 : ∀ a, J a → start' (f a) = start a) (h2 : ∀ a, J a → size' (f a) = size a)
    (hl : ∀ a ∈ l, J a) :
    ScheduleAny.sections start' size' room id (l.map f) = (ScheduleAny.sections start size room id l).map (mapSect f) := by
  unfold ScheduleAny.sections
  simp only [firstStart_map f start start' l J h1 hl]
  rw [List.map_append, ← place_map f start size start' size' room l J h1 h2 _ _ _ (by simp) hl, List.map_map]
  rfl

theorem someOverflow_map (room id : Nat) (l : List α) (J : α → Prop) (h1 : ∀ a, J a → start' (f a) = start a) (h2 : ∀ a, J a → size' (f a) = size a)
    (hl : ∀ a ∈ l, J a) : ScheduleAny.SomeOverflow start' size' room id (l.map f) ↔ ScheduleAny.SomeOverflow start size room id l := by
  unfold ScheduleAny.SomeOverflow
  simp only [firstStart_map f start start' l J h1 hl, lastStart_map f start start' l J h1 hl]
  rw [← overflows_map f start size start' size' room l J h1 h2 _ _ [] (by simp) hl]
  rfl

theorem lastNumber_map (s : Sect α) (l : List (Sect α)) : ScheduleAny.lastNumber (mapSect f s) (l.map (mapSect f)) = ScheduleAny.lastNumber s l := by
  induction l generalizing s with
  | nil => rfl
  | cons b r ih => simp only [List.map_cons, ScheduleAny.lastNumber, ih]; rfl

theorem withLast_map (l : List (Sect α)) :
    ScheduleAny.withLast (l.map (mapSect f)) = (ScheduleAny.withLast l).map fun x => (mapSect f x.1, x.2) := by
  induction l with
  | nil => rfl
  | cons s r ih => rw [List.map_cons, ScheduleAny.withLast, ScheduleAny.withLast, List.map_cons, ih, lastNumber_map]

end

theorem place_mem {α : Type} (start size : α → Nat) (room : Nat) (l : List α) (limit : Nat) (pos : Nat × Nat) (s : Sect α) (J : α → Prop)
    (hs : ∀ a ∈ s.events, J a) (hl : ∀ a ∈ l, J a) : ∀ x ∈ ScheduleAny.place start size room limit pos s l, ∀ a ∈ x.events, J a := by
  induction l generalizing limit pos s with
  | nil => intro x hx; rw [ScheduleAny.place, List.mem_singleton] at hx; rw [hx]; exact hs
  | cons i r ih =>
    have ih := fun limit pos s hs => ih limit pos s hs fun a ha => hl a (List.mem_cons_of_mem _ ha)
    have h1i : ∀ a ∈ [i], J a := by intro a ha; rw [List.mem_singleton.1 ha]; exact hl i List.mem_cons_self
    intro x hx
    rw [ScheduleAny.place] at hx
    split at hx
    · rcases List.mem_cons.1 hx with rfl | hx
      · exact hs
      · exact ih _ _ ⟨_, _, [i]⟩ h1i x hx
    · split at hx
      · rcases List.mem_cons.1 hx with rfl | hx
        · exact hs
        · exact ih _ _ ⟨_, _, [i]⟩ h1i x hx
      · exact ih limit pos { s with events := s.events ++ [i] } (by
          intro a ha
          rcases List.mem_append.1 ha with ha | ha
          · exact hs a ha
          · exact h1i a ha) x hx

theorem sections_mem {α : Type} (start size : α → Nat) (room id : Nat) (l : List α) (J : α → Prop) (hl : ∀ a ∈ l, J a) :
    ∀ x ∈ ScheduleAny.sections start size room id l, ∀ a ∈ x.events, J a := by
  intro x hx
  rcases List.mem_append.1 hx with hx | hx
  · obtain ⟨k, -, rfl⟩ := List.mem_map.1 hx
    simp
  · exact place_mem start size room l _ _ _ J (by simp) hl x hx

/-! ## Relaying -/

/-- The sections sent for these events. -/
def eitScheduleSections (tableId pnr version tsid onid : Nat) (events : List Event) : List (List UInt8) :=
  (ScheduleAny.withLast (ScheduleAny.sections (·.start) (·.bytes.length) 4078 tableId events)).map fun x =>
    complete (Table.eit x.1.table pnr version x.1.number x.2 tsid onid x.1.number (ScheduleAny.lastTable (·.start) tableId events)
      (x.1.events.flatMap Event.bytes))

/-- C96 for EIT schedules: the sections of the sub-tables of a service (the first number of each is its table id), in any order and
division, are received and sent on.  The events of all of them are relayed byte for byte, in order, in sections numbered anew, with the table
id received last.  A program with overflow checks panics instead if and only if a count overflows. -/
theorem C96_eit_schedule (p : Profile) (tid pnr version tsid onid : Nat) (hn : pnr < 2 ^ 16) (hv : version < 32)
    (hts : tsid < 2 ^ 16) (hon : onid < 2 ^ 16) (secs : List (Nat × EitSection)) (hid : ∀ x ∈ secs, 0x50 ≤ x.1 ∧ x.1 ≤ 0x6F)
    (hlast : secs.getLast?.map (·.1) = some tid) (hne : secs.flatMap (·.2.events) ≠ [])
    (hsec : ∀ x ∈ secs, x.2.number < 256 ∧ x.2.last < 256 ∧ x.2.segmentLast < 256 ∧ x.2.lastTableId < 256 ∧
      (x.2.events.flatMap Event.bytes).length ≤ 4078)
    (hval : ∀ x ∈ secs, ∀ s ∈ x.2.events, s.Valid) (pid : Nat) (hp : pid < 8192) (cc : Nat) (s : Psi)
    (pid' : UInt16) (hp' : pid'.toNat < 8192) (cc' : UInt8) (hc' : cc'.toNat < 16) (dst : List UInt8) :
    let events := secs.flatMap (·.2.events)
    let out := eitScheduleSections tid pnr version tsid onid events
    ∃ t s', receive (Eit.parse p) p Eit.default s (stream pid cc (secs.map fun x =>
        complete (Table.eit x.1 pnr version x.2.number x.2.last tsid onid x.2.segmentLast x.2.lastTableId (x.2.events.flatMap Event.bytes)))) =
          .ok (t, s') ∧
      t.demux p pid' cc' dst =
        if p = .debug ∧ ScheduleAny.SomeOverflow (·.start) (·.bytes.length) 4078 tid events then panic
        else .ok (UInt8.ofNat ((cc'.toNat + streamCount out) % 16), dst ++ (stream pid'.toNat cc'.toNat out).flatten) := by
  intro events out
  have hsne : secs ≠ [] := by rintro rfl; cases hlast
  have htid : 0x50 ≤ tid ∧ tid ≤ 0x6F := by
    rw [List.getLast?_eq_some_getLast hsne, Option.map_some] at hlast
    cases hlast
    exact hid _ (List.getLast_mem hsne)
  generalize hT : ({ tableId := UInt8.ofNat tid, version := UInt8.ofNat version, pnr := UInt16.ofNat pnr, tsid := UInt16.ofNat tsid
                     onid := UInt16.ofNat onid, items := events.map (Event.item p) } : Eit) = t
  have hmem : ∀ v ∈ events, v.Valid := by
    intro v hv'
    obtain ⟨x, hx, hm⟩ := List.mem_flatMap.1 hv'
    exact hval x hx v hm
  have f0 : t.tableId = UInt8.ofNat tid := by rw [← hT]
  have f1 : t.tableId.toNat = tid := by rw [f0]; exact ofNat8 _ (by omega)
  have f2 : t.pnr.toNat = pnr := by rw [← hT]; exact ofNat16 _ hn
  have f3 : t.version.toNat = version := by rw [← hT]; exact ofNat8 _ (by omega)
  have f3' : t.version.toNat % 32 = version := by omega
  have f4 : t.tsid.toNat = tsid := by rw [← hT]; exact ofNat16 _ hts
  have f4' : t.onid.toNat = onid := by rw [← hT]; exact ofNat16 _ hon
  have f5 : t.items = events.map (Event.item p) := by rw [← hT]
  have hitems : ∀ l : List Event, (∀ v ∈ l, v.Valid) → ∀ i ∈ l.map (Event.item p), Eit.ItemInRange i ∧ ∀ d ∈ i.descriptors, d.Exact := by
    intro l hl i hi
    obtain ⟨v, hv', rfl⟩ := List.mem_map.1 hi
    exact (v.item_spec p (hl v hv')).2
  have fm : ∀ l : List Event, (∀ v ∈ l, v.Valid) → (l.map (Event.item p)).flatMap Eit.entry = l.flatMap Event.bytes :=
    fun l hl => flatMap_item l _ _ _ fun v hv' => (v.item_spec p (hl v hv')).1
  obtain ⟨s', hr⟩ := receive_stream (Eit.parse p) p pid hp secs (fun x =>
      complete (Table.eit x.1 pnr version x.2.number x.2.last tsid onid x.2.segmentLast x.2.lastTableId (x.2.events.flatMap Event.bytes)))
    (by
      intro x hx
      have := (hsec x hx).2.2.2.2
      refine complete_isSection ?_ ?_
      all_goals simp only [Table.eit, List.length_append, header_length, beBytes_length]; omega)
    (fun u x => { t with tableId := UInt8.ofNat x.1, items := u.items ++ x.2.events.map (Event.item p) })
    (by
      intro u x hx psi hb hs
      obtain ⟨a1, a2, a3, a4, -⟩ := hsec x hx
      have a0 := hid x hx
      have e : t.section' x.1 x.2.number x.2.last x.2.segmentLast x.2.lastTableId (x.2.events.map (Event.item p)) =
          complete (Table.eit x.1 pnr version x.2.number x.2.last tsid onid x.2.segmentLast x.2.lastTableId (x.2.events.flatMap Event.bytes)) := by
        rw [Eit.section', f2, f3', f4, f4', fm _ (hval x hx)]
      exact Eit.parse_section p u t (by omega) x.1 x.2.number x.2.last x.2.segmentLast x.2.lastTableId (by omega) a1 a2 a3 a4
        (x.2.events.map (Event.item p)) (hitems _ (hval x hx)) psi (by rw [e]; exact hb) (by rw [e]; exact hs))
    (by
      intro u psi hx hlt h183
      refine Eit.C65_eit p u psi (.inr (by intro e; rw [e] at h183; simp at h183)) ?_
      rintro ⟨-, -, h, -⟩
      omega)
    Eit.default s cc
  have hfold : ∀ (l : List (Nat × EitSection)) (u : Eit) (hl : l ≠ []),
      l.foldl (fun u x => { t with tableId := UInt8.ofNat x.1, items := u.items ++ x.2.events.map (Event.item p) }) u =
      { t with tableId := UInt8.ofNat (l.getLast hl).1, items := u.items ++ (l.flatMap (·.2.events)).map (Event.item p) } := by
    intro l
    induction l with
    | nil => intro u h; exact (h rfl).elim
    | cons x r ih =>
      intro u _
      rw [List.foldl_cons]
      by_cases hr : r = []
      · subst hr; simp
      · rw [ih _ hr, List.getLast_cons hr]; simp
  rw [hfold _ _ hsne] at hr
  have ht' : { t with tableId := UInt8.ofNat (secs.getLast hsne).1, items := Eit.default.items ++ (secs.flatMap (·.2.events)).map (Event.item p) } = t := by
    rw [List.getLast?_eq_some_getLast hsne, Option.map_some] at hlast
    cases hlast
    rw [← f0]
    show { t with items := events.map (Event.item p) } = t
    rw [← f5]
  rw [ht'] at hr
  have J1 : ∀ v : Event, v.Valid → (v.item p).start.toNat = v.start := by
    intro v hv
    have := hv.2.1
    simp only [unixEpochMjd] at this
    exact ofNat64 v.start (by omega)
  have J2 : ∀ v : Event, v.Valid → (Eit.entry (v.item p)).length = v.bytes.length := fun v hv => by rw [(v.item_spec p hv).1]
  have hsects : t.sects = (ScheduleAny.sections (·.start) (·.bytes.length) 4078 tid events).map (mapSect (Event.item p)) := by
    rw [← sections_map (Event.item p) (·.start) (·.bytes.length) (fun i : EitItem => i.start.toNat) (fun i => (Eit.entry i).length) 4078 tid events
      Event.Valid J1 J2 hmem, ← f5, ← f1]
    rfl
  have hov : t.Overflow ↔ ScheduleAny.SomeOverflow (·.start) (·.bytes.length) 4078 tid events := by
    rw [← someOverflow_map (Event.item p) (·.start) (·.bytes.length) (fun i : EitItem => i.start.toNat) (fun i => (Eit.entry i).length) 4078 tid events
      Event.Valid J1 J2 hmem, ← f5, ← f1]
    rfl
  have hlt : t.lastTable = ScheduleAny.lastTable (·.start) tid events := by
    unfold ScheduleAny.lastTable
    rw [← firstStart_map (Event.item p) (·.start) (fun i : EitItem => i.start.toNat) events Event.Valid J1 hmem,
      ← lastStart_map (Event.item p) (·.start) (fun i : EitItem => i.start.toNat) events Event.Valid J1 hmem, ← f5, ← f1]
    rfl
  have hw := Eit.C100_wire_partial p t (by
      constructor <;> (intro e; have := congrArg UInt8.toNat e; rw [f1] at this; simp at this; omega)) (by rw [f5]; exact fun e => hne (List.map_eq_nil_iff.1 e))
    (fun i hi => (hitems _ hmem i (f5 ▸ hi)).1) pid' cc' dst hp' hc'
  have hwire : t.wireAny = out := by
    show t.wireAny = eitScheduleSections tid pnr version tsid onid events
    rw [Eit.wireAny, eitScheduleSections, hsects, withLast_map, List.map_map]
    refine List.map_congr_left fun x hx => ?_
    have hx1 := (Eit.withLast_memAny _ x hx).1
    have hx2 := sections_mem _ _ _ _ _ Event.Valid hmem x.1 hx1
    simp only [Function.comp, Eit.anySection, mapSect]
    rw [Eit.section', f2, f3', f4, f4', hlt, fm _ hx2]
  rw [hwire] at hw
  simp only [hov] at hw
  exact ⟨t, s', hr, hw⟩

/-- C96 fails for a schedule without events: nothing is sent on, although the standard wants the empty sections. -/
theorem C96_eit_empty_refuted (p : Profile) (tid pnr version tsid onid : Nat) (hn : pnr < 2 ^ 16) (hv : version < 32)
    (hts : tsid < 2 ^ 16) (hon : onid < 2 ^ 16) (hid : 0x4E ≤ tid ∧ tid ≤ 0x6F) (number last segmentLast lastTableId : Nat)
    (hnum : number < 256 ∧ last < 256 ∧ segmentLast < 256 ∧ lastTableId < 256) (pid : Nat) (hp : pid < 8192) (cc : Nat) (s : Psi)
    (pid' : UInt16) (cc' : UInt8) (dst : List UInt8) :
    ∃ t s', receive (Eit.parse p) p Eit.default s (stream pid cc [complete (Table.eit tid pnr version number last tsid onid segmentLast lastTableId [])]) =
        .ok (t, s') ∧ t.demux p pid' cc' dst = .ok (cc', dst) := by
  let t : Eit := { tableId := UInt8.ofNat tid, version := UInt8.ofNat version, pnr := UInt16.ofNat pnr, tsid := UInt16.ofNat tsid
                   onid := UInt16.ofNat onid, items := [] }
  have f2 : t.pnr.toNat = pnr := ofNat16 _ hn
  have f3 : t.version.toNat = version := ofNat8 _ (by omega)
  have f4 : t.tsid.toNat = tsid := ofNat16 _ hts
  have f4' : t.onid.toNat = onid := ofNat16 _ hon
  have e : t.section' tid number last segmentLast lastTableId [] = complete (Table.eit tid pnr version number last tsid onid segmentLast lastTableId []) := by
    rw [Eit.section', f2, f3, f4, f4', Nat.mod_eq_of_lt hv, List.flatMap_nil]
  obtain ⟨s', hr⟩ := receive_stream (Eit.parse p) p pid hp [()] (fun _ => complete (Table.eit tid pnr version number last tsid onid segmentLast lastTableId []))
    (by
      intro x hx
      refine complete_isSection ?_ ?_
      all_goals simp only [Table.eit, List.length_append, header_length, beBytes_length, List.length_nil]; omega)
    (fun u _ => { t with tableId := UInt8.ofNat tid, items := u.items ++ [] })
    (by
      intro u x hx psi hb hs
      exact Eit.parse_section p u t (by omega) tid number last segmentLast lastTableId hid hnum.1 hnum.2.1 hnum.2.2.1 hnum.2.2.2
        [] (by simp) psi (by rw [e]; exact hb) (by rw [e]; exact hs))
    (by
      intro u psi hx hlt h183
      refine Eit.C65_eit p u psi (.inr (by intro e; rw [e] at h183; simp at h183)) ?_
      rintro ⟨-, -, h, -⟩
      omega)
    Eit.default s cc
  exact ⟨_, s', hr, Eit.C58_empty p _ rfl pid' cc' dst⟩

/-! ## The hypotheses are met -/

/-- Two received sub-tables: 0x50 with one event, 0x51 with one event on the fifth day. -/
def sampleSubTables : List (Nat × EitSection) :=
  [(0x50, ⟨56, 56, 56, 0x51, [sampleRelayEvent]⟩), (0x51, ⟨0, 0, 0, 0x51, [⟨8, 1700352000, 3600, 1, 0, []⟩]⟩)]

example (p : Profile) (s : Psi) :
    ∃ t s', receive (Eit.parse p) p Eit.default s (stream 0x12 0 (sampleSubTables.map fun x =>
        complete (Table.eit x.1 7 3 x.2.number x.2.last 1 2 x.2.segmentLast x.2.lastTableId (x.2.events.flatMap Event.bytes)))) = .ok (t, s') ∧
      t.demux p 0x12 0 [] =
        if p = .debug ∧ ScheduleAny.SomeOverflow (·.start) (·.bytes.length) 4078 0x51 (sampleSubTables.flatMap (·.2.events)) then panic
        else .ok (UInt8.ofNat ((0 + streamCount (eitScheduleSections 0x51 7 3 1 2 (sampleSubTables.flatMap (·.2.events)))) % 16),
          [] ++ (stream 0x12 0 (eitScheduleSections 0x51 7 3 1 2 (sampleSubTables.flatMap (·.2.events)))).flatten) :=
  C96_eit_schedule p 0x51 7 3 1 2 (by decide) (by decide) (by decide) (by decide) sampleSubTables (by decide) rfl (by simp [sampleSubTables])
    (by decide +kernel)
    (by
      simp only [sampleSubTables, List.mem_cons, List.not_mem_nil, or_false]
      rintro x (rfl | rfl) v hv <;> rw [List.mem_singleton.1 hv]
      · exact sampleRelayEvent_valid
      · exact ⟨by decide, by decide, by decide, by decide, by decide, by simp, by decide +kernel⟩)
    0x12 (by decide) 0 s 0x12 (by decide) 0 (by decide) []
/-- No count overflows. -/
example : ¬ ScheduleAny.SomeOverflow (·.start) (·.bytes.length) 4078 0x51 (sampleSubTables.flatMap (·.2.events)) := by decide +kernel
/-- What is sent on: eight empty sections, then the first event with the table id 0x51 and the second, four days later, in the segment after it,
with the table id 0x50: see `C60_table_refuted` and `C60_gap_refuted`. -/
example : ((ScheduleAny.sections (·.start) (·.bytes.length) 4078 0x51 (sampleSubTables.flatMap (·.2.events))).map
    fun x => (x.table, x.number, x.events.map (·.id))).drop 7 = [(0x50, 56, []), (0x51, 64, [7]), (0x50, 72, [8])] := by decide +kernel

end Mpegts
