import Verif.Props.Sent

/-! # C139: no more sections than necessary -/

namespace Mpegts
open Spec Spec.Table

namespace Split

variable {α : Type} (size : α → Nat) (limit next : Nat)

/-- Every group but the last is full: the next element would not fit. -/
def Tight : Nat → List (List α) → Prop
  | _, [] => False
  | _, [_] => True
  | o, g :: h :: r => (∃ x t, h = x :: t ∧ limit < o + (g.map size).sum + size x) ∧ Tight next (h :: r)

/-- Every group fits. -/
def Fits : Nat → List (List α) → Prop
  | _, [] => True
  | o, g :: r => o + (g.map size).sum ≤ limit ∧ Fits next r

variable {size limit next}

theorem sum_append (a b : List α) : ((a ++ b).map size).sum = (a.map size).sum + (b.map size).sum := by simp

/-- Full groups that hold the end of a list are not more than any groups that fit and hold the list. -/
theorem tight_le : ∀ (H G : List (List α)) (o o' : Nat) (pre : List α), o ≤ o' → Tight size limit next o G → Fits size limit next o' H → H ≠ [] →
    H.flatten = pre ++ G.flatten → G.length ≤ H.length
  | [], _, _, _, _, _, _, _, h, _ => absurd rfl h
  | _ :: _, [], _, _, _, _, hG, _, _, _ => hG.elim
  | _ :: _, [_], _, _, _, _, _, _, _, _ => by simp
  | h :: H, g :: g2 :: G, o, o', pre, ho, hG, hH, _, e => by
    obtain ⟨⟨x, t, rfl, hx⟩, hG⟩ := hG
    obtain ⟨hf, hH⟩ := hH
    rw [List.flatten_cons, List.flatten_cons, ← List.append_assoc] at e
    by_cases hl : h.length ≤ (pre ++ g).length
    · have e1 : pre ++ g = h ++ (pre ++ g).drop h.length := by
        have := congrArg (List.take h.length) e
        rw [List.take_left, List.take_append_of_le_length hl] at this
        conv_lhs => rw [← List.take_append_drop h.length (pre ++ g), ← this]
      rw [e1, List.append_assoc] at e
      have e := List.append_cancel_left e
      have hne : H ≠ [] := by
        rintro rfl
        have := congrArg List.length e
        simp at this
      have := tight_le H ((x :: t) :: G) next next _ (Nat.le_refl _) hG hH hne e
      simp only [List.length_cons] at this ⊢
      omega
    · exfalso
      have e1 : h = (pre ++ g) ++ h.drop (pre ++ g).length := by
        have := congrArg (List.take (pre ++ g).length) e
        rw [List.take_left, List.take_append_of_le_length (by omega)] at this
        conv_lhs => rw [← List.take_append_drop (pre ++ g).length h, this]
      have e2 := e
      rw [e1, List.append_assoc] at e2
      have e2 := List.append_cancel_left e2
      cases hd : h.drop (pre ++ g).length with
      | nil => have := congrArg List.length hd; rw [List.length_drop, List.length_nil] at this; omega
      | cons y r =>
        rw [hd] at e1 e2
        simp only [List.flatten_cons, List.cons_append, List.cons.injEq] at e2
        rw [e2.1] at e1
        rw [e1] at hf
        simp only [List.map_append, List.map_cons, List.sum_append, List.sum_cons] at hf
        omega

theorem tight_of_packed {first : Nat} {items : List α} {gs : List (List α)} (P : Packed size limit first next items gs) :
    Tight size limit next first gs := by
  have key : ∀ (gs : List (List α)) (o : Nat), gs ≠ [] → (∀ g ∈ gs.tail, g ≠ []) →
      (∀ i g h x, gs[i]? = some g → gs[i + 1]? = some h → h.head? = some x → limit < (if i = 0 then o else next) + (g.map size).sum + size x) →
      Tight size limit next o gs := by
    intro gs
    induction gs with
    | nil => intro o h; exact absurd rfl h
    | cons g r ih =>
      intro o _ hp hf
      cases r with
      | nil => exact trivial
      | cons h r =>
        obtain ⟨x, t, rfl⟩ := List.exists_cons_of_ne_nil (hp h List.mem_cons_self)
        refine ⟨⟨x, t, rfl, ?_⟩, ih next (by simp) (fun k hk => hp k (List.mem_cons_of_mem _ hk)) ?_⟩
        · have := hf 0 g (x :: t) x rfl rfl rfl
          simpa using this
        · intro i a b y h1 h2 h3
          have := hf (i + 1) a b y h1 h2 h3
          simpa using this
  exact key gs first P.nonempty P.progress P.full

theorem fits_of {first : Nat} {gs : List (List α)} (h : ∀ i g, gs[i]? = some g → (if i = 0 then first else next) + (g.map size).sum ≤ limit) :
    Fits size limit next first gs := by
  have key : ∀ (gs : List (List α)) (o : Nat), (∀ i g, gs[i]? = some g → (if i = 0 then o else next) + (g.map size).sum ≤ limit) →
      Fits size limit next o gs := by
    intro gs
    induction gs with
    | nil => intro o _; exact trivial
    | cons g r ih =>
      intro o hf
      refine ⟨by simpa using hf 0 g rfl, ih next fun i a h => ?_⟩
      have := hf (i + 1) a h
      by_cases hi : i = 0 <;> simpa [hi] using this
  exact key gs first h

end Split

theorem split_least {α : Type} {size : α → Nat} {limit first next : Nat} {items : List α} {gs hs : List (List α)}
    (P : Packed size limit first next items gs) (hne : hs ≠ []) (he : hs.flatten = items)
    (hf : ∀ i g, hs[i]? = some g → (if i = 0 then first else next) + (g.map size).sum ≤ limit) : gs.length ≤ hs.length :=
  Split.tight_le hs gs first first [] (Nat.le_refl _) (Split.tight_of_packed P) (Split.fits_of hf) hne (by rw [he, P.all]; rfl)

theorem wire_at {α β : Type} (gs : List α) (f : α × Nat → β) (i : Nat) (g : α) (h : gs[i]? = some g) : f (g, i) ∈ gs.zipIdx.map f := by
  refine List.mem_map_of_mem ?_
  rw [List.mem_iff_getElem?]
  exact ⟨i, by rw [List.getElem?_zipIdx, h]; simp⟩

/-- C139 for PMTs: however the elementary streams are distributed over sections of at most 1024 bytes, in order and with the program descriptors in
the first, there are at least as many sections as are sent. -/
theorem C139_pmt (p : Profile) (t : Pmt) (hn : Pmt.ProgramInRange t) (hr : ∀ i ∈ t.items, Pmt.ItemInRange i) (pid : UInt16) (cc : UInt8)
    (dst : List UInt8) (hp : pid.toNat < 8192) (hc : cc.toNat < 16) :
    ∃ secs, Sends (t.demux p pid cc dst) pid cc dst secs ∧ (∀ sec ∈ secs, sec.length ≤ 1024) ∧
      ∀ gs : List (List PmtItem), gs ≠ [] → gs.flatten = t.items → (∀ sec ∈ t.wire gs, sec.length ≤ 1024) → secs.length ≤ gs.length := by
  obtain ⟨gs, P, h⟩ := Pmt.sends p t hn hr pid cc dst hp hc
  refine ⟨_, h, Pmt.wire_le t gs P, fun hs hne he hl => ?_⟩
  rw [show (t.wire gs).length = gs.length by simp [Pmt.wire]]
  refine split_least P hne he fun i g hg => ?_
  have := hl _ (wire_at hs _ i g hg)
  have h2 := sum_size (fun i => (Pmt.entry i).length) Pmt.entry g (fun _ _ => rfl)
  have h3 : (t.program i).length = if i = 0 then (t.descriptors.flatMap Desc.wire).length else 0 := by
    unfold Pmt.program; split <;> rfl
  rw [complete_length (by simp [Table.pmt]; omega)] at this
  simp only [Table.pmt, List.length_append, header_length, beBytes_length, sized12_length, h2, h3] at this
  split at this <;> simp_all <;> omega

/-- C139 for NITs. -/
theorem C139_nit (p : Profile) (t : Nit) (hn : Nit.NetworkInRange t) (hr : ∀ i ∈ t.items, Nit.ItemInRange i) (pid : UInt16) (cc : UInt8)
    (dst : List UInt8) (hp : pid.toNat < 8192) (hc : cc.toNat < 16) :
    ∃ secs, Sends (t.demux p pid cc dst) pid cc dst secs ∧ (∀ sec ∈ secs, sec.length ≤ 1024) ∧
      ∀ gs : List (List NitItem), gs ≠ [] → gs.flatten = t.items → (∀ sec ∈ t.wire gs, sec.length ≤ 1024) → secs.length ≤ gs.length := by
  obtain ⟨gs, P, h⟩ := Nit.sends p t hn hr pid cc dst hp hc
  refine ⟨_, h, Nit.wire_le t gs P, fun hs hne he hl => ?_⟩
  rw [show (t.wire gs).length = gs.length by simp [Nit.wire]]
  refine split_least P hne he fun i g hg => ?_
  have := hl _ (wire_at hs _ i g hg)
  have h2 := sum_size (fun i => (Nit.entry i).length) Nit.entry g (fun _ _ => rfl)
  have h3 : (t.network i).length = if i = 0 then (t.descriptors.flatMap Desc.wire).length else 0 := by
    unfold Nit.network; split <;> rfl
  rw [complete_length (by simp [Table.nit]; omega)] at this
  simp only [Table.nit, List.length_append, header_length, sized12_length, h2, h3] at this
  split at this <;> (simp_all; omega)

/-- C139 for SDTs. -/
theorem C139_sdt (p : Profile) (t : Sdt) (hr : ∀ i ∈ t.items, Sdt.ItemInRange i) (pid : UInt16) (cc : UInt8)
    (dst : List UInt8) (hp : pid.toNat < 8192) (hc : cc.toNat < 16) :
    ∃ secs, Sends (t.demux p pid cc dst) pid cc dst secs ∧ (∀ sec ∈ secs, sec.length ≤ 1024) ∧
      ∀ gs : List (List SdtItem), gs ≠ [] → gs.flatten = t.items → (∀ sec ∈ t.wire gs, sec.length ≤ 1024) → secs.length ≤ gs.length := by
  obtain ⟨gs, P, h⟩ := Sdt.sends p t hr pid cc dst hp hc
  refine ⟨_, h, Sdt.wire_le t gs P, fun hs hne he hl => ?_⟩
  rw [show (t.wire gs).length = gs.length by simp [Sdt.wire]]
  refine split_least P hne he fun i g hg => ?_
  have := hl _ (wire_at hs _ i g hg)
  have h2 := sum_size (fun i => (Sdt.entry i).length) Sdt.entry g (fun _ _ => rfl)
  rw [complete_length (by simp [Table.sdt]; omega)] at this
  simp only [Table.sdt, List.length_append, header_length, beBytes_length, h2, List.length_cons, List.length_nil] at this
  split <;> omega

/-! ## Schedules -/

open Spec.Schedule

theorem place_one {α : Type} (start size : α → Nat) (room origin base : Nat) (hs : 0 < room) : ∀ (l : List α) (s : Slot α),
    (∀ i ∈ l, start i < origin + (s.segment + 1) * segmentLength) →
    Split.Tight size (room - 1) 0 0 ((place start size room origin base s l).map (·.events)) ∧
      ((place start size room origin base s l).map (·.events)).flatten = s.events ++ l ∧
      ∃ t r, (place start size room origin base s l).map (·.events) = (s.events ++ t) :: r ∧ t ++ r.flatten = l := by
  intro l
  induction l with
  | nil => intro s _; simp [place, Split.Tight]
  | cons i r ih =>
    intro s h
    have h0 := h i List.mem_cons_self
    have hr := fun j hj => h j (List.mem_cons_of_mem _ hj)
    rw [place, if_neg (by omega)]
    split
    · rename_i hf
      obtain ⟨a1, a2, t, q, a3, a4⟩ := ih ⟨s.segment, s.index + 1, base + s.segment / 32, [i]⟩ hr
      refine ⟨?_, ?_, [], _, by rw [List.append_nil, List.map_cons], ?_⟩
      · rw [List.map_cons, a3]
        rw [a3] at a1
        refine ⟨⟨i, t, rfl, ?_⟩, a1⟩
        omega
      · rw [List.map_cons, List.flatten_cons, a2]; simp
      · rw [List.nil_append, a2]; rfl
    · obtain ⟨a1, a2, t, q, a3, a4⟩ := ih { s with events := s.events ++ [i] } hr
      refine ⟨a1, by rw [a2]; simp, i :: t, q, by rw [a3]; simp, by rw [List.cons_append, a4]⟩

theorem withLast_append {α : Type} (a b : List (Slot α)) :
    withLast (a ++ b) = (withLast (a ++ b)).take a.length ++ withLast b ∧ ((withLast (a ++ b)).take a.length).map (·.1) = a := by
  refine ⟨?_, ?_⟩
  · induction a with
    | nil => simp
    | cons x r ih => rw [List.cons_append, withLast, List.length_cons, List.take_succ_cons, List.cons_append, ← ih]
  · induction a with
    | nil => simp
    | cons x r ih => rw [List.cons_append, withLast, List.length_cons, List.take_succ_cons, List.map_cons, ih]

theorem withLast_len {α : Type} (a : List (Slot α)) : (withLast a).map (·.1) = a := by
  induction a with
  | nil => rfl
  | cons x r ih => rw [withLast, List.map_cons, ih]

theorem schedule_split (t : Eit) : ∃ em se, t.wireSchedule = em ++ se ∧ (em.length = t.firstSegment + 1 ∧ ∀ sec ∈ em, sec.length = 18) ∧
    se.length = t.eventSlots.length := by
  obtain ⟨h1, h2⟩ := withLast_append ((List.range (t.firstSegment + 1)).map (⟨·, 0, t.base, []⟩)) t.eventSlots
  refine ⟨_, (withLast t.eventSlots).map t.slotSection, by rw [Eit.wireSchedule, Eit.slots, h1, List.map_append], ?_, ?_⟩
  · refine ⟨by have := congrArg List.length h2; simpa using this, fun sec hs => ?_⟩
    obtain ⟨x, hx, rfl⟩ := List.mem_map.1 hs
    have : x.1 ∈ (List.range (t.firstSegment + 1)).map (fun k => (⟨k, 0, t.base, []⟩ : Slot EitItem)) := h2 ▸ List.mem_map_of_mem hx
    obtain ⟨k, -, e⟩ := List.mem_map.1 this
    rw [Eit.slotSection, ← e, Eit.section_length]
    rfl
  · rw [List.length_map, ← List.length_map (f := (·.1)), withLast_len]

theorem schedule_two (t : Eit) (x y : Slot EitItem) (h : t.eventSlots = [x, y]) : ∃ em, (em.length = t.firstSegment + 1 ∧ ∀ sec ∈ em, sec.length = 18) ∧ ∃ s1 s2,
    t.wireSchedule = em ++ [s1, s2] ∧ s1.length = 18 + (x.events.flatMap Eit.entry).length ∧ s2.length = 18 + (y.events.flatMap Eit.entry).length := by
  obtain ⟨h1, h2⟩ := withLast_append ((List.range (t.firstSegment + 1)).map (⟨·, 0, t.base, []⟩)) t.eventSlots
  rw [h] at h1 h2
  refine ⟨_, ?_, _, _, by rw [Eit.wireSchedule, Eit.slots, h, h1, List.map_append, withLast, withLast, withLast, List.map_cons, List.map_cons, List.map_nil], ?_, ?_⟩
  · refine ⟨by have := congrArg List.length h2; simpa using this, fun sec hs => ?_⟩
    obtain ⟨x, hx, rfl⟩ := List.mem_map.1 hs
    have : x.1 ∈ (List.range (t.firstSegment + 1)).map (fun k => (⟨k, 0, t.base, []⟩ : Slot EitItem)) := h2 ▸ List.mem_map_of_mem hx
    obtain ⟨k, -, e⟩ := List.mem_map.1 this
    rw [Eit.slotSection, ← e, Eit.section_length]
    rfl
  · rw [Eit.slotSection, Eit.section_length]
  · rw [Eit.slotSection, Eit.section_length]

/-- C139 for schedules, what holds: if no event starts after the segment next to that of the first, then however they are distributed over sections of at most 4095
bytes, in order, there are at least as many sections as are sent with events (the first `firstSegment + 1` have none, see C60). -/
theorem C139_schedule_partial (p : Profile) (t : Eit) (h : t.Schedulable)
    (hs : ∀ i ∈ t.items, i.start.toNat < t.origin + (t.firstSegment + 2) * segmentLength) (pid : UInt16) (cc : UInt8) (dst : List UInt8)
    (hp : pid.toNat < 8192) (hc : cc.toNat < 16) :
    ∃ empty secs, Sends (t.demux p pid cc dst) pid cc dst (empty ++ secs) ∧ empty.length = t.firstSegment + 1 ∧
      (∀ sec ∈ empty, sec.length = 18) ∧ ∀ gs : List (List EitItem), gs ≠ [] → gs.flatten = t.items →
        (∀ g ∈ gs, ∀ tid n l sl lt, (t.section' tid n l sl lt g).length ≤ 4095) → secs.length ≤ gs.length := by
  obtain ⟨a1, a2, -⟩ := place_one (·.start.toNat) (fun i => (Eit.entry i).length) 4078 t.origin t.base (by omega) t.items
    ⟨t.firstSegment + 1, 0, t.tableId.toNat, []⟩ hs
  have hw := Eit.sendsSchedule p t h pid cc dst hp hc
  obtain ⟨em, se, e1, e2, e3⟩ := schedule_split t
  rw [e1] at hw
  refine ⟨em, se, hw, e2.1, e2.2, fun gs hne he hl => ?_⟩
  rw [e3]
  have := Split.tight_le gs (t.eventSlots.map (·.events)) 0 0 [] (Nat.le_refl _) a1 (Split.fits_of fun i g hg => ?_) hne
    (by rw [List.nil_append, show t.eventSlots.map _ = _ from rfl, Eit.eventSlots, a2, List.nil_append, he])
  · simpa using this
  · have := hl g (List.mem_of_getElem? hg) 0 0 0 0 0
    rw [Eit.section_length] at this
    have h2 := sum_size (fun i => (Eit.entry i).length) Eit.entry g (fun _ _ => rfl)
    simp only [ite_self]
    omega

/-- C139 fails for schedules: two events that start in the same segment and fill a section of 4096 bytes are sent in two sections. -/
theorem C139_schedule_refuted (p : Profile) (t : Eit) (h : t.Schedulable) (a b : EitItem) (ht : t.items = [a, b])
    (hs : b.start.toNat < t.origin + (t.firstSegment + 2) * segmentLength) (hf : (Eit.entry a).length + (Eit.entry b).length = 4078) (pid : UInt16)
    (cc : UInt8) (dst : List UInt8) (hp : pid.toNat < 8192) (hc : cc.toNat < 16) :
    (∀ tid n l sl lt, (t.section' tid n l sl lt [a, b]).length = 4096) ∧
      ∃ empty s1 s2, Sends (t.demux p pid cc dst) pid cc dst (empty ++ [s1, s2]) ∧ empty.length = t.firstSegment + 1 ∧
        (∀ sec ∈ empty, sec.length = 18) ∧
        s1.length = 18 + (Eit.entry a).length ∧ s2.length = 18 + (Eit.entry b).length := by
  refine ⟨fun tid n l sl lt => ?_, ?_⟩
  · rw [Eit.section_length]
    simp only [List.flatMap_cons, List.flatMap_nil, List.length_append, List.length_nil]
    omega
  have hw := Eit.sendsSchedule p t h pid cc dst hp hc
  have ha : a.start.toNat < t.origin + (t.firstSegment + 2) * segmentLength := by
    have : a.start.toNat = t.firstStart := by rw [Eit.firstStart, ht]; rfl
    rw [this, Eit.firstSegment, segmentOf, segmentLength]
    have := Eit.origin_le t
    omega
  have e12 := Eit.entry_length a
  have e12' := Eit.entry_length b
  have hslots : t.eventSlots = [⟨t.firstSegment + 1, 0, t.tableId.toNat, [a]⟩, ⟨t.firstSegment + 1, 1, t.base + (t.firstSegment + 1) / 32, [b]⟩] := by
    rw [Eit.eventSlots, ht, place, if_neg (by show ¬ (t.origin + (t.firstSegment + 2) * segmentLength ≤ _); omega), if_neg (by simp; omega), place,
      if_neg (by show ¬ (t.origin + (t.firstSegment + 2) * segmentLength ≤ _); omega), if_pos (by simp; omega), place]
    rfl
  obtain ⟨em, e2, s1, s2, e1, l1, l2⟩ := schedule_two t _ _ hslots
  rw [e1] at hw
  refine ⟨em, s1, s2, hw, e2.1, e2.2, ?_, ?_⟩
  · rw [l1]; simp
  · rw [l2]; simp

/-! ## Examples -/

/-- Forty streams with 98 bytes of descriptors each. -/
def wide : Pmt := { samplePmt2 with items := List.replicate 40 ⟨0x1B, 0x100, [.raw ⟨0x7F, List.replicate 98 7⟩]⟩ }
example (p : Profile) := C139_pmt p wide (by decide +kernel) (fun i hi => by rw [List.eq_of_mem_replicate hi]; decide +kernel) 0x10 3 [] (by decide) (by decide)
example (p : Profile) := C139_nit p bigNit bigNit_inRange.network.1 (fun i hi => (bigNit_inRange.items i hi).1) 0x10 3 [] (by decide) (by decide)
example (p : Profile) := C139_sdt p bigSdt (fun i hi => (bigSdt_inRange.items i hi).1) 0x11 3 [] (by decide) (by decide)
example (p : Profile) := C139_schedule_partial p sampleLong sampleLong_ok (by decide +kernel) 0x12 3 [] (by decide) (by decide)

/-- 2556 bytes and 1522 bytes. -/
def fullEit : Eit := { sampleSchedule with items := [⟨1, 1700000000, 86399, 1, 0, List.replicate 12 (.d4D ⟨⟨0, [0x65, 0x6E, 0x67]⟩, ⟨0, [0x41]⟩,
    ⟨0, List.replicate 204 0x42⟩⟩)⟩,
  ⟨2, 1700003600, 86399, 1, 0, .d4D ⟨⟨0, [0x65, 0x6E, 0x67]⟩, ⟨0, [0x41]⟩, ⟨0, List.replicate 18 0x42⟩⟩ ::
    List.replicate 7 (.d4D ⟨⟨0, [0x65, 0x6E, 0x67]⟩, ⟨0, [0x41]⟩, ⟨0, List.replicate 204 0x42⟩⟩)⟩] }

theorem fullEit_ok : fullEit.Schedulable :=
  ⟨by decide, by decide, by decide +kernel, by decide +kernel, Eit.capacity_small _ (by decide +kernel)⟩
example (p : Profile) := C139_schedule_refuted p fullEit fullEit_ok _ _ rfl (by decide +kernel) (by decide +kernel) 0x12 3 [] (by decide) (by decide)

end Mpegts
