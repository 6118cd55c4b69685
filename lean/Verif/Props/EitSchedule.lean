import Verif.Props.Eit
import Verif.Spec.Schedule

/-! # The schedule of the event information table: C59, C60, C63, C64, C68 -/

namespace Mpegts
open Spec Spec.Table Spec.Schedule

namespace Eit

/-- The start of the first event (0 if there is none). -/
def firstStart (t : Eit) : Nat := (t.items.head?.map (·.start.toNat)).getD 0
/-- The start of the last event (0 if there is none). -/
def lastStart (t : Eit) : Nat := (t.items.getLast?.map (·.start.toNat)).getD 0
/-- The midnight from which segments are counted. -/
def origin (t : Eit) : Nat := midnight t.firstStart
/-- The id of the first sub-table: 0x50 for ids 0x50 to 0x5F, 0x60 for ids 0x60 to 0x6F. -/
def base (t : Eit) : Nat := t.tableId.toNat / 16 * 16
/-- The segment in which the first event lies. -/
def firstSegment (t : Eit) : Nat := segmentOf t.origin t.firstStart

/-- The sections with events: 4092 - 14 bytes are available in each. -/
def eventSlots (t : Eit) : List (Slot EitItem) :=
  place (·.start.toNat) (fun i => (entry i).length) 4078 t.origin t.base ⟨t.firstSegment + 1, 0, t.tableId.toNat, []⟩ t.items

/-- All sections: one without events for each segment up to that of the first event, then those with events. -/
def slots (t : Eit) : List (Slot EitItem) :=
  (List.range (t.firstSegment + 1)).map (⟨·, 0, t.base, []⟩) ++ t.eventSlots

/-- The section that is sent for a slot. -/
def slotSection (t : Eit) (x : Slot EitItem × Nat) : List UInt8 :=
  t.section' x.1.table x.1.number x.2 x.1.number (t.base + segmentOf t.origin t.lastStart / 32) x.1.events

/-- The sections of a schedule. -/
def wireSchedule (t : Eit) : List (List UInt8) := (withLast t.slots).map t.slotSection

/-- What a schedule must satisfy to be sent: a table id of a schedule, at least one event, all start within 64 days (the
capacity of a schedule) after the midnight before the first, and no segment needs more than eight sections. -/
structure Schedulable (t : Eit) : Prop where
  table : 0x50 ≤ t.tableId.toNat ∧ t.tableId.toNat ≤ 0x6F
  nonempty : t.items ≠ []
  events : ∀ i ∈ t.items, ItemInRange i
  span : ∀ i ∈ t.items, t.origin ≤ i.start.toNat ∧ i.start.toNat < t.origin + 64 * day
  capacity : ∀ s ∈ t.eventSlots, s.index < 8

theorem origin_le (t : Eit) : t.origin ≤ t.firstStart := by unfold origin midnight; omega

theorem firstSegment_lt (t : Eit) : t.firstSegment < 8 := by
  unfold firstSegment segmentOf origin midnight segmentLength day; omega

theorem base_and : ∀ b : UInt8, (b &&& 0xF0).toNat = b.toNat / 16 * 16 := by decide +kernel

theorem psiInit_draft (p : Profile) (t : Eit) : t.psiInit p = .ok { Psi.default with buffer := t.draft t.tableId.toNat 0 0 0 0 [] } := psiInit_eq p t

theorem addU8_ok {a b : UInt8} (p : Profile) (h : a.toNat + b.toNat < 256) : ∃ c, addU8 p a b = .ok c ∧ c.toNat = a.toNat + b.toNat := by
  refine ⟨a + b, by rw [addU8, if_pos h], ?_⟩
  rw [UInt8.toNat_add]; omega

/-- The section under construction for a slot. -/
def slotDraft (t : Eit) (s : Slot EitItem) : Psi := { Psi.default with buffer := t.draft s.table s.number 0 0 0 s.events }

theorem emptyLoop_eq (p : Profile) (t : Eit) (b : UInt8) (n : Nat) (x y : Nat) (acc : List Psi) (m : UInt64) (c : UInt8) (k : Nat)
    (hm : m.toNat + n * 10800 < 2 ^ 64) (hc : c.toNat = 8 * k) (hk : k + n ≤ 9) :
    ∃ m' c', emptyLoop p b n { Psi.default with buffer := t.draft x y 0 0 0 [] } acc m c =
      .ok (acc ++ (List.range' k n).map (fun j => t.slotDraft ⟨j, 0, b.toNat, []⟩), m', c') ∧
      m'.toNat = m.toNat + n * 10800 ∧ c'.toNat = 8 * (k + n) := by
  induction n generalizing x y acc m c k with
  | zero => exact ⟨m, c, by simp [emptyLoop], by omega, by omega⟩
  | succ n ih =>
    rw [emptyLoop, set_table, ok_bind, set_number, ok_bind]
    simp only []
    have hS : SEG_DURATION.toNat = 10800 := by decide
    obtain ⟨a1, a2⟩ := addU64_ok (a := m) (b := SEG_DURATION) p (by omega)
    obtain ⟨c1, c2, c3⟩ := addU8_ok (a := c) (b := 8) p (by rw [hc]; show 8 * k + 8 < 256; omega)
    have c3 : c1.toNat = 8 * k + 8 := by rw [c3, hc]; rfl
    rw [a1, ok_bind, c2, ok_bind]
    have hrec := ih b.toNat c.toNat (acc ++ [{ Psi.default with buffer := t.draft b.toNat c.toNat 0 0 0 [] }]) (m + SEG_DURATION) c1 (k + 1)
      (by omega) (by omega) (by omega)
    obtain ⟨m', c', e1, e2, e3⟩ := hrec
    refine ⟨m', c', ?_, by omega, by omega⟩
    rw [e1, List.range'_succ, List.map_cons, List.append_assoc, List.singleton_append]
    have hn : (⟨k, 0, b.toNat, []⟩ : Slot EitItem).number = c.toNat := by rw [hc, Slot.number]; simp only []; omega
    rw [slotDraft, hn]

theorem newSection_eq (p : Profile) (t : Eit) (b c : UInt8) (i : EitItem) (h : ItemInRange i) :
    newSection p t b c i = .ok { Psi.default with buffer := t.draft b.toNat c.toNat 0 0 0 [i] } := by
  rw [newSection, psiInit_draft, ok_bind]
  simp only []
  rw [set_table, ok_bind, set_number, ok_bind, add_event p t _ _ _ _ _ _ i h, ok_bind]
  rfl

theorem eventLoop_eq (p : Profile) (t : Eit) (o base : Nat) (hb : base ≤ 0x60) (ho : o < 2 ^ 62) (l : List EitItem) (hl : ∀ i ∈ l, ItemInRange i)
    (hsp : ∀ i ∈ l, i.start.toNat < o + 64 * day) (done : List Psi) (s : Slot EitItem) (hcap : ∀ x ∈ place (·.start.toNat) (fun i => (entry i).length)
      4078 o base s l, x.index < 8) (nm : UInt64) (hnm : nm.toNat = o + (s.segment + 1) * segmentLength) (c b : UInt8) (hc : c.toNat = s.number)
    (hbt : b.toNat = base + s.segment / 32) (hseg : s.segment < 512) (hidx : s.index < 8) :
    eventLoop p t l done (t.slotDraft s) nm c b = .ok (done ++ (place (·.start.toNat) (fun i => (entry i).length) 4078 o base s l).map t.slotDraft) := by
  have hS : SEG_DURATION.toNat = 10800 := by decide
  induction l generalizing done s nm c b with
  | nil => rfl
  | cons i r ih =>
    have hi := hl i List.mem_cons_self
    have hr := fun x hx => hl x (List.mem_cons_of_mem _ hx)
    have hsr := fun x hx => hsp x (List.mem_cons_of_mem _ hx)
    have hn : s.number = 8 * (s.segment % 32) + s.index := rfl
    rw [eventLoop]
    rw [place] at hcap ⊢
    by_cases h1 : o + (s.segment + 1) * segmentLength ≤ i.start.toNat
    · rw [if_pos h1] at hcap ⊢
      have hsi := hsp i List.mem_cons_self
      have hs1 : s.segment + 1 < 512 := by simp only [segmentLength, day] at h1 hsi; omega
      rw [if_pos (by rw [ge_iff_le, UInt64.le_iff_toNat_le, hnm]; exact h1)]
      obtain ⟨a1, a2⟩ := addU64_ok (a := nm) (b := SEG_DURATION) p (by rw [hnm, hS]; simp only [segmentLength]; omega)
      simp only []
      rw [a1, ok_bind]
      have hdiv : (c / 8 * 8).toNat = 8 * (s.segment % 32) := by
        rw [UInt8.toNat_mul, UInt8.toNat_div, hc, hn]
        show (8 * (s.segment % 32) + s.index) / 8 * 8 % 256 = _
        omega
      have key : ∃ c' b', (∀ k : UInt8 × UInt8 → R (List Psi), (if c / 8 * 8 = 248 then (do let t ← addU8 p b 1; let x ← pure ((0 : UInt8), t); k x)
          else (do let s ← addU8 p (c / 8 * 8) 8; let x ← pure (s, b); k x)) = k (c', b')) ∧ c'.toNat = 8 * ((s.segment + 1) % 32) ∧ b'.toNat = base + (s.segment + 1) / 32 := by
        by_cases h2 : c / 8 * 8 = 248
        · simp only [if_pos h2]
          have : 8 * (s.segment % 32) = 248 := by rw [← hdiv, h2]; rfl
          obtain ⟨b', b1, b2⟩ := addU8_ok (a := b) (b := 1) p (by rw [hbt]; show base + s.segment / 32 + 1 < 256; omega)
          refine ⟨0, b', fun k => by rw [b1]; rfl, ?_, ?_⟩
          · show 0 = _; omega
          · rw [b2, hbt]; show base + s.segment / 32 + 1 = _; omega
        · simp only [if_neg h2]
          have : 8 * (s.segment % 32) ≠ 248 := by
            intro e; apply h2; rw [← UInt8.toNat_inj, hdiv, e]; rfl
          obtain ⟨c', c1, c2⟩ := addU8_ok (a := c / 8 * 8) (b := 8) p (by rw [hdiv]; show 8 * (s.segment % 32) + 8 < 256; omega)
          refine ⟨c', b, fun k => by rw [c1]; rfl, ?_, ?_⟩
          · rw [c2, hdiv]; show 8 * (s.segment % 32) + 8 = _; omega
          · rw [hbt]; omega
      obtain ⟨c', b', k1, k2, k3⟩ := key
      rw [k1]
      rw [newSection_eq p t b' c' i hi, ok_bind, k2, k3]
      have e : ({ Psi.default with buffer := t.draft (base + (s.segment + 1) / 32) (8 * ((s.segment + 1) % 32)) 0 0 0 [i] } : Psi) =
          t.slotDraft ⟨s.segment + 1, 0, base + (s.segment + 1) / 32, [i]⟩ := rfl
      rw [e, ih hr hsr _ _ (fun x hx => hcap x (List.mem_cons_of_mem _ hx)) _ (by rw [a2, hnm, hS]; simp only [segmentLength]; omega) c' b' k2 k3 hs1
        (show 0 < 8 by decide)]
      simp
    · rw [if_neg h1] at hcap ⊢
      rw [if_neg (by rw [ge_iff_le, UInt64.le_iff_toNat_le, hnm]; exact h1)]
      have hlen : i.size + (t.slotDraft s).buffer.length ≥ EIT_SECTION_SIZE ↔ 4078 ≤ (s.events.map fun i => (entry i).length).sum + (entry i).length := by
        rw [size_entry i hi, slotDraft]
        simp only [draft_length, List.length_flatMap, EIT_SECTION_SIZE]
        omega
      by_cases h2 : 4078 ≤ (s.events.map fun i => (entry i).length).sum + (entry i).length
      · rw [if_pos h2] at hcap ⊢
        rw [if_pos (hlen.2 h2)]
        have hx : s.index + 1 < 8 := by
          have hmem : ∀ (q : List EitItem) (z : Slot EitItem), ∃ w ∈ place (·.start.toNat) (fun i => (entry i).length) 4078 o base z q,
              w.index = z.index := by
            intro q
            induction q with
            | nil => intro z; exact ⟨z, by simp [place], rfl⟩
            | cons j q ihq =>
              intro z
              rw [place]
              split
              · exact ⟨z, List.mem_cons_self, rfl⟩
              · split
                · exact ⟨z, List.mem_cons_self, rfl⟩
                · exact ihq { z with events := z.events ++ [j] }
          obtain ⟨w, hw, e⟩ := hmem r ⟨s.segment, s.index + 1, base + s.segment / 32, [i]⟩
          have := hcap w (List.mem_cons_of_mem _ hw)
          simp only [] at e
          omega
        obtain ⟨c', c1, c2⟩ := addU8_ok (a := c) (b := 1) p (by rw [hc, hn]; show 8 * (s.segment % 32) + s.index + 1 < 256; omega)
        have c2 : c'.toNat = 8 * (s.segment % 32) + (s.index + 1) := by rw [c2, hc, hn]; rfl
        rw [c1, ok_bind, newSection_eq p t b c' i hi, ok_bind, c2, hbt]
        have e : ({ Psi.default with buffer := t.draft (base + s.segment / 32) (8 * (s.segment % 32) + (s.index + 1)) 0 0 0 [i] } : Psi) =
            t.slotDraft ⟨s.segment, s.index + 1, base + s.segment / 32, [i]⟩ := rfl
        rw [e, ih hr hsr _ _ (fun x hx => hcap x (List.mem_cons_of_mem _ hx)) nm hnm c' b c2 hbt hseg hx]
        simp
      · rw [if_neg h2] at hcap ⊢
        rw [if_neg (fun h => h2 (hlen.1 h))]
        rw [slotDraft]
        simp only []
        rw [add_event p t _ _ _ _ _ _ i hi, ok_bind]
        exact ih hr hsr done { s with events := s.events ++ [i] } hcap nm hnm c b hc hbt hseg hidx

/-! ## Numbering -/

/-- One step of the numbering, from the last section to the first. -/
def mark (acc : List (Slot EitItem × Nat)) (s : Slot EitItem) : List (Slot EitItem × Nat) :=
  match acc with
  | [] => [(s, s.number)]
  | (b, l) :: _ => (if b.table = s.table then (s, l) else (s, s.number)) :: acc

theorem withLast_mark (l : List (Slot EitItem)) : l.reverse.foldl mark [] = withLast l := by
  rw [List.foldl_reverse]
  induction l with
  | nil => rfl
  | cons s r ih =>
    rw [List.foldr_cons, ih]
    cases r with
    | nil => rfl
    | cons b q =>
      simp only [withLast, mark, lastNumber]
      split <;> rfl

/-- A slot whose fields fit. -/
def SlotOk (s : Slot EitItem) : Prop := 0 < s.table ∧ s.table < 256 ∧ s.number < 256 ∧ (s.events.flatMap entry).length ≤ 4080

theorem numberLoop_eq (p : Profile) (t : Eit) (lt : UInt8) (r : List (Slot EitItem)) (hr : ∀ s ∈ r, SlotOk s) (acc : List (Slot EitItem × Nat))
    (ct ls : UInt8) (h0 : acc = [] → ct = 0) (h1 : ∀ b l q, acc = (b, l) :: q → ct.toNat = b.table ∧ ls.toNat = l) :
    ∃ out, numberLoop p lt (r.map t.slotDraft) ct ls = .ok out ∧
      out.reverse ++ acc.map (fun x => ({ Psi.default with
        buffer := t.section' x.1.table x.1.number x.2 x.1.number lt.toNat x.1.events
        size := (t.section' x.1.table x.1.number x.2 x.1.number lt.toNat x.1.events).length } : Psi)) =
      (r.foldl mark acc).map (fun x => ({ Psi.default with
        buffer := t.section' x.1.table x.1.number x.2 x.1.number lt.toNat x.1.events
        size := (t.section' x.1.table x.1.number x.2 x.1.number lt.toNat x.1.events).length } : Psi)) := by
  induction r generalizing acc ct ls with
  | nil => exact ⟨[], rfl, rfl⟩
  | cons s r ih =>
    obtain ⟨s1, s2, s3, s4⟩ := hr s List.mem_cons_self
    rw [List.map_cons, numberLoop]
    have i0 : idx (t.slotDraft s).buffer 0 = .ok (UInt8.ofNat s.table) := by rw [slotDraft]; simp only [draft_form]; rfl
    have i6 : idx (t.slotDraft s).buffer 6 = .ok (UInt8.ofNat s.number) := by rw [slotDraft]; simp only [draft_form]; rfl
    have t0 : (UInt8.ofNat s.table).toNat = s.table := by rw [UInt8.toNat_ofNat']; omega
    have t6 : (UInt8.ofNat s.number).toNat = s.number := by rw [UInt8.toNat_ofNat']; omega
    rw [i0, ok_bind, i6, ok_bind]
    have key : ∃ l, mark acc s = (s, l) :: acc ∧ l < 256 ∧ (if UInt8.ofNat s.table ≠ ct then (UInt8.ofNat s.table, UInt8.ofNat s.number) else (ct, ls)) =
        (UInt8.ofNat s.table, UInt8.ofNat l) := by
      cases acc with
      | nil =>
        rw [h0 rfl]
        refine ⟨s.number, rfl, s3, ?_⟩
        rw [if_pos]
        intro e
        have := congrArg UInt8.toNat e
        rw [t0] at this
        exact absurd this (by show s.table ≠ 0; omega)
      | cons y q =>
        obtain ⟨b, l⟩ := y
        obtain ⟨e1, e2⟩ := h1 b l q rfl
        by_cases he : b.table = s.table
        · refine ⟨l, by simp [mark, he], e2 ▸ ls.toNat_lt, ?_⟩
          have : UInt8.ofNat s.table = ct := by rw [← he, ← e1, UInt8.ofNat_toNat]
          rw [if_neg (by simpa using this), this, ← e2, UInt8.ofNat_toNat]
        · refine ⟨s.number, by simp [mark, he], s3, ?_⟩
          rw [if_pos]
          intro e
          apply he
          rw [← e1, ← e, t0]
    obtain ⟨l, k1, k2, k3⟩ := key
    have t7 : (UInt8.ofNat l).toNat = l := by rw [UInt8.toNat_ofNat']; omega
    rw [k3]
    simp only []
    rw [slotDraft]
    simp only []
    rw [set_last, ok_bind, set_segment, ok_bind, set_lastTable, ok_bind, finalize_draft p t _ _ _ _ _ _ s4, ok_bind, t6, t7]
    have hrec := ih (fun x hx => hr x (List.mem_cons_of_mem _ hx)) ((s, l) :: acc) (UInt8.ofNat s.table) (UInt8.ofNat l) (by intro h; cases h)
      (by intro b l' q e; cases e; exact ⟨t0, t7⟩)
    obtain ⟨out, o1, o2⟩ := hrec
    refine ⟨_, by rw [o1, ok_bind]; rfl, ?_⟩
    rw [List.foldl_cons, k1, ← o2]
    simp

/-! ## Placement -/

theorem place_all {α : Type} (start size : α → Nat) (room o base : Nat) (P : Slot α → Prop) (l : List α) (s : Slot α) (hs : P s)
    (hj : ∀ s i, P s → i ∈ l → o + (s.segment + 1) * segmentLength ≤ start i → P ⟨s.segment + 1, 0, base + (s.segment + 1) / 32, [i]⟩)
    (hn : ∀ s i, P s → i ∈ l → P ⟨s.segment, s.index + 1, base + s.segment / 32, [i]⟩)
    (ha : ∀ s i, P s → i ∈ l → (s.events.map size).sum + size i < room → P { s with events := s.events ++ [i] }) :
    ∀ x ∈ place start size room o base s l, P x := by
  induction l generalizing s with
  | nil => intro x hx; rw [place, List.mem_singleton] at hx; exact hx ▸ hs
  | cons i r ih =>
    have ih := fun s hs => ih s hs (fun s i h hi => hj s i h (List.mem_cons_of_mem _ hi)) (fun s i h hi => hn s i h (List.mem_cons_of_mem _ hi))
      (fun s i h hi => ha s i h (List.mem_cons_of_mem _ hi))
    intro x hx
    rw [place] at hx
    by_cases h1 : o + (s.segment + 1) * segmentLength ≤ start i
    · rw [if_pos h1] at hx
      rcases List.mem_cons.1 hx with h | h
      · exact h ▸ hs
      · exact ih _ (hj s i hs List.mem_cons_self h1) x h
    · rw [if_neg h1] at hx
      by_cases h2 : room ≤ (s.events.map size).sum + size i
      · rw [if_pos h2] at hx
        rcases List.mem_cons.1 hx with h | h
        · exact h ▸ hs
        · exact ih _ (hn s i hs List.mem_cons_self) x h
      · rw [if_neg h2] at hx
        exact ih _ (ha s i hs List.mem_cons_self (by omega)) x hx

theorem place_events {α : Type} (start size : α → Nat) (room o base : Nat) (l : List α) (s : Slot α) :
    (place start size room o base s l).flatMap (·.events) = s.events ++ l := by
  induction l generalizing s with
  | nil => simp [place]
  | cons i r ih =>
    rw [place]
    split
    · rw [List.flatMap_cons, ih]; rfl
    · split
      · rw [List.flatMap_cons, ih]; rfl
      · rw [ih]; simp

theorem segmentOf_gt (o t s : Nat) : s < segmentOf o t ↔ o + (s + 1) * segmentLength ≤ t := by
  unfold segmentOf segmentLength; omega

theorem place_segments {α : Type} (start size : α → Nat) (room o base : Nat) (l : List α) (s : Slot α) :
    (place start size room o base s l).flatMap (fun x => x.events.map fun i => (i, x.segment)) =
      (s.events.map fun i => (i, s.segment)) ++ l.zip (segments start o s.segment l) := by
  induction l generalizing s with
  | nil => simp [place, segments]
  | cons i r ih =>
    rw [place, segments]
    simp only [segmentOf_gt]
    split
    · rw [List.flatMap_cons, ih]; simp
    · split
      · rw [List.flatMap_cons, ih]; simp
      · rw [ih]; simp

theorem slots_events (t : Eit) : t.slots.flatMap (·.events) = t.items := by
  rw [slots, List.flatMap_append, eventSlots, place_events]
  simp [List.flatMap_map]

theorem eventSlots_ok (t : Eit) (h : t.Schedulable) : ∀ s ∈ t.eventSlots, s.segment < 512 ∧ 0x50 ≤ s.table ∧ s.table ≤ 0x6F ∧
    (s.events.flatMap entry).length ≤ 4078 ∧ ∀ i ∈ s.events, i ∈ t.items := by
  have hf := t.firstSegment_lt
  have hb : 0x50 ≤ t.base ∧ t.base ≤ 0x60 := by have := h.table; unfold base; omega
  refine place_all _ _ _ _ _ _ t.items _ ⟨by simp only []; omega, h.table.1, h.table.2, by simp, by simp⟩ ?_ ?_ ?_
  · rintro s i ⟨-, -, -, -, -⟩ hi hj
    have h1 := (h.span i hi).2
    have h2 := (h.events i hi).2.2.2.2.2
    have : s.segment + 1 < 512 := by simp only [segmentLength, day] at *; omega
    refine ⟨this, ?_, ?_, ?_, ?_⟩
    · simp only []; omega
    · simp only []; omega
    · simp only [List.flatMap_cons, List.flatMap_nil, List.append_nil]; omega
    · intro j hj; rw [List.mem_singleton.1 hj]; exact hi
  · rintro s i ⟨h0, -, -, -, -⟩ hi
    have h2 := (h.events i hi).2.2.2.2.2
    refine ⟨h0, ?_, ?_, ?_, ?_⟩
    · simp only []; omega
    · simp only []; omega
    · simp only [List.flatMap_cons, List.flatMap_nil, List.append_nil]; omega
    · intro j hj; rw [List.mem_singleton.1 hj]; exact hi
  · rintro s i ⟨h0, h1, h2, h3, h4⟩ hi hlt
    refine ⟨h0, h1, h2, ?_, ?_⟩
    · rw [← List.length_flatMap] at hlt
      simp only [List.flatMap_append, List.length_append, List.flatMap_cons, List.flatMap_nil, List.append_nil]; omega
    · intro j hj
      rcases List.mem_append.1 hj with hj | hj
      · exact h4 j hj
      · rw [List.mem_singleton.1 hj]; exact hi

theorem slots_ok (t : Eit) (h : t.Schedulable) : ∀ s ∈ t.slots, SlotOk s ∧ 0x50 ≤ s.table ∧ s.table ≤ 0x6F ∧ ∀ i ∈ s.events, i ∈ t.items := by
  have hf := t.firstSegment_lt
  have hb : 0x50 ≤ t.base ∧ t.base ≤ 0x60 := by have := h.table; unfold base; omega
  intro s hs
  rcases List.mem_append.1 hs with hs | hs
  · obtain ⟨k, hk, rfl⟩ := List.mem_map.1 hs
    rw [List.mem_range] at hk
    refine ⟨⟨?_, ?_, ?_, ?_⟩, ?_, ?_, ?_⟩
    · simp only []; omega
    · simp only []; omega
    · simp only [Slot.number]; omega
    · simp
    · exact hb.1
    · exact hb.2.trans (by decide)
    · simp
  · obtain ⟨h1, h2, h3, h4, h5⟩ := eventSlots_ok t h s hs
    have := h.capacity s hs
    exact ⟨⟨by omega, by omega, by rw [Slot.number]; omega, by omega⟩, h2, h3, h5⟩

theorem withLast_mem {α : Type} (l : List (Slot α)) : ∀ x ∈ withLast l, x.1 ∈ l ∧ ∃ y ∈ l, x.2 = y.number := by
  have hl : ∀ (r : List (Slot α)) (s : Slot α), ∃ y ∈ s :: r, lastNumber s r = y.number := by
    intro r
    induction r with
    | nil => intro s; exact ⟨s, List.mem_cons_self, rfl⟩
    | cons b q ih =>
      intro s
      rw [lastNumber]
      split
      · obtain ⟨y, hy, e⟩ := ih b
        exact ⟨y, List.mem_cons_of_mem _ hy, e⟩
      · exact ⟨s, List.mem_cons_self, rfl⟩
  induction l with
  | nil => intro x hx; cases hx
  | cons s r ih =>
    intro x hx
    rw [withLast] at hx
    rcases List.mem_cons.1 hx with rfl | hx
    · exact ⟨List.mem_cons_self, hl r s⟩
    · obtain ⟨h1, y, h2, h3⟩ := ih x hx
      exact ⟨List.mem_cons_of_mem _ h1, y, List.mem_cons_of_mem _ h2, h3⟩

theorem withLast_fst {α : Type} (l : List (Slot α)) : (withLast l).map (·.1) = l := by
  induction l with
  | nil => rfl
  | cons s r ih => rw [withLast, List.map_cons, ih]

theorem schedule_eq (p : Profile) (t : Eit) (h : t.Schedulable) : t.psiListAssemble p = .ok (t.wireSchedule.map fun b =>
    { Psi.default with buffer := b, size := b.length }) := by
  obtain ⟨ht, hne, hev, hsp, hcap⟩ := h
  have h : t.Schedulable := ⟨ht, hne, hev, hsp, hcap⟩
  have hfs := t.firstSegment_lt
  have hol := t.origin_le
  have hbase : 0x50 ≤ t.base ∧ t.base ≤ 0x60 := by unfold base; omega
  unfold psiListAssemble
  have hF : t.firstStart = (t.items.head hne).start.toNat := by rw [firstStart, List.head?_eq_some_head hne]; rfl
  have hL : t.lastStart = (t.items.getLast hne).start.toNat := by rw [lastStart, List.getLast?_eq_some_getLast hne]; rfl
  have hl := hsp _ (List.getLast_mem hne)
  rw [List.head?_eq_some_head hne, List.getLast?_eq_some_getLast hne]
  simp only []
  rw [if_neg (by rintro (e | e) <;> (rw [e] at ht; revert ht; decide))]
  unfold scheduleAssemble
  simp only []
  have hD : DAY_DURATION.toNat = 86400 := by decide
  have hS : SEG_DURATION.toNat = 10800 := by decide
  have hm : ((t.items.head hne).start / DAY_DURATION * DAY_DURATION).toNat = t.origin := by
    rw [UInt64.toNat_mul, UInt64.toNat_div, hD, ← hF, origin, midnight, day]
    have := (t.items.head hne).start.toNat_lt
    rw [← hF] at this
    omega
  generalize (t.items.head hne).start / DAY_DURATION * DAY_DURATION = m at hm ⊢
  obtain ⟨a1, a2⟩ := subU64_ok (a := (t.items.getLast hne).start) (b := m) p (by rw [hm]; exact hl.1)
  rw [hm, ← hL] at a2
  rw [a1, ok_bind]
  have hq : (((t.items.getLast hne).start - m) / SEG_DURATION / 32).toUInt8.toNat = segmentOf t.origin t.lastStart / 32 := by
    rw [UInt64.toNat_toUInt8, UInt64.toNat_div, UInt64.toNat_div, hS, a2, segmentOf, segmentLength]
    show (t.lastStart - t.origin) / 10800 / 32 % 256 = _
    have := hl.2
    rw [← hL] at this
    unfold day at this
    omega
  have hq16 : segmentOf t.origin t.lastStart / 32 < 16 := by
    have := hl.2
    rw [← hL] at this
    unfold day at this
    unfold segmentOf segmentLength
    omega
  have hb0 : (t.tableId &&& 0xF0).toNat = t.base := base_and t.tableId
  generalize t.tableId &&& 0xF0 = b at hb0 ⊢
  obtain ⟨lt, l1, l2⟩ := addU8_ok (a := b) (b := (((t.items.getLast hne).start - m) / SEG_DURATION / 32).toUInt8) p (by rw [hq, hb0]; omega)
  rw [hq, hb0] at l2
  rw [l1, ok_bind, psiInit_draft, ok_bind]
  obtain ⟨d1, d2⟩ := subU64_ok (a := (t.items.head hne).start) (b := m) p (by rw [hm, ← hF]; exact hol)
  rw [hm, ← hF] at d2
  have hcs : (((t.items.head hne).start - m) / (3 * 60 * 60)).toNat = t.firstSegment := by
    rw [UInt64.toNat_div, d2, firstSegment, segmentOf, segmentLength]; rfl
  rw [d1, ok_bind, hcs]
  have ho : t.origin < 2 ^ 62 := by
    have := (hev _ (List.head_mem hne)).1
    unfold TimeInRange at this
    rw [← hF] at this
    omega
  obtain ⟨m', c', e1, e2, e3⟩ := emptyLoop_eq p t b (t.firstSegment + 1) b.toNat 0 [] m 0 0 (by rw [hm]; omega) rfl (by omega)
  have e1' : emptyLoop p b (t.firstSegment + 1)
    { Psi.default with buffer := draft { tableId := b, version := t.version, pnr := t.pnr, tsid := t.tsid, onid := t.onid, items := [] } b.toNat 0 0 0 0 [] }
      [] m 0 = _ := e1
  rw [e1', ok_bind]
  simp only []
  obtain ⟨n1, n2⟩ := addU64_ok (a := m') (b := SEG_DURATION) p (by rw [e2, hm, hS]; omega)
  rw [n1, ok_bind, psiInit_draft, ok_bind]
  simp only []
  rw [set_number, ok_bind, e3]
  have es : ({ Psi.default with buffer := t.draft t.tableId.toNat (8 * (0 + (t.firstSegment + 1))) 0 0 0 [] } : Psi) =
      t.slotDraft ⟨t.firstSegment + 1, 0, t.tableId.toNat, []⟩ := by
    rw [slotDraft, Slot.number]
    simp only []
    rw [show 8 * (0 + (t.firstSegment + 1)) = 8 * ((t.firstSegment + 1) % 32) + 0 by omega]
  rw [es, eventLoop_eq p t t.origin t.base hbase.2 ho t.items hev (fun i hi => (hsp i hi).2) _ _ hcap _
    (by rw [n2, e2, hm, hS]; simp only [segmentLength]; omega) c' b (by rw [e3, Slot.number]; simp only []; omega) (by rw [hb0]; simp only []; omega)
    (by simp only []; omega) (show 0 < 8 by decide), ok_bind, ← eventSlots]
  rw [show ([] ++ (List.range' 0 (t.firstSegment + 1)).map (fun j => t.slotDraft ⟨j, 0, b.toNat, []⟩) ++ t.eventSlots.map t.slotDraft) =
    t.slots.map t.slotDraft by rw [slots, List.map_append, List.map_map, hb0, List.range_eq_range']; rfl]
  rw [← List.map_reverse]
  obtain ⟨out, o1, o2⟩ := numberLoop_eq p t lt t.slots.reverse (fun s hs => (slots_ok t h s (List.mem_reverse.1 hs)).1) [] 0 0 (fun _ => rfl) (by simp)
  rw [withLast_mark, List.map_nil, List.append_nil] at o2
  rw [o1, ok_bind, pure_eq_ok, o2, wireSchedule, List.map_map, l2]
  rfl

/-- C60, what holds: the exact sections that are sent for a schedule, in both profiles.  How they differ from what the standard
prescribes is said by `C60_first_refuted`, `C60_gap_refuted`, `C60_segment_last_refuted` and `C60_table_refuted`. -/
theorem C60_wire_partial (p : Profile) (t : Eit) (h : t.Schedulable) (pid : UInt16) (cc : UInt8) (dst : List UInt8) (hp : pid.toNat < 8192)
    (hc : cc.toNat < 16) :
    t.demux p pid cc dst = .ok (UInt8.ofNat ((cc.toNat + streamCount t.wireSchedule) % 16),
      dst ++ (stream pid.toNat cc.toNat t.wireSchedule).flatten) := by
  unfold demux
  have hne : ∀ s ∈ t.wireSchedule, s ≠ [] := by
    intro s hs e
    obtain ⟨x, hx, rfl⟩ := List.mem_map.1 hs
    have := section_length t x.1.table x.1.number x.2 x.1.number (t.base + segmentOf t.origin t.lastStart / 32) x.1.events
    rw [slotSection] at e
    rw [e, List.length_nil] at this
    omega
  have h0 : t.wireSchedule ≠ [] := by
    intro e
    have e := congrArg List.length e
    rw [wireSchedule, List.length_map, ← List.length_map (f := (·.1)), withLast_fst, slots] at e
    simp at e
  rw [schedule_eq p t h, ok_bind, if_neg (by simpa using h0), demuxLoop_eq p pid hp _ hne cc hc dst]

theorem withLast_ok (t : Eit) (h : t.Schedulable) : ∀ x ∈ withLast t.slots, SlotOk x.1 ∧ 0x50 ≤ x.1.table ∧ x.1.table ≤ 0x6F ∧
    (∀ i ∈ x.1.events, i ∈ t.items) ∧ x.2 < 256 := by
  intro x hx
  obtain ⟨h1, y, h2, h3⟩ := withLast_mem _ x hx
  obtain ⟨a, b, c, d⟩ := slots_ok t h x.1 h1
  exact ⟨a, b, c, d, by rw [h3]; exact (slots_ok t h y h2).1.2.2.1⟩

theorem lastTable_lt (t : Eit) (h : t.Schedulable) : t.base + segmentOf t.origin t.lastStart / 32 ≤ 0x6F := by
  have hl := h.span _ (List.getLast_mem h.nonempty)
  have hL : t.lastStart = (t.items.getLast h.nonempty).start.toNat := by rw [lastStart, List.getLast?_eq_some_getLast h.nonempty]; rfl
  rw [← hL] at hl
  have := h.table
  simp only [segmentOf, segmentLength, day, base] at *
  omega

/-- For C63: no section of a schedule is longer than 4096 bytes. -/
theorem wireSchedule_le (t : Eit) (h : t.Schedulable) : ∀ sec ∈ t.wireSchedule, sec.length ≤ 4096 := by
  intro sec hs
  obtain ⟨x, hx, rfl⟩ := List.mem_map.1 hs
  rw [slotSection, section_length]
  rw [← withLast_fst t.slots] at *
  have hx1 : x.1 ∈ t.slots := (withLast_mem _ x (by rw [withLast_fst] at hx; exact hx)).1
  rcases List.mem_append.1 hx1 with h1 | h1
  · obtain ⟨k, -, e⟩ := List.mem_map.1 h1
    rw [← e]; simp
  · have := (eventSlots_ok t h x.1 h1).2.2.2.1
    omega

theorem slot_read (t : Eit) (h : t.Schedulable) (x : Slot EitItem × Nat) (hx : x ∈ withLast t.slots) :
    field (t.slotSection x) 0 1 = x.1.table ∧ field (t.slotSection x) 5 1 = 0xC1 + 2 * (t.version.toNat % 32) ∧
    field (t.slotSection x) 6 1 = x.1.number ∧ field (t.slotSection x) 7 1 = x.2 ∧ field (t.slotSection x) 12 1 = x.1.number ∧
    field (t.slotSection x) 13 1 = t.base + segmentOf t.origin t.lastStart / 32 := by
  obtain ⟨⟨-, a2, a3, -⟩, -, -, -, a5⟩ := withLast_ok t h x hx
  have := lastTable_lt t h
  obtain ⟨-, s2, -, s4, s5, s6, -, -, s9, s10, -⟩ := section_read t x.1.table x.1.number x.2 x.1.number
    (t.base + segmentOf t.origin t.lastStart / 32) x.1.events a2 a3 a5 a3 (by omega)
  exact ⟨s2, s4, s5, s6, s9, s10⟩

/-- For C64: the numbers in the sections of a schedule: table id, section number (eight for each segment), the number of the last
section of the sub-table, and the id of the last sub-table. -/
theorem slot_numbers (t : Eit) (h : t.Schedulable) : ∀ x ∈ withLast t.slots,
    field (t.slotSection x) 0 1 = x.1.table ∧ field (t.slotSection x) 6 1 = 8 * (x.1.segment % 32) + x.1.index ∧ x.1.index < 8 ∧
    field (t.slotSection x) 7 1 = x.2 ∧ field (t.slotSection x) 13 1 = t.base + segmentOf t.origin t.lastStart / 32 := by
  intro x hx
  obtain ⟨s1, -, s3, s4, -, s6⟩ := slot_read t h x hx
  refine ⟨s1, s3, ?_, s4, s6⟩
  rcases List.mem_append.1 (withLast_mem _ x hx).1 with h1 | h1
  · obtain ⟨k, -, e⟩ := List.mem_map.1 h1
    rw [← e]; exact (by decide : 0 < 8)
  · exact h.capacity _ h1

/-- For C68: every section carries the version (5 bits). -/
theorem wireSchedule_version (t : Eit) (h : t.Schedulable) : ∀ sec ∈ t.wireSchedule, field sec 5 1 = 0xC1 + 2 * (t.version.toNat % 32) := by
  intro sec hs
  obtain ⟨x, hx, rfl⟩ := List.mem_map.1 hs
  exact (slot_read t h x hx).2.1

/-- C59: the packets of a schedule give back its version, its ids and all its events, once and in order, whatever the reassembler held
before.  (The table id is that of the last sub-table sent.) -/
theorem C59_delivery_partial (p : Profile) (t : Eit) (h : t.Schedulable) (ht : t.InRange) (pid : UInt16) (cc : UInt8) (dst : List UInt8) (s : Psi)
    (hp : pid.toNat < 8192) (hc : cc.toNat < 16) :
    ∃ cc' pks s' last, t.demux p pid cc dst = .ok (cc', dst ++ pks.flatten) ∧ (∀ pk ∈ pks, IsTsPacket pid.toNat pk) ∧ t.slots.getLast? = some last ∧
      receive (Eit.parse p) p Eit.default s pks = .ok ({ t with tableId := UInt8.ofNat last.table }, s') := by
  have hlt := lastTable_lt t h
  have h63 := wireSchedule_le t h
  have hrec := receive_stream (Eit.parse p) p pid.toNat hp (withLast t.slots) t.slotSection
    (by
      intro x hx
      have := h63 _ (List.mem_map_of_mem hx)
      rw [slotSection, section_length] at this
      rw [slotSection, section_eq]
      exact complete_isSection (by simp; omega) (by simp only [List.length_append, header_length, rest_length]; omega))
    (fun u x => { t with tableId := UInt8.ofNat x.1.table, items := u.items ++ x.1.events })
    (by
      intro u x hx psi hb hs
      obtain ⟨⟨-, a2, a3, -⟩, a6, a7, a4, a5⟩ := withLast_ok t h x hx
      exact parse_section p u t ht.version _ _ _ _ _ ⟨by omega, by omega⟩ a3 a5 a3 (by omega) x.1.events (fun i hi => ht.items i (a4 i hi)) psi hb hs)
    (by
      intro u psi hx hlt h183
      refine C65_eit p u psi (.inr (by intro e; rw [e] at h183; simp at h183)) ?_
      rintro ⟨-, -, h, -⟩
      omega)
    Eit.default s cc.toNat
  obtain ⟨s', hrr⟩ := hrec
  have hn : t.slots ≠ [] := by rw [slots]; simp
  refine ⟨_, _, s', t.slots.getLast hn, C60_wire_partial p t h pid cc dst hp hc, stream_packets _ _ hp _, List.getLast?_eq_some_getLast hn, ?_⟩
  rw [wireSchedule, hrr]
  refine congrArg (fun x => Except.ok (x, s')) ?_
  have hf : ∀ (l : List (Slot EitItem × Nat)) (u : Eit) (hl : l ≠ []), l.foldl (fun u x => { t with tableId := UInt8.ofNat x.1.table, items := u.items ++ x.1.events }) u =
      { t with tableId := UInt8.ofNat (l.getLast hl).1.table, items := u.items ++ (l.map (·.1)).flatMap (·.events) } := by
    intro l
    induction l with
    | nil => intro u h; exact (h rfl).elim
    | cons x r ih =>
      intro u _
      rw [List.foldl_cons]
      by_cases hr : r = []
      · subst hr; simp
      · rw [ih _ hr, List.getLast_cons hr]; simp
  have hw : withLast t.slots ≠ [] := by
    intro e
    apply hn
    rw [← withLast_fst t.slots, e]; rfl
  have hg : ((withLast t.slots).getLast hw).1 = t.slots.getLast hn := by
    have e : ((withLast t.slots).map (·.1)).getLast (by simpa using hw) = ((withLast t.slots).getLast hw).1 := by rw [List.getLast_map]
    rw [← e]
    simp only [withLast_fst]
  rw [hf _ _ hw, withLast_fst, slots_events, hg]
  rfl

/-- No segment needs more than eight sections if the events take less than 16312 bytes. -/
theorem capacity_small (t : Eit) (h : (t.items.map fun i => (entry i).length).sum < 16312) : ∀ s ∈ t.eventSlots, s.index < 8 := by
  have key : ∀ (l : List EitItem) (s : Slot EitItem) (c : Nat), 4078 * s.index + (s.events.map fun i => (entry i).length).sum ≤ 2 * c →
      ∀ x ∈ place (·.start.toNat) (fun i => (entry i).length) 4078 t.origin t.base s l,
        4078 * x.index ≤ 2 * (c + (l.map fun i => (entry i).length).sum) := by
    intro l
    induction l with
    | nil => intro s c hs x hx; rw [place, List.mem_singleton] at hx; subst hx; simp; omega
    | cons i r ih =>
      intro s c hs x hx
      rw [place] at hx
      rw [List.map_cons, List.sum_cons, ← Nat.add_assoc]
      by_cases h1 : t.origin + (s.segment + 1) * segmentLength ≤ i.start.toNat
      · rw [if_pos h1] at hx
        rcases List.mem_cons.1 hx with rfl | hx
        · omega
        · exact ih _ (c + (entry i).length) (by simp; omega) x hx
      · rw [if_neg h1] at hx
        by_cases h2 : 4078 ≤ (s.events.map fun i => (entry i).length).sum + (entry i).length
        · rw [if_pos h2] at hx
          rcases List.mem_cons.1 hx with rfl | hx
          · omega
          · exact ih _ (c + (entry i).length) (by simp; omega) x hx
        · rw [if_neg h2] at hx
          exact ih _ (c + (entry i).length) (by simp; omega) x hx
  intro s hs
  have := key t.items _ 0 (by simp) s hs
  omega

/-- C59 fails in the debug profile if the last event of the list starts before the midnight before the first: the program panics.
(The list is not documented to be ordered.) -/
theorem C59_order_refuted (t : Eit) (ht : 0x50 ≤ t.tableId.toNat ∧ t.tableId.toNat ≤ 0x6F) (hne : t.items ≠ []) (h : t.lastStart < t.origin)
    (pid : UInt16) (cc : UInt8) (dst : List UInt8) : t.demux .debug pid cc dst = panic := by
  unfold demux psiListAssemble
  have hF : t.firstStart = (t.items.head hne).start.toNat := by rw [firstStart, List.head?_eq_some_head hne]; rfl
  have hL : t.lastStart = (t.items.getLast hne).start.toNat := by rw [lastStart, List.getLast?_eq_some_getLast hne]; rfl
  rw [List.head?_eq_some_head hne, List.getLast?_eq_some_getLast hne]
  simp only []
  rw [if_neg (by rintro (e | e) <;> (rw [e] at ht; revert ht; decide))]
  unfold scheduleAssemble
  simp only []
  have hD : DAY_DURATION.toNat = 86400 := by decide
  have hm : ((t.items.head hne).start / DAY_DURATION * DAY_DURATION).toNat = t.origin := by
    rw [UInt64.toNat_mul, UInt64.toNat_div, hD, ← hF, origin, midnight, day]
    have := (t.items.head hne).start.toNat_lt
    rw [← hF] at this
    omega
  generalize (t.items.head hne).start / DAY_DURATION * DAY_DURATION = m at hm ⊢
  rw [subU64, if_neg (by rw [hm, ← hL]; omega)]
  rfl

/-! ## Where events are placed -/

/-- The events in the order in which they are sent, each with the segment in which it is sent. -/
def placed (t : Eit) : List (EitItem × Nat) := t.slots.flatMap fun x => x.events.map fun i => (i, x.segment)

theorem placed_eq (t : Eit) : t.placed = t.items.zip (segments (·.start.toNat) t.origin (t.firstSegment + 1) t.items) := by
  rw [placed, slots, List.flatMap_append, eventSlots, place_segments]
  simp [List.flatMap_map]

/-- For C60, which fails: the first event of every schedule is sent in the segment after the one in which it starts. -/
theorem placed_first (t : Eit) (i : EitItem) (h : t.items.head? = some i) : t.placed.head? = some (i, segmentOf t.origin i.start.toNat + 1) := by
  have hF : t.firstStart = i.start.toNat := by rw [firstStart, h]; rfl
  rw [placed_eq]
  cases hi : t.items with
  | nil => rw [hi] at h; cases h
  | cons j r =>
    rw [hi] at h
    cases h
    have : ¬ t.firstSegment + 1 < segmentOf t.origin i.start.toNat := by rw [firstSegment, hF]; omega
    simp only [segments, List.zip_cons_cons, List.head?_cons]
    rw [if_neg this, firstSegment, hF]

/-- For C60, what holds: if the events are in order and no segment between two of them is left out, every event is sent in its segment, except
those that start in the same segment as the first, which are sent in the next. -/
theorem placed_segment (t : Eit) (h : t.items.IsChain fun a b => segmentOf t.origin a.start.toNat ≤ segmentOf t.origin b.start.toNat ∧
    segmentOf t.origin b.start.toNat ≤ segmentOf t.origin a.start.toNat + 1) :
    ∀ x ∈ t.placed, x.2 = max (segmentOf t.origin x.1.start.toNat) (t.firstSegment + 1) := by
  have key : ∀ (l : List EitItem) (s o' : Nat), s = max o' (t.firstSegment + 1) → (∀ a, l.head? = some a → o' ≤ segmentOf t.origin a.start.toNat ∧
      segmentOf t.origin a.start.toNat ≤ o' + 1) → (l.IsChain fun a b => segmentOf t.origin a.start.toNat ≤ segmentOf t.origin b.start.toNat ∧
      segmentOf t.origin b.start.toNat ≤ segmentOf t.origin a.start.toNat + 1) →
      ∀ x ∈ l.zip (segments (·.start.toNat) t.origin s l), x.2 = max (segmentOf t.origin x.1.start.toNat) (t.firstSegment + 1) := by
    intro l
    induction l with
    | nil => intro s o' _ _ _ x hx; cases hx
    | cons i r ih =>
      intro s o' hs ha hc x hx
      have hi := ha i rfl
      have hs' : (if s < segmentOf t.origin i.start.toNat then s + 1 else s) = max (segmentOf t.origin i.start.toNat) (t.firstSegment + 1) := by
        split <;> omega
      simp only [segments, List.zip_cons_cons] at hx
      rcases List.mem_cons.1 hx with rfl | hx
      · exact hs'
      · cases r with
        | nil => cases hx
        | cons b q =>
          have h2 := List.isChain_cons_cons.1 hc
          refine ih _ (segmentOf t.origin i.start.toNat) hs' ?_ h2.2 x hx
          intro a e
          cases e
          exact h2.1
  rw [placed_eq]
  refine key t.items _ t.firstSegment (by omega) ?_ h
  intro a e
  have hF : t.firstStart = a.start.toNat := by rw [firstStart, e]; rfl
  rw [firstSegment, hF]
  omega

/-- For C60, which fails after a gap: of two events, the second of which starts three segments after the first or later, the second is sent only two
segments after that of the first. -/
theorem placed_gap (t : Eit) (x y : EitItem) (h : t.items = [x, y])
    (hg : segmentOf t.origin x.start.toNat + 3 ≤ segmentOf t.origin y.start.toNat) :
    t.placed = [(x, segmentOf t.origin x.start.toNat + 1), (y, segmentOf t.origin x.start.toNat + 2)] := by
  have hF : t.firstStart = x.start.toNat := by rw [firstStart, h]; rfl
  rw [placed_eq, h]
  have e : t.firstSegment = segmentOf t.origin x.start.toNat := by rw [firstSegment, hF]
  simp only [segments, e, List.zip_cons_cons, List.zip_nil_left]
  rw [if_neg (by omega), if_pos (by omega)]

/-- For C60, which fails for segments with several sections: the standard wants them all to carry the number of the last section of the
segment, but each carries its own number. -/
theorem slot_segment_last (t : Eit) (h : t.Schedulable) (x y : Slot EitItem × Nat) (hx : x ∈ withLast t.slots) (hy : y ∈ withLast t.slots)
    (hs : x.1.segment = y.1.segment) (hi : x.1.index ≠ y.1.index) :
    field (t.slotSection x) 12 1 ≠ field (t.slotSection y) 12 1 := by
  rw [(slot_read t h x hx).2.2.2.2.1, (slot_read t h y hy).2.2.2.2.1, Slot.number, Slot.number]
  omega

/-- For C60, which fails for an EIT whose table id is not that of the first sub-table (as that of a received schedule may be): the first section
with events is sent with that id, although it belongs to the first sub-table. -/
theorem slots_table (t : Eit) (i : EitItem) (r : List EitItem) (hi : t.items = i :: r) (hb : t.tableId.toNat % 16 ≠ 0)
    (hs : (entry i).length < 4078) :
    ∃ s ∈ t.slots, i ∈ s.events ∧ s.segment < 32 ∧ s.table = t.tableId.toNat ∧ s.table ≠ t.base := by
  have hfs := t.firstSegment_lt
  have hF : t.firstStart = i.start.toNat := by rw [firstStart, hi]; rfl
  have hlt : ¬ t.origin + (t.firstSegment + 1 + 1) * segmentLength ≤ i.start.toNat := by
    rw [firstSegment, hF, segmentOf, segmentLength]
    omega
  have key : ∀ (l : List EitItem) (s : Slot EitItem), i ∈ s.events → ∃ x ∈ place (·.start.toNat) (fun i => (entry i).length) 4078 t.origin t.base s l,
      i ∈ x.events ∧ x.segment = s.segment ∧ x.table = s.table := by
    intro l
    induction l with
    | nil => intro s hs; exact ⟨s, by simp [place], hs, rfl, rfl⟩
    | cons j q ih =>
      intro s hs
      rw [place]
      split
      · exact ⟨s, List.mem_cons_self, hs, rfl, rfl⟩
      · split
        · exact ⟨s, List.mem_cons_self, hs, rfl, rfl⟩
        · obtain ⟨x, h1, h2, h3, h4⟩ := ih { s with events := s.events ++ [j] } (List.mem_append_left _ hs)
          exact ⟨x, h1, h2, h3, h4⟩
  obtain ⟨x, h1, h2, h3, h4⟩ := key r ⟨t.firstSegment + 1, 0, t.tableId.toNat, [i]⟩ List.mem_cons_self
  refine ⟨x, List.mem_append_right _ ?_, h2, ?_, h4, ?_⟩
  · rw [eventSlots, hi, place]
    simp only [if_neg hlt, List.map_nil, List.sum_nil, Nat.zero_add, List.nil_append]
    rw [if_neg (by omega)]
    exact h1
  · rw [h3]; simp only []; omega
  · rw [h4, base]; simp only []; omega

end Eit

/-! ## Concrete cases -/

/-- A schedule with events in two segments. -/
def sampleSchedule : Eit :=
  { tableId := 0x50, version := 9, pnr := 7, tsid := 0x1234, onid := 0xABCD
    items := [⟨1, 1700000000, 3600, 4, 1, [.d4D ⟨⟨0, [0x65, 0x6E, 0x67]⟩, ⟨0, [0x41]⟩, ⟨1, [0x42, 0x43]⟩⟩]⟩, ⟨2, 1700003600, 86399, 1, 0, []⟩,
      ⟨3, 1700013600, 86399, 1, 0, []⟩, ⟨4, 1700023600, 86399, 1, 0, []⟩] }

theorem sampleSchedule_ok : sampleSchedule.Schedulable :=
  ⟨by decide, by decide, by decide +kernel, by decide +kernel, Eit.capacity_small _ (by decide +kernel)⟩
theorem sampleSchedule_inRange : sampleSchedule.InRange := ⟨by decide, by decide +kernel⟩

example : sampleSchedule.slots.map (fun s => (s.table, s.number, s.events.map (·.eventId))) =
    [(0x50, 0, []), (0x50, 8, []), (0x50, 16, []), (0x50, 24, []), (0x50, 32, []), (0x50, 40, []), (0x50, 48, []), (0x50, 56, []),
      (0x50, 64, [1, 2, 3]), (0x50, 72, [4])] := by decide +kernel
example : ∃ cc' pks s' last, sampleSchedule.demux .release 0x12 3 [] = .ok (cc', [] ++ pks.flatten) ∧ (∀ pk ∈ pks, IsTsPacket 0x12 pk) ∧
    sampleSchedule.slots.getLast? = some last ∧
    receive (Eit.parse .release) .release Eit.default Psi.default pks = .ok ({ sampleSchedule with tableId := UInt8.ofNat last.table }, s') :=
  Eit.C59_delivery_partial .release sampleSchedule sampleSchedule_ok sampleSchedule_inRange 0x12 3 [] Psi.default (by decide) (by decide)
/-- The hypothesis of `placed_segment` is met by it. -/
example : sampleSchedule.items.IsChain fun a b =>
    segmentOf sampleSchedule.origin a.start.toNat ≤ segmentOf sampleSchedule.origin b.start.toNat ∧
    segmentOf sampleSchedule.origin b.start.toNat ≤ segmentOf sampleSchedule.origin a.start.toNat + 1 := by decide +kernel
/-- Fields of the section with the first three events. -/
example : (sampleSchedule.wireSchedule[8]?).map (fun s => (s.take 14, s.length)) =
    some ([0x50, 0xF0, 64, 0, 7, 0xD3, 64, 72, 0x12, 0x34, 0xAB, 0xCD, 64, 0x50], 67) := by decide +kernel

/-- A schedule with more events in one segment than fit in one section. -/
def sampleLong : Eit := { sampleSchedule with items := List.replicate 345 ⟨2, 1700003600, 86399, 1, 0, []⟩ }

theorem sampleLong_ok : sampleLong.Schedulable :=
  ⟨by decide, by decide, by decide +kernel, by decide +kernel, Eit.capacity_small _ (by decide +kernel)⟩
example : sampleLong.eventSlots.map (fun s => (s.segment, s.index, s.number, s.events.length)) = [(8, 0, 64, 339), (8, 1, 65, 6)] := by decide +kernel
/-- The hypotheses of `slot_segment_last` are met by its two sections with events. -/
example : ∃ x ∈ withLast sampleLong.slots, ∃ y ∈ withLast sampleLong.slots, x.1.segment = y.1.segment ∧ x.1.index ≠ y.1.index := by decide +kernel

/-- A schedule with a gap: the second event starts four segments after the first, and is sent only two segments after it. -/
example : Eit.placed { sampleSchedule with items := [⟨1, 1700000000, 3600, 4, 1, []⟩, ⟨2, 1700043200, 3600, 4, 1, []⟩] } =
    [(⟨1, 1700000000, 3600, 4, 1, []⟩, 8), (⟨2, 1700043200, 3600, 4, 1, []⟩, 9)] :=
  Eit.placed_gap _ _ _ rfl (by decide +kernel)
/-- A list that is not ordered. -/
example : Eit.lastStart { sampleSchedule with items := [⟨1, 1700000000, 3600, 4, 1, []⟩, ⟨2, 1690000000, 3600, 4, 1, []⟩] } <
    Eit.origin { sampleSchedule with items := [⟨1, 1700000000, 3600, 4, 1, []⟩, ⟨2, 1690000000, 3600, 4, 1, []⟩] } := by decide +kernel

end Mpegts
