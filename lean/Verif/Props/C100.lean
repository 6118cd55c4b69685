import Verif.Props.EitSchedule
import Verif.Spec.ScheduleAny

/-! # Schedules of any length: C100 -/

namespace Mpegts
open Spec Spec.Table Spec.Schedule

namespace Eit
open Spec.ScheduleAny (Sect nextSegment nextNumber overflows)

/-- The sections with events. -/
def eventSects (t : Eit) : List (Sect EitItem) :=
  ScheduleAny.place (·.start.toNat) (fun i => (entry i).length) 4078 (t.origin + (t.firstSegment + 2) * segmentLength)
    (t.base, 8 * (t.firstSegment + 1)) ⟨t.tableId.toNat, 8 * (t.firstSegment + 1), []⟩ t.items

/-- All sections: one without events for each segment up to that of the first event, then those with events. -/
def sects (t : Eit) : List (Sect EitItem) :=
  (List.range (t.firstSegment + 1)).map (⟨t.base, 8 * ·, []⟩) ++ t.eventSects

/-- The id of the last sub-table that is announced: one sub-table for each 32 segments from the midnight to the last event of the list,
in a byte.  (Times are counted modulo 2^64, which matters only if the last event of the list starts before that midnight.) -/
def lastTable (t : Eit) : Nat := (t.base + (t.lastStart + 2 ^ 64 - t.origin) % 2 ^ 64 / segmentLength / 32) % 256

/-- The section that is sent. -/
def anySection (t : Eit) (x : Sect EitItem × Nat) : List UInt8 :=
  t.section' x.1.table x.1.number x.2 x.1.number t.lastTable x.1.events

/-- The sections of a schedule of any length. -/
def wireAny (t : Eit) : List (List UInt8) := (ScheduleAny.withLast t.sects).map t.anySection

/-- Some count of a schedule passes the end of its type: the last event of the list starts before the midnight before the first, or
the id of the last sub-table, a table id or a section number passes 255. -/
def Overflow (t : Eit) : Prop :=
  t.lastStart < t.origin ∨ 256 ≤ t.base + segmentOf t.origin t.lastStart / 32 % 256 ∨
    overflows (·.start.toNat) (fun i => (entry i).length) 4078 (t.origin + (t.firstSegment + 2) * segmentLength)
      (t.base, 8 * (t.firstSegment + 1)) [] t.items = true

instance (t : Eit) : Decidable t.Overflow := by unfold Overflow; infer_instance

/-- The section under construction. -/
def sectDraft (t : Eit) (s : Sect EitItem) : Psi := { Psi.default with buffer := t.draft s.table s.number 0 0 0 s.events }

theorem addU8_split (p : Profile) (a b : UInt8) : (p = .debug ∧ 256 ≤ a.toNat + b.toNat ∧ addU8 p a b = panic) ∨
    (¬ (p = .debug ∧ 256 ≤ a.toNat + b.toNat) ∧ ∃ c, addU8 p a b = .ok c ∧ c.toNat = (a.toNat + b.toNat) % 256) := by
  by_cases h : a.toNat + b.toNat < 256
  · refine .inr ⟨by omega, a + b, by rw [addU8, if_pos h], UInt8.toNat_add a b⟩
  · cases p with
    | debug => exact .inl ⟨rfl, by omega, by rw [addU8, if_neg h]; rfl⟩
    | release => exact .inr ⟨by simp, a + b, by rw [addU8, if_neg h]; rfl, UInt8.toNat_add a b⟩

theorem eventLoop_any (p : Profile) (t : Eit) (l : List EitItem) (hl : ∀ i ∈ l, ItemInRange i) (done : List Psi) (limit : Nat) (pos : Nat × Nat)
    (s : Sect EitItem) (nm : UInt64) (hnm : nm.toNat = limit) (c b : UInt8) (hc : c.toNat = pos.2) (hb : b.toNat = pos.1) :
    (p = .debug ∧ overflows (·.start.toNat) (fun i => (entry i).length) 4078 limit pos s.events l = true →
      eventLoop p t l done (t.sectDraft s) nm c b = panic) ∧
    (¬ (p = .debug ∧ overflows (·.start.toNat) (fun i => (entry i).length) 4078 limit pos s.events l = true) →
      eventLoop p t l done (t.sectDraft s) nm c b =
        .ok (done ++ (ScheduleAny.place (·.start.toNat) (fun i => (entry i).length) 4078 limit pos s l).map t.sectDraft)) := by
  have hS : SEG_DURATION.toNat = 10800 := by decide
  induction l generalizing done limit pos s nm c b with
  | nil => exact ⟨(by rintro ⟨-, h⟩; cases h), fun _ => rfl⟩
  | cons i r ih =>
    have hi := hl i List.mem_cons_self
    have ih := fun done limit pos s nm hnm c b hc hb => ih (fun x hx => hl x (List.mem_cons_of_mem _ hx)) done limit pos s nm hnm c b hc hb
    have hst : i.start.toNat < 2 ^ 62 := by
      have := hi.1
      unfold TimeInRange at this
      omega
    have hcl := c.toNat_lt
    rw [eventLoop, ScheduleAny.place, overflows]
    by_cases h1 : limit ≤ i.start.toNat
    · simp only [if_pos h1]
      rw [if_pos (c := i.start ≥ nm) (by rw [ge_iff_le, UInt64.le_iff_toNat_le, hnm]; exact h1)]
      obtain ⟨a1, a2⟩ := addU64_ok (a := nm) (b := SEG_DURATION) p (by rw [hnm, hS]; omega)
      rw [a1, ok_bind]
      have hdiv : (c / 8 * 8).toNat = pos.2 / 8 * 8 := by
        rw [UInt8.toNat_mul, UInt8.toNat_div, hc]
        show pos.2 / 8 * 8 % 256 = _
        omega
      have h248 : c / 8 * 8 = 248 ↔ pos.2 / 8 = 31 := by
        rw [← UInt8.toNat_inj, hdiv]
        show pos.2 / 8 * 8 = 248 ↔ _
        omega
      have a3 : (nm + SEG_DURATION).toNat = limit + segmentLength := by rw [a2, hnm, hS]; rfl
      have fin : ∀ c' b' : UInt8, (b'.toNat, c'.toNat) = nextSegment pos → newSection p t b' c' i =
          .ok (t.sectDraft ⟨(nextSegment pos).1, (nextSegment pos).2, [i]⟩) := by
        intro c' b' e
        rw [newSection_eq p t b' c' i hi, ← e]; rfl
      by_cases h2 : c / 8 * 8 = 248
      · have h31 := h248.1 h2
        simp only [if_pos h2]
        have h1' : (1 : UInt8).toNat = 1 := rfl
        rcases addU8_split p b 1 with ⟨q1, q2, q3⟩ | ⟨q1, b', q2, q3⟩
        · rw [q3]
          refine ⟨fun _ => rfl, fun h => absurd ⟨q1, ?_⟩ h⟩
          rw [hb, h1'] at q2
          have := b.toNat_lt
          simp [h31, show pos.1 = 255 by omega]
        · rw [q2]
          have e : (b'.toNat, (0 : UInt8).toNat) = nextSegment pos := by
            rw [nextSegment, if_pos h31, q3, hb]; rfl
          simp only [ok_bind, pure_eq_ok]
          rw [fin 0 b' e, ok_bind]
          have hno : decide (pos.2 / 8 = 31 ∧ pos.1 = 255) = true → p ≠ .debug := by
            intro h hp
            rw [decide_eq_true_iff] at h
            exact q1 ⟨hp, by rw [hb, h.2, h1']⟩
          obtain ⟨j1, j2⟩ := ih (done ++ [t.sectDraft s]) (limit + segmentLength) (nextSegment pos)
            ⟨(nextSegment pos).1, (nextSegment pos).2, [i]⟩ _ a3 0 b' (by rw [← e]) (by rw [← e])
          constructor
          · rintro ⟨hp, h⟩
            rw [Bool.or_eq_true] at h
            rcases h with h | h
            · exact absurd hp (hno h)
            · exact j1 ⟨hp, h⟩
          · intro h
            rw [j2 (fun hh => h ⟨hh.1, by rw [hh.2, Bool.or_true]⟩)]
            simp
      · have h31 : ¬ pos.2 / 8 = 31 := fun h => h2 (h248.2 h)
        simp only [if_neg h2]
        obtain ⟨c', c1, c2⟩ := addU8_ok (a := c / 8 * 8) (b := 8) p (by rw [hdiv]; show pos.2 / 8 * 8 + 8 < 256; omega)
        rw [c1]
        have e : (b.toNat, c'.toNat) = nextSegment pos := by
          rw [nextSegment, if_neg h31, c2, hdiv, hb]; rfl
        simp only [ok_bind, pure_eq_ok]
        rw [fin c' b e, ok_bind]
        obtain ⟨j1, j2⟩ := ih (done ++ [t.sectDraft s]) (limit + segmentLength) (nextSegment pos)
          ⟨(nextSegment pos).1, (nextSegment pos).2, [i]⟩ _ a3 c' b (by rw [← e]) (by rw [← e])
        have hd : decide (pos.2 / 8 = 31 ∧ pos.1 = 255) = false := decide_eq_false (fun h => h31 h.1)
        rw [hd, Bool.false_or]
        refine ⟨j1, fun h => ?_⟩
        rw [j2 h]
        simp
    · simp only [if_neg h1]
      rw [if_neg (c := i.start ≥ nm) (by rw [ge_iff_le, UInt64.le_iff_toNat_le, hnm]; exact h1)]
      have hlen : i.size + (t.sectDraft s).buffer.length ≥ EIT_SECTION_SIZE ↔ 4078 ≤ (s.events.map fun i => (entry i).length).sum + (entry i).length := by
        rw [size_entry i hi, sectDraft]
        simp only [draft_length, List.length_flatMap, EIT_SECTION_SIZE]
        omega
      by_cases h2 : 4078 ≤ (s.events.map fun i => (entry i).length).sum + (entry i).length
      · simp only [if_pos h2]
        rw [if_pos (hlen.2 h2)]
        have h1' : (1 : UInt8).toNat = 1 := rfl
        rcases addU8_split p c 1 with ⟨q1, q2, q3⟩ | ⟨q1, c', q2, q3⟩
        · rw [q3]
          refine ⟨fun _ => rfl, fun h => absurd ⟨q1, ?_⟩ h⟩
          rw [hc, h1'] at q2
          simp [show pos.2 = 255 by omega]
        · rw [q2, ok_bind]
          have e : (b.toNat, c'.toNat) = nextNumber pos := by rw [nextNumber, q3, hb, hc]; rfl
          rw [newSection_eq p t b c' i hi, ok_bind]
          have es : ({ Psi.default with buffer := t.draft b.toNat c'.toNat 0 0 0 [i] } : Psi) =
              t.sectDraft ⟨(nextNumber pos).1, (nextNumber pos).2, [i]⟩ := by rw [← e]; rfl
          rw [es]
          have hno : decide (pos.2 = 255) = true → p ≠ .debug := by
            intro h hp
            rw [decide_eq_true_iff] at h
            exact q1 ⟨hp, by rw [hc, h, h1']⟩
          obtain ⟨j1, j2⟩ := ih (done ++ [t.sectDraft s]) limit (nextNumber pos)
            ⟨(nextNumber pos).1, (nextNumber pos).2, [i]⟩ nm hnm c' b (by rw [← e]) (by rw [← e])
          constructor
          · rintro ⟨hp, h⟩
            rw [Bool.or_eq_true] at h
            rcases h with h | h
            · exact absurd hp (hno h)
            · exact j1 ⟨hp, h⟩
          · intro h
            rw [j2 (fun hh => h ⟨hh.1, by rw [hh.2, Bool.or_true]⟩)]
            simp
      · simp only [if_neg h2]
        rw [if_neg (fun h => h2 (hlen.1 h))]
        have e : i.assemble p (t.sectDraft s).buffer = .ok (t.draft s.table s.number 0 0 0 (s.events ++ [i])) := add_event p t _ _ _ _ _ _ i hi
        rw [e, ok_bind]
        exact ih done limit pos { s with events := s.events ++ [i] } nm hnm c b hc hb

/-! ## Numbering -/

/-- One step of the numbering, from the last section to the first. -/
def markAny (acc : List (Sect EitItem × Nat)) (s : Sect EitItem) : List (Sect EitItem × Nat) :=
  match acc with
  | [] => [(s, if s.table = 0 then 0 else s.number)]
  | (b, l) :: _ => (if b.table = s.table then (s, l) else (s, s.number)) :: acc

theorem withLast_markAny (l : List (Sect EitItem)) : l.reverse.foldl markAny [] = ScheduleAny.withLast l := by
  rw [List.foldl_reverse]
  induction l with
  | nil => rfl
  | cons s r ih =>
    rw [List.foldr_cons, ih]
    cases r with
    | nil => rfl
    | cons b q =>
      simp only [ScheduleAny.withLast, markAny, ScheduleAny.lastNumber]
      split <;> rfl

/-- A section whose fields fit. -/
def SectOk (s : Sect EitItem) : Prop := s.table < 256 ∧ s.number < 256 ∧ (s.events.flatMap entry).length ≤ 4080

theorem numberLoop_any (p : Profile) (t : Eit) (lt : UInt8) (r : List (Sect EitItem)) (hr : ∀ s ∈ r, SectOk s) (acc : List (Sect EitItem × Nat))
    (ct ls : UInt8) (h0 : acc = [] → ct = 0 ∧ ls = 0) (h1 : ∀ b l q, acc = (b, l) :: q → ct.toNat = b.table ∧ ls.toNat = l) :
    ∃ out, numberLoop p lt (r.map t.sectDraft) ct ls = .ok out ∧
      out.reverse ++ acc.map (fun x => ({ Psi.default with
        buffer := t.section' x.1.table x.1.number x.2 x.1.number lt.toNat x.1.events
        size := (t.section' x.1.table x.1.number x.2 x.1.number lt.toNat x.1.events).length } : Psi)) =
      (r.foldl markAny acc).map (fun x => ({ Psi.default with
        buffer := t.section' x.1.table x.1.number x.2 x.1.number lt.toNat x.1.events
        size := (t.section' x.1.table x.1.number x.2 x.1.number lt.toNat x.1.events).length } : Psi)) := by
  induction r generalizing acc ct ls with
  | nil => exact ⟨[], rfl, rfl⟩
  | cons s r ih =>
    obtain ⟨s2, s3, s4⟩ := hr s List.mem_cons_self
    rw [List.map_cons, numberLoop]
    have i0 : idx (t.sectDraft s).buffer 0 = .ok (UInt8.ofNat s.table) := by rw [sectDraft]; simp only [draft_form]; rfl
    have i6 : idx (t.sectDraft s).buffer 6 = .ok (UInt8.ofNat s.number) := by rw [sectDraft]; simp only [draft_form]; rfl
    have t0 : (UInt8.ofNat s.table).toNat = s.table := by rw [UInt8.toNat_ofNat']; omega
    have t6 : (UInt8.ofNat s.number).toNat = s.number := by rw [UInt8.toNat_ofNat']; omega
    rw [i0, ok_bind, i6, ok_bind]
    have key : ∃ l, markAny acc s = (s, l) :: acc ∧ l < 256 ∧ (if UInt8.ofNat s.table ≠ ct then (UInt8.ofNat s.table, UInt8.ofNat s.number) else (ct, ls)) =
        (UInt8.ofNat s.table, UInt8.ofNat l) := by
      cases acc with
      | nil =>
        obtain ⟨rfl, rfl⟩ := h0 rfl
        refine ⟨if s.table = 0 then 0 else s.number, rfl, by split <;> omega, ?_⟩
        by_cases hz : s.table = 0
        · rw [if_pos hz, hz]; rfl
        · rw [if_neg hz, if_pos]
          intro e
          have := congrArg UInt8.toNat e
          rw [t0] at this
          exact hz this
      | cons y q =>
        obtain ⟨b, l⟩ := y
        obtain ⟨e1, e2⟩ := h1 b l q rfl
        by_cases he : b.table = s.table
        · refine ⟨l, by simp [markAny, he], e2 ▸ ls.toNat_lt, ?_⟩
          have : UInt8.ofNat s.table = ct := by rw [← he, ← e1, UInt8.ofNat_toNat]
          rw [if_neg (by simpa using this), this, ← e2, UInt8.ofNat_toNat]
        · refine ⟨s.number, by simp [markAny, he], s3, ?_⟩
          rw [if_pos]
          intro e
          apply he
          rw [← e1, ← e, t0]
    obtain ⟨l, k1, k2, k3⟩ := key
    have t7 : (UInt8.ofNat l).toNat = l := by rw [UInt8.toNat_ofNat']; omega
    rw [k3]
    simp only []
    rw [sectDraft]
    simp only []
    rw [set_last, ok_bind, set_segment, ok_bind, set_lastTable, ok_bind, finalize_draft p t _ _ _ _ _ _ s4, ok_bind, t6, t7]
    have hrec := ih (fun x hx => hr x (List.mem_cons_of_mem _ hx)) ((s, l) :: acc) (UInt8.ofNat s.table) (UInt8.ofNat l) (by intro h; cases h)
      (by intro b l' q e; cases e; exact ⟨t0, t7⟩)
    obtain ⟨out, o1, o2⟩ := hrec
    refine ⟨_, by rw [o1, ok_bind]; rfl, ?_⟩
    rw [List.foldl_cons, k1, ← o2]
    simp

/-! ## Placement -/

theorem nextSegment_lt (pos : Nat × Nat) (h : pos.1 < 256 ∧ pos.2 < 256) : (nextSegment pos).1 < 256 ∧ (nextSegment pos).2 < 256 := by
  unfold nextSegment
  split <;> simp only [] <;> omega

theorem nextNumber_lt (pos : Nat × Nat) (h : pos.1 < 256 ∧ pos.2 < 256) : (nextNumber pos).1 < 256 ∧ (nextNumber pos).2 < 256 := by
  unfold nextNumber
  simp only []; omega

theorem place_ok (l : List EitItem) (hl : ∀ i ∈ l, ItemInRange i) (limit : Nat) (pos : Nat × Nat) (hp : pos.1 < 256 ∧ pos.2 < 256) (s : Sect EitItem)
    (hs : s.table < 256 ∧ s.number < 256 ∧ (s.events.flatMap entry).length ≤ 4078) (J : List EitItem) (hJ : ∀ i ∈ s.events, i ∈ J) (hlJ : ∀ i ∈ l, i ∈ J) :
    ∀ x ∈ ScheduleAny.place (·.start.toNat) (fun i => (entry i).length) 4078 limit pos s l,
      x.table < 256 ∧ x.number < 256 ∧ (x.events.flatMap entry).length ≤ 4078 ∧ ∀ i ∈ x.events, i ∈ J := by
  induction l generalizing limit pos s with
  | nil => intro x hx; rw [ScheduleAny.place, List.mem_singleton] at hx; subst hx; exact ⟨hs.1, hs.2.1, hs.2.2, hJ⟩
  | cons i r ih =>
    have hi := hl i List.mem_cons_self
    have hiJ := hlJ i List.mem_cons_self
    have h6 := hi.2.2.2.2.2
    have ih := fun limit pos hp s hs hJ => ih (fun x hx => hl x (List.mem_cons_of_mem _ hx)) limit pos hp s hs hJ (fun x hx => hlJ x (List.mem_cons_of_mem _ hx))
    have h1J : ∀ j ∈ [i], j ∈ J := by intro j hj; rw [List.mem_singleton.1 hj]; exact hiJ
    have hone : (([i] : List EitItem).flatMap entry).length ≤ 4078 := by simp; omega
    intro x hx
    rw [ScheduleAny.place] at hx
    split at hx
    · rcases List.mem_cons.1 hx with rfl | hx
      · exact ⟨hs.1, hs.2.1, hs.2.2, hJ⟩
      · have hn := nextSegment_lt pos hp
        exact ih _ _ hn _ ⟨hn.1, hn.2, hone⟩ h1J x hx
    · split at hx
      · rcases List.mem_cons.1 hx with rfl | hx
        · exact ⟨hs.1, hs.2.1, hs.2.2, hJ⟩
        · have hn := nextNumber_lt pos hp
          exact ih _ _ hn _ ⟨hn.1, hn.2, hone⟩ h1J x hx
      · next h2 =>
        refine ih limit pos hp { s with events := s.events ++ [i] } ⟨hs.1, hs.2.1, ?_⟩ ?_ x hx
        · rw [← List.length_flatMap] at h2
          simp only [List.flatMap_append, List.length_append, List.flatMap_cons, List.flatMap_nil, List.append_nil]; omega
        · intro j hj
          rcases List.mem_append.1 hj with hj | hj
          · exact hJ j hj
          · exact h1J j hj

theorem base_lt (t : Eit) : t.base < 256 := by have := t.tableId.toNat_lt; unfold base; omega

theorem sects_ok (t : Eit) (h : ∀ i ∈ t.items, ItemInRange i) : ∀ s ∈ t.sects,
    s.table < 256 ∧ s.number < 256 ∧ (s.events.flatMap entry).length ≤ 4078 ∧ ∀ i ∈ s.events, i ∈ t.items := by
  have hf := t.firstSegment_lt
  have hb := t.base_lt
  intro s hs
  rcases List.mem_append.1 hs with hs | hs
  · obtain ⟨k, hk, rfl⟩ := List.mem_map.1 hs
    rw [List.mem_range] at hk
    exact ⟨hb, by simp only []; omega, by simp, by simp⟩
  · exact place_ok t.items h _ _ ⟨hb, by simp only []; omega⟩ _ ⟨t.tableId.toNat_lt, by simp only []; omega, by simp⟩ t.items (by simp)
      (fun _ h => h) s hs

theorem withLast_memAny {α : Type} (l : List (Sect α)) : ∀ x ∈ ScheduleAny.withLast l, x.1 ∈ l ∧ (x.2 = 0 ∨ ∃ y ∈ l, x.2 = y.number) := by
  have hl : ∀ (r : List (Sect α)) (s : Sect α), ScheduleAny.lastNumber s r = 0 ∨ ∃ y ∈ s :: r, ScheduleAny.lastNumber s r = y.number := by
    intro r
    induction r with
    | nil =>
      intro s
      rw [ScheduleAny.lastNumber]
      split
      · exact .inl rfl
      · exact .inr ⟨s, List.mem_cons_self, rfl⟩
    | cons b q ih =>
      intro s
      rw [ScheduleAny.lastNumber]
      split
      · rcases ih b with h | ⟨y, hy, e⟩
        · exact .inl h
        · exact .inr ⟨y, List.mem_cons_of_mem _ hy, e⟩
      · exact .inr ⟨s, List.mem_cons_self, rfl⟩
  induction l with
  | nil => intro x hx; cases hx
  | cons s r ih =>
    intro x hx
    rw [ScheduleAny.withLast] at hx
    rcases List.mem_cons.1 hx with rfl | hx
    · exact ⟨List.mem_cons_self, hl r s⟩
    · obtain ⟨h1, h2⟩ := ih x hx
      refine ⟨List.mem_cons_of_mem _ h1, ?_⟩
      rcases h2 with h2 | ⟨y, h2, h3⟩
      · exact .inl h2
      · exact .inr ⟨y, List.mem_cons_of_mem _ h2, h3⟩

theorem withLast_fstAny {α : Type} (l : List (Sect α)) : (ScheduleAny.withLast l).map (·.1) = l := by
  induction l with
  | nil => rfl
  | cons s r ih => rw [ScheduleAny.withLast, List.map_cons, ih]

theorem subU64_split (p : Profile) (a b : UInt64) : (p = .debug ∧ a.toNat < b.toNat ∧ subU64 p a b = panic) ∨
    (¬ (p = .debug ∧ a.toNat < b.toNat) ∧ subU64 p a b = .ok (a - b)) := by
  by_cases h : b.toNat ≤ a.toNat
  · exact .inr ⟨by omega, by rw [subU64, if_pos h]⟩
  · cases p with
    | debug => exact .inl ⟨rfl, by omega, by rw [subU64, if_neg h]; rfl⟩
    | release => exact .inr ⟨by simp, by rw [subU64, if_neg h]; rfl⟩

theorem assemble_any (p : Profile) (t : Eit) (hid : t.tableId ≠ 0x4E ∧ t.tableId ≠ 0x4F) (hne : t.items ≠ []) (hev : ∀ i ∈ t.items, ItemInRange i) :
    (p = .debug ∧ t.Overflow → t.psiListAssemble p = panic) ∧
    (¬ (p = .debug ∧ t.Overflow) → t.psiListAssemble p = .ok (t.wireAny.map fun b => { Psi.default with buffer := b, size := b.length })) := by
  have hfs := t.firstSegment_lt
  have hol := t.origin_le
  have hbase := t.base_lt
  unfold psiListAssemble
  have hF : t.firstStart = (t.items.head hne).start.toNat := by rw [firstStart, List.head?_eq_some_head hne]; rfl
  have hL : t.lastStart = (t.items.getLast hne).start.toNat := by rw [lastStart, List.getLast?_eq_some_getLast hne]; rfl
  rw [List.head?_eq_some_head hne, List.getLast?_eq_some_getLast hne]
  simp only []
  rw [if_neg (by rintro (e | e); exacts [hid.1 e, hid.2 e])]
  unfold scheduleAssemble
  simp only []
  have hD : DAY_DURATION.toNat = 86400 := by decide
  have hS : SEG_DURATION.toNat = 10800 := by decide
  have hm : ((t.items.head hne).start / DAY_DURATION * DAY_DURATION).toNat = t.origin := by
    rw [UInt64.toNat_mul, UInt64.toNat_div, hD, ← hF, origin, midnight, day]
    have := (t.items.head hne).start.toNat_lt
    rw [← hF] at this
    omega
  generalize (t.items.head hne).start / DAY_DURATION * DAY_DURATION = m at hm ⊢
  have ho : t.origin < 2 ^ 62 := by
    have := (hev _ (List.head_mem hne)).1
    unfold TimeInRange at this
    rw [← hF] at this
    omega
  have hl64 := (t.items.getLast hne).start.toNat_lt
  rw [← hL] at hl64
  rcases subU64_split p (t.items.getLast hne).start m with ⟨a0, a1, a2⟩ | ⟨a0, a1⟩
  · rw [a2]
    rw [← hL, hm] at a1
    exact ⟨fun _ => rfl, fun h => absurd ⟨a0, .inl a1⟩ h⟩
  rw [← hL, hm] at a0
  rw [a1, ok_bind]
  have hq : (((t.items.getLast hne).start - m) / SEG_DURATION / 32).toUInt8.toNat =
      (t.lastStart + 2 ^ 64 - t.origin) % 2 ^ 64 / segmentLength / 32 % 256 := by
    rw [UInt64.toNat_toUInt8, UInt64.toNat_div, UInt64.toNat_div, hS, UInt64.toNat_sub, ← hL, hm, segmentLength]
    show (2 ^ 64 - t.origin + t.lastStart) % 2 ^ 64 / 10800 / 32 % 2 ^ 8 = _
    rw [show 2 ^ 64 - t.origin + t.lastStart = t.lastStart + 2 ^ 64 - t.origin by omega]
  have hb0 : (t.tableId &&& 0xF0).toNat = t.base := base_and t.tableId
  generalize t.tableId &&& 0xF0 = b at hb0 ⊢
  have hd : p = .debug → t.lastStart + 2 ^ 64 - t.origin = (t.lastStart - t.origin) + 2 ^ 64 := by
    intro h
    have : ¬ t.lastStart < t.origin := fun h' => a0 ⟨h, h'⟩
    omega
  rcases addU8_split p b (((t.items.getLast hne).start - m) / SEG_DURATION / 32).toUInt8 with ⟨l0, l1, l2⟩ | ⟨l0, lt, l1, l2⟩
  · rw [l2]
    refine ⟨fun _ => rfl, fun h => absurd ⟨l0, .inr (.inl ?_)⟩ h⟩
    rw [hq, hb0, hd l0, Nat.add_mod_right, Nat.mod_eq_of_lt (a := t.lastStart - t.origin) (by omega)] at l1
    exact l1
  rw [hq, hb0] at l0 l2
  have hlt : lt.toNat = t.lastTable := by rw [l2, lastTable, Nat.add_mod_mod]
  rw [l1, ok_bind, psiInit_draft, ok_bind]
  obtain ⟨d1, d2⟩ := subU64_ok (a := (t.items.head hne).start) (b := m) p (by rw [hm, ← hF]; exact hol)
  rw [hm, ← hF] at d2
  have hcs : (((t.items.head hne).start - m) / (3 * 60 * 60)).toNat = t.firstSegment := by
    rw [UInt64.toNat_div, d2, firstSegment, segmentOf, segmentLength]; rfl
  rw [d1, ok_bind, hcs]
  obtain ⟨m', c', e1, e2, e3⟩ := emptyLoop_eq p t b (t.firstSegment + 1) b.toNat 0 [] m 0 0 (by rw [hm]; omega) rfl (by omega)
  have e1' : emptyLoop p b (t.firstSegment + 1)
    { Psi.default with buffer := draft { tableId := b, version := t.version, pnr := t.pnr, tsid := t.tsid, onid := t.onid, items := [] } b.toNat 0 0 0 0 [] }
      [] m 0 = _ := e1
  rw [e1', ok_bind]
  simp only []
  obtain ⟨n1, n2⟩ := addU64_ok (a := m') (b := SEG_DURATION) p (by rw [e2, hm, hS]; omega)
  rw [n1, ok_bind, psiInit_draft, ok_bind]
  simp only []
  rw [set_number, ok_bind, e3]
  have es : ({ Psi.default with buffer := t.draft t.tableId.toNat (8 * (0 + (t.firstSegment + 1))) 0 0 0 [] } : Psi) =
      t.sectDraft ⟨t.tableId.toNat, 8 * (t.firstSegment + 1), []⟩ := by
    rw [sectDraft]
    simp only [Nat.zero_add]
  rw [es]
  obtain ⟨j1, j2⟩ := eventLoop_any p t t.items hev ([] ++ (List.range' 0 (t.firstSegment + 1)).map (fun j => t.slotDraft ⟨j, 0, b.toNat, []⟩))
    (t.origin + (t.firstSegment + 2) * segmentLength) (t.base, 8 * (t.firstSegment + 1)) ⟨t.tableId.toNat, 8 * (t.firstSegment + 1), []⟩ (m' + SEG_DURATION)
    (by rw [n2, e2, hm, hS]; simp only [segmentLength]; omega) c' b (by rw [e3]; simp only []; omega) hb0
  constructor
  · rintro ⟨hp, ho⟩
    rcases ho with h | h | h
    · exact absurd ⟨hp, h⟩ a0
    · refine absurd ⟨hp, ?_⟩ l0
      rw [hd hp, Nat.add_mod_right, Nat.mod_eq_of_lt (a := t.lastStart - t.origin) (by omega)]
      exact h
    · rw [j1 ⟨hp, h⟩]; rfl
  · intro hno
    rw [j2 (fun h => hno ⟨h.1, .inr (.inr h.2)⟩), ok_bind, ← eventSects]
    rw [show ([] ++ (List.range' 0 (t.firstSegment + 1)).map (fun j => t.slotDraft ⟨j, 0, b.toNat, []⟩) ++ t.eventSects.map t.sectDraft) =
      t.sects.map t.sectDraft by
        rw [sects, List.map_append, List.map_map, hb0, List.range_eq_range', List.nil_append]
        refine congrArg (· ++ t.eventSects.map t.sectDraft) (List.map_congr_left fun j hj => ?_)
        rw [List.mem_range'_1] at hj
        rw [slotDraft, Slot.number, Function.comp_apply, sectDraft]
        simp only []
        rw [show 8 * (j % 32) + 0 = 8 * j by omega]]
    rw [← List.map_reverse]
    obtain ⟨out, o1, o2⟩ := numberLoop_any p t lt t.sects.reverse
      (fun s hs => by
        obtain ⟨k1, k2, k3, -⟩ := sects_ok t hev s (List.mem_reverse.1 hs)
        exact ⟨k1, k2, by omega⟩) [] 0 0 (fun _ => ⟨rfl, rfl⟩) (by simp)
    rw [withLast_markAny, List.map_nil, List.append_nil] at o2
    rw [o1, ok_bind, pure_eq_ok, o2, wireAny, List.map_map, hlt]
    rfl

/-! ## What is sent -/

theorem sects_ne (t : Eit) : t.sects ≠ [] := by rw [sects, List.range_succ]; simp

theorem wireAny_ne (t : Eit) : t.wireAny ≠ [] := by
  intro e
  rw [wireAny, List.map_eq_nil_iff] at e
  apply t.sects_ne
  rw [← withLast_fstAny t.sects, e]; rfl

/-- C100, on the wire: whatever the number of events and the time they span, the packets are those of exactly these sections, and every
count is taken modulo 256; only a program compiled with overflow checks panics instead, if and only if a count overflows. -/
theorem C100_wire_partial (p : Profile) (t : Eit) (hid : t.tableId ≠ 0x4E ∧ t.tableId ≠ 0x4F) (hne : t.items ≠ []) (hev : ∀ i ∈ t.items, ItemInRange i)
    (pid : UInt16) (cc : UInt8) (dst : List UInt8) (hp : pid.toNat < 8192) (hc : cc.toNat < 16) :
    t.demux p pid cc dst = if p = .debug ∧ t.Overflow then panic else
      .ok (UInt8.ofNat ((cc.toNat + streamCount t.wireAny) % 16), dst ++ (stream pid.toNat cc.toNat t.wireAny).flatten) := by
  obtain ⟨h1, h2⟩ := assemble_any p t hid hne hev
  unfold demux
  split
  · next h => rw [h1 h]; rfl
  · next h =>
    have hs : ∀ s ∈ t.wireAny, s ≠ [] := by
      intro s hs e
      obtain ⟨x, hx, rfl⟩ := List.mem_map.1 hs
      have := section_length t x.1.table x.1.number x.2 x.1.number t.lastTable x.1.events
      rw [anySection] at e
      rw [e, List.length_nil] at this
      omega
    rw [h2 h, ok_bind, if_neg (by rw [List.isEmpty_iff, List.map_eq_nil_iff]; exact t.wireAny_ne)]
    exact demuxLoop_eq p pid hp t.wireAny hs cc hc dst

/-- For C100: no event is left out and the order is kept: the sections contain the events of the list. -/
theorem sects_events (t : Eit) : t.sects.flatMap (·.events) = t.items := by
  have key : ∀ (l : List EitItem) (limit : Nat) (pos : Nat × Nat) (s : Sect EitItem),
      (ScheduleAny.place (·.start.toNat) (fun i => (entry i).length) 4078 limit pos s l).flatMap (·.events) = s.events ++ l := by
    intro l
    induction l with
    | nil => intro limit pos s; simp [ScheduleAny.place]
    | cons i r ih =>
      intro limit pos s
      rw [ScheduleAny.place]
      split
      · rw [List.flatMap_cons, ih]; simp
      · split
        · rw [List.flatMap_cons, ih]; simp
        · rw [ih]; simp
  rw [sects, List.flatMap_append, eventSects, key]
  simp [List.flatMap_map]

/-- For C100: a section never exceeds the 4096 bytes of the standard. -/
theorem wireAny_le (t : Eit) (hev : ∀ i ∈ t.items, ItemInRange i) : ∀ s ∈ t.wireAny, s.length ≤ 4096 := by
  intro s hs
  obtain ⟨x, hx, rfl⟩ := List.mem_map.1 hs
  have := (sects_ok t hev x.1 (withLast_memAny _ x hx).1).2.2.1
  rw [anySection, section_length]
  omega

/-! ## What is received -/

/-- The table id of a section is one of those of an EIT. -/
def Sect.IsEit (s : Sect EitItem) : Prop := 0x4E ≤ s.table ∧ s.table ≤ 0x6F

instance (s : Sect EitItem) : Decidable (Sect.IsEit s) := by unfold Sect.IsEit; infer_instance

/-- What is read from a list of sections: the events of those with an EIT's table id. -/
def readSects (t : Eit) (l : List (Sect EitItem)) : Eit :=
  match (l.filter (Sect.IsEit ·)).getLast? with
  | none => Eit.default
  | some last => { t with tableId := UInt8.ofNat last.table, items := (l.filter (Sect.IsEit ·)).flatMap (·.events) }

/-- C100, end to end: a receiver obtains exactly the events of the sections whose table id is that of an EIT. -/
theorem C100_delivery_partial (p : Profile) (t : Eit) (hid : t.tableId ≠ 0x4E ∧ t.tableId ≠ 0x4F) (hne : t.items ≠ []) (ht : t.InRange)
    (hno : ¬ (p = .debug ∧ t.Overflow)) (pid : UInt16) (cc : UInt8) (dst : List UInt8) (s : Psi) (hp : pid.toNat < 8192) (hc : cc.toNat < 16) :
    ∃ cc' pks s', t.demux p pid cc dst = .ok (cc', dst ++ pks.flatten) ∧ (∀ pk ∈ pks, IsTsPacket pid.toNat pk) ∧
      receive (Eit.parse p) p Eit.default s pks = .ok (t.readSects t.sects, s') := by
  have hev : ∀ i ∈ t.items, ItemInRange i := fun i hi => (ht.items i hi).1
  have hlast : ∀ x ∈ ScheduleAny.withLast t.sects, x.2 < 256 := by
    intro x hx
    rcases (withLast_memAny _ x hx).2 with h | ⟨y, hy, h⟩
    · omega
    · have := (sects_ok t hev y hy).2.1
      omega
  have hlt : t.lastTable < 256 := Nat.mod_lt _ (by omega)
  have hrec := receive_stream (Eit.parse p) p pid.toNat hp (ScheduleAny.withLast t.sects) t.anySection
    (by
      intro x hx
      have := wireAny_le t hev _ (List.mem_map_of_mem hx)
      rw [anySection, section_length] at this
      rw [anySection, section_eq]
      exact complete_isSection (by simp; omega) (by simp only [List.length_append, header_length, rest_length]; omega))
    (fun u x => if Sect.IsEit x.1 then { t with tableId := UInt8.ofNat x.1.table, items := u.items ++ x.1.events } else u)
    (by
      intro u x hx psi hb hs
      obtain ⟨a1, a2, a3, a4⟩ := sects_ok t hev x.1 (withLast_memAny _ x hx).1
      have a5 := hlast x hx
      by_cases he : Sect.IsEit x.1
      · simp only [if_pos he]
        exact parse_section p u t ht.version _ _ _ _ _ he a2 a5 a2 hlt x.1.events (fun i hi => ht.items i (a4 i hi)) psi hb hs
      · simp only [if_neg he]
        obtain ⟨s1, -⟩ := section_read t x.1.table x.1.number x.2 x.1.number t.lastTable x.1.events a1 a2 a5 a2 hlt
        refine C65_eit p u psi (.inr ?_) ?_
        · intro e
          rw [anySection] at hb
          rw [← hb, e] at s1
          cases s1
        · rintro ⟨⟨b, b1, b2⟩, -⟩
          rw [hb, anySection, s1] at b1
          cases b1
          rw [UInt8.toNat_ofNat', show x.1.table % 2 ^ 8 = x.1.table by omega] at b2
          exact he b2)
    (by
      intro u psi hx hlt h183
      refine C65_eit p u psi (.inr (by intro e; rw [e] at h183; simp at h183)) ?_
      rintro ⟨-, -, h, -⟩
      omega)
    Eit.default s cc.toNat
  obtain ⟨s', hrr⟩ := hrec
  have hw := C100_wire_partial p t hid hne hev pid cc dst hp hc
  rw [if_neg hno] at hw
  refine ⟨_, _, s', hw, stream_packets _ _ hp _, ?_⟩
  rw [wireAny, hrr]
  refine congrArg (fun x => Except.ok (x, s')) ?_
  have hf : ∀ (l : List (Sect EitItem × Nat)) (u : Eit),
      l.foldl (fun u x => if Sect.IsEit x.1 then { t with tableId := UInt8.ofNat x.1.table, items := u.items ++ x.1.events } else u) u =
      match ((l.map (·.1)).filter (Sect.IsEit ·)).getLast? with
      | none => u
      | some last => { t with tableId := UInt8.ofNat last.table, items := u.items ++ ((l.map (·.1)).filter (Sect.IsEit ·)).flatMap (·.events) } := by
    intro l
    induction l with
    | nil => intro u; rfl
    | cons x r ih =>
      intro u
      rw [List.foldl_cons, ih, List.map_cons]
      by_cases he : Sect.IsEit x.1
      · rw [if_pos he, List.filter_cons_of_pos (by simpa using he), List.getLast?_cons]
        cases hg : ((r.map (·.1)).filter (Sect.IsEit ·)).getLast? with
        | none =>
          rw [List.getLast?_eq_none_iff] at hg
          rw [hg]; simp
        | some y => simp
      · rw [if_neg he, List.filter_cons_of_neg (by simpa using he)]
  rw [hf, withLast_fstAny, readSects]
  have h0 : Eit.default.items = [] := rfl
  rw [h0]
  rfl

/-- C100, what holds: if every table id that is used is that of an EIT, the receiver obtains all the events. -/
theorem C100_complete_partial (p : Profile) (t : Eit) (hid : t.tableId ≠ 0x4E ∧ t.tableId ≠ 0x4F) (hne : t.items ≠ []) (ht : t.InRange)
    (hno : ¬ (p = .debug ∧ t.Overflow)) (hall : ∀ s ∈ t.sects, 0x4E ≤ s.table ∧ s.table ≤ 0x6F) (pid : UInt16) (cc : UInt8) (dst : List UInt8) (s : Psi)
    (hp : pid.toNat < 8192) (hc : cc.toNat < 16) :
    ∃ cc' pks s' id, t.demux p pid cc dst = .ok (cc', dst ++ pks.flatten) ∧
      receive (Eit.parse p) p Eit.default s pks = .ok ({ t with tableId := id }, s') := by
  obtain ⟨cc', pks, s', h1, -, h3⟩ := C100_delivery_partial p t hid hne ht hno pid cc dst s hp hc
  refine ⟨cc', pks, s', UInt8.ofNat (t.sects.getLast t.sects_ne).table, h1, ?_⟩
  rw [h3]
  refine congrArg (fun x => Except.ok (x, s')) ?_
  rw [readSects, List.filter_eq_self.2 (fun x hx => decide_eq_true (p := Sect.IsEit x) (hall x hx)), List.getLast?_eq_some_getLast t.sects_ne]
  simp only [sects_events]

/-! ## Table ids and numbers -/

/-- For C100, what holds: as long as no count overflows, no two sections have the same table id and number, and they are sent in the order
of table id and number.  (The table id of the EIT must be that of the first sub-table, as `slots_table` shows.) -/
theorem sects_unique (t : Eit) (hb : t.tableId.toNat % 16 = 0) (h : ¬ t.Overflow) :
    t.sects.Pairwise fun a b => 256 * a.table + a.number < 256 * b.table + b.number := by
  have hfs := t.firstSegment_lt
  have hbase := t.base_lt
  have h3 : overflows (·.start.toNat) (fun i => (entry i).length) 4078 (t.origin + (t.firstSegment + 2) * segmentLength)
      (t.base, 8 * (t.firstSegment + 1)) [] t.items = false := by
    rw [← Bool.not_eq_true]
    exact fun e => h (.inr (.inr e))
  have key : ∀ (l : List EitItem) (limit : Nat) (pos : Nat × Nat) (s : Sect EitItem), pos.1 < 256 → pos.2 < 256 → s.table = pos.1 → s.number = pos.2 →
      overflows (·.start.toNat) (fun i => (entry i).length) 4078 limit pos s.events l = false →
      (∀ x ∈ ScheduleAny.place (·.start.toNat) (fun i => (entry i).length) 4078 limit pos s l, 256 * pos.1 + pos.2 ≤ 256 * x.table + x.number) ∧
      (ScheduleAny.place (·.start.toNat) (fun i => (entry i).length) 4078 limit pos s l).Pairwise
        fun a b => 256 * a.table + a.number < 256 * b.table + b.number := by
    intro l
    induction l with
    | nil =>
      intro limit pos s _ _ h1 h2 _
      rw [ScheduleAny.place]
      exact ⟨by simp [h1, h2], List.pairwise_singleton _ _⟩
    | cons i r ih =>
      intro limit pos s p1 p2 h1 h2 ho
      rw [overflows] at ho
      rw [ScheduleAny.place]
      split
      · next c =>
        rw [if_pos c, Bool.or_eq_false_iff, decide_eq_false_iff_not] at ho
        have hn := nextSegment_lt pos ⟨p1, p2⟩
        have hlt : 256 * pos.1 + pos.2 < 256 * (nextSegment pos).1 + (nextSegment pos).2 := by
          unfold nextSegment
          split <;> simp only [] <;> omega
        obtain ⟨i1, i2⟩ := ih (limit + segmentLength) (nextSegment pos) ⟨(nextSegment pos).1, (nextSegment pos).2, [i]⟩ hn.1 hn.2 rfl rfl ho.2
        refine ⟨?_, List.pairwise_cons.2 ⟨?_, i2⟩⟩
        · intro x hx
          rcases List.mem_cons.1 hx with rfl | hx
          · omega
          · have := i1 x hx; omega
        · intro x hx
          have := i1 x hx; omega
      · next c =>
        rw [if_neg c] at ho
        split
        · next d =>
          rw [if_pos d, Bool.or_eq_false_iff, decide_eq_false_iff_not] at ho
          have hn := nextNumber_lt pos ⟨p1, p2⟩
          have hlt : 256 * pos.1 + pos.2 < 256 * (nextNumber pos).1 + (nextNumber pos).2 := by
            unfold nextNumber
            simp only []; omega
          obtain ⟨i1, i2⟩ := ih limit (nextNumber pos) ⟨(nextNumber pos).1, (nextNumber pos).2, [i]⟩ hn.1 hn.2 rfl rfl ho.2
          refine ⟨?_, List.pairwise_cons.2 ⟨?_, i2⟩⟩
          · intro x hx
            rcases List.mem_cons.1 hx with rfl | hx
            · omega
            · have := i1 x hx; omega
          · intro x hx
            have := i1 x hx; omega
        · next d =>
          rw [if_neg d] at ho
          exact ih limit pos { s with events := s.events ++ [i] } p1 p2 h1 h2 ho
  have htb : t.tableId.toNat = t.base := by unfold base; omega
  obtain ⟨k1, k2⟩ := key t.items _ (t.base, 8 * (t.firstSegment + 1)) ⟨t.tableId.toNat, 8 * (t.firstSegment + 1), []⟩ hbase
    (by simp only []; omega) htb rfl h3
  rw [sects, List.pairwise_append]
  refine ⟨?_, k2, ?_⟩
  · rw [List.pairwise_map]
    exact List.pairwise_lt_range.imp (fun {a b} hab => by simp only []; omega)
  · intro a ha b hb
    obtain ⟨k, hk, rfl⟩ := List.mem_map.1 ha
    rw [List.mem_range] at hk
    have := k1 b hb
    simp only [] at this ⊢
    omega

theorem place_same (l : List EitItem) (limit : Nat) (hl : ∀ i ∈ l, i.start.toNat < limit) (pos : Nat × Nat) (s : Sect EitItem) :
    ∀ k x, (ScheduleAny.place (·.start.toNat) (fun i => (entry i).length) 4078 limit pos s l)[k + 1]? = some x →
      x.table = pos.1 ∧ x.number = (pos.2 + k + 1) % 256 := by
  have head : ∀ (l : List EitItem) (pos : Nat × Nat) (s : Sect EitItem), ∃ e q,
      ScheduleAny.place (·.start.toNat) (fun i => (entry i).length) 4078 limit pos s l = { s with events := e } :: q := by
    intro l
    induction l with
    | nil => intro pos s; exact ⟨_, _, rfl⟩
    | cons i r ih =>
      intro pos s
      rw [ScheduleAny.place]
      split
      · exact ⟨_, _, rfl⟩
      · split
        · exact ⟨_, _, rfl⟩
        · obtain ⟨e, q, h⟩ := ih pos { s with events := s.events ++ [i] }
          exact ⟨e, q, h⟩
  induction l generalizing pos s with
  | nil => intro k x hx; simp [ScheduleAny.place] at hx
  | cons i r ih =>
    intro k x hx
    have hi := hl i List.mem_cons_self
    rw [ScheduleAny.place, if_neg (by omega)] at hx
    split at hx
    · rw [List.getElem?_cons_succ] at hx
      cases k with
      | zero =>
        obtain ⟨e, q, h⟩ := head r (nextNumber pos) ⟨(nextNumber pos).1, (nextNumber pos).2, [i]⟩
        rw [h] at hx
        cases hx
        exact ⟨rfl, rfl⟩
      | succ k =>
        obtain ⟨h1, h2⟩ := ih (fun j hj => hl j (List.mem_cons_of_mem _ hj)) _ _ k x hx
        refine ⟨h1, ?_⟩
        rw [h2, nextNumber]
        simp only []
        omega
    · exact ih (fun j hj => hl j (List.mem_cons_of_mem _ hj)) _ _ k x hx

/-- For C100, which fails if the events of a segment need more than eight sections: the sections after the eighth have the numbers of the next segment,
although all their events start before it. -/
theorem sects_spill (t : Eit) (h : ∀ i ∈ t.items, segmentOf t.origin i.start.toNat < t.firstSegment + 2) (k : Nat) (hk : 8 ≤ k ∧ k < 16)
    (x : Sect EitItem) (hx : t.eventSects[k]? = some x) :
    x.table = t.base ∧ x.number / 8 = t.firstSegment + 2 ∧ ∀ i ∈ x.events, segmentOf t.origin i.start.toNat < t.firstSegment + 2 := by
  have hfs := t.firstSegment_lt
  obtain ⟨j, rfl⟩ : ∃ j, k = j + 1 := ⟨k - 1, by omega⟩
  obtain ⟨h1, h2⟩ := place_same t.items _ (by
    intro i hi
    have := h i hi
    unfold segmentOf at this
    rw [segmentLength] at this ⊢
    omega) _ _ j x hx
  refine ⟨h1, by rw [h2]; simp only []; omega, ?_⟩
  have hmem : ∀ i ∈ x.events, i ∈ t.items := by
    intro i hi
    rw [← sects_events t, List.mem_flatMap]
    exact ⟨x, List.mem_append_right _ (List.mem_of_getElem? hx), hi⟩
  exact fun i hi => h i (hmem i hi)

/-- For C100, which fails if they need more than 256: two sections have the same table id and number. -/
theorem sects_duplicate (t : Eit) (h : ∀ i ∈ t.items, segmentOf t.origin i.start.toNat < t.firstSegment + 2) (k : Nat)
    (x y : Sect EitItem) (hx : t.eventSects[k + 1]? = some x) (hy : t.eventSects[k + 257]? = some y) :
    x.table = y.table ∧ x.number = y.number := by
  have hl : ∀ i ∈ t.items, i.start.toNat < t.origin + (t.firstSegment + 2) * segmentLength := by
    intro i hi
    have := h i hi
    unfold segmentOf at this
    rw [segmentLength] at this ⊢
    omega
  obtain ⟨h1, h2⟩ := place_same t.items _ hl _ _ k x hx
  obtain ⟨h3, h4⟩ := place_same t.items _ hl _ _ (k + 256) y hy
  exact ⟨by rw [h1, h3], by rw [h2, h4]; simp only []; omega⟩

theorem place_big (l : List EitItem) (limit : Nat) (hl : ∀ i ∈ l, i.start.toNat < limit ∧ 2039 ≤ (entry i).length) (pos : Nat × Nat) (s : Sect EitItem)
    (hs : 2039 ≤ (s.events.map fun i => (entry i).length).sum) :
    (ScheduleAny.place (·.start.toNat) (fun i => (entry i).length) 4078 limit pos s l).length = l.length + 1 := by
  induction l generalizing pos s with
  | nil => rfl
  | cons i r ih =>
    obtain ⟨h1, h2⟩ := hl i List.mem_cons_self
    rw [ScheduleAny.place, if_neg (by omega), if_pos (by omega), List.length_cons, ih (fun j hj => hl j (List.mem_cons_of_mem _ hj)) _ _ (by simpa using h2),
      List.length_cons]

/-- If every event takes half of a section, each has a section of its own. -/
theorem eventSects_big (t : Eit) (hne : t.items ≠ []) (h : ∀ i ∈ t.items, segmentOf t.origin i.start.toNat < t.firstSegment + 2)
    (hb : ∀ i ∈ t.items, 2039 ≤ (entry i).length ∧ (entry i).length < 4078) : t.eventSects.length = t.items.length := by
  have hl : ∀ i ∈ t.items, i.start.toNat < t.origin + (t.firstSegment + 2) * segmentLength := by
    intro i hi
    have := h i hi
    unfold segmentOf at this
    rw [segmentLength] at this ⊢
    omega
  unfold eventSects
  generalize (t.origin + (t.firstSegment + 2) * segmentLength) = limit at hl ⊢
  generalize t.base = b
  generalize t.firstSegment = f
  cases he : t.items with
  | nil => exact (hne he).elim
  | cons i r =>
    rw [he] at hl hb
    have h1 := hb i List.mem_cons_self
    have h2 := hl i List.mem_cons_self
    rw [ScheduleAny.place, if_neg (by omega), if_neg (by simp; omega), place_big r limit
      (fun j hj => ⟨hl j (List.mem_cons_of_mem _ hj), (hb j (List.mem_cons_of_mem _ hj)).1⟩) _ _ (by simpa using h1.1)]
    rfl

/-! ## Long schedules -/

/-- Position of the first section of a segment. -/
def segmentPos (b n : Nat) : Nat × Nat := ((b + n / 32) % 256, 8 * (n % 32))

theorem nextSegment_pos (b n : Nat) : nextSegment (segmentPos b n) = segmentPos b (n + 1) := by
  unfold nextSegment segmentPos
  simp only []
  by_cases h : n % 32 = 31
  · rw [if_pos (by omega), show (n + 1) / 32 = n / 32 + 1 by omega, show (n + 1) % 32 = 0 by omega]
    refine Prod.ext ?_ rfl
    simp only []; omega
  · rw [if_neg (by omega), show (n + 1) / 32 = n / 32 by omega, show (n + 1) % 32 = n % 32 + 1 by omega]
    refine Prod.ext rfl ?_
    simp only []; omega

theorem place_each (b o : Nat) (l : List EitItem) (n : Nat) (hl : ∀ k i, l[k]? = some i → o + (n + k + 1) * segmentLength ≤ i.start.toNat) (s : Sect EitItem) :
    ScheduleAny.place (·.start.toNat) (fun i => (entry i).length) 4078 (o + (n + 1) * segmentLength) (segmentPos b n) s l =
      s :: l.zipIdx.map fun x => ⟨(b + (n + 1 + x.2) / 32) % 256, 8 * ((n + 1 + x.2) % 32), [x.1]⟩ := by
  induction l generalizing n s with
  | nil => rfl
  | cons i r ih =>
    have h0 := hl 0 i rfl
    rw [ScheduleAny.place, if_pos h0, nextSegment_pos,
      show o + (n + 1) * segmentLength + segmentLength = o + (n + 1 + 1) * segmentLength by rw [Nat.add_mul (n + 1) 1]; omega,
      ih (n + 1) (fun k j hj => by have := hl (k + 1) j hj; rw [show n + 1 + k + 1 = n + (k + 1) + 1 by omega]; exact this)]
    refine congrArg (s :: ·) ?_
    rw [List.zipIdx_cons, List.map_cons, List.zipIdx_succ, List.map_map]
    refine congrArg₂ (· :: ·) rfl (List.map_congr_left fun x _ => ?_)
    simp only [Function.comp_apply, show n + 1 + (x.2 + 1) = n + 1 + 1 + x.2 by omega]

/-- There is an event for each segment, and each of them starts a segment of its own. -/
def EachSegment (t : Eit) : Prop :=
  ∀ k i, t.items[k + 1]? = some i → t.origin + (t.firstSegment + 2 + k) * segmentLength ≤ i.start.toNat

theorem eventSects_each (t : Eit) (hb : t.tableId.toNat % 16 = 0) (hne : t.items ≠ []) (h0 : ∀ i ∈ t.items, (entry i).length < 4078) (h : t.EachSegment) :
    t.eventSects = t.items.zipIdx.map fun x =>
      ⟨(t.base + (t.firstSegment + 1 + x.2) / 32) % 256, 8 * ((t.firstSegment + 1 + x.2) % 32), [x.1]⟩ := by
  have hfs := t.firstSegment_lt
  have hbase := t.base_lt
  have htb : t.tableId.toNat = t.base := by unfold base; omega
  obtain ⟨i, r, he⟩ := List.exists_cons_of_ne_nil hne
  have hF : t.firstStart = i.start.toNat := by rw [firstStart, he]; rfl
  have hlt : ¬ t.origin + (t.firstSegment + 2) * segmentLength ≤ i.start.toNat := by
    rw [firstSegment, hF, segmentOf, segmentLength]
    omega
  unfold eventSects
  unfold EachSegment at h
  rw [htb]
  generalize t.origin = o at h hlt ⊢
  generalize t.firstSegment = f at h hlt hfs ⊢
  generalize t.base = b at hbase ⊢
  rw [he] at h h0 ⊢
  have h1 := h0 i List.mem_cons_self
  rw [ScheduleAny.place, if_neg hlt, if_neg (by simp; omega)]
  have hpos : (b, 8 * (f + 1)) = segmentPos b (f + 1) := by
    unfold segmentPos
    refine Prod.ext ?_ ?_ <;> simp only [] <;> omega
  rw [hpos, show f + 2 = f + 1 + 1 from rfl, place_each b o r (f + 1) (fun k j hj => by
    have := h k j hj
    rw [show f + 1 + k + 1 = f + 2 + k by omega]; exact this)]
  rw [List.zipIdx_cons, List.map_cons, List.zipIdx_succ, List.map_map]
  refine congrArg₂ (· :: ·) ?_ (List.map_congr_left fun x _ => ?_)
  · simp only [List.nil_append, Nat.add_zero]
    rw [show (b + (f + 1) / 32) % 256 = b by omega, show (f + 1) % 32 = f + 1 by omega]
  · simp only [Function.comp_apply, show f + 1 + (x.2 + 1) = f + 1 + 1 + x.2 by omega]

/-- C100 fails for a schedule of another transport stream (table id 0x60) that continues after the 64th day: the events after the 512th segment
are sent with table ids that are not those of an EIT, so that a receiver does not obtain them. -/
theorem C100_loss_refuted (p : Profile) (t : Eit) (hid : t.tableId = 0x60) (hne : t.items ≠ []) (ht : t.InRange) (h0 : ∀ i ∈ t.items, (entry i).length < 4078)
    (h : t.EachSegment) (hlong : 512 ≤ t.firstSegment + t.items.length) (hmax : t.firstSegment + t.items.length < 5120)
    (hno : ¬ (p = .debug ∧ t.Overflow)) (pid : UInt16) (cc : UInt8) (dst : List UInt8) (s : Psi) (hp : pid.toNat < 8192) (hc : cc.toNat < 16) :
    ∃ cc' pks s', t.demux p pid cc dst = .ok (cc', dst ++ pks.flatten) ∧
      receive (Eit.parse p) p Eit.default s pks = .ok ({ t with tableId := 0x6F, items := t.items.take (511 - t.firstSegment) }, s') := by
  obtain ⟨cc', pks, s', h1, -, h3⟩ := C100_delivery_partial p t (by rw [hid]; decide) hne ht hno pid cc dst s hp hc
  refine ⟨cc', pks, s', h1, ?_⟩
  rw [h3]
  refine congrArg (fun x => Except.ok (x, s')) ?_
  have hfs := t.firstSegment_lt
  have hbase : t.base = 0x60 := by rw [base, hid]; rfl
  have he := eventSects_each t (by rw [hid]; rfl) hne h0 h
  have hempty : ((List.range (t.firstSegment + 1)).map (⟨t.base, 8 * ·, []⟩ : Nat → Sect EitItem)).filter (Sect.IsEit ·) =
      (List.range (t.firstSegment + 1)).map (⟨t.base, 8 * ·, []⟩) := by
    rw [List.filter_eq_self]
    intro x hx
    obtain ⟨k, -, rfl⟩ := List.mem_map.1 hx
    rw [hbase]
    exact decide_eq_true ⟨by simp only []; omega, by simp only []; omega⟩
  have hf : t.eventSects.filter (Sect.IsEit ·) = t.eventSects.take (511 - t.firstSegment) := by
    conv_lhs => rw [← List.take_append_drop (511 - t.firstSegment) t.eventSects]
    rw [List.filter_append, List.filter_eq_self.2, List.filter_eq_nil_iff.2, List.append_nil]
    · intro x hx
      obtain ⟨k, hk⟩ := List.mem_iff_getElem?.1 hx
      rw [List.getElem?_drop, he, List.getElem?_map, List.getElem?_zipIdx] at hk
      cases hg : t.items[511 - t.firstSegment + k]? with
      | none => rw [hg] at hk; cases hk
      | some i =>
        rw [hg] at hk
        cases hk
        have hlen := (List.getElem?_eq_some_iff.1 hg).1
        rw [decide_eq_true_iff]
        rintro ⟨-, h⟩
        rw [hbase] at h
        simp only [] at h
        omega
    · intro x hx
      obtain ⟨k, hk⟩ := List.mem_iff_getElem?.1 hx
      rw [List.getElem?_take] at hk
      split at hk
      · next hk' =>
        rw [he, List.getElem?_map, List.getElem?_zipIdx] at hk
        cases hg : t.items[k]? with
        | none => rw [hg] at hk; cases hk
        | some i =>
          rw [hg] at hk
          cases hk
          refine decide_eq_true ⟨?_, ?_⟩ <;> (rw [hbase]; simp only []; omega)
      · cases hk
  rw [readSects, sects, List.filter_append, hempty, hf, List.flatMap_append]
  have hlast : (t.eventSects.take (511 - t.firstSegment)).getLast? = t.eventSects[510 - t.firstSegment]? := by
    have hl : t.eventSects.length = t.items.length := by rw [he]; simp
    rw [List.getLast?_eq_getElem?, List.length_take, List.getElem?_take, if_pos (by omega)]
    refine congrArg (fun n => t.eventSects[n]?) ?_
    omega
  have hi : 510 - t.firstSegment < t.items.length := by omega
  have hel : t.eventSects[510 - t.firstSegment]? = some ⟨0x6F, 8 * ((t.firstSegment + 1 + (510 - t.firstSegment)) % 32), [t.items[510 - t.firstSegment]]⟩ := by
    rw [he, List.getElem?_map, List.getElem?_zipIdx, List.getElem?_eq_getElem hi]
    simp only [Option.map_some, Nat.zero_add]
    rw [hbase, show (96 + (t.firstSegment + 1 + (510 - t.firstSegment)) / 32) % 256 = 0x6F by omega]
  rw [List.getLast?_append, hlast, hel]
  simp only [Option.some_or]
  have e1 : ((List.range (t.firstSegment + 1)).map (⟨t.base, 8 * ·, []⟩ : Nat → Sect EitItem)).flatMap (·.events) = [] := by
    simp [List.flatMap_map]
  have e2 : (t.eventSects.take (511 - t.firstSegment)).flatMap (·.events) = t.items.take (511 - t.firstSegment) := by
    rw [he, ← List.map_take, List.flatMap_map]
    simp only [← List.map_eq_flatMap]
    rw [List.map_take, List.zipIdx_map_fst]
  rw [e1, e2]
  rfl

/-- For C100, which fails for a schedule of the actual transport stream (table id 0x50) that continues after the 64th day: the events after the 512th segment
are sent with the table ids of the schedules of other transport streams. -/
theorem sects_other (t : Eit) (hid : t.tableId = 0x50) (hne : t.items ≠ []) (h0 : ∀ i ∈ t.items, (entry i).length < 4078) (h : t.EachSegment)
    (k : Nat) (hk : 512 ≤ t.firstSegment + 1 + k ∧ t.firstSegment + 1 + k < 1024) (i : EitItem) (hi : t.items[k]? = some i) :
    ∃ x ∈ t.sects, x.events = [i] ∧ 0x60 ≤ x.table ∧ x.table ≤ 0x6F := by
  have he := eventSects_each t (by rw [hid]; rfl) hne h0 h
  have hbase : t.base = 0x50 := by rw [base, hid]; rfl
  refine ⟨_, List.mem_append_right _ (List.mem_of_getElem? (i := k) (by rw [he, List.getElem?_map, List.getElem?_zipIdx, hi]; rfl)), rfl, ?_, ?_⟩ <;>
    (rw [hbase]; simp only []; omega)

end Eit

/-! ## The hypotheses are met -/

/-- 512 segments and more: an event every three hours for 75 days. -/
def sampleDays (id : UInt8) : Eit :=
  { tableId := id, version := 9, pnr := 7, tsid := 0x1234, onid := 0xABCD
    items := (List.range 600).map fun k => ⟨UInt16.ofNat k, UInt64.ofNat (1700006400 + 10800 * (k + if k = 0 then 0 else 1)), 3600, 4, 1, []⟩ }

theorem sampleDays_inRange : (sampleDays 0x60).InRange := ⟨by decide, by decide +kernel⟩
theorem sampleDays_each (id : UInt8) : (sampleDays id).EachSegment := by
  intro k i hi
  rw [sampleDays] at hi
  simp only [] at hi
  rw [List.getElem?_map] at hi
  by_cases hk : k + 1 < 600
  · rw [List.getElem?_range hk] at hi
    cases hi
    have h1 : (sampleDays id).origin = 1700006400 := by clear hk k; decide +kernel +revert
    have h2 : (sampleDays id).firstSegment = 0 := by clear hk k; decide +kernel +revert
    rw [h1, h2, segmentLength]
    simp only []
    rw [UInt64.toNat_ofNat', if_neg (by omega)]
    omega
  · rw [List.getElem?_eq_none (by simpa using hk)] at hi
    cases hi
theorem sampleDays_noOverflow : ¬ (sampleDays 0x60).Overflow := by decide +kernel

/-- Of its 600 events 511 are received, by a program with overflow checks and without. -/
example (p : Profile) : ∃ cc' pks s', (sampleDays 0x60).demux p 0x12 3 [] = .ok (cc', [] ++ pks.flatten) ∧
    receive (Eit.parse p) p Eit.default Psi.default pks = .ok ({ sampleDays 0x60 with tableId := 0x6F, items := (sampleDays 0x60).items.take 511 }, s') := by
  have h2 : (sampleDays 0x60).firstSegment = 0 := by decide +kernel
  have h := Eit.C100_loss_refuted p (sampleDays 0x60) rfl (by decide +kernel) sampleDays_inRange (by decide +kernel) (sampleDays_each _) (by decide +kernel)
    (by decide +kernel) (fun h => sampleDays_noOverflow h.2) 0x12 3 [] Psi.default (by decide) (by decide)
  rw [h2] at h
  exact h

/-- The same for the actual transport stream. -/
example (i : EitItem) (hi : (sampleDays 0x50).items[520]? = some i) :
    ∃ x ∈ Eit.sects (sampleDays 0x50), x.events = [i] ∧ 0x60 ≤ x.table ∧ x.table ≤ 0x6F :=
  Eit.sects_other (sampleDays 0x50) rfl (by decide +kernel) (by decide +kernel) (sampleDays_each _) 520 (by decide +kernel) i hi
example : ((sampleDays 0x50).items[520]?).map (·.eventId) = some 520 := by decide +kernel

/-- An event with twelve descriptors of 212 bytes each. -/
def bigEvent : EitItem := ⟨2, 1700003600, 86399, 1, 0, List.replicate 12 (.d4D ⟨⟨0, [0x65, 0x6E, 0x67]⟩, ⟨0, [0x41]⟩, ⟨0, List.replicate 204 0x42⟩⟩)⟩

theorem bigEvent_ok : Eit.ItemInRange bigEvent := by decide +kernel
theorem bigEvent_length : (Eit.entry bigEvent).length = 2556 := by decide +kernel

/-- A schedule of `n` of them. -/
def sampleBig (n : Nat) : Eit := { sampleSchedule with items := List.replicate n bigEvent }

theorem sampleBig_segment (n : Nat) (hn : n ≠ 0) : ∀ i ∈ (sampleBig n).items,
    segmentOf (sampleBig n).origin i.start.toNat < (sampleBig n).firstSegment + 2 := by
  intro i hi
  rw [sampleBig] at hi
  simp only [] at hi
  have e := List.eq_of_mem_replicate hi
  have hF : (sampleBig n).firstStart = bigEvent.start.toNat := by
    obtain ⟨m, rfl⟩ := Nat.exists_eq_succ_of_ne_zero hn
    rfl
  rw [Eit.firstSegment, hF, e]
  omega

theorem sampleBig_length (n : Nat) (hn : n ≠ 0) : (sampleBig n).eventSects.length = n := by
  rw [Eit.eventSects_big _ (by simp [sampleBig, hn]) (sampleBig_segment n hn)
    (by
      intro i hi
      rw [sampleBig] at hi
      simp only [] at hi
      rw [List.eq_of_mem_replicate hi, bigEvent_length]
      omega)]
  simp [sampleBig]

/-- Nine of them in a segment, which is the eighth of the day: the last is sent as if it belonged to the next. -/
example : ∃ x, (sampleBig 9).eventSects[8]? = some x ∧ x.table = (sampleBig 9).base ∧ x.number / 8 = (sampleBig 9).firstSegment + 2 ∧
    ∀ i ∈ x.events, segmentOf (sampleBig 9).origin i.start.toNat < (sampleBig 9).firstSegment + 2 :=
  ⟨_, List.getElem?_eq_getElem (by rw [sampleBig_length 9 (by decide)]; decide),
    Eit.sects_spill _ (sampleBig_segment 9 (by decide)) 8 (by decide) _ (List.getElem?_eq_getElem _)⟩
/-- 300 of them: the second and the 258th section have the same table id and number. -/
example : ∃ x y, (sampleBig 300).eventSects[1]? = some x ∧ (sampleBig 300).eventSects[257]? = some y ∧ x.table = y.table ∧ x.number = y.number :=
  ⟨_, _, List.getElem?_eq_getElem (by rw [sampleBig_length 300 (by decide)]; decide),
    List.getElem?_eq_getElem (by rw [sampleBig_length 300 (by decide)]; decide),
    Eit.sects_duplicate _ (sampleBig_segment 300 (by decide)) 0 _ _ (List.getElem?_eq_getElem _) (List.getElem?_eq_getElem _)⟩

/-- The hypotheses of the other theorems are met by the schedule of 600 events; that of `C100_complete_partial` by a shorter one. -/
example : (sampleDays 0x60).sects.Pairwise fun a b => 256 * a.table + a.number < 256 * b.table + b.number :=
  Eit.sects_unique (sampleDays 0x60) (by decide) sampleDays_noOverflow
example : ∃ cc' pks s' id, sampleSchedule.demux .debug 0x12 3 [] = .ok (cc', [] ++ pks.flatten) ∧
    receive (Eit.parse .debug) .debug Eit.default Psi.default pks = .ok ({ sampleSchedule with tableId := id }, s') :=
  Eit.C100_complete_partial .debug sampleSchedule (by decide) (by decide) sampleSchedule_inRange (fun h => absurd h.2 (by decide +kernel)) (by decide +kernel)
    0x12 3 [] Psi.default (by decide) (by decide)
/-- A list that is not ordered overflows: the difference of the times is negative. -/
example : Eit.Overflow { sampleSchedule with items := [⟨1, 1700000000, 3600, 4, 1, []⟩, ⟨2, 1690000000, 3600, 4, 1, []⟩] } := by decide +kernel

end Mpegts
