import Verif.Props.C110Eit
import Verif.Props.C129Any

/-! # C129 for event information tables whose descriptors of the user's own types append any bytes and state any size -/

namespace Mpegts
open Spec Spec.Table Spec.Schedule
open Spec.AnyValue (overlay)

namespace Own.Eit
open Spec.ScheduleAny (Sect nextSegment nextNumber)
open Mpegts.Eit (emptyLoop numberLoop demuxLoop SEG_DURATION DAY_DURATION addU64_split subU64_split addU8_split addU8_ok
  Step base_and nextSegment_lt nextNumber_lt withLast_fstAny)

variable {as : OwnDesc → List UInt8}

/-- The same table without events. -/
def bare (t : Eit) : Mpegts.Eit := ⟨t.tableId, t.version, t.pnr, t.tsid, t.onid, []⟩
/-- The start of the first event (0 if there is none). -/
def firstStart (t : Eit) : Nat := (t.items.head?.map (·.start.toNat)).getD 0
/-- The start of the last event (0 if there is none). -/
def lastStart (t : Eit) : Nat := (t.items.getLast?.map (·.start.toNat)).getD 0
/-- The midnight from which segments are counted. -/
def origin (t : Eit) : Nat := midnight t.firstStart
/-- The id of the first sub-table. -/
def base (t : Eit) : Nat := t.tableId.toNat / 16 * 16
/-- The segment in which the first event lies. -/
def firstSegment (t : Eit) : Nat := segmentOf t.origin t.firstStart
/-- The last table id announced. -/
def lastTable (t : Eit) : Nat := (t.base + (t.lastStart + 2 ^ 64 - t.origin) % 2 ^ 64 / segmentLength / 32) % 256

theorem origin_le (t : Eit) : t.origin ≤ t.firstStart := by unfold origin midnight; omega
theorem firstSegment_lt (t : Eit) : t.firstSegment < 8 := by
  unfold firstSegment segmentOf origin midnight segmentLength day; omega
theorem base_lt (t : Eit) : t.base < 256 := by have := t.tableId.toNat_lt; unfold base; omega

/-- Every section with the number of the last section of its run, from the back. -/
def markAny (acc : List (Sect EitItem × Nat)) (s : Sect EitItem) : List (Sect EitItem × Nat) :=
  match acc with
  | [] => [(s, if s.table = 0 then 0 else s.number)]
  | (b, l) :: _ => (if b.table = s.table then (s, l) else (s, s.number)) :: acc

theorem withLast_markAny (l : List (Sect EitItem)) : l.reverse.foldl markAny [] = ScheduleAny.withLast l := by
  rw [List.foldl_reverse]
  induction l with
  | nil => rfl
  | cons s r ih =>
    rw [List.foldr_cons, ih]
    cases r with
    | nil => rfl
    | cons b q =>
      simp only [ScheduleAny.withLast, markAny, ScheduleAny.lastNumber]
      split <;> rfl

/-- The entry sent for an event. -/
def anyEntry (as : OwnDesc → List UInt8) (i : EitItem) : List UInt8 :=
  AnyValue.eitEntry i.eventId.toNat i.start.toNat i.duration.toNat i.status.toNat i.caMode.toNat (i.descriptors.flatMap (Boxed.emitted as))

/-- The number of bytes an event is counted with. -/
def anyCount (i : EitItem) : Nat := 12 + (i.descriptors.map Boxed.counted).sum

/-- A section for these events. -/
def allSection (as : OwnDesc → List UInt8) (t : Eit) (tableId number last segmentLast lastTableId : Nat) (g : List EitItem) : List UInt8 :=
  Spec.Spill.complete (Table.eit tableId t.pnr.toNat (t.version.toNat % 32) number last t.tsid.toNat t.onid.toNat segmentLast lastTableId
    (g.flatMap (anyEntry as)))

theorem assemble_all (p : Profile) (i : EitItem) (h : ∀ d ∈ i.descriptors, d.Appends p as) (b : List UInt8) :
    i.assemble p b = .ok (b ++ anyEntry as i) := by
  obtain ⟨v, w1, w2⟩ := write_utc_any p i.start
  obtain ⟨d, e3, f3⟩ := C20_to_bcd_time p i.duration
  rw [← bcd_hhmmss] at f3
  unfold EitItem.assemble
  simp only [resize_extend, show List.replicate 12 (0 : UInt8) = [0, 0, 0, 0, 0, 0, 0, 0, 0, 0, 0, 0] from rfl]
  have e1 := setU16At_append b [0, 0, 0, 0, 0, 0, 0, 0, 0, 0, 0, 0] 0 i.eventId
  rw [Nat.add_zero] at e1
  rw [e1, setU16At_ok _ (by simp), map_ok, ok_bind, setU16At_append, setU16At_ok _ (by simp [beBytes]), map_ok, ok_bind, w1, ok_bind,
    setU24At_append, setU24At_ok _ (by simp [beBytes]), map_ok, ok_bind, e3, ok_bind, setU24At_append, setU24At_ok _ (by simp [beBytes]), map_ok,
    ok_bind, f3]
  rw [list_ok p as i.descriptors h, ok_bind]
  simp only []
  rw [List.append_assoc, setU16At_append, setU16At_ok _ (by simp [beBytes]), map_ok,
    show setBits8 8 [(i.status, 3), (i.caMode, 1)] = (i.status <<< 5) ||| (i.caMode <<< 4) from rfl, word_any]
  refine congrArg (fun x => Except.ok (b ++ x)) ?_
  rw [anyEntry, AnyValue.eitEntry, ← w2]
  simp [Spec.Spill.sized, beBytes]

theorem counted_size (i : EitItem) : i.size = anyCount i := by rw [EitItem.size, list_size, anyCount]

/-- A section under construction. -/
def allDraft (as : OwnDesc → List UInt8) (t : Eit) (tid n l sl lt : Nat) (g : List EitItem) : List UInt8 :=
  Table.eit tid t.pnr.toNat (t.version.toNat % 32) n l t.tsid.toNat t.onid.toNat sl lt (g.flatMap (anyEntry as))

theorem allDraft_length (t : Eit) (tid n l sl lt : Nat) (g : List EitItem) : (t.allDraft as tid n l sl lt g).length = 14 + (g.flatMap (anyEntry as)).length :=
  Mpegts.Eit.spill_length _ _ _ _ _ _ _ _ _ _

theorem allDraft_form (t : Eit) (tid n l sl lt : Nat) (g : List EitItem) : t.allDraft as tid n l sl lt g =
    [UInt8.ofNat tid, UInt8.ofNat (0b1111 * 16), 0, UInt8.ofNat (t.pnr.toNat / 256), UInt8.ofNat t.pnr.toNat,
      UInt8.ofNat (Descriptor.pack [(2, 0b11), (5, t.version.toNat % 32), (1, 1)]), UInt8.ofNat n, UInt8.ofNat l,
      UInt8.ofNat (t.tsid.toNat / 256), UInt8.ofNat t.tsid.toNat, UInt8.ofNat (t.onid.toNat / 256), UInt8.ofNat t.onid.toNat,
      UInt8.ofNat sl, UInt8.ofNat lt] ++ g.flatMap (anyEntry as) := by
  rw [allDraft, Table.eit, header_eq]; simp [beBytes]

theorem aset_table (t : Eit) (tid n l sl lt : Nat) (g : List EitItem) (b : UInt8) :
    setIdx (t.allDraft as tid n l sl lt g) 0 b = .ok (t.allDraft as b.toNat n l sl lt g) := by
  simp only [allDraft_form, List.cons_append, setIdx_zero, UInt8.ofNat_toNat]
theorem aset_number (t : Eit) (tid n l sl lt : Nat) (g : List EitItem) (b : UInt8) :
    setIdx (t.allDraft as tid n l sl lt g) 6 b = .ok (t.allDraft as tid b.toNat l sl lt g) := by
  simp only [allDraft_form, List.cons_append, setIdx_succ, setIdx_zero, UInt8.ofNat_toNat, map_ok]
theorem aset_last (t : Eit) (tid n l sl lt : Nat) (g : List EitItem) (b : UInt8) :
    setIdx (t.allDraft as tid n l sl lt g) 7 b = .ok (t.allDraft as tid n b.toNat sl lt g) := by
  simp only [allDraft_form, List.cons_append, setIdx_succ, setIdx_zero, UInt8.ofNat_toNat, map_ok]
theorem aset_segment (t : Eit) (tid n l sl lt : Nat) (g : List EitItem) (b : UInt8) :
    setIdx (t.allDraft as tid n l sl lt g) 12 b = .ok (t.allDraft as tid n l b.toNat lt g) := by
  simp only [allDraft_form, List.cons_append, setIdx_succ, setIdx_zero, UInt8.ofNat_toNat, map_ok]
theorem aset_lastTable (t : Eit) (tid n l sl lt : Nat) (g : List EitItem) (b : UInt8) :
    setIdx (t.allDraft as tid n l sl lt g) 13 b = .ok (t.allDraft as tid n l sl b.toNat g) := by
  simp only [allDraft_form, List.cons_append, setIdx_succ, setIdx_zero, UInt8.ofNat_toNat, map_ok]
theorem aadd_event (p : Profile) (t : Eit) (tid n l sl lt : Nat) (g : List EitItem) (i : EitItem)
    (h : ∀ d ∈ i.descriptors, d.Appends p as) :
    i.assemble p (t.allDraft as tid n l sl lt g) = .ok (t.allDraft as tid n l sl lt (g ++ [i])) := by
  rw [assemble_all p i h]; simp [allDraft_form]
theorem finalize_all (p : Profile) (t : Eit) (tid n l sl lt : Nat) (g : List EitItem) :
    Psi.finalize p { Psi.default with buffer := t.allDraft as tid n l sl lt g } =
      .ok { Psi.default with buffer := t.allSection as tid n l sl lt g, size := (t.allSection as tid n l sl lt g).length } := by
  have hl := t.allDraft_length (as := as) tid n l sl lt g
  rw [Spill.finalize_eq p _ rfl (by simp only [hl]; omega)]
  simp only [allSection]
  rw [← allDraft, Spill.complete_length (by omega)]

theorem psiInit_all (p : Profile) (t : Eit) : t.psiInit p = .ok { Psi.default with buffer := t.allDraft as t.tableId.toNat 0 0 0 0 [] } := by
  refine (Mpegts.Eit.psiInit_all p t.bare).trans ?_
  rfl

theorem allSection_length (t : Eit) (tid n l sl lt : Nat) (g : List EitItem) :
    (t.allSection as tid n l sl lt g).length = 18 + (g.flatMap (anyEntry as)).length := by
  have hl := t.allDraft_length (as := as) tid n l sl lt g
  rw [allSection, ← allDraft, Spill.complete_length (by omega), hl]; omega

/-! ## Present/following -/

/-- The sections sent for a present/following table: one for each event. -/
def allPf (as : OwnDesc → List UInt8) (t : Eit) : List (List UInt8) :=
  t.items.zipIdx.map fun x => t.allSection as t.tableId.toNat (x.2 % 256) ((t.items.length - 1) % 256) ((t.items.length - 1) % 256)
    t.tableId.toNat [x.1]

theorem pfLoop_all (p : Profile) (t : Eit) (last : UInt8) (l : List EitItem)
    (hl : ∀ i ∈ l, ∀ d ∈ i.descriptors, d.Appends p as) (n : Nat) :
    pfLoop p t last n l = .ok (((l.zipIdx n).map fun x =>
      t.allSection as t.tableId.toNat (x.2 % 256) last.toNat last.toNat t.tableId.toNat [x.1]).map fun b =>
        { Psi.default with buffer := b, size := b.length }) := by
  induction l generalizing n with
  | nil => rfl
  | cons i r ih =>
    have hi := hl i List.mem_cons_self
    rw [pfLoop, psiInit_all (as := as), ok_bind]
    simp only []
    rw [aset_number, ok_bind, aset_last, ok_bind, aset_segment, ok_bind, aset_lastTable, ok_bind, aadd_event p t _ _ _ _ _ _ i hi,
      ok_bind, finalize_all p t _ _ _ _ _ _, ok_bind, ih (fun x hx => hl x (List.mem_cons_of_mem _ hx)), ok_bind]
    simp only [List.zipIdx_cons, List.map_cons, UInt8.toNat_ofNat', List.nil_append, pure_eq_ok]

/-- C129, for present/following EITs whose descriptors of the user's append any bytes and state any size: the stated sizes have no effect. -/
theorem C129_eit_any (p : Profile) (as : OwnDesc → List UInt8) (t : Eit) (hid : t.tableId = 0x4E ∨ t.tableId = 0x4F)
    (hr : ∀ i ∈ t.items, ∀ d ∈ i.descriptors, d.Appends p as) (pid : UInt16) (cc : UInt8) (dst : List UInt8)
    (hp : pid.toNat < 8192) (hc : cc.toNat < 16) :
    t.demux p pid cc dst = .ok (UInt8.ofNat ((cc.toNat + streamCount (t.allPf as)) % 16), dst ++ (stream pid.toNat cc.toNat (t.allPf as)).flatten) := by
  by_cases he : t.items = []
  · have e : t.psiListAssemble p = .ok [] := by rw [psiListAssemble, he]; rfl
    rw [demux, e, ok_bind]
    simp [allPf, he, stream, streamCount, Nat.mod_eq_of_lt hc, pure_eq_ok]
  unfold demux psiListAssemble
  rw [List.head?_eq_some_head he, List.getLast?_eq_some_getLast he]
  simp only []
  rw [if_pos hid, pfLoop_all p t _ t.items hr 0, ok_bind]
  simp only [UInt8.toNat_ofNat']
  rw [show (t.items.zipIdx 0).map (fun x => t.allSection as t.tableId.toNat (x.2 % 256) ((t.items.length - 1) % 2 ^ 8) ((t.items.length - 1) % 2 ^ 8)
    t.tableId.toNat [x.1]) = t.allPf as from rfl]
  rw [if_neg (by simpa [allPf] using he), Mpegts.Eit.demuxLoop_eq p pid hp _ _ cc hc dst]
  intro s hs
  obtain ⟨x, hx, rfl⟩ := List.mem_map.1 hs
  refine List.ne_nil_of_length_pos ?_
  rw [allSection_length]
  omega

/-! ## Schedules -/

/-- All sections of a schedule. -/
def allSects (as : OwnDesc → List UInt8) (t : Eit) : List (Sect EitItem) :=
  AnyValue.sections (·.start.toNat) anyCount (fun i => (anyEntry as i).length) 4078 t.tableId.toNat t.items

/-- The sections sent for a schedule. -/
def allWire (as : OwnDesc → List UInt8) (t : Eit) : List (List UInt8) := (ScheduleAny.withLast (t.allSects as)).map fun x =>
  t.allSection as x.1.table x.1.number x.2 x.1.number (ScheduleAny.lastTable (·.start.toNat) t.tableId.toNat t.items) x.1.events

/-- Some count of a schedule passes the end of its type. -/
def AnyOverflow (as : OwnDesc → List UInt8) (t : Eit) : Prop :=
  AnyValue.SomeOverflow (·.start.toNat) anyCount (fun i => (anyEntry as i).length) 4078 t.tableId.toNat t.items

instance (t : Eit) : Decidable (t.AnyOverflow as) := by unfold AnyOverflow; infer_instance

/-- The section under construction. -/
def psiDraft (as : OwnDesc → List UInt8) (t : Eit) (s : Sect EitItem) : Psi := { Psi.default with buffer := t.allDraft as s.table s.number 0 0 0 s.events }

theorem newSection_all (p : Profile) (t : Eit) (b c : UInt8) (i : EitItem) (h : ∀ d ∈ i.descriptors, d.Appends p as) :
    newSection p t b c i = .ok ((t.psiDraft as) ⟨b.toNat, c.toNat, [i]⟩) := by
  rw [newSection, psiInit_all, ok_bind]
  simp only []
  rw [aset_table, ok_bind, aset_number, ok_bind, aadd_event p t _ _ _ _ _ _ i h, ok_bind]
  rfl

theorem eventLoop_all (p : Profile) (t : Eit) (l : List EitItem) (hl : ∀ i ∈ l, ∀ d ∈ i.descriptors, d.Appends p as)
    (done : List Psi) (limit : Nat) (pos : Nat × Nat) (s : Sect EitItem) (nm : UInt64) (hnm : nm.toNat = limit) (c b : UInt8)
    (hc : c.toNat = pos.2) (hb : b.toNat = pos.1) :
    Step p (AnyValue.overflows (·.start.toNat) anyCount (fun i => (anyEntry as i).length) 4078 limit pos s.events l = true)
      (eventLoop p t l done ((t.psiDraft as) s) nm c b)
      (done ++ (AnyValue.place (·.start.toNat) anyCount (fun i => (anyEntry as i).length) 4078 limit pos s l).map (t.psiDraft as)) := by
  have hS : SEG_DURATION.toNat = 10800 := by decide
  have grow : ∀ {x y : Bool} {e : R (List Psi)} {v : List Psi}, (x = true → p ≠ .debug) → Step p (y = true) e v → Step p ((x || y) = true) e v := by
    intro x y e v h1 h2
    constructor
    · rintro ⟨hp, h⟩
      rw [Bool.or_eq_true] at h
      rcases h with h | h
      · exact absurd hp (h1 h)
      · exact h2.1 ⟨hp, h⟩
    · intro h
      exact h2.2 (fun hh => h ⟨hh.1, by rw [hh.2, Bool.or_true]⟩)
  induction l generalizing done limit pos s nm c b with
  | nil => exact ⟨(by rintro ⟨-, h⟩; cases h), fun _ => rfl⟩
  | cons i r ih =>
    have hi := hl i List.mem_cons_self
    have ih := fun done limit pos s nm hnm c b hc hb => ih (fun x hx => hl x (List.mem_cons_of_mem _ hx)) done limit pos s nm hnm c b hc hb
    have hcl := c.toNat_lt
    rw [eventLoop, AnyValue.place, AnyValue.overflows]
    by_cases h1 : limit ≤ i.start.toNat
    · simp only [if_pos h1]
      rw [if_pos (c := i.start ≥ nm) (by rw [ge_iff_le, UInt64.le_iff_toNat_le, hnm]; exact h1)]
      rw [Bool.or_assoc]
      rcases addU64_split p nm SEG_DURATION with ⟨u1, u2, u3⟩ | ⟨u1, nm', u2, u3⟩
      · rw [u3]
        refine ⟨fun _ => rfl, fun h => absurd ⟨u1, ?_⟩ h⟩
        rw [hnm, hS] at u2
        rw [decide_eq_true (show 2 ^ 64 ≤ limit + segmentLength from u2), Bool.true_or]
      rw [u2, ok_bind]
      refine grow (fun h hp => u1 ⟨hp, by rw [hnm, hS]; exact of_decide_eq_true h⟩) ?_
      have a3 : nm'.toNat = (limit + segmentLength) % 2 ^ 64 := by rw [u3, hnm, hS]; rfl
      have hdiv : (c / 8 * 8).toNat = pos.2 / 8 * 8 := by
        rw [UInt8.toNat_mul, UInt8.toNat_div, hc]
        show pos.2 / 8 * 8 % 256 = _
        omega
      have h248 : c / 8 * 8 = 248 ↔ pos.2 / 8 = 31 := by
        rw [← UInt8.toNat_inj, hdiv]
        show pos.2 / 8 * 8 = 248 ↔ _
        omega
      by_cases h2 : c / 8 * 8 = 248
      · have h31 := h248.1 h2
        simp only [if_pos h2]
        have h1' : (1 : UInt8).toNat = 1 := rfl
        rcases addU8_split p b 1 with ⟨q1, q2, q3⟩ | ⟨q1, b', q2, q3⟩
        · rw [q3]
          refine ⟨fun _ => rfl, fun h => absurd ⟨q1, ?_⟩ h⟩
          rw [hb, h1'] at q2
          have := b.toNat_lt
          simp [h31, show pos.1 = 255 by omega]
        · rw [q2]
          have e : (b'.toNat, (0 : UInt8).toNat) = nextSegment pos := by
            rw [nextSegment, if_pos h31, q3, hb]; rfl
          simp only [ok_bind, pure_eq_ok]
          rw [newSection_all p t b' 0 i hi, ok_bind]
          refine grow (fun h hp => ?_) ?_
          · rw [decide_eq_true_iff] at h
            exact q1 ⟨hp, by rw [hb, h.2, h1']⟩
          have j := ih (done ++ [(t.psiDraft as) s]) ((limit + segmentLength) % 2 ^ 64) (nextSegment pos)
            ⟨(nextSegment pos).1, (nextSegment pos).2, [i]⟩ _ a3 0 b' (by rw [← e]) (by rw [← e])
          rw [List.append_assoc, List.singleton_append, ← List.map_cons] at j
          rw [← e] at j ⊢
          exact j
      · have h31 : ¬ pos.2 / 8 = 31 := fun h => h2 (h248.2 h)
        simp only [if_neg h2]
        obtain ⟨c', c1, c2⟩ := addU8_ok (a := c / 8 * 8) (b := 8) p (by rw [hdiv]; show pos.2 / 8 * 8 + 8 < 256; omega)
        rw [c1]
        have e : (b.toNat, c'.toNat) = nextSegment pos := by
          rw [nextSegment, if_neg h31, c2, hdiv, hb]; rfl
        simp only [ok_bind, pure_eq_ok]
        rw [newSection_all p t b c' i hi, ok_bind]
        refine grow (fun h => absurd (of_decide_eq_true h).1 h31) ?_
        have j := ih (done ++ [(t.psiDraft as) s]) ((limit + segmentLength) % 2 ^ 64) (nextSegment pos)
          ⟨(nextSegment pos).1, (nextSegment pos).2, [i]⟩ _ a3 c' b (by rw [← e]) (by rw [← e])
        rw [List.append_assoc, List.singleton_append, ← List.map_cons] at j
        rw [← e] at j ⊢
        exact j
    · simp only [if_neg h1]
      rw [if_neg (c := i.start ≥ nm) (by rw [ge_iff_le, UInt64.le_iff_toNat_le, hnm]; exact h1)]
      have hlen : i.size + ((t.psiDraft as) s).buffer.length ≥ EIT_SECTION_SIZE ↔ 4078 ≤ (s.events.map fun i => (anyEntry as i).length).sum + anyCount i := by
        rw [counted_size i, psiDraft]
        simp only [allDraft_length, List.length_flatMap, EIT_SECTION_SIZE]
        omega
      by_cases h2 : 4078 ≤ (s.events.map fun i => (anyEntry as i).length).sum + anyCount i
      · simp only [if_pos h2]
        rw [if_pos (hlen.2 h2)]
        have h1' : (1 : UInt8).toNat = 1 := rfl
        rcases addU8_split p c 1 with ⟨q1, q2, q3⟩ | ⟨q1, c', q2, q3⟩
        · rw [q3]
          refine ⟨fun _ => rfl, fun h => absurd ⟨q1, ?_⟩ h⟩
          rw [hc, h1'] at q2
          simp [show pos.2 = 255 by omega]
        · rw [q2, ok_bind]
          have e : (b.toNat, c'.toNat) = nextNumber pos := by rw [nextNumber, q3, hb, hc]; rfl
          rw [newSection_all p t b c' i hi, ok_bind]
          refine grow (fun h hp => ?_) ?_
          · rw [decide_eq_true_iff] at h
            exact q1 ⟨hp, by rw [hc, h, h1']⟩
          have j := ih (done ++ [(t.psiDraft as) s]) limit (nextNumber pos)
            ⟨(nextNumber pos).1, (nextNumber pos).2, [i]⟩ nm hnm c' b (by rw [← e]) (by rw [← e])
          rw [List.append_assoc, List.singleton_append, ← List.map_cons] at j
          rw [← e] at j ⊢
          exact j
      · simp only [if_neg h2]
        rw [if_neg (fun h => h2 (hlen.1 h))]
        have e : i.assemble p ((t.psiDraft as) s).buffer = .ok (t.allDraft as s.table s.number 0 0 0 (s.events ++ [i])) := aadd_event p t _ _ _ _ _ _ i hi
        rw [e, ok_bind]
        exact ih done limit pos { s with events := s.events ++ [i] } nm hnm c b hc hb

theorem numberLoop_all (p : Profile) (t : Eit) (lt : UInt8) (r : List (Sect EitItem)) (hr : ∀ s ∈ r, s.table < 256 ∧ s.number < 256)
    (acc : List (Sect EitItem × Nat)) (ct ls : UInt8) (h0 : acc = [] → ct = 0 ∧ ls = 0)
    (h1 : ∀ b l q, acc = (b, l) :: q → ct.toNat = b.table ∧ ls.toNat = l) :
    ∃ out, numberLoop p lt (r.map (t.psiDraft as)) ct ls = .ok out ∧
      out.reverse ++ acc.map (fun x => ({ Psi.default with
        buffer := t.allSection as x.1.table x.1.number x.2 x.1.number lt.toNat x.1.events
        size := (t.allSection as x.1.table x.1.number x.2 x.1.number lt.toNat x.1.events).length } : Psi)) =
      (r.foldl markAny acc).map (fun x => ({ Psi.default with
        buffer := t.allSection as x.1.table x.1.number x.2 x.1.number lt.toNat x.1.events
        size := (t.allSection as x.1.table x.1.number x.2 x.1.number lt.toNat x.1.events).length } : Psi)) := by
  induction r generalizing acc ct ls with
  | nil => exact ⟨[], rfl, rfl⟩
  | cons s r ih =>
    obtain ⟨s2, s3⟩ := hr s List.mem_cons_self
    rw [List.map_cons, numberLoop]
    have i0 : idx ((t.psiDraft as) s).buffer 0 = .ok (UInt8.ofNat s.table) := by rw [psiDraft]; simp only [allDraft_form]; rfl
    have i6 : idx ((t.psiDraft as) s).buffer 6 = .ok (UInt8.ofNat s.number) := by rw [psiDraft]; simp only [allDraft_form]; rfl
    have t0 : (UInt8.ofNat s.table).toNat = s.table := by rw [UInt8.toNat_ofNat']; omega
    have t6 : (UInt8.ofNat s.number).toNat = s.number := by rw [UInt8.toNat_ofNat']; omega
    rw [i0, ok_bind, i6, ok_bind]
    have key : ∃ l, markAny acc s = (s, l) :: acc ∧ l < 256 ∧ (if UInt8.ofNat s.table ≠ ct then (UInt8.ofNat s.table, UInt8.ofNat s.number) else (ct, ls)) =
        (UInt8.ofNat s.table, UInt8.ofNat l) := by
      cases acc with
      | nil =>
        obtain ⟨rfl, rfl⟩ := h0 rfl
        refine ⟨if s.table = 0 then 0 else s.number, rfl, by split <;> omega, ?_⟩
        by_cases hz : s.table = 0
        · rw [if_pos hz, hz]; rfl
        · rw [if_neg hz, if_pos]
          intro e
          have := congrArg UInt8.toNat e
          rw [t0] at this
          exact hz this
      | cons y q =>
        obtain ⟨b, l⟩ := y
        obtain ⟨e1, e2⟩ := h1 b l q rfl
        by_cases he : b.table = s.table
        · refine ⟨l, by simp [markAny, he], e2 ▸ ls.toNat_lt, ?_⟩
          have : UInt8.ofNat s.table = ct := by rw [← he, ← e1, UInt8.ofNat_toNat]
          rw [if_neg (by simpa using this), this, ← e2, UInt8.ofNat_toNat]
        · refine ⟨s.number, by simp [markAny, he], s3, ?_⟩
          rw [if_pos]
          intro e
          apply he
          rw [← e1, ← e, t0]
    obtain ⟨l, k1, k2, k3⟩ := key
    have t7 : (UInt8.ofNat l).toNat = l := by rw [UInt8.toNat_ofNat']; omega
    rw [k3]
    simp only []
    rw [psiDraft]
    simp only []
    rw [aset_last, ok_bind, aset_segment, ok_bind, aset_lastTable, ok_bind, finalize_all, ok_bind, t6, t7]
    have hrec := ih (fun x hx => hr x (List.mem_cons_of_mem _ hx)) ((s, l) :: acc) (UInt8.ofNat s.table) (UInt8.ofNat l) (by intro h; cases h)
      (by intro b l' q e; cases e; exact ⟨t0, t7⟩)
    obtain ⟨out, o1, o2⟩ := hrec
    refine ⟨_, by rw [o1, ok_bind]; rfl, ?_⟩
    rw [List.foldl_cons, k1, ← o2]
    simp

theorem place_bound (l : List EitItem) (limit : Nat) (pos : Nat × Nat) (hp : pos.1 < 256 ∧ pos.2 < 256) (s : Sect EitItem)
    (hs : s.table < 256 ∧ s.number < 256) :
    ∀ x ∈ AnyValue.place (·.start.toNat) anyCount (fun i => (anyEntry as i).length) 4078 limit pos s l, x.table < 256 ∧ x.number < 256 := by
  induction l generalizing limit pos s with
  | nil => intro x hx; rw [AnyValue.place, List.mem_singleton] at hx; subst hx; exact hs
  | cons i r ih =>
    intro x hx
    rw [AnyValue.place] at hx
    split at hx
    · rcases List.mem_cons.1 hx with rfl | hx
      · exact hs
      · have hn := nextSegment_lt pos hp
        exact ih _ _ hn _ hn x hx
    · split at hx
      · rcases List.mem_cons.1 hx with rfl | hx
        · exact hs
        · have hn := nextNumber_lt pos hp
          exact ih _ _ hn _ hn x hx
      · exact ih limit pos hp { s with events := s.events ++ [i] } hs x hx

theorem allSects_eq (t : Eit) : (t.allSects as) = (List.range (t.firstSegment + 1)).map (⟨t.base, 8 * ·, []⟩) ++
    AnyValue.place (·.start.toNat) anyCount (fun i => (anyEntry as i).length) 4078 ((t.origin + (t.firstSegment + 2) * segmentLength) % 2 ^ 64)
      (t.base, 8 * (t.firstSegment + 1)) ⟨t.tableId.toNat, 8 * (t.firstSegment + 1), []⟩ t.items := rfl

theorem allSects_ok (t : Eit) : ∀ s ∈ (t.allSects as), s.table < 256 ∧ s.number < 256 := by
  have hf := t.firstSegment_lt
  have hb := t.base_lt
  intro s hs
  rw [allSects_eq] at hs
  rcases List.mem_append.1 hs with hs | hs
  · obtain ⟨k, hk, rfl⟩ := List.mem_map.1 hs
    rw [List.mem_range] at hk
    exact ⟨hb, by simp only []; omega⟩
  · exact place_bound t.items _ _ ⟨hb, by simp only []; omega⟩ _ ⟨t.tableId.toNat_lt, by simp only []; omega⟩ s hs

theorem emptyLoop_all (p : Profile) (t : Eit) (b : UInt8) (n : Nat) (x y : Nat) (acc : List Psi) (m : UInt64) (c : UInt8) (k : Nat)
    (hm' : m.toNat + 10800 * n < 2 ^ 65) (hc : c.toNat = 8 * k) (hk : k + n ≤ 9) :
    ((p = .debug ∧ 2 ^ 64 ≤ m.toNat + n * 10800) ∧ emptyLoop p b n { Psi.default with buffer := t.allDraft as x y 0 0 0 [] } acc m c = panic) ∨
    (¬ (p = .debug ∧ 2 ^ 64 ≤ m.toNat + n * 10800) ∧
    ∃ m' c', emptyLoop p b n { Psi.default with buffer := t.allDraft as x y 0 0 0 [] } acc m c =
      .ok (acc ++ (List.range' k n).map (fun j => (t.psiDraft as) ⟨b.toNat, 8 * j, []⟩), m', c') ∧
      m'.toNat = (m.toNat + n * 10800) % 2 ^ 64 ∧ c'.toNat = 8 * (k + n)) := by
  have hS : SEG_DURATION.toNat = 10800 := by decide
  induction n generalizing x y acc m c k with
  | zero =>
    have := m.toNat_lt
    exact .inr ⟨by omega, m, c, by simp [emptyLoop], by omega, by omega⟩
  | succ n ih =>
    have hml := m.toNat_lt
    rw [emptyLoop, aset_table, ok_bind, aset_number, ok_bind]
    simp only []
    rcases addU64_split p m SEG_DURATION with ⟨u1, u2, u3⟩ | ⟨u1, m1, u2, u3⟩
    · rw [hS] at u2
      exact .inl ⟨⟨u1, by omega⟩, by rw [u3]; rfl⟩
    rw [hS] at u1 u3
    obtain ⟨c1, c2, c3⟩ := addU8_ok (a := c) (b := 8) p (by rw [hc]; show 8 * k + 8 < 256; omega)
    have c3 : c1.toNat = 8 * k + 8 := by rw [c3, hc]; rfl
    rw [u2, ok_bind, c2, ok_bind]
    have hrec := ih b.toNat c.toNat (acc ++ [{ Psi.default with buffer := t.allDraft as b.toNat c.toNat 0 0 0 [] }]) m1 c1 (k + 1)
      (by rw [u3]; omega) (by omega) (by omega)
    rcases hrec with ⟨⟨h1, h2⟩, h3⟩ | ⟨h1, m', c', e1, e2, e3⟩
    · refine .inl ⟨⟨h1, ?_⟩, h3⟩
      rw [u3] at h2
      omega
    · refine .inr ⟨?_, m', c', ?_, ?_, by omega⟩
      · rintro ⟨hp, h⟩
        have : ¬ 2 ^ 64 ≤ m.toNat + 10800 := fun h' => u1 ⟨hp, h'⟩
        refine h1 ⟨hp, ?_⟩
        rw [u3]; omega
      · rw [e1, List.range'_succ, List.map_cons, List.append_assoc, List.singleton_append]
        rw [psiDraft, hc]
      · rw [e2, u3]; omega

theorem anyOverflow_iff (t : Eit) : (t.AnyOverflow as) ↔ t.lastStart < t.origin ∨ 256 ≤ t.base + segmentOf t.origin t.lastStart / 32 % 256 ∨
    2 ^ 64 ≤ t.origin + (t.firstSegment + 2) * segmentLength ∨
    AnyValue.overflows (·.start.toNat) anyCount (fun i => (anyEntry as i).length) 4078 (t.origin + (t.firstSegment + 2) * segmentLength)
      (t.base, 8 * (t.firstSegment + 1)) [] t.items = true := Iff.rfl

theorem assemble_schedule (p : Profile) (t : Eit) (hid : t.tableId ≠ 0x4E ∧ t.tableId ≠ 0x4F) (hne : t.items ≠ [])
    (hev : ∀ i ∈ t.items, ∀ d ∈ i.descriptors, d.Appends p as) :
    Step p (t.AnyOverflow as) (t.psiListAssemble p) ((t.allWire as).map fun b => { Psi.default with buffer := b, size := b.length }) := by
  have hfs := t.firstSegment_lt
  have hol := t.origin_le
  have hbase := t.base_lt
  rw [anyOverflow_iff]
  unfold psiListAssemble
  have hF : t.firstStart = (t.items.head hne).start.toNat := by rw [firstStart, List.head?_eq_some_head hne]; rfl
  have hL : t.lastStart = (t.items.getLast hne).start.toNat := by rw [lastStart, List.getLast?_eq_some_getLast hne]; rfl
  rw [List.head?_eq_some_head hne, List.getLast?_eq_some_getLast hne]
  simp only []
  rw [if_neg (by rintro (e | e); exacts [hid.1 e, hid.2 e])]
  unfold scheduleAssemble
  simp only []
  have hD : DAY_DURATION.toNat = 86400 := by decide
  have hS : SEG_DURATION.toNat = 10800 := by decide
  have hm : ((t.items.head hne).start / DAY_DURATION * DAY_DURATION).toNat = t.origin := by
    rw [UInt64.toNat_mul, UInt64.toNat_div, hD, ← hF, origin, midnight, day]
    have := (t.items.head hne).start.toNat_lt
    rw [← hF] at this
    omega
  generalize (t.items.head hne).start / DAY_DURATION * DAY_DURATION = m at hm ⊢
  have ho : t.origin < 2 ^ 64 := hm ▸ m.toNat_lt
  have hl64 := (t.items.getLast hne).start.toNat_lt
  rw [← hL] at hl64
  rcases subU64_split p (t.items.getLast hne).start m with ⟨a0, a1, a2⟩ | ⟨a0, a1⟩
  · rw [a2]
    rw [← hL, hm] at a1
    exact ⟨fun _ => rfl, fun h => absurd ⟨a0, .inl a1⟩ h⟩
  rw [← hL, hm] at a0
  rw [a1, ok_bind]
  have hq : (((t.items.getLast hne).start - m) / SEG_DURATION / 32).toUInt8.toNat =
      (t.lastStart + 2 ^ 64 - t.origin) % 2 ^ 64 / segmentLength / 32 % 256 := by
    rw [UInt64.toNat_toUInt8, UInt64.toNat_div, UInt64.toNat_div, hS, UInt64.toNat_sub, ← hL, hm, segmentLength]
    show (2 ^ 64 - t.origin + t.lastStart) % 2 ^ 64 / 10800 / 32 % 2 ^ 8 = _
    rw [show 2 ^ 64 - t.origin + t.lastStart = t.lastStart + 2 ^ 64 - t.origin by omega]
  have hb0 : (t.tableId &&& 0xF0).toNat = t.base := base_and t.tableId
  generalize t.tableId &&& 0xF0 = b at hb0 ⊢
  have hd : p = .debug → t.lastStart + 2 ^ 64 - t.origin = (t.lastStart - t.origin) + 2 ^ 64 := by
    intro h
    have : ¬ t.lastStart < t.origin := fun h' => a0 ⟨h, h'⟩
    omega
  rcases addU8_split p b (((t.items.getLast hne).start - m) / SEG_DURATION / 32).toUInt8 with ⟨l0, l1, l2⟩ | ⟨l0, lt, l1, l2⟩
  · rw [l2]
    refine ⟨fun _ => rfl, fun h => absurd ⟨l0, .inr (.inl ?_)⟩ h⟩
    rw [hq, hb0, hd l0, Nat.add_mod_right, Nat.mod_eq_of_lt (a := t.lastStart - t.origin) (by omega)] at l1
    exact l1
  rw [hq, hb0] at l0 l2
  have hlt : lt.toNat = ScheduleAny.lastTable (·.start.toNat) t.tableId.toNat t.items := by
    show lt.toNat = t.lastTable
    rw [l2, lastTable, Nat.add_mod_mod]
  rw [l1, ok_bind, psiInit_all (as := as), ok_bind]
  obtain ⟨d1, d2⟩ := subU64_ok (a := (t.items.head hne).start) (b := m) p (by rw [hm, ← hF]; exact hol)
  rw [hm, ← hF] at d2
  have hcs : (((t.items.head hne).start - m) / (3 * 60 * 60)).toNat = t.firstSegment := by
    rw [UInt64.toNat_div, d2, firstSegment, segmentOf, segmentLength]; rfl
  rw [d1, ok_bind, hcs]
  have e0 := emptyLoop_all (as := as) p t b (t.firstSegment + 1) b.toNat 0 [] m 0 0 (by rw [hm]; omega) rfl (by omega)
  change ((p = .debug ∧ 2 ^ 64 ≤ m.toNat + (t.firstSegment + 1) * 10800) ∧ emptyLoop p b (t.firstSegment + 1)
    { Psi.default with buffer := allDraft as { tableId := b, version := t.version, pnr := t.pnr, tsid := t.tsid, onid := t.onid, items := [] } b.toNat 0 0 0 0 [] }
      [] m 0 = panic) ∨ _ at e0
  rw [hm] at e0
  rcases e0 with ⟨⟨g1, g2⟩, g3⟩ | ⟨g1, m', c', e1, e2, e3⟩
  · rw [g3]
    have hov : 2 ^ 64 ≤ t.origin + (t.firstSegment + 2) * segmentLength :=
      Nat.le_trans g2 (Nat.add_le_add_left (Nat.mul_le_mul_right 10800 (Nat.le_succ (t.firstSegment + 1))) t.origin)
    exact ⟨fun _ => rfl, fun h => absurd ⟨g1, .inr (.inr (.inl hov))⟩ h⟩
  have e1' : emptyLoop p b (t.firstSegment + 1)
    { Psi.default with buffer := allDraft as { tableId := b, version := t.version, pnr := t.pnr, tsid := t.tsid, onid := t.onid, items := [] } b.toNat 0 0 0 0 [] }
      [] m 0 = _ := e1
  rw [e1', ok_bind]
  simp only []
  rcases addU64_split p m' SEG_DURATION with ⟨u1, u2, u3⟩ | ⟨u1, nm, u2, u3⟩
  · rw [u3]
    rw [e2, hS] at u2
    refine ⟨fun _ => rfl, fun h => absurd ⟨u1, .inr (.inr (.inl ?_))⟩ h⟩
    have : ¬ 2 ^ 64 ≤ t.origin + (t.firstSegment + 1) * 10800 := fun h' => g1 ⟨u1, h'⟩
    simp only [segmentLength]
    omega
  rw [e2, hS] at u1 u3
  rw [u2, ok_bind, psiInit_all (as := as), ok_bind]
  simp only []
  rw [aset_number, ok_bind, e3]
  have es : ({ Psi.default with buffer := t.allDraft as t.tableId.toNat (8 * (0 + (t.firstSegment + 1))) 0 0 0 [] } : Psi) =
      (t.psiDraft as) ⟨t.tableId.toNat, 8 * (t.firstSegment + 1), []⟩ := by
    rw [psiDraft]
    simp only [Nat.zero_add]
  rw [es]
  have hno64 : p = .debug → ¬ 2 ^ 64 ≤ t.origin + (t.firstSegment + 2) * segmentLength := by
    intro h h'
    have h1 : ¬ 2 ^ 64 ≤ t.origin + (t.firstSegment + 1) * 10800 := fun h' => g1 ⟨h, h'⟩
    simp only [segmentLength] at h'
    exact u1 ⟨h, by omega⟩
  have hmod : p = .debug → (t.origin + (t.firstSegment + 2) * segmentLength) % 2 ^ 64 = t.origin + (t.firstSegment + 2) * segmentLength := by
    intro h
    have := hno64 h
    omega
  obtain ⟨j1, j2⟩ := eventLoop_all p t t.items hev ([] ++ (List.range' 0 (t.firstSegment + 1)).map (fun j => (t.psiDraft as) ⟨b.toNat, 8 * j, []⟩))
    ((t.origin + (t.firstSegment + 2) * segmentLength) % 2 ^ 64) (t.base, 8 * (t.firstSegment + 1)) ⟨t.tableId.toNat, 8 * (t.firstSegment + 1), []⟩ nm
    (by rw [u3]; simp only [segmentLength]; omega) c' b (by rw [e3]; simp only []; omega) hb0
  constructor
  · rintro ⟨hp, ho⟩
    rcases ho with h | h | h | h
    · exact absurd ⟨hp, h⟩ a0
    · refine absurd ⟨hp, ?_⟩ l0
      rw [hd hp, Nat.add_mod_right, Nat.mod_eq_of_lt (a := t.lastStart - t.origin) (by omega)]
      exact h
    · exact absurd h (hno64 hp)
    · rw [j1 ⟨hp, by rw [hmod hp]; exact h⟩]; rfl
  · intro hno
    rw [j2 (fun h => hno ⟨h.1, .inr (.inr (.inr (by rw [← hmod h.1]; exact h.2)))⟩), ok_bind]
    rw [show ([] ++ (List.range' 0 (t.firstSegment + 1)).map (fun j => (t.psiDraft as) ⟨b.toNat, 8 * j, []⟩) ++
      (AnyValue.place (·.start.toNat) anyCount (fun i => (anyEntry as i).length) 4078 ((t.origin + (t.firstSegment + 2) * segmentLength) % 2 ^ 64)
      (t.base, 8 * (t.firstSegment + 1)) ⟨t.tableId.toNat, 8 * (t.firstSegment + 1), []⟩ t.items).map (t.psiDraft as)) =
      (t.allSects as).map (t.psiDraft as) by
        rw [allSects_eq, List.map_append, List.map_map, hb0, List.range_eq_range', List.nil_append]
        rfl]
    rw [← List.map_reverse]
    obtain ⟨out, o1, o2⟩ := numberLoop_all p t lt (t.allSects as).reverse
      (fun s hs => allSects_ok t s (List.mem_reverse.1 hs)) [] 0 0 (fun _ => ⟨rfl, rfl⟩) (by simp)
    rw [withLast_markAny, List.map_nil, List.append_nil] at o2
    rw [o1, ok_bind, pure_eq_ok, o2, allWire, List.map_map, hlt]
    rfl

theorem allWire_ne (t : Eit) : (t.allWire as) ≠ [] := by
  intro e
  rw [allWire, List.map_eq_nil_iff] at e
  have : (t.allSects as) ≠ [] := by rw [allSects_eq, List.range_succ]; simp
  apply this
  rw [← withLast_fstAny (t.allSects as), e]; rfl

/-- C129, for EIT schedules whose descriptors of the user's append any bytes and state any size: the size stated decides only which section an
event goes to; a program compiled with overflow checks panics if and only if a count overflows. -/
theorem C129_schedule_any (p : Profile) (as : OwnDesc → List UInt8) (t : Eit) (hid : t.tableId ≠ 0x4E ∧ t.tableId ≠ 0x4F) (hne : t.items ≠ [])
    (hr : ∀ i ∈ t.items, ∀ d ∈ i.descriptors, d.Appends p as) (pid : UInt16) (cc : UInt8) (dst : List UInt8)
    (hp : pid.toNat < 8192) (hc : cc.toNat < 16) :
    t.demux p pid cc dst = if p = .debug ∧ t.AnyOverflow as then panic else
      .ok (UInt8.ofNat ((cc.toNat + streamCount (t.allWire as)) % 16), dst ++ (stream pid.toNat cc.toNat (t.allWire as)).flatten) := by
  obtain ⟨h1, h2⟩ := assemble_schedule p t hid hne hr
  by_cases ho : p = .debug ∧ t.AnyOverflow as
  · rw [if_pos ho, demux, h1 ho]; rfl
  · rw [if_neg ho, demux, h2 ho, ok_bind, if_neg (by rw [List.isEmpty_iff, List.map_eq_nil_iff]; exact t.allWire_ne)]
    refine Mpegts.Eit.demuxLoop_eq p pid hp (t.allWire as) ?_ cc hc dst
    intro s hs
    obtain ⟨x, hx, rfl⟩ := List.mem_map.1 hs
    refine List.ne_nil_of_length_pos ?_
    rw [allSection_length]
    omega

end Own.Eit

/-! ## Concrete cases -/

/-- A descriptor of the user's that appends three bytes and states 5000. -/
def boastful : OwnDesc := ⟨9, 0x90, 5000, fun b => .ok (b ++ [0x90, 1, 7])⟩
def boastfulEvent (n : UInt16) : Own.EitItem := ⟨n, 1700000000, 3600, 4, 0, [.own boastful, .ours (.raw ⟨0x80, [5]⟩)]⟩
/-- A schedule of two events with such descriptors, in the same segment. -/
def boastfulSchedule : Own.Eit := ⟨0x50, 3, 7, 1, 2, [boastfulEvent 1, boastfulEvent 2]⟩

theorem boastful_appends (p : Profile) : ∀ i ∈ boastfulSchedule.items, ∀ d ∈ i.descriptors, d.Appends p (fun _ => [0x90, 1, 7]) := by
  intro i hi d hd
  have hd : d = .own boastful ∨ d = .ours (.raw ⟨0x80, [5]⟩) := by
    rcases List.mem_cons.1 hi with rfl | hi
    · simpa [boastfulEvent] using hd
    · rcases List.mem_cons.1 hi with rfl | hi
      · simpa [boastfulEvent] using hd
      · cases hi
  rcases hd with rfl | rfl
  · exact fun _ => rfl
  · rintro ⟨-, h⟩
    exact absurd h (by decide)

/-- The entries take 18 bytes each, are counted with 5015, and so every event has a section of its own. -/
example : (Own.Eit.anyEntry (fun _ => [0x90, 1, 7]) (boastfulEvent 1)).length = 18 ∧ Own.Eit.anyCount (boastfulEvent 1) = 5015 ∧
    (boastfulSchedule.allSects fun _ => [0x90, 1, 7]).map (fun s => (s.table, s.number, s.events.map (·.eventId.toNat))) =
      [(0x50, 0, []), (0x50, 8, []), (0x50, 16, []), (0x50, 24, []), (0x50, 32, []), (0x50, 40, []), (0x50, 48, []), (0x50, 56, []),
        (0x50, 64, []), (0x50, 65, [1]), (0x50, 66, [2])] ∧
    ¬ boastfulSchedule.AnyOverflow fun _ => [0x90, 1, 7] := by decide +kernel
example (p : Profile) (dst : List UInt8) : ∃ cc out, boastfulSchedule.demux p 0x12 3 dst = .ok (cc, dst ++ out) := by
  rw [boastfulSchedule.C129_schedule_any p (fun _ => [0x90, 1, 7]) (by decide) (by simp [boastfulSchedule]) (boastful_appends p) 0x12 3 dst (by decide)
    (by decide), if_neg (fun h => absurd h.2 (by decide +kernel))]
  exact ⟨_, _, rfl⟩
/-- As present and following events they are sent in a section each, whatever they state. -/
example (p : Profile) (dst : List UInt8) : ({ boastfulSchedule with tableId := 0x4E } : Own.Eit).demux p 0x12 3 dst = .ok (5, dst ++
    (packets 0x12 3 (Own.Eit.allSection (fun _ => [0x90, 1, 7]) boastfulSchedule 0x4E 0 1 1 0x4E [boastfulEvent 1]) ++
      packets 0x12 4 (Own.Eit.allSection (fun _ => [0x90, 1, 7]) boastfulSchedule 0x4E 1 1 1 0x4E [boastfulEvent 2])).flatten) := by
  rw [({ boastfulSchedule with tableId := 0x4E } : Own.Eit).C129_eit_any p (fun _ => [0x90, 1, 7]) (by decide) (boastful_appends p) 0x12 3 dst (by decide)
    (by decide)]
  exact congrArg Except.ok (Prod.ext (show UInt8.ofNat ((3 + streamCount (Own.Eit.allPf (fun _ => [0x90, 1, 7])
    { boastfulSchedule with tableId := 0x4E })) % 16) = 5 by decide +kernel) (congrArg (dst ++ List.flatten ·) (by decide +kernel)))

end Mpegts
