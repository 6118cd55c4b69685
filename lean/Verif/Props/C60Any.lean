import Verif.Props.Sent

/-! # C60: the segment of every event of every schedule -/

namespace Mpegts
open Spec Spec.Table Spec.Schedule

namespace Eit

/-- The segments of the events, in the order in which they are sent, from the sections and the events these carry. -/
def segmentsSent (base : Nat) (secs : List (List UInt8)) (groups : List (List EitItem)) : List Nat :=
  (secs.zip groups).flatMap fun x => x.2.map fun _ => segmentAt base x.1

theorem segments_length {α : Type} (start : α → Nat) (origin : Nat) (l : List α) (s : Nat) : (segments start origin s l).length = l.length := by
  induction l generalizing s with
  | nil => rfl
  | cons i r ih => rw [segments, List.length_cons, ih, List.length_cons]

theorem segmentsSent_eq (t : Eit) (h : t.Schedulable) (hb : t.tableId.toNat % 16 = 0) :
    segmentsSent t.base t.wireSchedule (t.slots.map (·.events)) = segments (·.start.toNat) t.origin (t.firstSegment + 1) t.items := by
  have h1 : t.placed.map (·.2) = segments (·.start.toNat) t.origin (t.firstSegment + 1) t.items := by
    rw [placed_eq, List.map_snd_zip]
    rw [segments_length]
  have h2 : (t.wireSchedule.zip (t.slots.map (·.events))).map (fun x => x.2.map fun _ => segmentAt t.base x.1) =
      t.slots.map fun x => x.events.map fun _ => x.segment := by
    refine List.ext_getElem? fun k => ?_
    rw [List.getElem?_map, List.getElem?_map]
    have hl : t.wireSchedule.length = t.slots.length := by
      have := (schedule_carry t h).1
      rwa [List.length_map] at this
    by_cases hk : k < t.slots.length
    · have e1 := List.getElem?_eq_getElem (l := t.wireSchedule) (i := k) (by omega)
      obtain ⟨x, hx, hseg⟩ := schedule_segment t h hb k _ e1
      have e2 : (t.wireSchedule.zip (t.slots.map (·.events)))[k]? = some (_, x.events) :=
        List.getElem?_zip_eq_some.2 ⟨e1, by rw [List.getElem?_map, hx]; rfl⟩
      rw [e2, hx, Option.map_some, Option.map_some, hseg]
    · rw [List.getElem?_eq_none (by rw [List.length_zip, List.length_map]; omega), List.getElem?_eq_none (by omega)]
      rfl
  rw [segmentsSent, List.flatMap_def, h2, ← h1, placed, List.map_flatMap, List.flatMap_def]
  simp only [List.map_map, Function.comp_def]

theorem segments_next {α : Type} (start : α → Nat) (origin : Nat) (l : List α) (s : Nat) :
    (∀ n i m, l[n + 1]? = some i → (segments start origin s l)[n]? = some m →
      (segments start origin s l)[n + 1]? = some (if m < segmentOf origin (start i) then m + 1 else m)) := by
  induction l generalizing s with
  | nil => intro n i m h; cases h
  | cons a r ih =>
    intro n i m h1 h2
    rw [segments] at h2 ⊢
    cases n with
    | succ n => exact ih _ n i m h1 h2
    | zero =>
      cases r with
      | nil => cases h1
      | cons b r =>
        cases h1
        cases h2
        rfl

/-- C60, for every schedule, exactly: the first event is sent in the segment after its own; every other in the segment of the event before it, or,
if it starts after that, in the next.  So the event with `n` others before it is sent at most `n + 1` segments after that of the first, and too
early if it starts later. -/
theorem C60_any_refuted (p : Profile) (t : Eit) (h : t.Schedulable) (hb : t.tableId.toNat % 16 = 0)
    (pid : UInt16) (cc : UInt8) (dst : List UInt8) (hp : pid.toNat < 8192) (hc : cc.toNat < 16) :
    ∃ secs groups segs, Sends (t.demux p pid cc dst) pid cc dst secs ∧ Carry entry secs groups ∧ groups.flatten = t.items ∧
      segs = segmentsSent t.base secs groups ∧ segs.length = t.items.length ∧
      segs[0]? = some (segmentOf t.origin t.firstStart + 1) ∧
      (∀ n i s, t.items[n + 1]? = some i → segs[n]? = some s →
        segs[n + 1]? = some (if s < segmentOf t.origin i.start.toNat then s + 1 else s)) ∧
      ∀ n i s, t.items[n]? = some i → segs[n]? = some s → s ≤ segmentOf t.origin t.firstStart + 1 + n ∧
        (segmentOf t.origin t.firstStart + 1 + n < segmentOf t.origin i.start.toNat → s < segmentOf t.origin i.start.toNat) := by
  have h0 : (segments (·.start.toNat) t.origin (t.firstSegment + 1) t.items)[0]? = some (segmentOf t.origin t.firstStart + 1) := by
    cases hi : t.items with
    | nil => exact absurd hi h.nonempty
    | cons i r =>
      have : t.firstStart = i.start.toNat := by rw [firstStart, hi]; rfl
      rw [segments, firstSegment, this, if_neg (by omega)]
      rfl
  have hle : ∀ n s, (segments (·.start.toNat) t.origin (t.firstSegment + 1) t.items)[n]? = some s →
      s ≤ segmentOf t.origin t.firstStart + 1 + n := by
    intro n
    induction n with
    | zero => intro s hs; rw [h0] at hs; cases hs; omega
    | succ n ih =>
      intro s hs
      have hl : (segments (·.start.toNat) t.origin (t.firstSegment + 1) t.items).length = t.items.length := segments_length _ _ _ _
      have hn := (List.getElem?_eq_some_iff.1 hs).1
      have e1 := List.getElem?_eq_getElem (l := t.items) (i := n + 1) (by omega)
      have e2 := List.getElem?_eq_getElem (l := segments (·.start.toNat) t.origin (t.firstSegment + 1) t.items) (i := n) (by omega)
      have e3 := segments_next _ _ _ _ n _ _ e1 e2
      have := ih _ e2
      rw [hs] at e3
      have e4 := Option.some.inj e3
      rw [e4]
      split <;> omega
  refine ⟨_, _, _, sendsSchedule p t h pid cc dst hp hc, schedule_carry t h, schedule_groups t, rfl, ?_⟩
  rw [segmentsSent_eq t h hb]
  refine ⟨?_, h0, segments_next _ _ _ _, fun n i s _ hs => ⟨hle n s hs, fun hlt => ?_⟩⟩
  · exact segments_length _ _ _ _
  · have := hle n s hs
    omega

end Eit

/-- Three events, the last two of which start on the next day. -/
example (p : Profile) := Eit.C60_any_refuted p { sampleSchedule with items := [⟨1, 1700000000, 3600, 4, 1, []⟩, ⟨2, 1700086400, 3600, 4, 1, []⟩,
    ⟨3, 1700090000, 3600, 4, 1, []⟩] }
  ⟨by decide, by decide, by decide +kernel, by decide +kernel, Eit.capacity_small _ (by decide +kernel)⟩ (by decide) 0x12 3 [] (by decide) (by decide)

end Mpegts
