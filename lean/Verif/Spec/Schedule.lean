/-! # Specification: the segments of an EIT schedule

EN 300 468 5.2.4 and ETR 211 4.1.4 divide the time from midnight on into segments of three hours.  Segment `s` has the section numbers
`8 * (s % 32)` to `8 * (s % 32) + 7` of the sub-table with the id `base + s / 32`.

`place` is not the placement of the standard but the one the code makes; `C60_*` compare the two. -/

namespace Spec.Schedule

/-- Seconds in a segment. -/
def segmentLength : Nat := 3 * 3600
/-- Seconds in a day. -/
def day : Nat := 24 * 3600

/-- The midnight before (or at) a time. -/
def midnight (t : Nat) : Nat := t - t % day

/-- The segment, counted from the given midnight, in which a time lies. -/
def segmentOf (origin t : Nat) : Nat := (t - origin) / segmentLength

/-- A section of a schedule: its segment, its position among the sections of the segment, its table id, and its events. -/
structure Slot (α : Type) where
  segment : Nat
  index : Nat
  table : Nat
  events : List α
deriving DecidableEq, Repr

/-- The section number. -/
def Slot.number {α : Type} (s : Slot α) : Nat := 8 * (s.segment % 32) + s.index

/-- Events are put into the section `s` until one starts after the end of its segment (this one opens the next segment, even if it
starts later than that one ends), or does not fit (this one opens the next section of the segment).  `room` is the number of bytes
for events in a section (it must not be filled entirely). -/
def place {α : Type} (start size : α → Nat) (room origin base : Nat) (s : Slot α) : List α → List (Slot α)
  | [] => [s]
  | i :: r =>
    if origin + (s.segment + 1) * segmentLength ≤ start i then
      s :: place start size room origin base ⟨s.segment + 1, 0, base + (s.segment + 1) / 32, [i]⟩ r
    else if room ≤ (s.events.map size).sum + size i then
      s :: place start size room origin base ⟨s.segment, s.index + 1, base + s.segment / 32, [i]⟩ r
    else place start size room origin base { s with events := s.events ++ [i] } r

/-- The number of the last section of the run of sections with the same table id that begins with `s`. -/
def lastNumber {α : Type} (s : Slot α) : List (Slot α) → Nat
  | [] => s.number
  | b :: r => if b.table = s.table then lastNumber b r else s.number

/-- Every section with the number of the last section of its sub-table. -/
def withLast {α : Type} : List (Slot α) → List (Slot α × Nat)
  | [] => []
  | s :: r => (s, lastNumber s r) :: withLast r

/-- The segment in which `place` puts each event, if the one before was put into segment `s`. -/
def segments {α : Type} (start : α → Nat) (origin s : Nat) : List α → List Nat
  | [] => []
  | i :: r =>
    let s' := if s < segmentOf origin (start i) then s + 1 else s
    s' :: segments start origin s' r

example : midnight 1700000000 = 1699920000 := by decide
example : segmentOf 1699920000 1700000000 = 7 := by decide

end Spec.Schedule
