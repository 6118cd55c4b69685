import Verif.Spec.Schedule

/-! # Specification: the sections of an EIT schedule of any length

`Spec.Schedule` describes schedules that stay within the capacity of the standard: eight sections for each segment, 64 days.  The
code does not check either limit.  This is the placement it makes without them: table ids and section numbers are counted in a byte each. -/

namespace Spec.ScheduleAny
open Spec.Schedule

/-- A section of a schedule: its table id, its number, its events. -/
structure Sect (α : Type) where
  table : Nat
  number : Nat
  events : List α
deriving DecidableEq, Repr

/-- Table id and number of the first section of the next segment: the next multiple of eight; after the 32nd segment, the next
table. -/
def nextSegment (pos : Nat × Nat) : Nat × Nat :=
  if pos.2 / 8 = 31 then ((pos.1 + 1) % 256, 0) else (pos.1, pos.2 / 8 * 8 + 8)

/-- Table id and number of the next section of the same segment. -/
def nextNumber (pos : Nat × Nat) : Nat × Nat := (pos.1, (pos.2 + 1) % 256)

/-- Events are put into the section `s` until one starts at `limit` or later (this one opens the next segment, three hours
longer), or does not fit (this one opens the next section).  `room` is the number of bytes for events in a section (it must not be
filled entirely); `pos` is the position from which the next one is counted. -/
def place {α : Type} (start size : α → Nat) (room limit : Nat) (pos : Nat × Nat) (s : Sect α) : List α → List (Sect α)
  | [] => [s]
  | i :: r =>
    if limit ≤ start i then
      s :: place start size room (limit + segmentLength) (nextSegment pos) ⟨(nextSegment pos).1, (nextSegment pos).2, [i]⟩ r
    else if room ≤ (s.events.map size).sum + size i then
      s :: place start size room limit (nextNumber pos) ⟨(nextNumber pos).1, (nextNumber pos).2, [i]⟩ r
    else place start size room limit pos { s with events := s.events ++ [i] } r

/-- Some count passes 255 while the events are placed; `held` are the events in the current section. -/
def overflows {α : Type} (start size : α → Nat) (room limit : Nat) (pos : Nat × Nat) (held : List α) : List α → Bool
  | [] => false
  | i :: r =>
    if limit ≤ start i then
      decide (pos.2 / 8 = 31 ∧ pos.1 = 255) || overflows start size room (limit + segmentLength) (nextSegment pos) [i] r
    else if room ≤ (held.map size).sum + size i then
      decide (pos.2 = 255) || overflows start size room limit (nextNumber pos) [i] r
    else overflows start size room limit pos (held ++ [i]) r

/-- The number of the last section of the run of sections with the same table id that begins with `s` (zero in the run with table id
zero at the end of the list). -/
def lastNumber {α : Type} (s : Sect α) : List (Sect α) → Nat
  | [] => if s.table = 0 then 0 else s.number
  | b :: r => if b.table = s.table then lastNumber b r else s.number

/-- Every section with the number of the last section of its run. -/
def withLast {α : Type} : List (Sect α) → List (Sect α × Nat)
  | [] => []
  | s :: r => (s, lastNumber s r) :: withLast r

/-- The start of the first event of a list (0 if there is none). -/
def firstStart {α : Type} (start : α → Nat) (l : List α) : Nat := (l.head?.map start).getD 0
/-- The start of the last event of a list (0 if there is none). -/
def lastStart {α : Type} (start : α → Nat) (l : List α) : Nat := (l.getLast?.map start).getD 0

/-- The sections for the events `l` of a schedule with the table id `id`: one without events for each segment from the midnight
before the first event up to the segment of the first event, then those with events, beginning with the segment after it. -/
def sections {α : Type} (start size : α → Nat) (room id : Nat) (l : List α) : List (Sect α) :=
  let origin := midnight (firstStart start l)
  let first := segmentOf origin (firstStart start l)
  (List.range (first + 1)).map (⟨id / 16 * 16, 8 * ·, []⟩) ++
    place start size room (origin + (first + 2) * segmentLength) (id / 16 * 16, 8 * (first + 1)) ⟨id, 8 * (first + 1), []⟩ l

/-- The last table id announced. -/
def lastTable {α : Type} (start : α → Nat) (id : Nat) (l : List α) : Nat :=
  (id / 16 * 16 + (lastStart start l + 2 ^ 64 - midnight (firstStart start l)) % 2 ^ 64 / segmentLength / 32) % 256

/-- Some count passes the end of its type. -/
def SomeOverflow {α : Type} (start size : α → Nat) (room id : Nat) (l : List α) : Prop :=
  let origin := midnight (firstStart start l)
  let first := segmentOf origin (firstStart start l)
  lastStart start l < origin ∨ 256 ≤ id / 16 * 16 + segmentOf origin (lastStart start l) / 32 % 256 ∨
    overflows start size room (origin + (first + 2) * segmentLength) (id / 16 * 16, 8 * (first + 1)) [] l = true

instance {α : Type} (start size : α → Nat) (room id : Nat) (l : List α) : Decidable (SomeOverflow start size room id l) := by
  unfold SomeOverflow; infer_instance

example : nextSegment (0x50, 64) = (0x50, 72) := rfl
example : nextSegment (0x50, 251) = (0x51, 0) := rfl
example : nextNumber (0x50, 71) = (0x50, 72) := rfl

end Spec.ScheduleAny
