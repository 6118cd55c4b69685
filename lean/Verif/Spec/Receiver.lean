import Verif.Spec.Feed

/-! # Specification: another receiver of sections

How ISO/IEC 13818-1, 2.4.4 says sections are taken from the packets of a PID.  It has nothing to do with the crate: it can follow any
number of sections in a packet, and stuffing.  (Packets sent twice are not considered.) -/

namespace Spec

/-- The size a section states in its first three bytes. -/
def statedSize (b : List UInt8) : Nat := 3 + beNat ((b.drop 1).take 2) % 4096

/-- The complete sections at the beginning of some bytes, up to the stuffing (0xFF, no table has this id), and what has arrived of a
section behind them. -/
def cut (b : List UInt8) : List (List UInt8) × List UInt8 :=
  if b = [] ∨ b.head? = some 0xFF then ([], [])
  else if _h : 3 ≤ b.length ∧ statedSize b ≤ b.length then
    (b.take (statedSize b) :: (cut (b.drop (statedSize b))).1, (cut (b.drop (statedSize b))).2)
  else ([], b)
termination_by b.length
decreasing_by all_goals (simp only [List.length_drop, statedSize]; omega)

/-- The sections received, what has arrived of the section under way, and the last continuity counter. -/
structure Reception where
  sections : List (List UInt8)
  pending : List UInt8
  counter : Nat

/-- A packet arrives. -/
def Reception.packet (r : Reception) (ts : List UInt8) : Reception :=
  if hasPayload ts = false then r
  else
    let payload := ts.drop (offsetOf ts)
    let pending := if ccOf ts = (r.counter + 1) % 16 then r.pending else []
    if pusiOf ts then
      let ending := if pending = [] then [] else (cut (pending ++ (payload.drop 1).take (pointerOf ts))).1.take 1
      let next := cut ((payload.drop 1).drop (pointerOf ts))
      ⟨r.sections ++ ending ++ next.1, next.2, ccOf ts⟩
    else if pending = [] then ⟨r.sections, [], ccOf ts⟩
    else
      let c := cut (pending ++ payload)
      ⟨r.sections ++ c.1.take 1, if c.1 = [] then c.2 else [], ccOf ts⟩

/-- A section another receiver can tell from stuffing. -/
def Real (s : List UInt8) : Prop := IsSection s ∧ s.head? ≠ some 0xFF

/-- The sections in the packets of a PID, received from the beginning. -/
def sectionsIn (pks : List (List UInt8)) : List (List UInt8) := (pks.foldl Reception.packet ⟨[], [], 0⟩).sections

end Spec
