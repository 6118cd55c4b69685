import Verif.Spec.Listen

/-! # Specification: recordings one behind the other -/

namespace Spec
open Mpegts

/-- A recording that was not cut inside a packet: packets, each after bytes that are not 0x47, and at the end more such bytes. -/
def WholeRecording (data : List UInt8) : Prop :=
  ∃ (l : List (List UInt8 × List UInt8)) (gap : List UInt8), data = interleave l ++ gap ∧
    (∀ x ∈ l, 0x47 ∉ x.1 ∧ x.2.length = 188 ∧ x.2.head? = some 0x47) ∧ 0x47 ∉ gap

/-- A section begins right at the beginning of the packet's payload: the packet has a payload and is marked as one in which a payload unit
starts, and the first byte of the payload, the pointer field, is 0. -/
def BeginsSection (pk : List UInt8) : Prop := hasPayload pk = true ∧ pusiOf pk = true ∧ offsetOf pk < 188 ∧ pointerOf pk = 0

/-- The first packet of the PID in a recording, if there is one, begins a section. -/
def BeginsWithSection (pid : Nat) (data : List UInt8) : Prop :=
  ∀ pk, ((packetsOf data).filter fun pk => pidOf pk = pid).head? = some pk → BeginsSection pk

/-- A table after the recordings are played one by one, the receiver being switched on anew for each: only the table is kept. -/
def playEach {α : Type} (parse : α → Psi → R α) (p : Profile) (pid : Nat) (fuel : Nat) (buf : List UInt8) : (t : α) → (recordings : List Source) → R α
  | t, [] => .ok t
  | t, src :: recordings => do
    let r ← listen parse p pid t Psi.default fuel src buf
    playEach parse p pid fuel buf r.1 recordings

end Spec
