import Verif.Spec.ForeignName
import Verif.Model.Tdt

/-! # Specification: what is on now, from any sender -/

namespace Spec
open Mpegts

/-- A section on the PID of the time tables: a TOT, or anything with another table id (a TDT, say). -/
inductive ClockSection where
  | tot (s : Foreign.Tot)
  | other (bytes : List UInt8)

def ClockSection.bytes : ClockSection → List UInt8
  | tot s => complete s.body
  | other b => b

def ClockSection.Ok : ClockSection → Prop
  | tot s => s.Ok
  | other b => IsSection b ∧ b.head? ≠ some 0x73

/-- The time of the last TOT (0 if there is none). -/
def clockTime (l : List ClockSection) : Nat :=
  (l.filterMap fun x => match x with | .tot s => some s.time | .other _ => none).getLast?.getD 0

/-- The descriptors (time offsets, usually) of every TOT can be read. -/
def ClockReadable (p : Profile) (l : List ClockSection) : Prop :=
  ∀ x ∈ l, match x with | .tot s => ∃ ds, (Descriptor.frames s.descs).mapM (Desc.parse p) = .ok ds | .other _ => True

/-- What a user does to be told what is on now: take the time from the TOTs on PID 0x14, then the events on PID 0x12. -/
def tellWhatIsOnNow (p : Profile) (service : UInt16) (s : Psi) (fuel : Nat) (src : Source) (buf : List UInt8) :
    R (List (UInt16 × List (List Char × List Char × List Char))) := do
  let (clock, _) ← listenPacked (Tot.parse p) p 0x14 ⟨0, []⟩ s fuel src buf
  tellWhatIsOn p 0x12 service clock.time.toNat s fuel src buf

end Spec
