import Verif.Spec.ListenPacked
import Verif.Spec.Foreign
import Verif.Model.Eit

/-! # Specification: a programme guide

What a viewer asks a guide: what is on, on this service, at this time. -/

namespace Spec
open Mpegts

/-- The events that have begun by this time and have not ended. -/
def onAir (time : Nat) (events : List EitItem) : List EitItem :=
  events.filter fun i => i.start.toNat ≤ time ∧ time < i.start.toNat + i.duration.toNat

/-- The events of a service in a list of event tables. -/
def eventsOf (service : UInt16) (ts : List Eit) : List EitItem := (ts.filter (·.pnr = service)).flatMap (·.items)

/-- Send event tables one after the other on one PID. -/
def sendEits (p : Profile) (pid : UInt16) : List Eit → UInt8 → List UInt8 → R (UInt8 × List UInt8)
  | [], cc, dst => .ok (cc, dst)
  | t :: ts, cc, dst => do
    let (cc, dst) ← t.demux p pid cc dst
    sendEits p pid ts cc dst

/-- What a user writes to collect the events of one service: sections whose bytes 3 and 4 (service_id, EN 300 468, 5.2.4) name another one
are not given to the table. -/
def collectService (p : Profile) (service : UInt16) (t : Eit) (psi : Psi) : R Eit :=
  if (psi.buffer.drop 3).take 2 = beBytes 2 service.toNat then t.parse p psi else .ok t

/-- The events of this service on air at this time, from a byte source. -/
def whatIsOn (p : Profile) (pid : Nat) (service : UInt16) (time : Nat) (s : Psi) (fuel : Nat) (src : Source) (buf : List UInt8) :
    R (List EitItem) := do
  let (t, _) ← listen (collectService p service) p pid Eit.default s fuel src buf
  return onAir time t.items

/-- The same, by a user who gives every section to the table. -/
def whatIsOnUnsorted (p : Profile) (pid : Nat) (time : Nat) (s : Psi) (fuel : Nat) (src : Source) (buf : List UInt8) :
    R (UInt16 × List EitItem) := do
  let (t, _) ← listen (Eit.parse p) p pid Eit.default s fuel src buf
  return (t.pnr, onAir time t.items)

/-- `whatIsOn` where sections may lie one behind the other (`packedStep`). -/
def whatIsOnPacked (p : Profile) (pid : Nat) (service : UInt16) (time : Nat) (s : Psi) (fuel : Nat) (src : Source) (buf : List UInt8) :
    R (List EitItem) := do
  let (t, _) ← listenPacked (collectService p service) p pid Eit.default s fuel src buf
  return onAir time t.items

/-- The events of a service in sections of any sender. -/
def eventsIn (service : UInt16) (ss : List Foreign.Eit) : List Foreign.Event := (ss.filter (·.head.ext = service.toNat)).flatMap (·.events)

/-- Those of them that have begun by this time and have not ended. -/
def onAirIn (time : Nat) (events : List Foreign.Event) : List Foreign.Event :=
  events.filter fun x => x.start ≤ time ∧ time < x.start + x.duration

end Spec
