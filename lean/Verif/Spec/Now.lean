import Verif.Spec.Guide
import Verif.Spec.Multiplex

/-! # Specification: what is on now, by the clock of the stream -/

namespace Spec
open Mpegts

/-- The event table, if it is one. -/
def asEit : AnyTable → Option Eit
  | .eit t => some t
  | _ => none

/-- The time, if the table is a TDT. -/
def asTime : AnyTable → Option Nat
  | .tdt t => some t.time.toNat
  | _ => none

/-- The events of this service on air now, from a byte source: the time is the last one received on PID 0x14 (0 if there is none), the events
are those received on PID 0x12. -/
def whatIsOnNow (p : Profile) (service : UInt16) (fuel : Nat) (src : Source) (buf : List UInt8) : R (List EitItem) := do
  let (clock, _) ← listen (Tdt.parse p) p 0x14 Tdt.default Psi.default fuel src buf
  whatIsOn p 0x12 service clock.time.toNat Psi.default fuel src buf

end Spec
