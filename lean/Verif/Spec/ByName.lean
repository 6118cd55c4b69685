import Verif.Spec.Names
import Verif.Spec.Tune

/-! # Specification: watching a service by its name -/

namespace Spec
open Mpegts

/-- What a user does to watch a service of which they know the name: list the services (SDT on PID 0x11), take the first one that shows this
name, and receive the program of its number.  The result is nothing if there is no such service, or no such program. -/
def watchService (p : Profile) (name : List Char) (fuel : Nat) (src : Source) (buf : List UInt8) :
    R (Option (Nat × List (UInt8 × List (Option Nat × Option Nat × List UInt8)))) := do
  let services ← listServices p 0x11 Psi.default fuel src buf
  match services.find? (fun s => s.2.any (·.2.2 == name)) with
  | none => pure none
  | some s => tune p s.1 fuel src buf

end Spec
