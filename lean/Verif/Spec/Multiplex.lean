import Verif.Spec.SharedPid
import Verif.Spec.Listen

/-! # Specification: tables on several PIDs

The PIDs are those of ISO 13818-1, 2.4.4.4, and EN 300 468, table 1. -/

namespace Spec
open Mpegts

/-- Send tables one after the other, each on its own PID, with one continuity counter per PID, into one buffer. -/
def multiplex (p : Profile) : List (UInt16 × AnyTable) → (UInt16 → UInt8) → List UInt8 → R (List UInt8)
  | [], _, dst => .ok dst
  | (pid, x) :: l, cc, dst => do
    let (c, dst) ← x.demux p pid (cc pid) dst
    multiplex p l (fun q => if q = pid then c else cc q) dst

/-- The tables sent on a PID. -/
def onPid (pid : UInt16) (l : List (UInt16 × AnyTable)) : List AnyTable := (l.filter (·.1 = pid)).map (·.2)

/-- The PID on which the crate's constants tell a user to send a table; a PMT has no fixed one. -/
def AnyTable.home : AnyTable → UInt16 → Prop
  | .pat _, pid => pid = PAT_PID
  | .pmt _, pid => 0x20 ≤ pid.toNat ∧ pid.toNat < 0x1FFF
  | .nit _, pid => pid = NIT_PID
  | .sdt _, pid => pid = SDT_PID
  | .eit _, pid => pid = EIT_PID
  | .tdt _, pid => pid = TDT_PID
  | .tot _, pid => pid = TOT_PID

/-- The stream carries the packets `pks` of this PID, perhaps with packets of other PIDs in between. -/
def CarriesPid (pid : UInt16) (data : List UInt8) (pks : List (List UInt8)) : Prop :=
  Carries pid.toNat data (pks.filter fun pk => pidOf pk = pid.toNat)

end Spec
