import Verif.Spec.Feed
import Verif.Model.Pcr

/-! # Specification: packets changed on the way -/

namespace Spec
open Mpegts

/-- The code a user writes to give a packet that has a PCR another one. -/
def restamp (clock : List UInt8 → UInt64) (ts : List UInt8) : R (List UInt8) := do
  if ← Ts.isPcr ts then Ts.setPcr ts (clock ts) else pure ts

/-- The code a user writes to number packets anew, from `cc` on. -/
def renumber (p : Profile) : (cc : Nat) → List (List UInt8) → R (List (List UInt8))
  | _, [] => pure []
  | cc, ts :: r => do
    let ts ← Ts.setCc p ts (UInt8.ofNat (cc % 16))
    return ts :: (← renumber p (cc + 1) r)

/-- What a packet on its way keeps: it is a packet with the same payload, in which a section begins or not as before. -/
def SamePayload (ts ts' : List UInt8) : Prop :=
  IsPacket ts' ∧ ts'.head? = ts.head? ∧ hasPayload ts' = hasPayload ts ∧ pusiOf ts' = pusiOf ts ∧
    ts'.drop (offsetOf ts') = ts.drop (offsetOf ts)

/-- The code a user writes to count a packet `k` further. -/
def advance (p : Profile) (k : Nat) (ts : List UInt8) : R (List UInt8) := do
  let cc ← Ts.getCc ts
  Ts.setCc p ts (UInt8.ofNat ((cc.toNat + k) % 16))

end Spec
