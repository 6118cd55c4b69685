import Verif.Spec.Feed
import Verif.Spec.Tables

/-! # Specification: sections received over a channel that loses packets -/

namespace Spec
open Mpegts

/-- The packets of `l` that arrive; `n` is the position of the first one, `keep` says which positions arrive. -/
def received (keep : Nat → Bool) : (n : Nat) → List (List UInt8) → List (List UInt8)
  | _, [] => []
  | n, pk :: r => if keep n then pk :: received keep (n + 1) r else received keep (n + 1) r

/-- The loop a user writes to collect sections: give each packet to `mux`, and whenever `check` then accepts, take the
section out of the buffer. -/
def sections (p : Profile) : Psi → List (List UInt8) → R (List (List UInt8))
  | _, [] => .ok []
  | s, pk :: r => do
    let s ← s.mux p pk
    let ok ← s.check p
    let rest ← sections p s r
    pure (if ok then s.buffer.take s.size :: rest else rest)

/-- The sections all of whose packets arrive; `n` is the position of the first packet. -/
def intact (keep : Nat → Bool) : (n : Nat) → List (List UInt8) → List (List UInt8)
  | _, [] => []
  | n, sec :: r =>
    let rest := intact keep (n + packetCount sec.length) r
    if (List.range (packetCount sec.length)).all (fun i => keep (n + i)) then sec :: rest else rest

/-- The elements of `l` all of whose packets arrive when each `x` is sent as the section `bytes x`, one after the other;
`n` is the position of the first packet. -/
def survivors {β : Type} (bytes : β → List UInt8) (keep : Nat → Bool) : (n : Nat) → List β → List β
  | _, [] => []
  | n, x :: r =>
    let rest := survivors bytes keep (n + packetCount (bytes x).length) r
    if (List.range (packetCount (bytes x).length)).all (fun i => keep (n + i)) then x :: rest else rest

/-- The four-bit counter is unambiguous: if the packet behind an arriving one is lost, then a continuation packet that
arrives 17, 33, ... positions behind the former (so that its counter looks like the next one) has the start of a section
arrive in between. -/
def Unambiguous (keep : Nat → Bool) (sent : List (List UInt8)) : Prop :=
  ∀ i j, i + 1 < j → j < sent.length → keep i = true → keep (i + 1) = false → keep j = true →
    (j - i) % 16 = 1 →
    pusiOf (sent.getD j []) = false →
    ∃ k, i < k ∧ k < j ∧ keep k = true ∧ pusiOf (sent.getD k []) = true

/-- The loop a broadcaster writes: send the same table `n` times, handing the continuity counter on. -/
def sendTimes (send : UInt8 → List UInt8 → R (UInt8 × List UInt8)) : (n : Nat) → UInt8 → List UInt8 → R (UInt8 × List UInt8)
  | 0, cc, dst => .ok (cc, dst)
  | n + 1, cc, dst => do
    let (cc, dst) ← send cc dst
    sendTimes send n cc dst

example : received (fun n => decide (n ≠ 1)) 0 [[1], [2], [3]] = [[1], [3]] := by decide

end Spec
