import Verif.Spec.Discover
import Verif.Spec.ListenPacked
import Verif.Spec.Elapsed
import Verif.Spec.Es

/-! # Specification: receiving a program -/

namespace Spec
open Mpegts

/-- The packets of an elementary stream on a PID carry these PES packets, perhaps after the end of an earlier one. -/
def CarriesPes (pid : Nat) (pks : List (List UInt8)) (us : List PesUnit) : Prop :=
  ∃ (cs before : List Cell) (gs : List (List Cell)), pks = cs.map Cell.bytes ∧ (∀ c ∈ cs, c.Proper) ∧ dataCells pid cs = before ++ gs.flatten ∧ (∀ c ∈ before, c.head.pusi = false) ∧
    (∀ g ∈ gs, OneUnit g) ∧ (∀ u ∈ us, u.Proper) ∧ gs.map (fun g => g.flatMap Cell.payload) = us.map PesUnit.bytes

/-- What a user does with the PMT of a program: read its clock off the PID given there, and get every elementary stream listed there.  The
result is the time that passed and, for each stream, its type and what is read from its PES packets. -/
def receiveProgram (p : Profile) (pmt : Pmt) (pks : List (List UInt8)) : R (Nat × List (UInt8 × List (Option Nat × Option Nat × List UInt8))) := do
  let time ← elapsed (Ts.pcrDelta p) (← readClock pmt.pcr pks)
  let streams ← pmt.items.mapM fun s => do
    let units ← collectUnits p s.pid none pks
    pure (s.streamType, ← units.mapM readPes)
  pure (time, streams)

/-- What a user does to receive a program: receive the PAT, look the program up in it, receive its PMT, and receive the program.  The result
is nothing if the PAT does not list the program. -/
def tune (p : Profile) (pnr : UInt16) (fuel : Nat) (src : Source) (buf : List UInt8) :
    R (Option (Nat × List (UInt8 × List (Option Nat × Option Nat × List UInt8)))) := do
  let (pat, _) ← listen (Pat.parse p) p 0 Pat.default Psi.default fuel src buf
  match pat.items.find? (·.pnr == pnr) with
  | none => pure none
  | some i => do
    let (pmt, _) ← listen (Pmt.parse p) p i.pid.toNat Pmt.default Psi.default fuel src buf
    some <$> receiveProgram p pmt (← readAll fuel src buf)

/-- The same where sections may lie one behind the other (`packedStep`). -/
def tunePacked (p : Profile) (pnr : UInt16) (fuel : Nat) (src : Source) (buf : List UInt8) :
    R (Option (Nat × List (UInt8 × List (Option Nat × Option Nat × List UInt8)))) := do
  let (pat, _) ← listenPacked (Pat.parse p) p 0 Pat.default Psi.default fuel src buf
  match pat.items.find? (·.pnr == pnr) with
  | none => pure none
  | some i => do
    let (pmt, _) ← listenPacked (Pmt.parse p) p i.pid.toNat Pmt.default Psi.default fuel src buf
    some <$> receiveProgram p pmt (← readAll fuel src buf)

/-- A source that delivers these packets, perhaps behind other bytes, and a buffer to read them. -/
structure Streams (pks : List (List UInt8)) (src : Source) (buf : List UInt8) (fuel : Nat) : Prop where
  packets : ∀ pk ∈ pks, pk.length = 188 ∧ pk.head? = some 0x47
  data : ∃ garbage : List UInt8, 0x47 ∉ garbage ∧ src.data = garbage ++ pks.flatten
  steady : Steady src
  buffer : 188 ≤ buf.length
  fuel : src.data.length < fuel

end Spec
