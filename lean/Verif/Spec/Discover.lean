import Verif.Spec.Listen
import Verif.Model.Pat
import Verif.Model.Pmt

/-! # Specification: from the PAT to the PMTs of the programs -/

namespace Spec
open Mpegts

/-- A stream with a PAT on PID 0 and, for every program, a PMT on the PID given with it. -/
def broadcast (p : Profile) (pat : Pat) (programs : List (UInt16 × Pmt)) : R (List UInt8) := do
  let (_, dst) ← pat.demux p 0 0 []
  programs.foldlM (fun dst x => do
    let (_, dst) ← x.2.demux p x.1 0 dst
    pure dst) dst

/-- The table lists the program number and the PID of every program, in order. -/
def Lists (pat : Pat) (programs : List (UInt16 × Pmt)) : Prop := pat.items = programs.map fun x => ⟨x.2.pnr, x.1⟩

/-- How a user finds the programs of a stream: receive the PAT from PID 0, and then the PMT of every program from the PID the PAT gives
for it. -/
def discover (p : Profile) (fuel : Nat) (src : Source) (buf : List UInt8) : R (List (UInt16 × Pmt)) := do
  let (pat, _) ← listen (Pat.parse p) p 0 Pat.default Psi.default fuel src buf
  pat.items.mapM fun i => do
    let (pmt, _) ← listen (Pmt.parse p) p i.pid.toNat Pmt.default Psi.default fuel src buf
    pure (i.pnr, pmt)

end Spec
