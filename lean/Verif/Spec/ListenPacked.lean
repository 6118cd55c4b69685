import Verif.Spec.Listen
import Verif.Spec.PackedStream
import Verif.Model.Pat
import Verif.Model.Pmt

/-! # Specification: receiving from a stream whose sender puts sections one behind the other -/

namespace Spec
open Mpegts

/-- Read packets from the source and do with those of PID `pid` what `packedStep` says. -/
def listenPacked {α : Type} (parse : α → Psi → R α) (p : Profile) (pid : Nat) (t : α) (s : Psi) (fuel : Nat) (src : Source)
    (buf : List UInt8) : R (α × Psi) := do
  let pks ← readAll fuel src buf
  pks.foldlM (fun st ts => do
    let q ← Ts.getPid ts
    if q.toNat = pid then packedStep parse p st ts else pure st) (t, s)

/-- The stream carries the sections `secs` on PID `pid`, laid out in packets in any way that `Packing` allows, among any other packets. -/
def CarriesSections (pid : Nat) (data : List UInt8) (secs : List (List UInt8)) : Prop :=
  ∃ cc pks, Carries pid data pks ∧ Packing [] [] cc pks secs

/-- Find the programs of a stream: the PAT from PID 0, then the PMT of every program from the PID the PAT gives for it. -/
def discoverPacked (p : Profile) (fuel : Nat) (src : Source) (buf : List UInt8) : R (List (UInt16 × Pmt)) := do
  let (pat, _) ← listenPacked (Pat.parse p) p 0 Pat.default Psi.default fuel src buf
  pat.items.mapM fun i => do
    let (pmt, _) ← listenPacked (Pmt.parse p) p i.pid.toNat Pmt.default Psi.default fuel src buf
    pure (i.pnr, pmt)

end Spec
