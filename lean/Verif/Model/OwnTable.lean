import Verif.Model.Psi

/-! # Tables of the user's own types

`PsiDemux` (src/psi/mod.rs:257-283) is a public trait with a method the user must write and two they may write.  Here its default `demux`
with any `psi_list_assemble` and any `finalize`, which may do anything to the section but have no effects besides. -/

namespace Mpegts

/-- A value of a type that implements `PsiDemux`, src/psi/mod.rs:257-262: what `psi_list_assemble` returns, and the hook `finalize`, which is
given each section and changes it. -/
structure OwnTable where
  sections : R (List Psi)
  finalize : Psi → R Psi := .ok

namespace OwnTable

/-- The loop of `PsiDemux::demux`, src/psi/mod.rs:272-281. -/
def demuxLoop (p : Profile) (self : OwnTable) (pid : UInt16) (last : UInt8) :
    (sectionNumber : Nat) → List Psi → (cc : UInt8) → (dst : List UInt8) → R (UInt8 × List UInt8)
  | _, [], cc, dst => .ok (cc, dst)
  | n, psi :: rest, cc, dst => do
    let buffer ← setIdx psi.buffer 6 (UInt8.ofNat n)
    let buffer ← setIdx buffer 7 last
    let psi ← self.finalize { psi with buffer := buffer }
    let psi ← psi.finalize p
    let psi := { psi with pid := pid, cc := cc }
    let (psi, dst) ← psi.demux p dst
    demuxLoop p self pid last (n + 1) rest psi.cc dst

/-- Default `PsiDemux::demux`, src/psi/mod.rs:265-282.  Returns the new `*cc` and `dst`. -/
def demux (p : Profile) (self : OwnTable) (pid : UInt16) (cc : UInt8) (dst : List UInt8) : R (UInt8 × List UInt8) := do
  let psiList ← self.sections
  if psiList.isEmpty then return (cc, dst)
  demuxLoop p self pid (UInt8.ofNat (psiList.length - 1)) 0 psiList cc dst

end OwnTable
end Mpegts
