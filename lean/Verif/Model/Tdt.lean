import Verif.Model.Psi
import Verif.Model.Desc

/-! # `src/psi/tdt.rs` and `src/psi/tot.rs`: Time and Date Table, Time Offset Table -/

namespace Mpegts

/-- src/psi/tdt.rs:21 -/
def TDT_PID : UInt16 := 0x0014

/-- `struct Tdt`, src/psi/tdt.rs:26-29. -/
structure Tdt where
  time : UInt64
deriving DecidableEq, Repr

namespace Tdt

/-- `Tdt::default()` (derived), src/psi/tdt.rs:25. -/
def default : Tdt := ⟨0⟩

/-- `Tdt::check`, src/psi/tdt.rs:34-37. -/
def check (psi : Psi) : R Bool := do
  if !(psi.size == 8) then return false
  return (← idx psi.buffer 0) == 0x70

/-- `Tdt::parse`, src/psi/tdt.rs:39-46. -/
def parse (p : Profile) (self : Tdt) (psi : Psi) : R Tdt := do
  if !(← check psi) then return self
  let date ← fromMjd p (← getU16At psi.buffer 3)
  let time ← fromBcdTime32 p (← getU24At psi.buffer 5)
  return { time := ← addU64 p date time.toUInt64 }

/-- `<Tdt as PsiDemux>::psi_list_assemble`, src/psi/tdt.rs:51-61 (the one-element list is returned as
its element). -/
def psiAssemble (p : Profile) (self : Tdt) : R Psi := do
  let psi ← Psi.new p 0x70 3 0
  let buffer ← setIdx psi.buffer 1 0x70
  let buffer ← setIdx buffer 2 5
  let buffer := resize buffer 8 0x00
  let buffer ← setU16At buffer 3 (toMjd self.time)
  let buffer ← setU24At buffer 5 (← toBcdTime32 p self.time.toUInt32)
  return { psi with buffer := buffer }

/-- `<Tdt as PsiDemux>::demux`, src/psi/tdt.rs:63-71. -/
def demux (p : Profile) (self : Tdt) (pid : UInt16) (cc : UInt8) (dst : List UInt8) :
    R (UInt8 × List UInt8) := do
  let psi ← self.psiAssemble p
  let psi := { psi with pid := pid, cc := cc, size := psi.buffer.length }
  let (psi, dst) ← psi.demux p dst
  return (psi.cc, dst)

/-- `<Tdt as From<&Psi>>::from`, src/psi/tdt.rs:76-80. -/
def ofPsi (p : Profile) (psi : Psi) : R Tdt := parse p default psi

end Tdt

/-- src/psi/tot.rs:22 -/
def TOT_PID : UInt16 := 0x0014

/-- `struct Tot`, src/psi/tot.rs:27-32. -/
structure Tot where
  time : UInt64
  descriptors : Descriptors
deriving DecidableEq, Repr

namespace Tot

/-- `Tot::default()` (derived), src/psi/tot.rs:26. -/
def default : Tot := ⟨0, []⟩

/-- `Tot::check`, src/psi/tot.rs:37-41. -/
def check (p : Profile) (psi : Psi) : R Bool := do
  if !(psi.size ≥ 10 + 4) then return false
  if !((← idx psi.buffer 0) == 0x73) then return false
  psi.check p

/-- `Tot::parse`, src/psi/tot.rs:43-53. -/
def parse (p : Profile) (self : Tot) (psi : Psi) : R Tot := do
  if !(← check p psi) then return self
  let date ← fromMjd p (← getU16At psi.buffer 3)
  let time ← fromBcdTime32 p (← getU24At psi.buffer 5)
  let time ← addU64 p date time.toUInt64
  let x ← getU16At psi.buffer 8
  let descriptorsLen := (x &&& (0x0FFF : UInt16)).toNat
  let descriptors ← Descriptors.parse p self.descriptors (← slice psi.buffer 10 (10 + descriptorsLen))
  return { time := time, descriptors := descriptors }

/-- `<Tot as PsiDemux>::psi_list_assemble`, src/psi/tot.rs:58-70 (the one-element list is returned as
its element). -/
def psiAssemble (p : Profile) (self : Tot) : R Psi := do
  let psi ← Psi.new p 0x73 10 0
  let buffer ← setIdx psi.buffer 1 0x70
  let buffer := resize buffer 10 0x00
  let buffer ← setU16At buffer 3 (toMjd self.time)
  let buffer ← setU24At buffer 5 (← toBcdTime32 p self.time.toUInt32)
  let (n, buffer) ← Descriptors.assemble p self.descriptors buffer
  let buffer ← setU16At buffer 8 (0xF000 ||| UInt16.ofNat n)
  return { psi with buffer := buffer }

/-- `<Tot as PsiDemux>::demux`, src/psi/tot.rs:72-81. -/
def demux (p : Profile) (self : Tot) (pid : UInt16) (cc : UInt8) (dst : List UInt8) :
    R (UInt8 × List UInt8) := do
  let psi ← self.psiAssemble p
  let psi ← psi.finalize p
  let psi := { psi with pid := pid, cc := cc, size := psi.buffer.length }
  let (psi, dst) ← psi.demux p dst
  return (psi.cc, dst)

/-- `<Tot as From<&Psi>>::from`, src/psi/tot.rs:86-90. -/
def ofPsi (p : Profile) (psi : Psi) : R Tot := parse p default psi

end Tot
end Mpegts
