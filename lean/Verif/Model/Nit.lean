import Verif.Model.Psi
import Verif.Model.Desc

/-! # `src/psi/nit.rs`: Network Information Table -/

namespace Mpegts

/-- src/psi/nit.rs:18 -/
def NIT_PID : UInt16 := 0x0010
/-- src/psi/nit.rs:22 -/
def NIT_SECTION_SIZE : Nat := 1024 - 4

/-- `struct NitItem`, src/psi/nit.rs:27-35. -/
structure NitItem where
  tsid : UInt16
  onid : UInt16
  descriptors : Descriptors
deriving DecidableEq, Repr

namespace NitItem

/-- `NitItem::parse`, src/psi/nit.rs:39-48. -/
def parse (p : Profile) (s : List UInt8) : R NitItem := do
  let tsid ← getU16At s 0
  let onid ← getU16At s 2
  let descriptors ← Descriptors.parse p [] (← sliceFrom s 6)
  return { tsid := tsid, onid := onid, descriptors := descriptors }

/-- `NitItem::assemble`, src/psi/nit.rs:50-59. -/
def assemble (p : Profile) (self : NitItem) (buffer : List UInt8) : R (List UInt8) := do
  let skip := buffer.length
  let buffer := resize buffer (skip + 6) 0x00
  let buffer ← setU16At buffer skip self.tsid
  let buffer ← setU16At buffer (skip + 2) self.onid
  let (n, buffer) ← Descriptors.assemble p self.descriptors buffer
  setU16At buffer (skip + 4) (0xF000 ||| UInt16.ofNat n)

/-- `NitItem::size`, src/psi/nit.rs:62-64. -/
def size (self : NitItem) : Nat := 6 + Descriptors.size self.descriptors

end NitItem

/-- `struct Nit`, src/psi/nit.rs:74-88. -/
structure Nit where
  tableId : UInt8
  version : UInt8
  networkId : UInt16
  descriptors : Descriptors
  items : List NitItem
deriving DecidableEq, Repr

namespace Nit

/-- `Nit::default()` (derived), src/psi/nit.rs:73. -/
def default : Nit := ⟨0, 0, 0, [], []⟩

/-- `Nit::check`, src/psi/nit.rs:93-97. -/
def check (p : Profile) (psi : Psi) : R Bool := do
  if !(psi.size ≥ 12 + 4) then return false
  let b : UInt8 ← idx psi.buffer 0
  if !((b &&& 0xFE) == 0x40) then return false
  psi.check p

/-- The item loop, src/psi/nit.rs:113-120. -/
def parseLoop (p : Profile) (ptr : List UInt8) :
    (fuel skip : Nat) → (items : List NitItem) → R (List NitItem)
  | 0, _, _ => .error .diverge
  | fuel + 1, skip, items =>
    if ptr.length ≥ skip + 6 then do
      let x ← getU16At ptr (skip + 4)
      let itemLen := 6 + (x &&& (0x0FFF : UInt16)).toNat
      if skip + itemLen > ptr.length then return items
      let item ← NitItem.parse p (← slice ptr skip (skip + itemLen))
      parseLoop p ptr fuel (skip + itemLen) (items ++ [item])
    else .ok items

/-- `Nit::parse`, src/psi/nit.rs:99-121. -/
def parse (p : Profile) (self : Nit) (psi : Psi) : R Nit := do
  if !(← check p psi) then return self
  let tableId ← idx psi.buffer 0
  let networkId ← getU16At psi.buffer 3
  let b : UInt8 ← idx psi.buffer 5
  let x ← getU16At psi.buffer 8
  let descriptorsLen := (x &&& (0x0FFF : UInt16)).toNat
  let descriptors ← Descriptors.parse p self.descriptors (← slice psi.buffer 10 (10 + descriptorsLen))
  let ptr ← slice psi.buffer (12 + descriptorsLen) (← usizeSub p psi.size 4)
  let items ← parseLoop p ptr (ptr.length + 1) 0 self.items
  return { tableId := tableId, version := (b &&& 0x3E) >>> 1, networkId := networkId,
           descriptors := descriptors, items := items }

/-- `Nit::psi_init`, src/psi/nit.rs:123-137. -/
def psiInit (p : Profile) (self : Nit) (first : Bool) : R Psi := do
  let psi ← Psi.new p self.tableId 10 self.version
  let buffer ← setIdx psi.buffer 1 0xF0
  let buffer ← setU16At buffer 3 self.networkId
  let buffer ←
    if first then do
      let (n, buffer) ← Descriptors.assemble p self.descriptors buffer
      setU16At buffer 8 (0xF000 ||| UInt16.ofNat n)
    else setIdx buffer 8 0xF0
  let buffer := buffer ++ [0x00]
  let buffer := buffer ++ [0x00]
  return { psi with buffer := buffer }

/-- The item loop of `psi_list_assemble`, src/psi/nit.rs:145-157.  `psi_list` is `done ++ [psi]`. -/
def assembleLoop (p : Profile) (self : Nit) :
    List NitItem → (done : List Psi) → (psi : Psi) → R (List Psi)
  | [], done, psi => .ok (done ++ [psi])
  | item :: rest, done, psi =>
    if NIT_SECTION_SIZE ≥ psi.buffer.length + item.size then do
      let buffer ← item.assemble p psi.buffer
      assembleLoop p self rest done { psi with buffer := buffer }
    else do
      let new ← self.psiInit p false
      let buffer ← item.assemble p new.buffer
      assembleLoop p self rest (done ++ [psi]) { new with buffer := buffer }

/-- One iteration of the back-patching loop, src/psi/nit.rs:160-163. -/
def patchLen (p : Profile) (item : Psi) : R Psi := do
  let x ← getU16At item.buffer 8
  let descriptorsLen := (x &&& (0x0FFF : UInt16)).toNat
  let itemsLen ← usizeSub p item.buffer.length 12
  let itemsLen ← usizeSub p itemsLen descriptorsLen
  let skip := 10 + descriptorsLen
  let buffer ← setU16At item.buffer skip (0xF000 ||| UInt16.ofNat itemsLen)
  return { item with buffer := buffer }

/-- The back-patching loop, src/psi/nit.rs:159-164. -/
def patchLoop (p : Profile) : List Psi → R (List Psi)
  | [] => .ok []
  | item :: rest => do
    let item ← patchLen p item
    let rest ← patchLoop p rest
    return item :: rest

/-- `<Nit as PsiDemux>::psi_list_assemble`, src/psi/nit.rs:142-167. -/
def psiListAssemble (p : Profile) (self : Nit) : R (List Psi) := do
  let psi ← self.psiInit p true
  let psiList ← assembleLoop p self self.items [] psi
  patchLoop p psiList

/-- `<Nit as PsiDemux>::demux` (default method, src/psi/mod.rs:265-282). -/
def demux (p : Profile) (self : Nit) (pid : UInt16) (cc : UInt8) (dst : List UInt8) :
    R (UInt8 × List UInt8) := do
  psiDemux p (← self.psiListAssemble p) pid cc dst

/-- `<Nit as From<&Psi>>::from`, src/psi/nit.rs:172-176. -/
def ofPsi (p : Profile) (psi : Psi) : R Nit := parse p default psi

end Nit
end Mpegts
