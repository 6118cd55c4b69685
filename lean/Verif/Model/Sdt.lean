import Verif.Model.Psi
import Verif.Model.Desc

/-! # `src/psi/sdt.rs`: Service Description Table -/

namespace Mpegts

/-- src/psi/sdt.rs:18 -/
def SDT_PID : UInt16 := 0x0011
/-- src/psi/sdt.rs:22 -/
def SDT_SECTION_SIZE : Nat := 1024 - 4

/-- `struct SdtItem`, src/psi/sdt.rs:27-40. -/
structure SdtItem where
  pnr : UInt16
  eitScheduleFlag : UInt8
  eitPresentFollowingFlag : UInt8
  runningStatus : UInt8
  freeCaMode : UInt8
  descriptors : Descriptors
deriving DecidableEq, Repr

namespace SdtItem

/-- `SdtItem::parse`, src/psi/sdt.rs:44-56. -/
def parse (p : Profile) (s : List UInt8) : R SdtItem := do
  let pnr ← getU16At s 0
  let b2 : UInt8 ← idx s 2
  let b3 : UInt8 ← idx s 3
  let descriptors ← Descriptors.parse p [] (← sliceFrom s 5)
  return { pnr := pnr
           eitScheduleFlag := (b2 >>> 1) &&& 0x01
           eitPresentFollowingFlag := b2 &&& 0x01
           runningStatus := (b3 >>> 5) &&& 0x07
           freeCaMode := (b3 >>> 4) &&& 0x01
           descriptors := descriptors }

/-- `SdtItem::assemble`, src/psi/sdt.rs:58-68. -/
def assemble (p : Profile) (self : SdtItem) (buffer : List UInt8) : R (List UInt8) := do
  let skip := buffer.length
  let buffer := resize buffer (skip + 5) 0x00
  let buffer ← setU16At buffer skip self.pnr
  let buffer ← setIdx buffer (skip + 2)
    ((0xFC : UInt8) ||| (self.eitScheduleFlag <<< 1) ||| self.eitPresentFollowingFlag)
  let flags3 := (self.runningStatus <<< 5) ||| (self.freeCaMode <<< 4)
  let (n, buffer) ← Descriptors.assemble p self.descriptors buffer
  setU16At buffer (skip + 3) ((flags3.toUInt16 <<< 8) ||| UInt16.ofNat n)

/-- `SdtItem::size`, src/psi/sdt.rs:71-73. -/
def size (self : SdtItem) : Nat := 5 + Descriptors.size self.descriptors

end SdtItem

/-- `struct Sdt`, src/psi/sdt.rs:82-95. -/
structure Sdt where
  tableId : UInt8
  version : UInt8
  tsid : UInt16
  onid : UInt16
  items : List SdtItem
deriving DecidableEq, Repr

namespace Sdt

/-- `Sdt::default()` (derived), src/psi/sdt.rs:81. -/
def default : Sdt := ⟨0, 0, 0, 0, []⟩

/-- `Sdt::check`, src/psi/sdt.rs:100-104. -/
def check (p : Profile) (psi : Psi) : R Bool := do
  if !(psi.size ≥ 11 + 4) then return false
  let b : UInt8 ← idx psi.buffer 0
  if !((b &&& 0xFB) == 0x42) then return false
  psi.check p

/-- The item loop, src/psi/sdt.rs:118-125. -/
def parseLoop (p : Profile) (ptr : List UInt8) :
    (fuel skip : Nat) → (items : List SdtItem) → R (List SdtItem)
  | 0, _, _ => .error .diverge
  | fuel + 1, skip, items =>
    if ptr.length ≥ skip + 5 then do
      let x ← getU16At ptr (skip + 3)
      let itemLen := 5 + (x &&& (0x0FFF : UInt16)).toNat
      if skip + itemLen > ptr.length then return items
      let item ← SdtItem.parse p (← slice ptr skip (skip + itemLen))
      parseLoop p ptr fuel (skip + itemLen) (items ++ [item])
    else .ok items

/-- `Sdt::parse`, src/psi/sdt.rs:106-126. -/
def parse (p : Profile) (self : Sdt) (psi : Psi) : R Sdt := do
  if !(← check p psi) then return self
  let tableId ← idx psi.buffer 0
  let tsid ← getU16At psi.buffer 3
  let b : UInt8 ← idx psi.buffer 5
  let onid ← getU16At psi.buffer 8
  let ptr ← slice psi.buffer 11 (← usizeSub p psi.size 4)
  let items ← parseLoop p ptr (ptr.length + 1) 0 self.items
  return { tableId := tableId, version := (b &&& 0x3E) >>> 1, tsid := tsid, onid := onid,
           items := items }

/-- `Sdt::psi_init`, src/psi/sdt.rs:128-135. -/
def psiInit (p : Profile) (self : Sdt) : R Psi := do
  let psi ← Psi.new p self.tableId 11 self.version
  let buffer ← setIdx psi.buffer 1 0xF0
  let buffer ← setU16At buffer 3 self.tsid
  let buffer ← setU16At buffer 8 self.onid
  let buffer ← setIdx buffer 10 0xFF
  return { psi with buffer := buffer }

/-- The item loop of `psi_list_assemble`, src/psi/sdt.rs:143-155.  `psi_list` is `done ++ [psi]`. -/
def assembleLoop (p : Profile) (self : Sdt) :
    List SdtItem → (done : List Psi) → (psi : Psi) → R (List Psi)
  | [], done, psi => .ok (done ++ [psi])
  | item :: rest, done, psi =>
    if SDT_SECTION_SIZE ≥ psi.buffer.length + item.size then do
      let buffer ← item.assemble p psi.buffer
      assembleLoop p self rest done { psi with buffer := buffer }
    else do
      let new ← self.psiInit p
      let buffer ← item.assemble p new.buffer
      assembleLoop p self rest (done ++ [psi]) { new with buffer := buffer }

/-- `<Sdt as PsiDemux>::psi_list_assemble`, src/psi/sdt.rs:140-158. -/
def psiListAssemble (p : Profile) (self : Sdt) : R (List Psi) := do
  let psi ← self.psiInit p
  assembleLoop p self self.items [] psi

/-- `<Sdt as PsiDemux>::demux` (default method, src/psi/mod.rs:265-282). -/
def demux (p : Profile) (self : Sdt) (pid : UInt16) (cc : UInt8) (dst : List UInt8) :
    R (UInt8 × List UInt8) := do
  psiDemux p (← self.psiListAssemble p) pid cc dst

/-- `<Sdt as From<&Psi>>::from`, src/psi/sdt.rs:163-167. -/
def ofPsi (p : Profile) (psi : Psi) : R Sdt := parse p default psi

end Sdt
end Mpegts
