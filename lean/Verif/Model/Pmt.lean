import Verif.Model.Psi
import Verif.Model.Desc

/-! # `src/psi/pmt.rs`: Program Map Table -/

namespace Mpegts

/-- src/psi/pmt.rs:20 -/
def PMT_SECTION_SIZE : Nat := 1024 - 4

/-- `enum StreamType`, src/es/mod.rs:12-19 (variants used by `get_stream_type`). -/
inductive StreamType where
  | VIDEO | AUDIO | DATA | TTX | SUB | AIT
deriving DecidableEq, Repr

/-- `struct PmtItem`, src/psi/pmt.rs:25-34. -/
structure PmtItem where
  streamType : UInt8
  pid : UInt16
  descriptors : Descriptors
deriving DecidableEq, Repr

namespace PmtItem

/-- `PmtItem::parse`, src/psi/pmt.rs:38-47. -/
def parse (p : Profile) (s : List UInt8) : R PmtItem := do
  let streamType ← idx s 0
  let pid ← getU16At s 1
  let descriptors ← Descriptors.parse p [] (← sliceFrom s 5)
  return { streamType := streamType, pid := pid &&& 0x1FFF, descriptors := descriptors }

/-- `PmtItem::assemble`, src/psi/pmt.rs:49-58. -/
def assemble (p : Profile) (self : PmtItem) (buffer : List UInt8) : R (List UInt8) := do
  let skip := buffer.length
  let buffer := resize buffer (skip + 5) 0x00
  let buffer ← setIdx buffer skip self.streamType
  let buffer ← setU16At buffer (skip + 1) (0xE000 ||| self.pid)
  let (n, buffer) ← Descriptors.assemble p self.descriptors buffer
  setU16At buffer (skip + 3) (0xF000 ||| UInt16.ofNat n)

/-- `PmtItem::size`, src/psi/pmt.rs:61-63. -/
def size (self : PmtItem) : Nat := 5 + Descriptors.size self.descriptors

/-- The descriptor loop for stream type 0x05, src/psi/pmt.rs:80-85. -/
def streamType05 : Descriptors → StreamType
  | [] => .DATA
  | d :: rest => if d.tag = 0x6F then .AIT else streamType05 rest

/-- The descriptor loop for stream type 0x06, src/psi/pmt.rs:88-98. -/
def streamType06 : Descriptors → StreamType
  | [] => .DATA
  | d :: rest =>
    if d.tag = 0x56 then .TTX
    else if d.tag = 0x59 then .SUB
    else if d.tag = 0x6A then .AUDIO
    else if d.tag = 0x7A then .AUDIO
    else if d.tag = 0x81 then .AUDIO
    else streamType06 rest

/-- `PmtItem::get_stream_type`, src/psi/pmt.rs:65-102. -/
def getStreamType (self : PmtItem) : StreamType :=
  match self.streamType.toNat with
  | 0x01 => .VIDEO
  | 0x02 => .VIDEO
  | 0x10 => .VIDEO
  | 0x1B => .VIDEO
  | 0x24 => .VIDEO
  | 0x03 => .AUDIO
  | 0x04 => .AUDIO
  | 0x0F => .AUDIO
  | 0x11 => .AUDIO
  | 0x05 => streamType05 self.descriptors
  | 0x06 => streamType06 self.descriptors
  | _ => .DATA

end PmtItem

/-- `struct Pmt`, src/psi/pmt.rs:109-120. -/
structure Pmt where
  version : UInt8
  pnr : UInt16
  pcr : UInt16
  descriptors : Descriptors
  items : List PmtItem
deriving DecidableEq, Repr

namespace Pmt

/-- `Pmt::default()` (derived), src/psi/pmt.rs:108. -/
def default : Pmt := ⟨0, 0, 0, [], []⟩

/-- `Pmt::check`, src/psi/pmt.rs:125-129. -/
def check (p : Profile) (psi : Psi) : R Bool := do
  if !(psi.size ≥ 12 + 4) then return false
  if !((← idx psi.buffer 0) == 0x02) then return false
  psi.check p

/-- The item loop, src/psi/pmt.rs:145-152. -/
def parseLoop (p : Profile) (ptr : List UInt8) :
    (fuel skip : Nat) → (items : List PmtItem) → R (List PmtItem)
  | 0, _, _ => .error .diverge
  | fuel + 1, skip, items =>
    if ptr.length ≥ skip + 5 then do
      let x ← getU16At ptr (skip + 3)
      let itemLen := 5 + (x &&& (0x0FFF : UInt16)).toNat
      if skip + itemLen > ptr.length then return items
      let item ← PmtItem.parse p (← slice ptr skip (skip + itemLen))
      parseLoop p ptr fuel (skip + itemLen) (items ++ [item])
    else .ok items

/-- `Pmt::parse`, src/psi/pmt.rs:131-153.  Note `[11 .. 11 + descriptors_len]` at line 141. -/
def parse (p : Profile) (self : Pmt) (psi : Psi) : R Pmt := do
  if !(← check p psi) then return self
  let pnr ← getU16At psi.buffer 3
  let b : UInt8 ← idx psi.buffer 5
  let pcr ← getU16At psi.buffer 8
  let x ← getU16At psi.buffer 10
  let descriptorsLen := (x &&& (0x0FFF : UInt16)).toNat
  let descriptors ← Descriptors.parse p self.descriptors (← slice psi.buffer 11 (11 + descriptorsLen))
  let ptr ← slice psi.buffer (12 + descriptorsLen) (← usizeSub p psi.size 4)
  let items ← parseLoop p ptr (ptr.length + 1) 0 self.items
  return { version := (b &&& 0x3E) >>> 1, pnr := pnr, pcr := pcr &&& 0x1FFF,
           descriptors := descriptors, items := items }

/-- `Pmt::psi_init`, src/psi/pmt.rs:155-166. -/
def psiInit (p : Profile) (self : Pmt) (first : Bool) : R Psi := do
  let psi ← Psi.new p 0x02 12 self.version
  let buffer ← setU16At psi.buffer 3 self.pnr
  let buffer ← setU16At buffer 8 (0xE000 ||| self.pcr)
  if first then
    let (n, buffer) ← Descriptors.assemble p self.descriptors buffer
    let buffer ← setU16At buffer 10 (0xF000 ||| UInt16.ofNat n)
    return { psi with buffer := buffer }
  else
    let buffer ← setIdx buffer 10 0xF0
    return { psi with buffer := buffer }

/-- The item loop of `psi_list_assemble`, src/psi/pmt.rs:174-186.  `psi_list` is `done ++ [psi]`. -/
def assembleLoop (p : Profile) (self : Pmt) :
    List PmtItem → (done : List Psi) → (psi : Psi) → R (List Psi)
  | [], done, psi => .ok (done ++ [psi])
  | item :: rest, done, psi =>
    if PMT_SECTION_SIZE ≥ psi.buffer.length + item.size then do
      let buffer ← item.assemble p psi.buffer
      assembleLoop p self rest done { psi with buffer := buffer }
    else do
      let new ← self.psiInit p false
      let buffer ← item.assemble p new.buffer
      assembleLoop p self rest (done ++ [psi]) { new with buffer := buffer }

/-- `<Pmt as PsiDemux>::psi_list_assemble`, src/psi/pmt.rs:171-189. -/
def psiListAssemble (p : Profile) (self : Pmt) : R (List Psi) := do
  let psi ← self.psiInit p true
  assembleLoop p self self.items [] psi

/-- `<Pmt as PsiDemux>::demux` (default method, src/psi/mod.rs:265-282). -/
def demux (p : Profile) (self : Pmt) (pid : UInt16) (cc : UInt8) (dst : List UInt8) :
    R (UInt8 × List UInt8) := do
  psiDemux p (← self.psiListAssemble p) pid cc dst

/-- `<Pmt as From<&Psi>>::from`, src/psi/pmt.rs:194-198. -/
def ofPsi (p : Profile) (psi : Psi) : R Pmt := parse p default psi

end Pmt
end Mpegts
