import Verif.Model.Sdt
import Verif.Model.Nit
import Verif.Model.Pmt
import Verif.Model.Eit
import Verif.Model.Tdt

/-! # Descriptors of the user's own types

`Desc` (src/psi/descriptors/mod.rs:36-40) is a public trait, and `Descriptors::push` takes any value of a type that implements it.
`Model/Desc.lean` has the fifteen types of the crate; here a box may also hold a value of another type.  Its methods may do anything,
except that they have no effects besides their results: `assemble` is given the whole buffer.  The sum of the sizes they state is
taken to be below 2^64. -/

namespace Mpegts

/-- A value of a type of the user's own: what `Any::type_id` tells apart, and its methods of the trait `Desc`,
src/psi/descriptors/mod.rs:36-40. -/
structure OwnDesc where
  typeId : Nat
  tag : UInt8
  size : Nat
  assemble : List UInt8 → R (List UInt8)

/-- `struct Descriptor(Box<dyn Desc>)`, src/psi/descriptors/mod.rs:50. -/
inductive Boxed where
  | ours (d : Desc)
  | own (o : OwnDesc)

namespace Boxed

/-- `Descriptor::tag`, src/psi/descriptors/mod.rs:115. -/
def tag : Boxed → UInt8
  | ours d => d.tag
  | own o => o.tag

/-- `Descriptor::size`, src/psi/descriptors/mod.rs:112. -/
def size : Boxed → Nat
  | ours d => d.size
  | own o => o.size

/-- `Descriptor::assemble`, src/psi/descriptors/mod.rs:109. -/
def assemble (p : Profile) : Boxed → List UInt8 → R (List UInt8)
  | ours d, buffer => d.assemble p buffer
  | own o, buffer => o.assemble buffer

/-- `<Descriptor as Clone>::clone`, src/psi/descriptors/mod.rs:54-72: every arm casts to a type of the crate, which panics for a value
of another type (lines 118-120). -/
def clone : Boxed → R Boxed
  | ours d => ours <$> d.clone
  | own _ => panic

/-- `Descriptor::downcast_ref::<T>` and `downcast_mut::<T>` for a type of the crate, src/psi/descriptors/mod.rs:117-125. -/
def downcast (k : Desc.Kind) : Boxed → R Desc
  | ours d => d.downcast k
  | own _ => panic

/-- The same for a type of the user's, src/psi/descriptors/mod.rs:117-125. -/
def downcastOwn (typeId : Nat) : Boxed → R OwnDesc
  | ours _ => panic
  | own o => if o.typeId = typeId then .ok o else panic

end Boxed

/-- `struct Descriptors(Vec<Descriptor>)`, src/psi/descriptors/mod.rs:131. -/
abbrev Boxes := List Boxed

namespace Boxes

/-- `Descriptors::push`, src/psi/descriptors/mod.rs:177-182. -/
def push (self : Boxes) (d : Boxed) : Boxes := self ++ [d]

/-- The loop of `Descriptors::assemble`, src/psi/descriptors/mod.rs:155-157. -/
def assembleLoop (p : Profile) : Boxes → List UInt8 → R (List UInt8)
  | [], buffer => .ok buffer
  | d :: rest, buffer => do assembleLoop p rest (← d.assemble p buffer)

/-- `Descriptors::assemble`, src/psi/descriptors/mod.rs:153-159.  Returns the byte count and the buffer. -/
def assemble (p : Profile) (self : Boxes) (buffer : List UInt8) : R (Nat × List UInt8) := do
  let size := buffer.length
  let buffer ← assembleLoop p self buffer
  return (← usizeSub p buffer.length size, buffer)

/-- `Descriptors::size`, src/psi/descriptors/mod.rs:162. -/
def size (self : Boxes) : Nat := self.foldl (fun acc x => acc + x.size) 0

/-- `<Descriptors as Clone>::clone` (derived), src/psi/descriptors/mod.rs:130. -/
def clone (self : Boxes) : R Boxes := self.mapM Boxed.clone

end Boxes

namespace Own

/-- `struct SdtItem`, src/psi/sdt.rs:27-40. -/
structure SdtItem where
  pnr : UInt16
  eitScheduleFlag : UInt8
  eitPresentFollowingFlag : UInt8
  runningStatus : UInt8
  freeCaMode : UInt8
  descriptors : Boxes

namespace SdtItem

/-- `SdtItem::assemble`, src/psi/sdt.rs:58-68. -/
def assemble (p : Profile) (self : SdtItem) (buffer : List UInt8) : R (List UInt8) := do
  let skip := buffer.length
  let buffer := resize buffer (skip + 5) 0x00
  let buffer ← setU16At buffer skip self.pnr
  let buffer ← setIdx buffer (skip + 2)
    ((0xFC : UInt8) ||| (self.eitScheduleFlag <<< 1) ||| self.eitPresentFollowingFlag)
  let flags3 := (self.runningStatus <<< 5) ||| (self.freeCaMode <<< 4)
  let (n, buffer) ← Boxes.assemble p self.descriptors buffer
  setU16At buffer (skip + 3) ((flags3.toUInt16 <<< 8) ||| UInt16.ofNat n)

/-- `SdtItem::size`, src/psi/sdt.rs:71-73. -/
def size (self : SdtItem) : Nat := 5 + Boxes.size self.descriptors

end SdtItem

/-- `struct Sdt`, src/psi/sdt.rs:82-95. -/
structure Sdt where
  tableId : UInt8
  version : UInt8
  tsid : UInt16
  onid : UInt16
  items : List SdtItem

namespace Sdt

/-- `Sdt::psi_init`, src/psi/sdt.rs:128-135. -/
def psiInit (p : Profile) (self : Sdt) : R Psi := do
  let psi ← Psi.new p self.tableId 11 self.version
  let buffer ← setIdx psi.buffer 1 0xF0
  let buffer ← setU16At buffer 3 self.tsid
  let buffer ← setU16At buffer 8 self.onid
  let buffer ← setIdx buffer 10 0xFF
  return { psi with buffer := buffer }

/-- The item loop of `psi_list_assemble`, src/psi/sdt.rs:143-155.  `psi_list` is `done ++ [psi]`. -/
def assembleLoop (p : Profile) (self : Sdt) : List SdtItem → (done : List Psi) → (psi : Psi) → R (List Psi)
  | [], done, psi => .ok (done ++ [psi])
  | item :: rest, done, psi =>
    if SDT_SECTION_SIZE ≥ psi.buffer.length + item.size then do
      let buffer ← item.assemble p psi.buffer
      assembleLoop p self rest done { psi with buffer := buffer }
    else do
      let new ← self.psiInit p
      let buffer ← item.assemble p new.buffer
      assembleLoop p self rest (done ++ [psi]) { new with buffer := buffer }

/-- `<Sdt as PsiDemux>::psi_list_assemble`, src/psi/sdt.rs:140-158. -/
def psiListAssemble (p : Profile) (self : Sdt) : R (List Psi) := do
  let psi ← self.psiInit p
  assembleLoop p self self.items [] psi

/-- `<Sdt as PsiDemux>::demux` (default method, src/psi/mod.rs:265-282). -/
def demux (p : Profile) (self : Sdt) (pid : UInt16) (cc : UInt8) (dst : List UInt8) : R (UInt8 × List UInt8) := do
  psiDemux p (← self.psiListAssemble p) pid cc dst

end Sdt

/-- `struct NitItem`, src/psi/nit.rs:27-35. -/
structure NitItem where
  tsid : UInt16
  onid : UInt16
  descriptors : Boxes

namespace NitItem

/-- `NitItem::assemble`, src/psi/nit.rs:50-59. -/
def assemble (p : Profile) (self : NitItem) (buffer : List UInt8) : R (List UInt8) := do
  let skip := buffer.length
  let buffer := resize buffer (skip + 6) 0x00
  let buffer ← setU16At buffer skip self.tsid
  let buffer ← setU16At buffer (skip + 2) self.onid
  let (n, buffer) ← Boxes.assemble p self.descriptors buffer
  setU16At buffer (skip + 4) (0xF000 ||| UInt16.ofNat n)

/-- `NitItem::size`, src/psi/nit.rs:62-64. -/
def size (self : NitItem) : Nat := 6 + Boxes.size self.descriptors

end NitItem

/-- `struct Nit`, src/psi/nit.rs:74-88. -/
structure Nit where
  tableId : UInt8
  version : UInt8
  networkId : UInt16
  descriptors : Boxes
  items : List NitItem

namespace Nit

/-- `Nit::psi_init`, src/psi/nit.rs:123-137. -/
def psiInit (p : Profile) (self : Nit) (first : Bool) : R Psi := do
  let psi ← Psi.new p self.tableId 10 self.version
  let buffer ← setIdx psi.buffer 1 0xF0
  let buffer ← setU16At buffer 3 self.networkId
  let buffer ←
    if first then do
      let (n, buffer) ← Boxes.assemble p self.descriptors buffer
      setU16At buffer 8 (0xF000 ||| UInt16.ofNat n)
    else setIdx buffer 8 0xF0
  let buffer := buffer ++ [0x00]
  let buffer := buffer ++ [0x00]
  return { psi with buffer := buffer }

/-- The item loop of `psi_list_assemble`, src/psi/nit.rs:145-157.  `psi_list` is `done ++ [psi]`. -/
def assembleLoop (p : Profile) (self : Nit) : List NitItem → (done : List Psi) → (psi : Psi) → R (List Psi)
  | [], done, psi => .ok (done ++ [psi])
  | item :: rest, done, psi =>
    if NIT_SECTION_SIZE ≥ psi.buffer.length + item.size then do
      let buffer ← item.assemble p psi.buffer
      assembleLoop p self rest done { psi with buffer := buffer }
    else do
      let new ← self.psiInit p false
      let buffer ← item.assemble p new.buffer
      assembleLoop p self rest (done ++ [psi]) { new with buffer := buffer }

/-- `<Nit as PsiDemux>::psi_list_assemble`, src/psi/nit.rs:142-167; the back-patching loop does not look at descriptors. -/
def psiListAssemble (p : Profile) (self : Nit) : R (List Psi) := do
  let psi ← self.psiInit p true
  let psiList ← assembleLoop p self self.items [] psi
  Mpegts.Nit.patchLoop p psiList

/-- `<Nit as PsiDemux>::demux` (default method, src/psi/mod.rs:265-282). -/
def demux (p : Profile) (self : Nit) (pid : UInt16) (cc : UInt8) (dst : List UInt8) : R (UInt8 × List UInt8) := do
  psiDemux p (← self.psiListAssemble p) pid cc dst

end Nit

/-- `struct PmtItem`, src/psi/pmt.rs:25-34. -/
structure PmtItem where
  streamType : UInt8
  pid : UInt16
  descriptors : Boxes

namespace PmtItem

/-- `PmtItem::assemble`, src/psi/pmt.rs:49-58. -/
def assemble (p : Profile) (self : PmtItem) (buffer : List UInt8) : R (List UInt8) := do
  let skip := buffer.length
  let buffer := resize buffer (skip + 5) 0x00
  let buffer ← setIdx buffer skip self.streamType
  let buffer ← setU16At buffer (skip + 1) (0xE000 ||| self.pid)
  let (n, buffer) ← Boxes.assemble p self.descriptors buffer
  setU16At buffer (skip + 3) (0xF000 ||| UInt16.ofNat n)

/-- `PmtItem::size`, src/psi/pmt.rs:61-63. -/
def size (self : PmtItem) : Nat := 5 + Boxes.size self.descriptors

/-- The descriptor loop for stream type 0x05, src/psi/pmt.rs:80-85. -/
def streamType05 : Boxes → StreamType
  | [] => .DATA
  | d :: rest => if d.tag = 0x6F then .AIT else streamType05 rest

/-- The descriptor loop for stream type 0x06, src/psi/pmt.rs:88-98. -/
def streamType06 : Boxes → StreamType
  | [] => .DATA
  | d :: rest =>
    if d.tag = 0x56 then .TTX
    else if d.tag = 0x59 then .SUB
    else if d.tag = 0x6A then .AUDIO
    else if d.tag = 0x7A then .AUDIO
    else if d.tag = 0x81 then .AUDIO
    else streamType06 rest

/-- `PmtItem::get_stream_type`, src/psi/pmt.rs:65-102. -/
def getStreamType (self : PmtItem) : StreamType :=
  match self.streamType.toNat with
  | 0x01 => .VIDEO
  | 0x02 => .VIDEO
  | 0x10 => .VIDEO
  | 0x1B => .VIDEO
  | 0x24 => .VIDEO
  | 0x03 => .AUDIO
  | 0x04 => .AUDIO
  | 0x0F => .AUDIO
  | 0x11 => .AUDIO
  | 0x05 => streamType05 self.descriptors
  | 0x06 => streamType06 self.descriptors
  | _ => .DATA

end PmtItem

/-- `struct Pmt`, src/psi/pmt.rs:109-120. -/
structure Pmt where
  version : UInt8
  pnr : UInt16
  pcr : UInt16
  descriptors : Boxes
  items : List PmtItem

namespace Pmt

/-- `Pmt::psi_init`, src/psi/pmt.rs:155-166. -/
def psiInit (p : Profile) (self : Pmt) (first : Bool) : R Psi := do
  let psi ← Psi.new p 0x02 12 self.version
  let buffer ← setU16At psi.buffer 3 self.pnr
  let buffer ← setU16At buffer 8 (0xE000 ||| self.pcr)
  if first then
    let (n, buffer) ← Boxes.assemble p self.descriptors buffer
    let buffer ← setU16At buffer 10 (0xF000 ||| UInt16.ofNat n)
    return { psi with buffer := buffer }
  else
    let buffer ← setIdx buffer 10 0xF0
    return { psi with buffer := buffer }

/-- The item loop of `psi_list_assemble`, src/psi/pmt.rs:174-186.  `psi_list` is `done ++ [psi]`. -/
def assembleLoop (p : Profile) (self : Pmt) : List PmtItem → (done : List Psi) → (psi : Psi) → R (List Psi)
  | [], done, psi => .ok (done ++ [psi])
  | item :: rest, done, psi =>
    if PMT_SECTION_SIZE ≥ psi.buffer.length + item.size then do
      let buffer ← item.assemble p psi.buffer
      assembleLoop p self rest done { psi with buffer := buffer }
    else do
      let new ← self.psiInit p false
      let buffer ← item.assemble p new.buffer
      assembleLoop p self rest (done ++ [psi]) { new with buffer := buffer }

/-- `<Pmt as PsiDemux>::psi_list_assemble`, src/psi/pmt.rs:171-189. -/
def psiListAssemble (p : Profile) (self : Pmt) : R (List Psi) := do
  let psi ← self.psiInit p true
  assembleLoop p self self.items [] psi

/-- `<Pmt as PsiDemux>::demux` (default method, src/psi/mod.rs:265-282). -/
def demux (p : Profile) (self : Pmt) (pid : UInt16) (cc : UInt8) (dst : List UInt8) : R (UInt8 × List UInt8) := do
  psiDemux p (← self.psiListAssemble p) pid cc dst

end Pmt

/-- `struct EitItem`, src/psi/eit.rs:30-49. -/
structure EitItem where
  eventId : UInt16
  start : UInt64
  duration : UInt32
  status : UInt8
  caMode : UInt8
  descriptors : Boxes

namespace EitItem

/-- `EitItem::assemble`, src/psi/eit.rs:68-82. -/
def assemble (p : Profile) (self : EitItem) (buffer : List UInt8) : R (List UInt8) := do
  let skip := buffer.length
  let buffer := resize buffer (skip + 12) 0x00
  let buffer ← setU16At buffer skip self.eventId
  let buffer ← setU16At buffer (skip + 2) (toMjd self.start)
  let buffer ← setU24At buffer (skip + 4) (← toBcdTime32 p self.start.toUInt32)
  let buffer ← setU24At buffer (skip + 7) (← toBcdTime32 p self.duration)
  let flags10 := setBits8 8 [(self.status, 3), (self.caMode, 1)]
  let (n, buffer) ← Boxes.assemble p self.descriptors buffer
  setU16At buffer (skip + 10) ((flags10.toUInt16 <<< 8) ||| UInt16.ofNat n)

/-- `EitItem::size`, src/psi/eit.rs:85-87. -/
def size (self : EitItem) : Nat := 12 + Boxes.size self.descriptors

/-- `<EitItem as Clone>::clone` (derived), src/psi/eit.rs:29. -/
def clone (self : EitItem) : R EitItem := do
  return { self with descriptors := ← Boxes.clone self.descriptors }

end EitItem

/-- `struct Eit`, src/psi/eit.rs:94-111. -/
structure Eit where
  tableId : UInt8
  version : UInt8
  pnr : UInt16
  tsid : UInt16
  onid : UInt16
  items : List EitItem

namespace Eit

/-- `Eit::psi_init`, src/psi/eit.rs:154-161. -/
def psiInit (p : Profile) (self : Eit) : R Psi := do
  let psi ← Psi.new p self.tableId 14 self.version
  let buffer ← setIdx psi.buffer 1 0xF0
  let buffer ← setU16At buffer 3 self.pnr
  let buffer ← setU16At buffer 8 self.tsid
  let buffer ← setU16At buffer 10 self.onid
  return { psi with buffer := buffer }

/-- The present/following loop, src/psi/eit.rs:175-192; `n` is the enumeration index. -/
def pfLoop (p : Profile) (self : Eit) (last : UInt8) : (n : Nat) → List EitItem → R (List Psi)
  | _, [] => .ok []
  | n, item :: rest => do
    let psi ← self.psiInit p
    let buffer ← setIdx psi.buffer 6 (UInt8.ofNat n)
    let buffer ← setIdx buffer 7 last
    let buffer ← setIdx buffer 12 last
    let buffer ← setIdx buffer 13 self.tableId
    let buffer ← item.assemble p buffer
    let psi ← { psi with buffer := buffer }.finalize p
    let tail ← pfLoop p self last (n + 1) rest
    return psi :: tail

/-- A new section as in src/psi/eit.rs:261-264 and 272-275. -/
def newSection (p : Profile) (self : Eit) (tableId sec : UInt8) (item : EitItem) : R Psi := do
  let psi ← self.psiInit p
  let buffer ← setIdx psi.buffer 0 tableId
  let buffer ← setIdx buffer 6 sec
  let buffer ← item.assemble p buffer
  return { psi with buffer := buffer }

/-- The event loop, src/psi/eit.rs:246-281.  `psi_list` is `done ++ [psi]`. -/
def eventLoop (p : Profile) (self : Eit) :
    List EitItem → (done : List Psi) → (psi : Psi) → (nextMidnight : UInt64) → (currentSection currentTableId : UInt8) → R (List Psi)
  | [], done, psi, _, _, _ => .ok (done ++ [psi])
  | item :: rest, done, psi, nextMidnight, currentSection, currentTableId =>
    if item.start ≥ nextMidnight then do
      let midnight := nextMidnight
      let nextMidnight ← addU64 p midnight Mpegts.Eit.SEG_DURATION
      let currentSection := currentSection / 8 * 8
      let (currentSection, currentTableId) ←
        if currentSection = 248 then do
          let t ← addU8 p currentTableId 1
          pure ((0 : UInt8), t)
        else do
          let s ← addU8 p currentSection 8
          pure (s, currentTableId)
      let new ← newSection p self currentTableId currentSection item
      eventLoop p self rest (done ++ [psi]) new nextMidnight currentSection currentTableId
    else if item.size + psi.buffer.length ≥ EIT_SECTION_SIZE then do
      let currentSection ← addU8 p currentSection 1
      let new ← newSection p self currentTableId currentSection item
      eventLoop p self rest (done ++ [psi]) new nextMidnight currentSection currentTableId
    else do
      let buffer ← item.assemble p psi.buffer
      eventLoop p self rest done { psi with buffer := buffer } nextMidnight currentSection currentTableId

/-- `<Eit as PsiDemux>::psi_list_assemble`, schedule branch, src/psi/eit.rs:197-305 (`first` and `last` are the first and last item);
the loops over empty sections and section numbers do not look at events. -/
def scheduleAssemble (p : Profile) (self : Eit) (first last : EitItem) : R (List Psi) := do
  let tableId := self.tableId &&& 0xF0
  let midnight := first.start / Mpegts.Eit.DAY_DURATION * Mpegts.Eit.DAY_DURATION
  let serviceDuration ← subU64 p last.start midnight
  let serviceSegments := serviceDuration / Mpegts.Eit.SEG_DURATION
  let lastTableId ← addU8 p tableId (serviceSegments / 32).toUInt8
  let currentTableId := self.tableId &&& 0xF0
  let emptyEit : Eit :=
    { tableId := tableId, version := self.version, pnr := self.pnr, tsid := self.tsid, onid := self.onid, items := [] }
  let psi ← emptyEit.psiInit p
  let dayOffset ← subU64 p first.start midnight
  let currentSegment := dayOffset / (3 * 60 * 60)
  let (psiList, midnight, currentSection) ←
    Mpegts.Eit.emptyLoop p currentTableId (currentSegment.toNat + 1) psi [] midnight 0
  let nextMidnight ← addU64 p midnight Mpegts.Eit.SEG_DURATION
  let psi ← self.psiInit p
  let buffer ← setIdx psi.buffer 6 currentSection
  let psi := { psi with buffer := buffer }
  let psiList ← eventLoop p self self.items psiList psi nextMidnight currentSection currentTableId
  let rev ← Mpegts.Eit.numberLoop p lastTableId psiList.reverse 0x00 0x00
  return rev.reverse

/-- `<Eit as PsiDemux>::psi_list_assemble`, src/psi/eit.rs:166-306. -/
def psiListAssemble (p : Profile) (self : Eit) : R (List Psi) :=
  match self.items.head?, self.items.getLast? with
  | some first, some last =>
    if self.tableId = 0x4E ∨ self.tableId = 0x4F then
      pfLoop p self (UInt8.ofNat (self.items.length - 1)) 0 self.items
    else scheduleAssemble p self first last
  | _, _ => .ok []

/-- `<Eit as PsiDemux>::demux`, src/psi/eit.rs:309-321. -/
def demux (p : Profile) (self : Eit) (pid : UInt16) (cc : UInt8) (dst : List UInt8) : R (UInt8 × List UInt8) := do
  let psiList ← self.psiListAssemble p
  if psiList.isEmpty then return (cc, dst)
  Mpegts.Eit.demuxLoop p pid psiList cc dst

end Eit

/-- `struct Tot`, src/psi/tot.rs:27-32. -/
structure Tot where
  time : UInt64
  descriptors : Boxes

namespace Tot

/-- `<Tot as PsiDemux>::psi_list_assemble`, src/psi/tot.rs:58-70 (the one-element list is returned as its element). -/
def psiAssemble (p : Profile) (self : Tot) : R Psi := do
  let psi ← Psi.new p 0x73 10 0
  let buffer ← setIdx psi.buffer 1 0x70
  let buffer := resize buffer 10 0x00
  let buffer ← setU16At buffer 3 (toMjd self.time)
  let buffer ← setU24At buffer 5 (← toBcdTime32 p self.time.toUInt32)
  let (n, buffer) ← Boxes.assemble p self.descriptors buffer
  let buffer ← setU16At buffer 8 (0xF000 ||| UInt16.ofNat n)
  return { psi with buffer := buffer }

/-- `<Tot as PsiDemux>::demux`, src/psi/tot.rs:72-81. -/
def demux (p : Profile) (self : Tot) (pid : UInt16) (cc : UInt8) (dst : List UInt8) : R (UInt8 × List UInt8) := do
  let psi ← self.psiAssemble p
  let psi ← psi.finalize p
  let psi := { psi with pid := pid, cc := cc, size := psi.buffer.length }
  let (psi, dst) ← psi.demux p dst
  return (psi.cc, dst)

end Tot
end Own
end Mpegts
