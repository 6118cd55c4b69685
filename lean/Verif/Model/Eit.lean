import Verif.Model.Psi
import Verif.Model.Desc

/-! # `src/psi/eit.rs`: Event Information Table -/

namespace Mpegts

/-- src/psi/eit.rs:21 -/
def EIT_PID : UInt16 := 0x0012
/-- src/psi/eit.rs:25 -/
def EIT_SECTION_SIZE : Nat := 4096 - 4

/-- `struct EitItem`, src/psi/eit.rs:30-49. -/
structure EitItem where
  eventId : UInt16
  start : UInt64
  duration : UInt32
  status : UInt8
  caMode : UInt8
  descriptors : Descriptors
deriving DecidableEq, Repr

namespace EitItem

/-- `EitItem::parse`, src/psi/eit.rs:53-66. -/
def parse (p : Profile) (s : List UInt8) : R EitItem := do
  let eventId ← getU16At s 0
  let date ← fromMjd p (← getU16At s 2)
  let time ← fromBcdTime32 p (← getU24At s 4)
  let start ← addU64 p date time.toUInt64
  let duration ← fromBcdTime32 p (← getU24At s 7)
  let b : UInt8 ← idx s 10
  let descriptors ← Descriptors.parse p [] (← sliceFrom s 12)
  return { eventId := eventId, start := start, duration := duration,
           status := (b >>> 5) &&& 0x07, caMode := (b >>> 4) &&& 0x01, descriptors := descriptors }

/-- `EitItem::assemble`, src/psi/eit.rs:68-82. -/
def assemble (p : Profile) (self : EitItem) (buffer : List UInt8) : R (List UInt8) := do
  let skip := buffer.length
  let buffer := resize buffer (skip + 12) 0x00
  let buffer ← setU16At buffer skip self.eventId
  let buffer ← setU16At buffer (skip + 2) (toMjd self.start)
  let buffer ← setU24At buffer (skip + 4) (← toBcdTime32 p self.start.toUInt32)
  let buffer ← setU24At buffer (skip + 7) (← toBcdTime32 p self.duration)
  let flags10 := setBits8 8 [(self.status, 3), (self.caMode, 1)]
  let (n, buffer) ← Descriptors.assemble p self.descriptors buffer
  setU16At buffer (skip + 10) ((flags10.toUInt16 <<< 8) ||| UInt16.ofNat n)

/-- `EitItem::size`, src/psi/eit.rs:85-87. -/
def size (self : EitItem) : Nat := 12 + Descriptors.size self.descriptors

end EitItem

/-- `struct Eit`, src/psi/eit.rs:94-111. -/
structure Eit where
  tableId : UInt8
  version : UInt8
  pnr : UInt16
  tsid : UInt16
  onid : UInt16
  items : List EitItem
deriving DecidableEq, Repr

namespace Eit

/-- `Eit::default()` (derived), src/psi/eit.rs:93. -/
def default : Eit := ⟨0, 0, 0, 0, 0, []⟩

/-- The `match` of `Eit::check`, src/psi/eit.rs:118-124. -/
def tableIdOk (b : UInt8) : Bool :=
  b == 0x4E || b == 0x4F || (0x50 ≤ b && b ≤ 0x5F) || (0x60 ≤ b && b ≤ 0x6F)

/-- `Eit::check`, src/psi/eit.rs:116-128. -/
def check (p : Profile) (psi : Psi) : R Bool := do
  if !(psi.size ≥ 14 + 4) then return false
  if !(tableIdOk (← idx psi.buffer 0)) then return false
  psi.check p

/-- The item loop, src/psi/eit.rs:144-151. -/
def parseLoop (p : Profile) (ptr : List UInt8) :
    (fuel skip : Nat) → (items : List EitItem) → R (List EitItem)
  | 0, _, _ => .error .diverge
  | fuel + 1, skip, items =>
    if ptr.length ≥ skip + 12 then do
      let x ← getU16At ptr (skip + 10)
      let itemLen := 12 + (x &&& (0x0FFF : UInt16)).toNat
      if skip + itemLen > ptr.length then return items
      let item ← EitItem.parse p (← slice ptr skip (skip + itemLen))
      parseLoop p ptr fuel (skip + itemLen) (items ++ [item])
    else .ok items

/-- `Eit::parse`, src/psi/eit.rs:131-152. -/
def parse (p : Profile) (self : Eit) (psi : Psi) : R Eit := do
  if !(← check p psi) then return self
  let tableId ← idx psi.buffer 0
  let pnr ← getU16At psi.buffer 3
  let b : UInt8 ← idx psi.buffer 5
  let tsid ← getU16At psi.buffer 8
  let onid ← getU16At psi.buffer 10
  let ptr ← slice psi.buffer 14 (← usizeSub p psi.size 4)
  let items ← parseLoop p ptr (ptr.length + 1) 0 self.items
  return { tableId := tableId, version := (b &&& 0x3E) >>> 1, pnr := pnr, tsid := tsid, onid := onid,
           items := items }

/-- `Eit::psi_init`, src/psi/eit.rs:154-161. -/
def psiInit (p : Profile) (self : Eit) : R Psi := do
  let psi ← Psi.new p self.tableId 14 self.version
  let buffer ← setIdx psi.buffer 1 0xF0
  let buffer ← setU16At buffer 3 self.pnr
  let buffer ← setU16At buffer 8 self.tsid
  let buffer ← setU16At buffer 10 self.onid
  return { psi with buffer := buffer }

/-- The present/following loop, src/psi/eit.rs:175-192; `n` is the enumeration index. -/
def pfLoop (p : Profile) (self : Eit) (last : UInt8) : (n : Nat) → List EitItem → R (List Psi)
  | _, [] => .ok []
  | n, item :: rest => do
    let psi ← self.psiInit p
    let buffer ← setIdx psi.buffer 6 (UInt8.ofNat n)
    let buffer ← setIdx buffer 7 last
    let buffer ← setIdx buffer 12 last
    let buffer ← setIdx buffer 13 self.tableId
    let buffer ← item.assemble p buffer
    let psi ← { psi with buffer := buffer }.finalize p
    let tail ← pfLoop p self last (n + 1) rest
    return psi :: tail

/-- src/psi/eit.rs:197 -/
def DAY_DURATION : UInt64 := 24 * 60 * 60
/-- src/psi/eit.rs:198 -/
def SEG_DURATION : UInt64 := 3 * 60 * 60

/-- The loop that emits empty sections, src/psi/eit.rs:228-235, with `n` iterations left.  Returns the
section list, `midnight` and `current_section`. -/
def emptyLoop (p : Profile) (currentTableId : UInt8) :
    (n : Nat) → (psi : Psi) → (psiList : List Psi) → (midnight : UInt64) → (currentSection : UInt8) →
    R (List Psi × UInt64 × UInt8)
  | 0, _, psiList, midnight, currentSection => .ok (psiList, midnight, currentSection)
  | n + 1, psi, psiList, midnight, currentSection => do
    let buffer ← setIdx psi.buffer 0 currentTableId
    let buffer ← setIdx buffer 6 currentSection
    let psi := { psi with buffer := buffer }
    let psiList := psiList ++ [psi]
    let midnight ← addU64 p midnight SEG_DURATION
    let currentSection ← addU8 p currentSection 8
    emptyLoop p currentTableId n psi psiList midnight currentSection

/-- A new section as in src/psi/eit.rs:261-264 and 272-275. -/
def newSection (p : Profile) (self : Eit) (tableId sec : UInt8) (item : EitItem) : R Psi := do
  let psi ← self.psiInit p
  let buffer ← setIdx psi.buffer 0 tableId
  let buffer ← setIdx buffer 6 sec
  let buffer ← item.assemble p buffer
  return { psi with buffer := buffer }

/-- The event loop, src/psi/eit.rs:246-281.  `psi_list` is `done ++ [psi]`. -/
def eventLoop (p : Profile) (self : Eit) :
    List EitItem → (done : List Psi) → (psi : Psi) → (nextMidnight : UInt64) →
    (currentSection currentTableId : UInt8) → R (List Psi)
  | [], done, psi, _, _, _ => .ok (done ++ [psi])
  | item :: rest, done, psi, nextMidnight, currentSection, currentTableId =>
    if item.start ≥ nextMidnight then do
      let midnight := nextMidnight
      let nextMidnight ← addU64 p midnight SEG_DURATION
      let currentSection := currentSection / 8 * 8
      let (currentSection, currentTableId) ←
        if currentSection = 248 then do
          let t ← addU8 p currentTableId 1
          pure ((0 : UInt8), t)
        else do
          let s ← addU8 p currentSection 8
          pure (s, currentTableId)
      let new ← newSection p self currentTableId currentSection item
      eventLoop p self rest (done ++ [psi]) new nextMidnight currentSection currentTableId
    else if item.size + psi.buffer.length ≥ EIT_SECTION_SIZE then do
      let currentSection ← addU8 p currentSection 1
      let new ← newSection p self currentTableId currentSection item
      eventLoop p self rest (done ++ [psi]) new nextMidnight currentSection currentTableId
    else do
      let buffer ← item.assemble p psi.buffer
      eventLoop p self rest done { psi with buffer := buffer } nextMidnight currentSection
        currentTableId

/-- The numbering loop over the reversed list, src/psi/eit.rs:289-303; takes the sections in reverse
order and returns them in reverse order. -/
def numberLoop (p : Profile) (lastTableId : UInt8) :
    List Psi → (currentTableId lastSectionNumber : UInt8) → R (List Psi)
  | [], _, _ => .ok []
  | psi :: rest, currentTableId, lastSectionNumber => do
    let b0 : UInt8 ← idx psi.buffer 0
    let b6 : UInt8 ← idx psi.buffer 6
    let (currentTableId, lastSectionNumber) :=
      if b0 ≠ currentTableId then (b0, b6) else (currentTableId, lastSectionNumber)
    let buffer ← setIdx psi.buffer 7 lastSectionNumber
    let buffer ← setIdx buffer 12 b6
    let buffer ← setIdx buffer 13 lastTableId
    let psi ← { psi with buffer := buffer }.finalize p
    let rest ← numberLoop p lastTableId rest currentTableId lastSectionNumber
    return psi :: rest

/-- `<Eit as PsiDemux>::psi_list_assemble`, schedule branch, src/psi/eit.rs:197-305 (`first` and `last`
are the first and last item). -/
def scheduleAssemble (p : Profile) (self : Eit) (first last : EitItem) : R (List Psi) := do
  let tableId := self.tableId &&& 0xF0
  let midnight := first.start / DAY_DURATION * DAY_DURATION
  let serviceDuration ← subU64 p last.start midnight
  let serviceSegments := serviceDuration / SEG_DURATION
  let lastTableId ← addU8 p tableId (serviceSegments / 32).toUInt8
  let currentTableId := self.tableId &&& 0xF0
  let emptyEit : Eit :=
    { tableId := tableId, version := self.version, pnr := self.pnr, tsid := self.tsid,
      onid := self.onid, items := [] }
  let psi ← emptyEit.psiInit p
  let dayOffset ← subU64 p first.start midnight
  let currentSegment := dayOffset / (3 * 60 * 60)
  let (psiList, midnight, currentSection) ←
    emptyLoop p currentTableId (currentSegment.toNat + 1) psi [] midnight 0
  let nextMidnight ← addU64 p midnight SEG_DURATION
  let psi ← self.psiInit p
  let buffer ← setIdx psi.buffer 6 currentSection
  let psi := { psi with buffer := buffer }
  let psiList ← eventLoop p self self.items psiList psi nextMidnight currentSection currentTableId
  let rev ← numberLoop p lastTableId psiList.reverse 0x00 0x00
  return rev.reverse

/-- `<Eit as PsiDemux>::psi_list_assemble`, src/psi/eit.rs:166-306. -/
def psiListAssemble (p : Profile) (self : Eit) : R (List Psi) :=
  match self.items.head?, self.items.getLast? with
  | some first, some last =>
    if self.tableId = 0x4E ∨ self.tableId = 0x4F then
      pfLoop p self (UInt8.ofNat (self.items.length - 1)) 0 self.items
    else scheduleAssemble p self first last
  | _, _ => .ok []

/-- The loop of `<Eit as PsiDemux>::demux`, src/psi/eit.rs:315-320. -/
def demuxLoop (p : Profile) (pid : UInt16) :
    List Psi → (cc : UInt8) → (dst : List UInt8) → R (UInt8 × List UInt8)
  | [], cc, dst => .ok (cc, dst)
  | psi :: rest, cc, dst => do
    let psi := { psi with pid := pid, cc := cc }
    let (psi, dst) ← psi.demux p dst
    demuxLoop p pid rest psi.cc dst

/-- `<Eit as PsiDemux>::demux`, src/psi/eit.rs:309-321. -/
def demux (p : Profile) (self : Eit) (pid : UInt16) (cc : UInt8) (dst : List UInt8) :
    R (UInt8 × List UInt8) := do
  let psiList ← self.psiListAssemble p
  if psiList.isEmpty then return (cc, dst)
  demuxLoop p pid psiList cc dst

/-- `<Eit as From<&Psi>>::from`, src/psi/eit.rs:326-330. -/
def ofPsi (p : Profile) (psi : Psi) : R Eit := parse p default psi

end Eit
end Mpegts
