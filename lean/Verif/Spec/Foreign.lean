import Verif.Spec.Tables

/-! # Specification: table sections of any sender

The syntax tables of ISO/IEC 13818-1 section 2.4.4 and EN 300 468 section 5.2 once more, with every field a sender may choose: reserved
bits, current_next_indicator, section numbers, and loops of any descriptors, given as bytes.  Nothing here refers to the model. -/

namespace Spec.Foreign
open Spec.Descriptor (pack utc hhmmss)
open Spec.Table (sized12)

/-- table_id 8; section_syntax_indicator and three more bits; section_length 12; table_id_extension 16; reserved 2, version_number 5,
current_next_indicator 1; section_number 8; last_section_number 8. -/
structure Head where
  tableId : Nat
  flags : Nat
  ext : Nat
  reserved : Nat
  version : Nat
  current : Nat
  number : Nat
  last : Nat
deriving DecidableEq, Repr

/-- The values fit their fields. -/
structure Head.Ok (h : Head) : Prop where
  tableId : h.tableId < 256
  flags : h.flags < 16
  ext : h.ext < 65536
  reserved : h.reserved < 4
  version : h.version < 32
  current : h.current < 2
  number : h.number < 256
  last : h.last < 256

/-- The first eight bytes, with section_length zero. -/
def Head.bytes (h : Head) : List UInt8 :=
  beBytes 1 h.tableId ++ beBytes 2 (pack [(4, h.flags), (12, 0)]) ++ beBytes 2 h.ext ++
    beBytes 1 (pack [(2, h.reserved), (5, h.version), (1, h.current)]) ++ beBytes 1 h.number ++ beBytes 1 h.last

/-- The same section, announced for later. -/
def Head.announced (h : Head) : Head := { h with current := 0 }

/-! ## Program association section -/

structure Program where
  pnr : Nat
  reserved : Nat
  pid : Nat
deriving DecidableEq, Repr

structure Program.Ok (x : Program) : Prop where
  pnr : x.pnr < 65536
  reserved : x.reserved < 8
  pid : x.pid < 8192

def Program.bytes (x : Program) : List UInt8 := beBytes 2 x.pnr ++ beBytes 2 (pack [(3, x.reserved), (13, x.pid)])

structure Pat where
  head : Head
  programs : List Program
deriving DecidableEq, Repr

def Pat.body (s : Pat) : List UInt8 := s.head.bytes ++ s.programs.flatMap Program.bytes

structure Pat.Ok (s : Pat) : Prop where
  head : s.head.Ok
  id : s.head.tableId = 0x00
  programs : ∀ x ∈ s.programs, x.Ok
  fits : s.body.length ≤ 4092

/-! ## Program map section -/

structure Stream where
  type : Nat
  reserved : Nat
  pid : Nat
  reserved2 : Nat
  descs : List UInt8
deriving DecidableEq, Repr

structure Stream.Ok (x : Stream) : Prop where
  type : x.type < 256
  reserved : x.reserved < 8
  pid : x.pid < 8192
  reserved2 : x.reserved2 < 16

def Stream.bytes (x : Stream) : List UInt8 :=
  beBytes 1 x.type ++ beBytes 2 (pack [(3, x.reserved), (13, x.pid)]) ++ sized12 x.reserved2 x.descs

structure Pmt where
  head : Head
  reserved : Nat
  pcr : Nat
  reserved2 : Nat
  descs : List UInt8
  streams : List Stream
deriving DecidableEq, Repr

def Pmt.body (s : Pmt) : List UInt8 :=
  s.head.bytes ++ beBytes 2 (pack [(3, s.reserved), (13, s.pcr)]) ++ sized12 s.reserved2 s.descs ++ s.streams.flatMap Stream.bytes

structure Pmt.Ok (s : Pmt) : Prop where
  head : s.head.Ok
  id : s.head.tableId = 0x02
  reserved : s.reserved < 8
  pcr : s.pcr < 8192
  reserved2 : s.reserved2 < 16
  streams : ∀ x ∈ s.streams, x.Ok
  fits : s.body.length ≤ 4092

/-! ## Network information section -/

structure Transport where
  tsid : Nat
  onid : Nat
  reserved : Nat
  descs : List UInt8
deriving DecidableEq, Repr

structure Transport.Ok (x : Transport) : Prop where
  tsid : x.tsid < 65536
  onid : x.onid < 65536
  reserved : x.reserved < 16

def Transport.bytes (x : Transport) : List UInt8 := beBytes 2 x.tsid ++ beBytes 2 x.onid ++ sized12 x.reserved x.descs

structure Nit where
  head : Head
  reserved : Nat
  descs : List UInt8
  reserved2 : Nat
  transports : List Transport
deriving DecidableEq, Repr

def Nit.body (s : Nit) : List UInt8 :=
  s.head.bytes ++ sized12 s.reserved s.descs ++ sized12 s.reserved2 (s.transports.flatMap Transport.bytes)

structure Nit.Ok (s : Nit) : Prop where
  head : s.head.Ok
  id : s.head.tableId = 0x40 ∨ s.head.tableId = 0x41
  reserved : s.reserved < 16
  reserved2 : s.reserved2 < 16
  transports : ∀ x ∈ s.transports, x.Ok
  fits : s.body.length ≤ 4092

/-! ## Service description section -/

structure Service where
  pnr : Nat
  reserved : Nat
  schedule : Nat
  presentFollowing : Nat
  status : Nat
  caMode : Nat
  descs : List UInt8
deriving DecidableEq, Repr

structure Service.Ok (x : Service) : Prop where
  pnr : x.pnr < 65536
  reserved : x.reserved < 64
  schedule : x.schedule < 2
  presentFollowing : x.presentFollowing < 2
  status : x.status < 8
  caMode : x.caMode < 2

def Service.bytes (x : Service) : List UInt8 :=
  beBytes 2 x.pnr ++ beBytes 1 (pack [(6, x.reserved), (1, x.schedule), (1, x.presentFollowing)]) ++
    sized12 (pack [(3, x.status), (1, x.caMode)]) x.descs

structure Sdt where
  head : Head
  onid : Nat
  reserved : Nat
  services : List Service
deriving DecidableEq, Repr

def Sdt.body (s : Sdt) : List UInt8 := s.head.bytes ++ beBytes 2 s.onid ++ beBytes 1 s.reserved ++ s.services.flatMap Service.bytes

structure Sdt.Ok (s : Sdt) : Prop where
  head : s.head.Ok
  id : s.head.tableId = 0x42 ∨ s.head.tableId = 0x46
  onid : s.onid < 65536
  reserved : s.reserved < 256
  services : ∀ x ∈ s.services, x.Ok
  fits : s.body.length ≤ 4092

/-! ## Event information section -/

structure Event where
  eventId : Nat
  start : Nat
  duration : Nat
  status : Nat
  caMode : Nat
  descs : List UInt8
deriving DecidableEq, Repr

/-- The start is a time since 1970 whose date fits in 16 bits, the duration less than 100 hours. -/
structure Event.Ok (x : Event) : Prop where
  eventId : x.eventId < 65536
  start : unixEpochMjd + x.start / 86400 < 65536
  duration : x.duration < 360000
  status : x.status < 8
  caMode : x.caMode < 2

def Event.bytes (x : Event) : List UInt8 :=
  beBytes 2 x.eventId ++ utc x.start ++ beBytes 3 (hhmmss x.duration) ++ sized12 (pack [(3, x.status), (1, x.caMode)]) x.descs

structure Eit where
  head : Head
  tsid : Nat
  onid : Nat
  segmentLast : Nat
  lastTableId : Nat
  events : List Event
deriving DecidableEq, Repr

def Eit.body (s : Eit) : List UInt8 :=
  s.head.bytes ++ beBytes 2 s.tsid ++ beBytes 2 s.onid ++ beBytes 1 s.segmentLast ++ beBytes 1 s.lastTableId ++ s.events.flatMap Event.bytes

structure Eit.Ok (s : Eit) : Prop where
  head : s.head.Ok
  id : 0x4E ≤ s.head.tableId ∧ s.head.tableId ≤ 0x6F
  tsid : s.tsid < 65536
  onid : s.onid < 65536
  segmentLast : s.segmentLast < 256
  lastTableId : s.lastTableId < 256
  events : ∀ x ∈ s.events, x.Ok
  fits : s.body.length ≤ 4092

/-! ## Time and date section, time offset section -/

structure Tdt where
  flags : Nat
  time : Nat
deriving DecidableEq, Repr

/-- Complete: it has no CRC. -/
def Tdt.bytes (s : Tdt) : List UInt8 := [0x70] ++ beBytes 2 (pack [(4, s.flags), (12, 5)]) ++ utc s.time

structure Tdt.Ok (s : Tdt) : Prop where
  flags : s.flags < 16
  time : unixEpochMjd + s.time / 86400 < 65536

structure Tot where
  flags : Nat
  time : Nat
  reserved : Nat
  descs : List UInt8
deriving DecidableEq, Repr

def Tot.body (s : Tot) : List UInt8 := [0x73] ++ beBytes 2 (pack [(4, s.flags), (12, 0)]) ++ utc s.time ++ sized12 s.reserved s.descs

structure Tot.Ok (s : Tot) : Prop where
  flags : s.flags < 16
  time : unixEpochMjd + s.time / 86400 < 65536
  reserved : s.reserved < 16
  fits : s.body.length ≤ 4092

/-- With the usual values of the bits that are free these are the sections of `Spec.Table`. -/
example : (Sdt.mk ⟨0x42, 0b1111, 1, 0b11, 5, 1, 0, 0⟩ 2 0xFF [⟨7, 0b111111, 1, 0, 4, 1, [1, 2]⟩]).body =
    Table.sdt 0x42 1 5 0 0 2 (Table.sdtEntry 7 1 0 4 1 [1, 2]) := by decide
example : (Nit.mk ⟨0x40, 0b1111, 1, 0b11, 5, 1, 0, 0⟩ 0b1111 [9] 0b1111 [⟨7, 8, 0b1111, [1, 2]⟩]).body =
    Table.nit 0x40 1 5 0 0 [9] (Table.nitEntry 7 8 [1, 2]) := by decide

end Spec.Foreign
