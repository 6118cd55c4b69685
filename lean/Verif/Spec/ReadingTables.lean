import Verif.Spec.Reading
import Verif.Model.Pat
import Verif.Model.Pmt
import Verif.Model.Nit
import Verif.Model.Sdt
import Verif.Model.Eit
import Verif.Model.Tdt

/-! # Specification: what the bytes of a section say

The bit positions of the section syntax tables of ISO/IEC 13818-1 section 2.4.4 and EN 300 468 section 5.2, read off any complete section
(CRC included).  Entries and descriptors are added to those of the table, the other fields are replaced. -/

namespace Spec.Reading
open Mpegts Table

/-- The bytes of a section from byte `start` up to its CRC. -/
def inner (start : Nat) (s : List UInt8) : List UInt8 := (s.take (s.length - 4)).drop start

/-- Program association: program_number, PID. -/
def pat (t : Pat) (s : List UInt8) : Pat :=
  { version := .ofNat (bitsAt s 42 5), tsid := .ofNat (bitsAt s 24 16)
    items := t.items ++ (chunks 4 (inner 8 s)).map fun e => ⟨.ofNat (bitsAt e 0 16), .ofNat (bitsAt e 19 13)⟩ }

/-- Program map: PCR PID, program descriptors, and the elementary streams with type, PID and descriptors. -/
def pmt (t : Pmt) (s : List UInt8) : Pmt :=
  { version := .ofNat (bitsAt s 42 5), pnr := .ofNat (bitsAt s 24 16), pcr := .ofNat (bitsAt s 67 13)
    descriptors := t.descriptors ++ descriptors ((inner 12 s).take (bitsAt s 84 12))
    items := t.items ++ (entries 5 (inner (12 + bitsAt s 84 12) s)).map fun e =>
      { streamType := .ofNat (bitsAt e 0 8), pid := .ofNat (bitsAt e 11 13), descriptors := descriptors (e.drop 5) } }

/-- Network information: network descriptors, and the transport streams with their ids and descriptors. -/
def nit (t : Nit) (s : List UInt8) : Nit :=
  { tableId := .ofNat (bitsAt s 0 8), version := .ofNat (bitsAt s 42 5), networkId := .ofNat (bitsAt s 24 16)
    descriptors := t.descriptors ++ descriptors ((inner 10 s).take (bitsAt s 68 12))
    items := t.items ++ (entries 6 (inner (12 + bitsAt s 68 12) s)).map fun e =>
      { tsid := .ofNat (bitsAt e 0 16), onid := .ofNat (bitsAt e 16 16), descriptors := descriptors (e.drop 6) } }

/-- Service description: the services with their flags, running status and descriptors. -/
def sdt (t : Sdt) (s : List UInt8) : Sdt :=
  { tableId := .ofNat (bitsAt s 0 8), version := .ofNat (bitsAt s 42 5), tsid := .ofNat (bitsAt s 24 16), onid := .ofNat (bitsAt s 64 16)
    items := t.items ++ (entries 5 (inner 11 s)).map fun e =>
      { pnr := .ofNat (bitsAt e 0 16), eitScheduleFlag := .ofNat (bitsAt e 22 1), eitPresentFollowingFlag := .ofNat (bitsAt e 23 1)
        runningStatus := .ofNat (bitsAt e 24 3), freeCaMode := .ofNat (bitsAt e 27 1), descriptors := descriptors (e.drop 5) } }

/-- Event information: the events with start, duration, running status and descriptors. -/
def eit (t : Eit) (s : List UInt8) : Eit :=
  { tableId := .ofNat (bitsAt s 0 8), version := .ofNat (bitsAt s 42 5), pnr := .ofNat (bitsAt s 24 16), tsid := .ofNat (bitsAt s 64 16)
    onid := .ofNat (bitsAt s 80 16)
    items := t.items ++ (entries 12 (inner 14 s)).map fun e =>
      { eventId := .ofNat (bitsAt e 0 16), start := .ofNat (time (bitsAt e 16 16) (bitsAt e 32 24)), duration := .ofNat (seconds (bitsAt e 56 24))
        status := .ofNat (bitsAt e 80 3), caMode := .ofNat (bitsAt e 83 1), descriptors := descriptors (e.drop 12) } }

/-- Time and date. -/
def tdt (s : List UInt8) : Tdt := { time := .ofNat (time (bitsAt s 24 16) (bitsAt s 40 24)) }

/-- Time offset: the time, and descriptors. -/
def tot (t : Tot) (s : List UInt8) : Tot :=
  { time := .ofNat (time (bitsAt s 24 16) (bitsAt s 40 24)), descriptors := t.descriptors ++ descriptors ((inner 10 s).take (bitsAt s 68 12)) }

end Spec.Reading
