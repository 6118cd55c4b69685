import Verif.Spec.Tables

/-! # Specification: sections whose 12-bit length fields are too small for what they count

The same layouts as in `Spec.Table`, for parts of any size.  A length that needs more than 12 bits is or-ed over the four bits before
it, and what needs more than 16 bits is lost; the bytes themselves are all there. -/

namespace Spec.Spill
open Spec.Table (header)
open Spec.Descriptor (pack utc hhmmss)

/-- Four bits and the length of a loop, in 16 bits, and the loop. -/
def sized (bits : Nat) (loop : List UInt8) : List UInt8 := beBytes 2 (bits * 4096 ||| loop.length % 65536) ++ loop

/-- A section without CRC made complete: length of what follows the length field, and CRC. -/
def complete (body : List UInt8) : List UInt8 :=
  let head := body.take 1 ++ beBytes 2 ((body.getD 1 0).toNat / 16 * 4096 ||| (body.length + 1) % 65536) ++ body.drop 3
  head ++ beBytes 4 (crc32 head).toNat

def pmtEntry (type pid : Nat) (descs : List UInt8) : List UInt8 :=
  beBytes 1 type ++ beBytes 2 (pack [(3, 0b111), (13, pid)]) ++ sized 0b1111 descs

def pmt (pnr version number last pcr : Nat) (descs entries : List UInt8) : List UInt8 :=
  header 0x02 0b1011 pnr version number last ++ beBytes 2 (pack [(3, 0b111), (13, pcr)]) ++ sized 0b1111 descs ++ entries

def nitEntry (tsid onid : Nat) (descs : List UInt8) : List UInt8 := beBytes 2 tsid ++ beBytes 2 onid ++ sized 0b1111 descs

/-- The position of the second length is that of the end of the network descriptors as the first length (its 12 bits) says; it counts what
follows from there. -/
def nit (tableId networkId version number last : Nat) (descs entries : List UInt8) : List UInt8 :=
  let raw := header tableId 0b1111 networkId version number last ++ sized 0b1111 descs ++ [0, 0] ++ entries
  let at' := 10 + descs.length % 4096
  raw.take at' ++ beBytes 2 (0b1111 * 4096 ||| (raw.length - 2 - at') % 65536) ++ raw.drop (at' + 2)

def sdtEntry (pnr schedule presentFollowing status caMode : Nat) (descs : List UInt8) : List UInt8 :=
  beBytes 2 pnr ++ beBytes 1 (pack [(6, 0b111111), (1, schedule), (1, presentFollowing)]) ++
    sized (pack [(3, status), (1, caMode)]) descs

def eitEntry (eventId start duration status caMode : Nat) (descs : List UInt8) : List UInt8 :=
  beBytes 2 eventId ++ utc start ++ beBytes 3 (hhmmss duration) ++ sized (pack [(3, status), (1, caMode)]) descs

def tot (time : Nat) (descs : List UInt8) : List UInt8 := [0x73, 0x70, 0x00] ++ utc time ++ sized 0b1111 descs

/-- Where the lengths fit, these are the layouts of the standard. -/
example : sized 0b1111 [1, 2, 3] = Table.sized12 0b1111 [1, 2, 3] := by decide
example : nit 0x40 7 1 0 0 [0x40, 0x01, 0x41] [1, 2, 3] = Table.nit 0x40 7 1 0 0 [0x40, 0x01, 0x41] [1, 2, 3] := by decide
example : complete [0x42, 0xB0, 0, 1, 2] = Spec.complete [0x42, 0xB0, 0, 1, 2] := by decide +kernel

end Spec.Spill
