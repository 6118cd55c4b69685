import Verif.Spec.Packet
import Verif.Spec.Clock
import Verif.Model.Ts
import Verif.Model.Pes

/-! # Specification: elementary streams (ISO/IEC 13818-1, 2.4.3) -/

namespace Spec
open Mpegts

/-- The contents of a transport packet: the header, the adaptation field (without its length byte) and the payload. -/
structure Cell where
  head : Header
  field : List UInt8
  payload : List UInt8

/-- The packet.  The adaptation field follows the header if the header announces it. -/
def Cell.bytes (c : Cell) : List UInt8 :=
  c.head.encode ++ ((if c.head.adaptation then UInt8.ofNat c.field.length :: c.field else []) ++ c.payload)

/-- A packet of 188 bytes with what its header announces, and nothing else. -/
def Cell.Proper (c : Cell) : Prop :=
  c.head.Valid ∧ c.head.sync = 0x47 ∧ c.bytes.length = 188 ∧ (c.head.payload = false → c.payload = []) ∧
    (c.head.adaptation = false → c.field = [])

/-- The packets that carry data of the elementary stream on this PID. -/
def dataCells (pid : Nat) (cs : List Cell) : List Cell := cs.filter fun c => c.head.pid = pid ∧ c.head.payload

/-- One PES packet in transport packets: the first has the start indicator, the others do not. -/
def OneUnit (g : List Cell) : Prop := ∃ c l, g = c :: l ∧ c.head.pusi = true ∧ ∀ x ∈ l, x.head.pusi = false

/-- How a receiver collects the PES packets of a PID: `unit` is the one it is collecting. -/
def collectUnits (p : Profile) (pid : UInt16) : (unit : Option (List UInt8)) → List (List UInt8) → R (List (List UInt8))
  | unit, [] => .ok unit.toList
  | unit, pk :: pks => do
    let here ← Ts.getPid pk
    let has ← Ts.isPayload pk
    if here == pid && has then
      let offset ← Ts.getPayloadOffset p pk
      let data ← sliceFrom pk offset.toNat
      let start ← Ts.isPusi pk
      if start then
        let rest ← collectUnits p pid (some data) pks
        return unit.toList ++ rest
      else collectUnits p pid (unit.map (· ++ data)) pks
    else collectUnits p pid unit pks

/-- A PES packet with the optional header (2.4.3.6): stream id, the two bytes of its length, the byte of flags after it, PTS and DTS, the
lower six flags of the next byte, other header fields and stuffing, and the data. -/
structure PesUnit where
  id : UInt8
  len : UInt8 × UInt8
  flags : UInt8
  pts : Option Nat
  dts : Option Nat
  low : Nat
  extra : List UInt8
  data : List UInt8

/-- The time stamps: a PTS alone has the prefix 2, with a DTS after it the prefixes are 3 and 1. -/
def PesUnit.stamps (u : PesUnit) : List UInt8 :=
  match u.pts, u.dts with
  | some pts, some dts => tsField 3 true true true pts ++ tsField 1 true true true dts
  | some pts, none => tsField 2 true true true pts
  | none, _ => []

/-- The bytes of the PES packet. -/
def PesUnit.bytes (u : PesUnit) : List UInt8 :=
  [0, 0, 1, u.id, u.len.1, u.len.2, u.flags,
    UInt8.ofNat (128 * u.pts.isSome.toNat + 64 * u.dts.isSome.toNat + u.low), UInt8.ofNat (u.stamps.length + u.extra.length)] ++
  (u.stamps ++ (u.extra ++ u.data))

/-- The streams without the optional header (program stream map, padding, private stream 2, ECM, EMM, DSM-CC, H.222.1 type E, directory). -/
def bareIds : List Nat := [0xBC, 0xBE, 0xBF, 0xF0, 0xF1, 0xF2, 0xF8, 0xFF]

/-- A DTS comes only with a PTS, both have 33 bits, and the lengths fit their fields. -/
def PesUnit.Proper (u : PesUnit) : Prop :=
  u.id.toNat ∉ bareIds ∧ (u.pts = none → u.dts = none) ∧ (∀ t ∈ u.pts, t < 2 ^ 33) ∧ (∀ t ∈ u.dts, t < 2 ^ 33) ∧ u.low < 64 ∧
    u.stamps.length + u.extra.length < 256

/-- A time stamp if there is one. -/
def stampOf (has : R Bool) (get : R UInt64) : R (Option Nat) := do
  if ← has then return some (← get).toNat else return none

/-- What a receiver reads from a PES packet: PTS, DTS and data. -/
def readPes (pes : List UInt8) : R (Option Nat × Option Nat × List UInt8) := do
  let full ← Pes.isSyntaxSpec pes
  let pts ← if full then stampOf (Pes.isPts pes) (Pes.getPts pes) else pure none
  let dts ← if full then stampOf (Pes.isDts pes) (Pes.getDts pes) else pure none
  let offset ← Pes.getPayloadOffset pes
  let data ← sliceFrom pes offset.toNat
  return (pts, dts, data)

example : (Cell.mk ⟨0x47, false, true, false, 256, 0, true, true, 5⟩ [0xFF, 0xFF] [1, 2, 3]).bytes =
    [0x47, 0x41, 0x00, 0x35, 2, 0xFF, 0xFF, 1, 2, 3] := by decide
example : (PesUnit.mk 0xE0 (0, 0) 0x80 (some 225220) none 0 [0xFF] [9, 8]).bytes =
    [0, 0, 1, 0xE0, 0, 0, 0x80, 0x80, 6, 0x21, 0x00, 0x0D, 0xDF, 0x89, 0xFF, 9, 8] := by decide

end Spec
