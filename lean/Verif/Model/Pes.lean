import Verif.Model.Rust

/-! # `src/es/pes.rs`: PES packet header accessors -/

namespace Mpegts.Pes
open Mpegts

/-- src/es/pes.rs:11 -/
def PTS_CLOCK_MS : UInt64 := 90
/-- src/es/pes.rs:12 -/
def PTS_NONE : UInt64 := (1 : UInt64) <<< 33
/-- src/es/pes.rs:13 -/
def PTS_MAX : UInt64 := PTS_NONE - 1

/-- src/es/pes.rs:18-20 (short-circuiting). -/
def isPrefix (packet : List UInt8) : R Bool := do
  if !((← idx packet 0) == 0x00) then return false
  if !((← idx packet 1) == 0x00) then return false
  return (← idx packet 2) == 0x01

/-- src/es/pes.rs:25-37 -/
def isSyntaxSpec (packet : List UInt8) : R Bool := do
  let b ← idx packet 3
  return !(b == 0xBC || b == 0xBE || b == 0xBF || b == 0xF0 || b == 0xF1 || b == 0xF2 ||
    b == 0xF8 || b == 0xFF)

/-- src/es/pes.rs:42-44 (`+` on disjoint bits cannot overflow). -/
def getLength (packet : List UInt8) : R UInt16 := do
  let a ← idx packet 4
  let b ← idx packet 5
  return (a.toUInt16 <<< 8) + b.toUInt16

/-- src/es/pes.rs:49-55 -/
def getPayloadOffset (packet : List UInt8) : R UInt16 := do
  if !(← isSyntaxSpec packet) then return 6
  else return 6 + 3 + (← idx packet 8).toUInt16

/-- src/es/pes.rs:60-62 -/
def isPts (packet : List UInt8) : R Bool := do return ((← idx packet 7) &&& 0x80) != 0

/-- src/es/pes.rs:67-73 -/
def getPts (packet : List UInt8) : R UInt64 := do
  let b9 ← idx packet 9
  let b10 ← idx packet 10
  let b11 ← idx packet 11
  let b12 ← idx packet 12
  let b13 ← idx packet 13
  return ((b9 &&& 0x0E).toUInt64 <<< 29) ||| (b10.toUInt64 <<< 22) |||
    ((b11 &&& 0xFE).toUInt64 <<< 14) ||| (b12.toUInt64 <<< 7) ||| (b13.toUInt64 >>> 1)

/-- src/es/pes.rs:78-84 -/
def ptsDelta (p : Profile) (last current : UInt64) : R UInt64 :=
  if current ≥ last then subU64 p current last
  else do
    let x ← addU64 p current PTS_MAX
    subU64 p x last

/-- src/es/pes.rs:89 -/
def ptsToMs (pts : UInt64) : UInt64 := pts / PTS_CLOCK_MS

/-- src/es/pes.rs:94-96 -/
def isDts (packet : List UInt8) : R Bool := do return ((← idx packet 7) &&& 0x40) != 0

/-- src/es/pes.rs:101-107 -/
def getDts (packet : List UInt8) : R UInt64 := do
  let b9 ← idx packet 14
  let b10 ← idx packet 15
  let b11 ← idx packet 16
  let b12 ← idx packet 17
  let b13 ← idx packet 18
  return ((b9 &&& 0x0E).toUInt64 <<< 29) ||| (b10.toUInt64 <<< 22) |||
    ((b11 &&& 0xFE).toUInt64 <<< 14) ||| (b12.toUInt64 <<< 7) ||| (b13.toUInt64 >>> 1)

end Mpegts.Pes
