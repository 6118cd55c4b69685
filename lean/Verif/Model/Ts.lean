import Verif.Model.Bytes

/-! # `src/ts/mod.rs`: TS packet header accessors -/

namespace Mpegts.Ts
open Mpegts

/-- src/ts/mod.rs:9 -/
def PID_NONE : UInt16 := 8192
/-- src/ts/mod.rs:10 -/
def PID_NULL : UInt16 := PID_NONE - 1
/-- src/ts/mod.rs:11 -/
def PACKET_SIZE : Nat := 188

/-- src/ts/mod.rs:16-29: header `47 1F FF 10` followed by 184 bytes `FF`. -/
def NULL_PACKET : List UInt8 := [0x47, 0x1F, 0xFF, 0x10] ++ List.replicate 184 0xFF

/-- src/ts/mod.rs:33-46: 188 bytes `FF`. -/
def FILL_PACKET : List UInt8 := List.replicate 188 0xFF

/-- src/ts/mod.rs:51 -/
def isSync (ts : List UInt8) : R Bool := do return (← idx ts 0) == 0x47

/-- src/ts/mod.rs:56 -/
def isError (ts : List UInt8) : R Bool := do return ((← idx ts 1) &&& 0x80) != 0x00

/-- src/ts/mod.rs:61 -/
def isPayload (ts : List UInt8) : R Bool := do return ((← idx ts 3) &&& 0x10) != 0x00

/-- src/ts/mod.rs:68 -/
def isPusi (ts : List UInt8) : R Bool := do return ((← idx ts 1) &&& 0x40) != 0x00

/-- src/ts/mod.rs:74 -/
def isAdaptation (ts : List UInt8) : R Bool := do return ((← idx ts 3) &&& 0x20) != 0x00

/-- src/ts/mod.rs:102 -/
def getAdaptationSize (ts : List UInt8) : R UInt8 := idx ts 4

/-- src/ts/mod.rs:82-88.  `4 + 1 + size` is `u8` arithmetic (left to right, the constant `5` folds
without overflow). -/
def getPayloadOffset (p : Profile) (ts : List UInt8) : R UInt8 := do
  if !(← isAdaptation ts) then
    return 4
  else
    addU8 p 5 (← getAdaptationSize ts)

/-- src/ts/mod.rs:94 -/
def isScrambled (ts : List UInt8) : R Bool := do return ((← idx ts 3) &&& 0xC0) != 0

/-- src/ts/mod.rs:107 -/
def getPid (ts : List UInt8) : R UInt16 := do
  let a ← idx ts 1
  let b ← idx ts 2
  return ((a &&& (0x1F : UInt8)).toUInt16 <<< 8) ||| b.toUInt16

/-- src/ts/mod.rs:113 -/
def getCc (ts : List UInt8) : R UInt8 := do
  let b : UInt8 ← idx ts 3
  return b &&& 0x0F

/-- src/ts/mod.rs:118-122 -/
def setPid (p : Profile) (ts : List UInt8) (pid : UInt16) : R (List UInt8) := do
  debugAssert p (pid < 8192)
  let b : UInt8 ← idx ts 1
  let ts ← setIdx ts 1 ((b &&& (0xE0 : UInt8)) ||| (pid >>> 8).toUInt8)
  setIdx ts 2 pid.toUInt8

/-- src/ts/mod.rs:126-129 -/
def setCc (p : Profile) (ts : List UInt8) (cc : UInt8) : R (List UInt8) := do
  debugAssert p (cc < 16)
  let b : UInt8 ← idx ts 3
  setIdx ts 3 ((b &&& (0xF0 : UInt8)) ||| (cc &&& (0x0F : UInt8)))

/-- src/ts/mod.rs:133 -/
def setPayload0 (ts : List UInt8) : R (List UInt8) := do
  let b : UInt8 ← idx ts 3
  setIdx ts 3 (b &&& (~~~0x10 : UInt8))

/-- src/ts/mod.rs:137 -/
def setPayload1 (ts : List UInt8) : R (List UInt8) := do
  let b : UInt8 ← idx ts 3
  setIdx ts 3 (b ||| (0x10 : UInt8))

/-- src/ts/mod.rs:141 -/
def setPusi0 (ts : List UInt8) : R (List UInt8) := do
  let b : UInt8 ← idx ts 1
  setIdx ts 1 (b &&& (~~~0x40 : UInt8))

/-- src/ts/mod.rs:145 -/
def setPusi1 (ts : List UInt8) : R (List UInt8) := do
  let b : UInt8 ← idx ts 1
  setIdx ts 1 (b ||| (0x40 : UInt8))

end Mpegts.Ts
