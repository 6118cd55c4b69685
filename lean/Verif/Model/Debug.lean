import Verif.Model.Pcr

/-! # `src/ts/debug.rs`: the fields printed by the `Debug` impls

The text layout produced by `Formatter::debug_struct` is not modelled; the values handed to it are. -/

namespace Mpegts.Ts
open Mpegts

/-- The flag fields of an adaptation field with non-zero length, src/ts/debug.rs:43-54. -/
structure AdaptFlags where
  discontinuity : Bool
  randomAccess : Bool
  esPriority : Bool
  pcrFlag : Bool
  opcrFlag : Bool
  splicingPoint : Bool
  privateData : Bool
  afExtension : Bool
  pcr : Option UInt64
deriving DecidableEq, Repr

/-- What `TsAdaptation`'s `Debug` prints, src/ts/debug.rs:28-57: `false` without adaptation field
(`none`), otherwise the length and, if it is non-zero, the flags. -/
abbrev AdaptDebug := Option (UInt8 × Option AdaptFlags)

/-- `<TsAdaptation as Debug>::fmt`, src/ts/debug.rs:28-57. -/
def adaptationDebug (packet : List UInt8) : R AdaptDebug := do
  if !(← isAdaptation packet) then return none
  let len ← getAdaptationSize packet
  if len = 0 then return some (len, none)
  let rest ← sliceFrom packet 5
  let b ← idx rest 0
  let pcrFlag : Bool := (b &&& 0x10) != 0
  let pcr ← if pcrFlag then some <$> getPcr packet else pure none
  return some (len, some {
    discontinuity := (b &&& 0x80) != 0
    randomAccess := (b &&& 0x40) != 0
    esPriority := (b &&& 0x20) != 0
    pcrFlag := pcrFlag
    opcrFlag := (b &&& 0x08) != 0
    splicingPoint := (b &&& 0x04) != 0
    privateData := (b &&& 0x02) != 0
    afExtension := (b &&& 0x01) != 0
    pcr := pcr })

/-- What `TsPacket`'s `Debug` prints, src/ts/debug.rs:76-85. -/
structure PacketDebug where
  sync : Bool
  error : UInt8
  pusi : Bool
  pid : UInt16
  scrambling : UInt8
  adaptation : AdaptDebug
  payload : Bool
  cc : UInt8
deriving DecidableEq, Repr

/-- `TsAdaptation::new`, src/ts/debug.rs:20-23. -/
def adaptationNew (p : Profile) (packet : List UInt8) : R (List UInt8) := do
  debugAssert p (packet.length ≥ PACKET_SIZE)
  return packet

/-- `TsPacket::new`, src/ts/debug.rs:67-70. -/
def packetNew (p : Profile) (packet : List UInt8) : R (List UInt8) := do
  debugAssert p (packet.length ≥ PACKET_SIZE)
  return packet

/-- `<TsPacket as Debug>::fmt`, src/ts/debug.rs:75-86. -/
def packetDebug (p : Profile) (packet : List UInt8) : R PacketDebug := do
  let sync ← isSync packet
  let b1 : UInt8 ← idx packet 1
  let pusi ← isPusi packet
  let pid ← getPid packet
  let b3 : UInt8 ← idx packet 3
  let ad ← adaptationNew p packet
  let adaptation ← adaptationDebug ad
  let payload ← isPayload packet
  let cc ← getCc packet
  return { sync := sync, error := (b1 &&& 0x80) >>> 7, pusi := pusi, pid := pid,
           scrambling := (b3 &&& 0xC0) >>> 6, adaptation := adaptation, payload := payload, cc := cc }

end Mpegts.Ts
