import Verif.Model.Ts

/-! # `src/ts/pcr.rs`: program clock reference -/

namespace Mpegts.Ts
open Mpegts

/-- src/ts/pcr.rs:17 -/
def PCR_CLOCK_US : UInt64 := 27
/-- src/ts/pcr.rs:18 -/
def PCR_CLOCK_MS : UInt64 := PCR_CLOCK_US * 1000
/-- src/ts/pcr.rs:19 -/
def PCR_SYSTEM_CLOCK : UInt64 := PCR_CLOCK_US * 1000000
/-- src/ts/pcr.rs:20 -/
def PCR_NONE : UInt64 := ((1 : UInt64) <<< 33) * 300
/-- src/ts/pcr.rs:21 -/
def PCR_MAX : UInt64 := PCR_NONE - 1

/-- src/ts/pcr.rs:26-28 (`&&` short-circuits: byte 5 is only read when the first two tests hold). -/
def isPcr (packet : List UInt8) : R Bool := do
  if !(← isAdaptation packet) then return false
  if !((← getAdaptationSize packet) ≥ 7) then return false
  return ((← idx packet 5) &&& 0x10) != 0

/-- src/ts/pcr.rs:33-43 -/
def setPcr (packet : List UInt8) (pcr : UInt64) : R (List UInt8) := do
  let base := pcr / 300
  let ext := pcr % 300
  let packet ← setIdx packet 6 ((base >>> 25) &&& 0xFF).toUInt8
  let packet ← setIdx packet 7 ((base >>> 17) &&& 0xFF).toUInt8
  let packet ← setIdx packet 8 ((base >>> 9) &&& 0xFF).toUInt8
  let packet ← setIdx packet 9 ((base >>> 1) &&& 0xFF).toUInt8
  let packet ← setIdx packet 10
    (((base <<< 7) &&& 0x80).toUInt8 ||| (0x7E : UInt8) ||| ((ext >>> 8) &&& 0x01).toUInt8)
  setIdx packet 11 (ext &&& 0xFF).toUInt8

/-- src/ts/pcr.rs:48-60 (the final `* 300 +` stays far below `2^64`). -/
def getPcr (packet : List UInt8) : R UInt64 := do
  let b6 ← idx packet 6
  let b7 ← idx packet 7
  let b8 ← idx packet 8
  let b9 ← idx packet 9
  let b10 ← idx packet 10
  let b11 ← idx packet 11
  let base :=
    (b6.toUInt64 <<< 25) ||| (b7.toUInt64 <<< 17) ||| (b8.toUInt64 <<< 9) |||
    (b9.toUInt64 <<< 1) ||| (b10.toUInt64 >>> 7)
  let ext := ((b10 &&& 0x01).toUInt64 <<< 8) ||| b11.toUInt64
  return base * 300 + ext

/-- src/ts/pcr.rs:65-71 -/
def pcrDelta (p : Profile) (last current : UInt64) : R UInt64 :=
  if current ≥ last then subU64 p current last
  else do
    let x ← addU64 p current PCR_MAX
    subU64 p x last

/-- src/ts/pcr.rs:108-110 -/
def pcrToStc (p : Profile) (lastPcr bytes lastDelta lastBytes : UInt64) : R UInt64 := do
  let x ← mulU64 p lastDelta bytes
  let x ← divU64 x lastBytes
  addU64 p x lastPcr

/-- `x as i64` for `u64`: two's complement reinterpretation. -/
def asI64 (x : UInt64) : Int := if x.toNat < 2 ^ 63 then (x.toNat : Int) else (x.toNat : Int) - 2 ^ 64

/-- An `i64` result: out of range panics (debug) or wraps (release). -/
def i64 (p : Profile) (x : Int) : R Int :=
  if -(2 ^ 63) ≤ x ∧ x < 2 ^ 63 then .ok x
  else p.overflow ((x + 2 ^ 63) % 2 ^ 64 - 2 ^ 63)

/-- src/ts/pcr.rs:115-129.  `i64` is modelled by `Int` with explicit range checks; the division is
Rust's truncating `/`. -/
def pcrJitterNs (p : Profile) (pcr stc : UInt64) : R Int := do
  let u ←
    if pcr < stc then do
      let x ← addU64 p pcr PCR_MAX
      subU64 p x stc
    else subU64 p pcr stc
  let result := asI64 u
  let result ←
    if result > asI64 PCR_SYSTEM_CLOCK then i64 p (result - asI64 PCR_MAX) else pure result
  let x ← i64 p (result * 1000)
  return x.tdiv (asI64 PCR_CLOCK_US)

/-- src/ts/pcr.rs:134 -/
def pcrToUs (pcr : UInt64) : UInt64 := pcr / PCR_CLOCK_US

/-- src/ts/pcr.rs:139 -/
def pcrToMs (pcr : UInt64) : UInt64 := pcr / PCR_CLOCK_MS

/-- src/ts/pcr.rs:144-146 -/
def pcrDeltaBitrate (p : Profile) (delta bytes : UInt64) : R UInt64 := do
  let x ← mulU64 p bytes 8
  divU64 x (pcrToMs delta)

end Mpegts.Ts
