import Verif.Model.Rust

/-! # `src/bytes.rs`: big-endian integers in byte slices -/

namespace Mpegts

/-- `Bytes::get_u16`, src/bytes.rs:21-25.  (The `debug_assert` and the indexing panic on exactly the
same inputs, so the profile is irrelevant.) -/
def getU16 (s : List UInt8) : R UInt16 := do
  let a ← idx s 0
  let b ← idx s 1
  return (a.toUInt16 <<< 8) ||| b.toUInt16

/-- `Bytes::set_u16`, src/bytes.rs:27-32. -/
def setU16 (s : List UInt8) (value : UInt16) : R (List UInt8) := do
  let s ← setIdx s 0 (value >>> 8).toUInt8
  setIdx s 1 value.toUInt8

/-- `Bytes::get_u24`, src/bytes.rs:34-38. -/
def getU24 (s : List UInt8) : R UInt32 := do
  let a ← idx s 0
  let b ← idx s 1
  let c ← idx s 2
  return (a.toUInt32 <<< 16) ||| (b.toUInt32 <<< 8) ||| c.toUInt32

/-- `Bytes::set_u24`, src/bytes.rs:40-46. -/
def setU24 (s : List UInt8) (value : UInt32) : R (List UInt8) := do
  let s ← setIdx s 0 (value >>> 16).toUInt8
  let s ← setIdx s 1 (value >>> 8).toUInt8
  setIdx s 2 value.toUInt8

/-- `Bytes::get_u32`, src/bytes.rs:48-52. -/
def getU32 (s : List UInt8) : R UInt32 := do
  let a ← idx s 0
  let b ← idx s 1
  let c ← idx s 2
  let d ← idx s 3
  return (a.toUInt32 <<< 24) ||| (b.toUInt32 <<< 16) ||| (c.toUInt32 <<< 8) ||| d.toUInt32

/-- `Bytes::set_u32`, src/bytes.rs:54-61. -/
def setU32 (s : List UInt8) (value : UInt32) : R (List UInt8) := do
  let s ← setIdx s 0 (value >>> 24).toUInt8
  let s ← setIdx s 1 (value >>> 16).toUInt8
  let s ← setIdx s 2 (value >>> 8).toUInt8
  setIdx s 3 value.toUInt8

/-- `buf[off ..].f(..)` for a mutating `f`: apply `f` to the tail slice, in place. -/
def atOff (buf : List UInt8) (off : Nat) (f : List UInt8 → R (List UInt8)) : R (List UInt8) := do
  let tail ← sliceFrom buf off
  let tail ← f tail
  return buf.take off ++ tail

/-- `buf[off ..].get_u16()` -/
def getU16At (buf : List UInt8) (off : Nat) : R UInt16 := do getU16 (← sliceFrom buf off)
/-- `buf[off ..].get_u24()` -/
def getU24At (buf : List UInt8) (off : Nat) : R UInt32 := do getU24 (← sliceFrom buf off)
/-- `buf[off ..].get_u32()` -/
def getU32At (buf : List UInt8) (off : Nat) : R UInt32 := do getU32 (← sliceFrom buf off)
/-- `buf[off ..].set_u16(v)` -/
def setU16At (buf : List UInt8) (off : Nat) (v : UInt16) : R (List UInt8) := atOff buf off (setU16 · v)
/-- `buf[off ..].set_u24(v)` -/
def setU24At (buf : List UInt8) (off : Nat) (v : UInt32) : R (List UInt8) := atOff buf off (setU24 · v)
/-- `buf[off ..].set_u32(v)` -/
def setU32At (buf : List UInt8) (off : Nat) (v : UInt32) : R (List UInt8) := atOff buf off (setU32 · v)

end Mpegts
