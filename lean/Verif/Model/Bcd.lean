import Verif.Model.Rust

/-! # `src/psi/utils/bcd.rs` and `src/psi/utils/mjd.rs`: BCD numbers, BCD times and dates -/

namespace Mpegts

/-- `u8::from_bcd`, src/psi/utils/bcd.rs:19-23 (the subtraction cannot underflow). -/
def fromBcd8 (p : Profile) (x : UInt8) : R UInt8 := do
  debugAssert p ((x &&& 0xF0) < 0xA0)
  debugAssert p ((x &&& 0x0F) < 0x0A)
  return x - (x >>> 4) * 6

/-- `u8::to_bcd`, src/psi/utils/bcd.rs:26-29. -/
def toBcd8 (p : Profile) (x : UInt8) : R UInt8 := do
  debugAssert p (x < 100)
  addU8 p x ((x / 10) * 6)

/-- `u16::from_bcd`, src/psi/utils/bcd.rs:35-37 (at most `165 * 100 + 165`, no overflow). -/
def fromBcd16 (p : Profile) (x : UInt16) : R UInt16 := do
  let hi ← fromBcd8 p (x >>> 8).toUInt8
  let lo ← fromBcd8 p x.toUInt8
  return hi.toUInt16 * 100 + lo.toUInt16

/-- `u16::to_bcd`, src/psi/utils/bcd.rs:40-42 (`as u8` truncates). -/
def toBcd16 (p : Profile) (x : UInt16) : R UInt16 := do
  let hi ← toBcd8 p (x / 100).toUInt8
  let lo ← toBcd8 p (x % 100).toUInt8
  return (hi.toUInt16 <<< 8) + lo.toUInt16

/-- `u32::from_bcd`, src/psi/utils/bcd.rs:48-50 (no overflow). -/
def fromBcd32 (p : Profile) (x : UInt32) : R UInt32 := do
  let hi ← fromBcd16 p (x >>> 16).toUInt16
  let lo ← fromBcd16 p x.toUInt16
  return hi.toUInt32 * 10000 + lo.toUInt32

/-- `u32::to_bcd`, src/psi/utils/bcd.rs:53-55 (`as u16` truncates). -/
def toBcd32 (p : Profile) (x : UInt32) : R UInt32 := do
  let hi ← toBcd16 p (x / 10000).toUInt16
  let lo ← toBcd16 p (x % 10000).toUInt16
  return (hi.toUInt32 <<< 16) + lo.toUInt32

/-- `u16::from_bcd_time`, src/psi/utils/bcd.rs:69-72.  The multiplication by 60 happens in `u8`,
before the widening. -/
def fromBcdTime16 (p : Profile) (x : UInt16) : R UInt16 := do
  let h ← fromBcd8 p (x >>> 8).toUInt8
  let h ← mulU8 p h 60
  let m ← fromBcd8 p x.toUInt8
  return h.toUInt16 + m.toUInt16

/-- `u16::to_bcd_time`, src/psi/utils/bcd.rs:75-78. -/
def toBcdTime16 (p : Profile) (x : UInt16) : R UInt16 := do
  let h ← toBcd8 p (x / 60 % 24).toUInt8
  let m ← toBcd8 p (x % 60).toUInt8
  return (h.toUInt16 <<< 8) + m.toUInt16

/-- `u32::from_bcd_time`, src/psi/utils/bcd.rs:85-89 (no overflow). -/
def fromBcdTime32 (p : Profile) (x : UInt32) : R UInt32 := do
  let h ← fromBcd8 p (x >>> 16).toUInt8
  let m ← fromBcd8 p (x >>> 8).toUInt8
  let s ← fromBcd8 p x.toUInt8
  return h.toUInt32 * 3600 + m.toUInt32 * 60 + s.toUInt32

/-- `u32::to_bcd_time`, src/psi/utils/bcd.rs:92-96. -/
def toBcdTime32 (p : Profile) (x : UInt32) : R UInt32 := do
  let h ← toBcd8 p (x / 3600 % 24).toUInt8
  let m ← toBcd8 p (x / 60 % 60).toUInt8
  let s ← toBcd8 p (x % 60).toUInt8
  return (h.toUInt32 <<< 16) + (m.toUInt32 <<< 8) + s.toUInt32

/-- `u16::from_mjd`, src/psi/utils/mjd.rs:19-22. -/
def fromMjd (p : Profile) (x : UInt16) : R UInt64 := do
  debugAssert p (x ≥ 40587)
  let d ← subU64 p x.toUInt64 40587
  mulU64 p d 86400

/-- `u64::to_mjd`, src/psi/utils/mjd.rs:27-29 (`as u16` truncates). -/
def toMjd (t : UInt64) : UInt16 := (t / 86400 + 40587).toUInt16

end Mpegts
