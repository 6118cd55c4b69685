import Verif.Model.Ts
import Verif.Model.Crc32

/-! # `src/psi/mod.rs`: PSI sections, reassembly from and packetisation into TS packets -/

namespace Mpegts

/-- `struct Psi`, src/psi/mod.rs:37-43. -/
structure Psi where
  buffer : List UInt8
  size : Nat
  pid : UInt16
  cc : UInt8
deriving DecidableEq, Repr

namespace Psi

/-- `Psi::default()`, src/psi/mod.rs:47-58 (the reserved capacity is not modelled). -/
def default : Psi := { buffer := [], size := 0, pid := 0, cc := 0 }

/-- `Psi::new`, src/psi/mod.rs:75-86. -/
def new (p : Profile) (tableId : UInt8) (size : Nat) (version : UInt8) : R Psi := do
  debugAssert p (size ≥ 3)
  let buffer : List UInt8 := resize [] size 0x00
  let buffer ← setIdx buffer 0 tableId
  let buffer ← setIdx buffer 1 0xB0
  let buffer ←
    if size ≥ 6 then setIdx buffer 5 ((0xC0 : UInt8) ||| ((version <<< 1) &&& (0x3E : UInt8)) ||| (0x01 : UInt8)) else pure buffer
  return { default with buffer := buffer }

/-- `Psi::clear`, src/psi/mod.rs:89-92. -/
def clear (self : Psi) : Psi := { self with buffer := [], size := 0 }

/-- `Psi::push`, src/psi/mod.rs:95-101. -/
def push (self : Psi) (payload : List UInt8) : R Psi := do
  let self := { self with buffer := self.buffer ++ payload }
  if self.size = 0 ∧ self.buffer.length ≥ 3 then
    let x ← getU16At self.buffer 1
    return { self with size := 3 + (x &&& (0x0FFF : UInt16)).toNat }
  else return self

/-- `Psi::mux`, src/psi/mod.rs:104-155.  In the `||` the right operand (with its `u8` addition) is only
evaluated when `pointer_field != 0`. -/
def mux (p : Profile) (self : Psi) (ts : List UInt8) : R Psi := do
  if !(← Ts.isPayload ts) then return self
  let tsOffset := (← Ts.getPayloadOffset p ts).toNat
  if tsOffset ≥ 188 then return self.clear
  let cc ← Ts.getCc ts
  let self ←
    if ← Ts.isPusi ts then do
      let pointerField := (← idx ts tsOffset).toNat
      if pointerField ≥ 183 then return self.clear
      let tsOffset := tsOffset + 1
      let reset ←
        if pointerField = 0 then pure true
        else do
          let expected ← addU8 p self.cc 1
          pure (cc != (expected &&& 0x0F))
      let self := if reset then self.clear else self
      if self.buffer.isEmpty then do
        let self ← self.push (← slice ts (tsOffset + pointerField) 188)
        if self.size ≠ 0 ∧ self.buffer.length > self.size then
          pure { self with buffer := resize self.buffer self.size 0x00 }
        else pure self
      else do
        let self :=
          if self.size ≠ 0 ∧ self.buffer.length > self.size then
            { self with buffer := self.buffer.drop self.size, size := 0 }
          else self
        self.push (← slice ts tsOffset 188)
    else do
      let expected ← addU8 p self.cc 1
      if cc != (expected &&& 0x0F) then return self.clear
      let self ← self.push (← slice ts tsOffset 188)
      if self.buffer.length > self.size then
        pure { self with buffer := resize self.buffer self.size 0x00 }
      else pure self
  return { self with cc := cc }

/-- `Psi::get_crc32`, src/psi/mod.rs:159-162. -/
def getCrc32 (p : Profile) (self : Psi) : R UInt32 := do
  let skip ← usizeSub p self.size 4
  getU32At self.buffer skip

/-- `Psi::calc_crc32`, src/psi/mod.rs:166-169. -/
def calcCrc32 (p : Profile) (self : Psi) : R UInt32 := do
  let size ← usizeSub p self.size 4
  crc32b (← sliceTo self.buffer size)

/-- `Psi::check_crc32`, src/psi/mod.rs:172-174. -/
def checkCrc32 (p : Profile) (self : Psi) : R Bool := do
  return (← getCrc32 p self) == (← calcCrc32 p self)

/-- `Psi::check`, src/psi/mod.rs:178-183. -/
def check (p : Profile) (self : Psi) : R Bool := do
  if !(self.size > 7) then return false
  if !(self.buffer.length ≥ self.size) then return false
  checkCrc32 p self

/-- `<Psi as PartialEq>::eq`, src/psi/mod.rs:63-65. -/
def eq (p : Profile) (self other : Psi) : R Bool := do
  if !(self.size == other.size) then return false
  return (← getCrc32 p self) == (← getCrc32 p other)

/-- `Psi::finalize`, src/psi/mod.rs:187-199. -/
def finalize (p : Profile) (self : Psi) : R Psi := do
  let self ←
    if self.size = 0 then do
      let size := self.buffer.length + 4
      let buffer := resize self.buffer size 0x00
      let b : UInt8 ← idx buffer 1
      let x := ((b &&& (0xF0 : UInt8)).toUInt16 <<< 8) ||| UInt16.ofNat (size - 3)
      let buffer ← setU16At buffer 1 x
      pure { self with size := size, buffer := buffer }
    else pure self
  let skip ← usizeSub p self.size 4
  let x ← crc32b (← sliceTo self.buffer skip)
  let buffer ← setU32At self.buffer skip x
  return { self with buffer := buffer }

/-- The `while` loop of `Psi::demux`, src/psi/mod.rs:222-245.  Returns the packet buffer, the write
position and the continuity counter. -/
def demuxLoop (p : Profile) (buffer : List UInt8) (size : Nat) (pid : UInt16) :
    (fuel : Nat) → (dst : List UInt8) → (dstSkip psiSkip : Nat) → (cc : UInt8) →
    R (List UInt8 × Nat × UInt8)
  | 0, _, _, _, _ => .error .diverge
  | fuel + 1, dst, dstSkip, psiSkip, cc =>
    if psiSkip < size then do
      let dst ← setIdx dst dstSkip 0x47
      let dst ← atOff dst dstSkip (Ts.setPid p · pid)
      let dst ← atOff dst dstSkip Ts.setPayload1
      let dst ← atOff dst dstSkip (Ts.setCc p · cc)
      let cc := (← addU8 p cc 1) &&& 0x0F
      let (dst, hdrLen) ←
        if psiSkip = 0 then do
          let dst ← atOff dst dstSkip Ts.setPusi1
          pure (dst, 5)
        else pure (dst, 4)
      let dstSkip := dstSkip + hdrLen
      let cpyLen := min (size - psiSkip) (188 - hdrLen)
      let dstNext := dstSkip + cpyLen
      let psiNext := psiSkip + cpyLen
      let src ← slice buffer psiSkip psiNext
      let dst ← copySlice dst dstSkip dstNext src
      demuxLoop p buffer size pid fuel dst dstNext psiNext cc
    else .ok (dst, dstSkip, cc)

/-- `Psi::demux`, src/psi/mod.rs:215-252.  Returns the section (its `cc` is advanced) and the packet
buffer. -/
def demux (p : Profile) (self : Psi) (dst : List UInt8) : R (Psi × List UInt8) := do
  let dstSkip := dst.length
  let tsCount := (self.size + 1 + 183) / 184
  let dst := resize dst (dstSkip + 188 * tsCount) 0x00
  let (dst, dstSkip, cc) ←
    demuxLoop p self.buffer self.size self.pid (self.size + 1) dst dstSkip 0 self.cc
  let self := { self with cc := cc }
  let remain ← usizeSub p dst.length dstSkip
  if remain > 0 then
    let fill ← sliceTo Ts.FILL_PACKET remain
    let dst ← copySlice dst dstSkip dst.length fill
    return (self, dst)
  else return (self, dst)

end Psi

/-- The loop of `PsiDemux::demux`, src/psi/mod.rs:272-281; the hook `self.finalize(psi)` is a no-op for
every table of the crate. -/
def psiDemuxLoop (p : Profile) (pid : UInt16) (last : UInt8) :
    (sectionNumber : Nat) → List Psi → (cc : UInt8) → (dst : List UInt8) → R (UInt8 × List UInt8)
  | _, [], cc, dst => .ok (cc, dst)
  | n, psi :: rest, cc, dst => do
    let buffer ← setIdx psi.buffer 6 (UInt8.ofNat n)
    let buffer ← setIdx buffer 7 last
    let psi ← { psi with buffer := buffer }.finalize p
    let psi := { psi with pid := pid, cc := cc }
    let (psi, dst) ← psi.demux p dst
    psiDemuxLoop p pid last (n + 1) rest psi.cc dst

/-- Default `PsiDemux::demux`, src/psi/mod.rs:265-282.  Returns the new `*cc` and `dst`. -/
def psiDemux (p : Profile) (psiList : List Psi) (pid : UInt16) (cc : UInt8) (dst : List UInt8) :
    R (UInt8 × List UInt8) :=
  if psiList.isEmpty then .ok (cc, dst)
  else psiDemuxLoop p pid (UInt8.ofNat (psiList.length - 1)) 0 psiList cc dst

end Mpegts
