import Verif.Model.Bytes
import Verif.Model.Bcd
import Verif.Model.Text
import Verif.Model.Bits

/-! # `src/psi/descriptors/*.rs`: descriptors

`Descriptor(Box<dyn Desc>)` is the inductive type `Desc`: one constructor per `Desc` implementation in
the crate.  Implementations a user of the crate adds are in `Model/Own.lean`.  A descriptor's `parse`
receives exactly the bytes of one descriptor (tag, length, body). -/

namespace Mpegts

/-! ## raw.rs -/

/-- `struct DescRaw`, src/psi/descriptors/raw.rs:13-18. -/
structure DescRaw where
  tag : UInt8
  data : List UInt8
deriving DecidableEq, Repr

/-- `DescRaw::parse`, src/psi/descriptors/raw.rs:22-32. -/
def DescRaw.parse (s : List UInt8) : R DescRaw := do
  let tag ← idx s 0
  let len := 2 + (← idx s 1).toNat
  let data ← slice s 2 len
  return { tag := tag, data := data }

/-- `DescRaw::size`, src/psi/descriptors/raw.rs:43-45. -/
def DescRaw.size (d : DescRaw) : Nat := 2 + d.data.length

/-- `DescRaw::assemble`, src/psi/descriptors/raw.rs:47-55. -/
def DescRaw.assemble (d : DescRaw) (buffer : List UInt8) : R (List UInt8) :=
  if d.data.length > 0xFF then .ok buffer
  else .ok (buffer ++ [d.tag] ++ [UInt8.ofNat d.data.length] ++ d.data)

/-! ## x09.rs -/

/-- `struct Desc09`, src/psi/descriptors/x09.rs:21-29. -/
structure Desc09 where
  caid : UInt16
  pid : UInt16
  data : List UInt8
deriving DecidableEq, Repr

/-- `Desc09::check`, src/psi/descriptors/x09.rs:33-35. -/
def Desc09.check (s : List UInt8) : R Bool := return s.length ≥ 6

/-- `Desc09::parse`, src/psi/descriptors/x09.rs:37-43. -/
def Desc09.parse (s : List UInt8) : R Desc09 := do
  let caid ← getU16At s 2
  let pid ← getU16At s 4
  let data ← sliceFrom s 6
  return { caid := caid, pid := pid &&& 0x1FFF, data := data }

/-- `Desc09::size`, src/psi/descriptors/x09.rs:54-56. -/
def Desc09.size (d : Desc09) : Nat := 6 + d.data.length

/-- `Desc09::assemble`, src/psi/descriptors/x09.rs:58-66. -/
def Desc09.assemble (d : Desc09) (buffer : List UInt8) : R (List UInt8) := do
  let skip := buffer.length
  let buffer := resize buffer (skip + 6) 0x00
  let buffer ← setIdx buffer skip 0x09
  let buffer ← setIdx buffer (skip + 1) (UInt8.ofNat (d.size - 2))
  let buffer ← setU16At buffer (skip + 2) d.caid
  let buffer ← setU16At buffer (skip + 4) (0xE000 ||| d.pid)
  return buffer ++ d.data

/-! ## x0a.rs -/

/-- `struct Desc0Ai`, src/psi/descriptors/x0a.rs:16-19. -/
structure Desc0Ai where
  code : StringDVB
  audioType : UInt8
deriving DecidableEq, Repr

/-- `struct Desc0A`, src/psi/descriptors/x0a.rs:27-31. -/
structure Desc0A where
  items : List Desc0Ai
deriving DecidableEq, Repr

/-- `Desc0A::check`, src/psi/descriptors/x0a.rs:35-38. -/
def Desc0A.check (s : List UInt8) : R Bool := return s.length ≥ 2 && (s.length - 2) % 4 == 0

/-- Loop of `Desc0A::parse`, src/psi/descriptors/x0a.rs:44-52. -/
def Desc0A.parseLoop (s : List UInt8) : (fuel skip : Nat) → List Desc0Ai → R (List Desc0Ai)
  | 0, _, _ => .error .diverge
  | fuel + 1, skip, items =>
    if s.length > skip then do
      let code := StringDVB.ofBytes (← slice s skip (skip + 3))
      let audioType ← idx s (skip + 3)
      Desc0A.parseLoop s fuel (skip + 4) (items ++ [⟨code, audioType⟩])
    else .ok items

/-- `Desc0A::parse`, src/psi/descriptors/x0a.rs:40-54. -/
def Desc0A.parse (s : List UInt8) : R Desc0A := do
  return { items := ← Desc0A.parseLoop s (s.length + 1) 2 [] }

/-- `Desc0A::size`, src/psi/descriptors/x0a.rs:65-67. -/
def Desc0A.size (d : Desc0A) : Nat := 2 + d.items.length * 4

/-- Loop of `Desc0A::assemble`, src/psi/descriptors/x0a.rs:73-76. -/
def Desc0A.assembleLoop : List Desc0Ai → List UInt8 → List UInt8
  | [], buffer => buffer
  | item :: rest, buffer =>
    Desc0A.assembleLoop rest (item.code.assemble buffer ++ [item.audioType])

/-- `Desc0A::assemble`, src/psi/descriptors/x0a.rs:69-77. -/
def Desc0A.assemble (d : Desc0A) (buffer : List UInt8) : R (List UInt8) :=
  .ok (Desc0A.assembleLoop d.items (buffer ++ [0x0A] ++ [UInt8.ofNat (d.size - 2)]))

/-! ## x0e.rs -/

/-- `struct Desc0E`, src/psi/descriptors/x0e.rs:19-24. -/
structure Desc0E where
  bitrate : UInt32
deriving DecidableEq, Repr

/-- `Desc0E::check`, src/psi/descriptors/x0e.rs:28-30. -/
def Desc0E.check (s : List UInt8) : R Bool := return s.length == 5

/-- `Desc0E::parse`, src/psi/descriptors/x0e.rs:32-36. -/
def Desc0E.parse (s : List UInt8) : R Desc0E := do
  return { bitrate := (← getU24At s 2) &&& (0x003FFFFF : UInt32) }

/-- `Desc0E::size`, src/psi/descriptors/x0e.rs:47-49. -/
def Desc0E.size (_ : Desc0E) : Nat := 5

/-- `Desc0E::assemble`, src/psi/descriptors/x0e.rs:51-59. -/
def Desc0E.assemble (d : Desc0E) (buffer : List UInt8) : R (List UInt8) := do
  let size := d.size
  let skip := buffer.length
  let buffer := resize buffer (skip + size) 0x00
  let buffer ← setIdx buffer skip 0x0E
  let buffer ← setIdx buffer (skip + 1) (UInt8.ofNat (size - 2))
  setU24At buffer (skip + 2) (0x00C00000 ||| d.bitrate)

/-! ## x40.rs -/

/-- `struct Desc40`, src/psi/descriptors/x40.rs:19-22. -/
structure Desc40 where
  name : StringDVB
deriving DecidableEq, Repr

/-- `Desc40::check`, src/psi/descriptors/x40.rs:26-28. -/
def Desc40.check (s : List UInt8) : R Bool := return s.length ≥ 2

/-- `Desc40::parse`, src/psi/descriptors/x40.rs:30-34. -/
def Desc40.parse (s : List UInt8) : R Desc40 := do
  return { name := StringDVB.ofBytes (← sliceFrom s 2) }

/-- `Desc40::size`, src/psi/descriptors/x40.rs:45-47. -/
def Desc40.size (d : Desc40) : Nat := 2 + d.name.size

/-- `Desc40::assemble`, src/psi/descriptors/x40.rs:49-52. -/
def Desc40.assemble (d : Desc40) (buffer : List UInt8) : R (List UInt8) :=
  d.name.assembleSized (buffer ++ [0x40])

/-! ## x41.rs -/

/-- `struct Desc41i`, src/psi/descriptors/x41.rs:16-19. -/
structure Desc41i where
  serviceId : UInt16
  serviceType : UInt8
deriving DecidableEq, Repr

/-- `struct Desc41`, src/psi/descriptors/x41.rs:27-30. -/
structure Desc41 where
  items : List Desc41i
deriving DecidableEq, Repr

/-- `Desc41::check`, src/psi/descriptors/x41.rs:34-37. -/
def Desc41.check (s : List UInt8) : R Bool := return s.length ≥ 2 && (s.length - 2) % 3 == 0

/-- Loop of `Desc41::parse`, src/psi/descriptors/x41.rs:42-50. -/
def Desc41.parseLoop (s : List UInt8) : (fuel skip : Nat) → List Desc41i → R (List Desc41i)
  | 0, _, _ => .error .diverge
  | fuel + 1, skip, items =>
    if s.length > skip then do
      let serviceId ← getU16At s skip
      let serviceType ← idx s (skip + 2)
      Desc41.parseLoop s fuel (skip + 3) (items ++ [⟨serviceId, serviceType⟩])
    else .ok items

/-- `Desc41::parse`, src/psi/descriptors/x41.rs:39-52. -/
def Desc41.parse (s : List UInt8) : R Desc41 := do
  return { items := ← Desc41.parseLoop s (s.length + 1) 2 [] }

/-- `Desc41::size`, src/psi/descriptors/x41.rs:63-65. -/
def Desc41.size (d : Desc41) : Nat := 2 + d.items.length * 3

/-- Loop of `Desc41::assemble`, src/psi/descriptors/x41.rs:76-80. -/
def Desc41.assembleLoop : List Desc41i → (skip : Nat) → List UInt8 → R (List UInt8)
  | [], _, buffer => .ok buffer
  | item :: rest, skip, buffer => do
    let buffer ← setU16At buffer skip item.serviceId
    let buffer ← setIdx buffer (skip + 2) item.serviceType
    Desc41.assembleLoop rest (skip + 3) buffer

/-- `Desc41::assemble`, src/psi/descriptors/x41.rs:67-81. -/
def Desc41.assemble (d : Desc41) (buffer : List UInt8) : R (List UInt8) := do
  let size := d.size
  let skip := buffer.length
  let buffer := resize buffer (skip + size) 0x00
  let buffer ← setIdx buffer skip 0x41
  let buffer ← setIdx buffer (skip + 1) (UInt8.ofNat (size - 2))
  Desc41.assembleLoop d.items (skip + 2) buffer

/-! ## x43.rs -/

/-- `struct Desc43`, src/psi/descriptors/x43.rs:23-43. -/
structure Desc43 where
  frequency : UInt32
  orbitalPosition : UInt16
  westEastFlag : UInt8
  polarization : UInt8
  rof : UInt8
  s2 : UInt8
  modulation : UInt8
  symbolRate : UInt32
  fec : UInt8
deriving DecidableEq, Repr

/-- `Desc43::check`, src/psi/descriptors/x43.rs:47-49. -/
def Desc43.check (s : List UInt8) : R Bool := return s.length == 13

/-- `Desc43::parse`, src/psi/descriptors/x43.rs:51-63. -/
def Desc43.parse (p : Profile) (s : List UInt8) : R Desc43 := do
  let frequency ← mulU32 p (← fromBcd32 p (← getU32At s 2)) 10
  let orbitalPosition ← mulU16 p (← fromBcd16 p (← getU16At s 6)) 6
  let b : UInt8 ← idx s 8
  let symbolRate ← fromBcd32 p (← getU24At s 9)
  let f : UInt8 ← idx s 12
  return { frequency := frequency
           orbitalPosition := orbitalPosition
           westEastFlag := (b &&& 0b10000000) >>> 7
           polarization := (b &&& 0b01100000) >>> 5
           rof := (b &&& 0b00011000) >>> 3
           s2 := (b &&& 0b00000100) >>> 2
           modulation := b &&& 0b00000011
           symbolRate := symbolRate
           fec := f &&& 0x0F }

/-- `Desc43::size`, src/psi/descriptors/x43.rs:74-76. -/
def Desc43.size (_ : Desc43) : Nat := 13

/-- `Desc43::assemble`, src/psi/descriptors/x43.rs:78-95. -/
def Desc43.assemble (p : Profile) (d : Desc43) (buffer : List UInt8) : R (List UInt8) := do
  let size := d.size
  let skip := buffer.length
  let buffer := resize buffer (skip + size) 0x00
  let buffer ← setIdx buffer skip 0x43
  let buffer ← setIdx buffer (skip + 1) (UInt8.ofNat (size - 2))
  let buffer ← setU32At buffer (skip + 2) (← toBcd32 p (d.frequency / 10))
  let buffer ← setU16At buffer (skip + 6) (← toBcd16 p (d.orbitalPosition / 6))
  let buffer ← setIdx buffer (skip + 8)
    (setBits8 8 [(d.westEastFlag, 1), (d.polarization, 2), (d.rof, 2), (d.s2, 1), (d.modulation, 2)])
  let buffer ← setU24At buffer (skip + 9) (← toBcd32 p d.symbolRate)
  setIdx buffer (skip + 12) d.fec

/-! ## x44.rs -/

/-- `struct Desc44`, src/psi/descriptors/x44.rs:23-34. -/
structure Desc44 where
  frequency : UInt32
  fecOuter : UInt8
  modulation : UInt8
  symbolRate : UInt32
  fec : UInt8
deriving DecidableEq, Repr

/-- `Desc44::check`, src/psi/descriptors/x44.rs:38-40. -/
def Desc44.check (s : List UInt8) : R Bool := return s.length == 13

/-- `Desc44::parse`, src/psi/descriptors/x44.rs:42-50. -/
def Desc44.parse (p : Profile) (s : List UInt8) : R Desc44 := do
  let frequency ← mulU32 p (← fromBcd32 p (← getU32At s 2)) 100
  let o : UInt8 ← idx s 7
  let m : UInt8 ← idx s 8
  let symbolRate ← fromBcd32 p (← getU24At s 9)
  let f : UInt8 ← idx s 12
  return { frequency := frequency, fecOuter := o &&& 0x0F, modulation := m,
           symbolRate := symbolRate, fec := f &&& 0x0F }

/-- `Desc44::size`, src/psi/descriptors/x44.rs:61-63. -/
def Desc44.size (_ : Desc44) : Nat := 13

/-- `Desc44::assemble`, src/psi/descriptors/x44.rs:65-78. -/
def Desc44.assemble (p : Profile) (d : Desc44) (buffer : List UInt8) : R (List UInt8) := do
  let size := d.size
  let skip := buffer.length
  let buffer := resize buffer (skip + size) 0x00
  let buffer ← setIdx buffer skip 0x44
  let buffer ← setIdx buffer (skip + 1) (UInt8.ofNat (size - 2))
  let buffer ← setU32At buffer (skip + 2) (← toBcd32 p (d.frequency / 100))
  let buffer ← setIdx buffer (skip + 6) 0xFF
  let buffer ← setIdx buffer (skip + 7) (0xF0 ||| d.fecOuter)
  let buffer ← setIdx buffer (skip + 8) d.modulation
  let buffer ← setU24At buffer (skip + 9) (← toBcd32 p d.symbolRate)
  setIdx buffer (skip + 12) d.fec

/-! ## x48.rs -/

/-- `struct Desc48`, src/psi/descriptors/x48.rs:20-27. -/
structure Desc48 where
  serviceType : UInt8
  provider : StringDVB
  name : StringDVB
deriving DecidableEq, Repr

/-- `Desc48::check`, src/psi/descriptors/x48.rs:31-40. -/
def Desc48.check (s : List UInt8) : R Bool := do
  if s.length < 5 then return false
  let providerLength := (← idx s 3).toNat
  let nameLength := (← idx s (4 + providerLength)).toNat
  return (← idx s 1).toNat == 5 - 2 + providerLength + nameLength

/-- `Desc48::parse`, src/psi/descriptors/x48.rs:42-53. -/
def Desc48.parse (s : List UInt8) : R Desc48 := do
  let providerS := 4
  let providerE := providerS + (← idx s 3).toNat
  let nameS := providerE + 1
  let nameE := nameS + (← idx s providerE).toNat
  let serviceType ← idx s 2
  let provider := StringDVB.ofBytes (← slice s providerS providerE)
  let name := StringDVB.ofBytes (← slice s nameS nameE)
  return { serviceType := serviceType, provider := provider, name := name }

/-- `Desc48::size`, src/psi/descriptors/x48.rs:63-65. -/
def Desc48.size (d : Desc48) : Nat := 5 + d.provider.size + d.name.size

/-- `Desc48::assemble`, src/psi/descriptors/x48.rs:67-75. -/
def Desc48.assemble (d : Desc48) (buffer : List UInt8) : R (List UInt8) := do
  let buffer := buffer ++ [0x48]
  let buffer := buffer ++ [UInt8.ofNat (d.size - 2)]
  let buffer := buffer ++ [d.serviceType]
  let buffer ← d.provider.assembleSized buffer
  d.name.assembleSized buffer

/-! ## x4d.rs -/

/-- `struct Desc4D`, src/psi/descriptors/x4d.rs:20-27. -/
structure Desc4D where
  lang : StringDVB
  name : StringDVB
  text : StringDVB
deriving DecidableEq, Repr

/-- `Desc4D::check`, src/psi/descriptors/x4d.rs:31-39. -/
def Desc4D.check (s : List UInt8) : R Bool := do
  if s.length < 7 then return false
  let nameLength := (← idx s 5).toNat
  let textLength := (← idx s (6 + nameLength)).toNat
  return (← idx s 1).toNat == 7 - 2 + nameLength + textLength

/-- `Desc4D::parse`, src/psi/descriptors/x4d.rs:41-52. -/
def Desc4D.parse (s : List UInt8) : R Desc4D := do
  let nameS := 6
  let nameE := nameS + (← idx s 5).toNat
  let textS := nameE + 1
  let textE := textS + (← idx s nameE).toNat
  let lang := StringDVB.ofBytes (← slice s 2 5)
  let name := StringDVB.ofBytes (← slice s nameS nameE)
  let text := StringDVB.ofBytes (← slice s textS textE)
  return { lang := lang, name := name, text := text }

/-- `Desc4D::size`, src/psi/descriptors/x4d.rs:63-65. -/
def Desc4D.size (d : Desc4D) : Nat := 7 + d.name.size + d.text.size

/-- `Desc4D::assemble`, src/psi/descriptors/x4d.rs:67-74. -/
def Desc4D.assemble (d : Desc4D) (buffer : List UInt8) : R (List UInt8) := do
  let buffer := buffer ++ [0x4D]
  let buffer := buffer ++ [UInt8.ofNat (d.size - 2)]
  let buffer := d.lang.assemble buffer
  let buffer ← d.name.assembleSized buffer
  d.text.assembleSized buffer

/-! ## x4e.rs -/

/-- `struct Desc4E`, src/psi/descriptors/x4e.rs:29-35. -/
structure Desc4E where
  number : UInt8
  lastNumber : UInt8
  lang : StringDVB
  items : List (StringDVB × StringDVB)
  text : StringDVB
deriving DecidableEq, Repr

/-- `Desc4E::check`, src/psi/descriptors/x4e.rs:39-47. -/
def Desc4E.check (s : List UInt8) : R Bool := do
  if s.length < 8 then return false
  let lengthOfItems := (← idx s 6).toNat
  let textLength := (← idx s (7 + lengthOfItems)).toNat
  return (← idx s 1).toNat == 8 - 2 + lengthOfItems + textLength

/-- Items loop of `Desc4E::parse`, src/psi/descriptors/x4e.rs:61-72. -/
def Desc4E.parseLoop (s : List UInt8) (itemsE : Nat) :
    (fuel itemsS : Nat) → List (StringDVB × StringDVB) → R (List (StringDVB × StringDVB))
  | 0, _, _ => .error .diverge
  | fuel + 1, itemsS, out =>
    if itemsS < itemsE then do
      let itemDescS := itemsS + 1
      let itemDescE := itemDescS + (← idx s itemsS).toNat
      let itemTextS := itemDescE + 1
      let itemTextE := itemTextS + (← idx s itemDescE).toNat
      let itemDesc := StringDVB.ofBytes (← slice s itemDescS itemDescE)
      let itemText := StringDVB.ofBytes (← slice s itemTextS itemTextE)
      Desc4E.parseLoop s itemsE fuel itemTextE (out ++ [(itemDesc, itemText)])
    else .ok out

/-- `Desc4E::parse`, src/psi/descriptors/x4e.rs:49-77. -/
def Desc4E.parse (s : List UInt8) : R Desc4E := do
  let itemsS := 7
  let itemsE := itemsS + (← idx s 6).toNat
  let textS := itemsE + 1
  let textE := textS + (← idx s itemsE).toNat
  let b : UInt8 ← idx s 2
  let lang := StringDVB.ofBytes (← slice s 3 6)
  let items ← Desc4E.parseLoop s itemsE (s.length + 1) itemsS []
  let text := StringDVB.ofBytes (← slice s textS textE)
  return { number := b >>> 4, lastNumber := b &&& 0x0F, lang := lang, items := items, text := text }

/-- Loop of `Desc4E::size`, src/psi/descriptors/x4e.rs:89-92. -/
def Desc4E.itemsSize (items : List (StringDVB × StringDVB)) : Nat :=
  items.foldl (fun acc x => acc + (x.1.size + x.2.size)) 0

/-- `Desc4E::size`, src/psi/descriptors/x4e.rs:88-94. -/
def Desc4E.size (d : Desc4E) : Nat := 8 + Desc4E.itemsSize d.items + d.text.size

/-- Items loop of `Desc4E::assemble`, src/psi/descriptors/x4e.rs:111-114. -/
def Desc4E.assembleLoop : List (StringDVB × StringDVB) → List UInt8 → R (List UInt8)
  | [], buffer => .ok buffer
  | (itemDesc, itemText) :: rest, buffer => do
    let buffer ← itemDesc.assembleSized buffer
    let buffer ← itemText.assembleSized buffer
    Desc4E.assembleLoop rest buffer

/-- `Desc4E::assemble`, src/psi/descriptors/x4e.rs:96-119. -/
def Desc4E.assemble (d : Desc4E) (buffer : List UInt8) : R (List UInt8) := do
  let size := d.size - 2
  if size > 0xFF then return buffer
  let buffer := buffer ++ [0x4E]
  let buffer := buffer ++ [UInt8.ofNat size]
  let buffer := buffer ++ [setBits8 8 [(d.number, 4), (d.lastNumber, 4)]]
  let buffer := d.lang.assemble buffer
  let skip := buffer.length
  let buffer := buffer ++ [0x00]
  let buffer ← Desc4E.assembleLoop d.items buffer
  let buffer ← setIdx buffer skip (UInt8.ofNat (buffer.length - skip - 1))
  d.text.assembleSized buffer

/-! ## x52.rs -/

/-- `struct Desc52`, src/psi/descriptors/x52.rs:20-24. -/
structure Desc52 where
  tag : UInt8
deriving DecidableEq, Repr

/-- `Desc52::check`, src/psi/descriptors/x52.rs:28-30. -/
def Desc52.check (s : List UInt8) : R Bool := return s.length == 3

/-- `Desc52::parse`, src/psi/descriptors/x52.rs:32-36. -/
def Desc52.parse (s : List UInt8) : R Desc52 := do return { tag := ← idx s 2 }

/-- `Desc52::size`, src/psi/descriptors/x52.rs:47-49. -/
def Desc52.size (_ : Desc52) : Nat := 3

/-- `Desc52::assemble`, src/psi/descriptors/x52.rs:51-55. -/
def Desc52.assemble (d : Desc52) (buffer : List UInt8) : R (List UInt8) :=
  .ok (buffer ++ [0x52] ++ [UInt8.ofNat (d.size - 2)] ++ [d.tag])

/-! ## x58.rs -/

/-- `struct Desc58i`, src/psi/descriptors/x58.rs:25-32. -/
structure Desc58i where
  countryCode : StringDVB
  regionId : UInt8
  offsetPolarity : UInt8
  offset : UInt16
  timeOfChange : UInt64
  nextOffset : UInt16
deriving DecidableEq, Repr

/-- `struct Desc58`, src/psi/descriptors/x58.rs:40-42. -/
structure Desc58 where
  items : List Desc58i
deriving DecidableEq, Repr

/-- `Desc58::check`, src/psi/descriptors/x58.rs:46-49. -/
def Desc58.check (s : List UInt8) : R Bool := return s.length ≥ 2 && (s.length - 2) % 13 == 0

/-- Loop of `Desc58::parse`, src/psi/descriptors/x58.rs:55-75. -/
def Desc58.parseLoop (p : Profile) (s : List UInt8) :
    (fuel skip : Nat) → List Desc58i → R (List Desc58i)
  | 0, _, _ => .error .diverge
  | fuel + 1, skip, items =>
    if s.length > skip then do
      let countryCode := StringDVB.ofBytes (← slice s skip (skip + 3))
      let b : UInt8 ← idx s (skip + 3)
      let offset ← fromBcdTime16 p (← getU16At s (skip + 4))
      let date ← fromMjd p (← getU16At s (skip + 6))
      let time ← fromBcdTime32 p (← getU24At s (skip + 8))
      let timeOfChange ← addU64 p date time.toUInt64
      let nextOffset ← fromBcdTime16 p (← getU16At s (skip + 11))
      Desc58.parseLoop p s fuel (skip + 13) (items ++
        [{ countryCode := countryCode, regionId := b >>> 2, offsetPolarity := b &&& 0x01,
           offset := offset, timeOfChange := timeOfChange, nextOffset := nextOffset }])
    else .ok items

/-- `Desc58::parse`, src/psi/descriptors/x58.rs:51-78. -/
def Desc58.parse (p : Profile) (s : List UInt8) : R Desc58 := do
  return { items := ← Desc58.parseLoop p s (s.length + 1) 2 [] }

/-- `Desc58::size`, src/psi/descriptors/x58.rs:87. -/
def Desc58.size (d : Desc58) : Nat := 2 + d.items.length * 13

/-- Loop of `Desc58::assemble`, src/psi/descriptors/x58.rs:93-104. -/
def Desc58.assembleLoop (p : Profile) : List Desc58i → List UInt8 → R (List UInt8)
  | [], buffer => .ok buffer
  | item :: rest, buffer => do
    let buffer := item.countryCode.assemble buffer
    let skip := buffer.length
    let buffer := resize buffer (skip + 10) 0x00
    let buffer ← setIdx buffer skip ((item.regionId <<< 2) ||| (0x02 : UInt8) ||| item.offsetPolarity)
    let buffer ← setU16At buffer (skip + 1) (← toBcdTime16 p item.offset)
    let buffer ← setU16At buffer (skip + 3) (toMjd item.timeOfChange)
    let buffer ← setU24At buffer (skip + 5) (← toBcdTime32 p item.timeOfChange.toUInt32)
    let buffer ← setU16At buffer (skip + 8) (← toBcdTime16 p item.nextOffset)
    Desc58.assembleLoop p rest buffer

/-- `Desc58::assemble`, src/psi/descriptors/x58.rs:89-105. -/
def Desc58.assemble (p : Profile) (d : Desc58) (buffer : List UInt8) : R (List UInt8) :=
  Desc58.assembleLoop p d.items (buffer ++ [0x58] ++ [UInt8.ofNat (d.size - 2)])

/-! ## x5a.rs -/

/-- `struct Desc5A`, src/psi/descriptors/x5a.rs:19-53. -/
structure Desc5A where
  frequency : UInt32
  bandwidth : UInt8
  priority : UInt8
  timeSlicing : UInt8
  mpeFec : UInt8
  modulation : UInt8
  hierarchy : UInt8
  codeRateHp : UInt8
  codeRateLp : UInt8
  guardInterval : UInt8
  transmission : UInt8
  otherFrequencyFlag : UInt8
deriving DecidableEq, Repr

/-- `Desc5A::check`, src/psi/descriptors/x5a.rs:57-59. -/
def Desc5A.check (s : List UInt8) : R Bool := return s.length == 13

/-- `Desc5A::parse`, src/psi/descriptors/x5a.rs:61-76. -/
def Desc5A.parse (p : Profile) (s : List UInt8) : R Desc5A := do
  let frequency ← mulU32 p (← getU32At s 2) 10
  let b6 : UInt8 ← idx s 6
  let b7 : UInt8 ← idx s 7
  let b8 : UInt8 ← idx s 8
  return { frequency := frequency
           bandwidth := (b6 &&& 0b11100000) >>> 5
           priority := (b6 &&& 0b00010000) >>> 4
           timeSlicing := (b6 &&& 0b00001000) >>> 3
           mpeFec := (b6 &&& 0b00000100) >>> 2
           modulation := (b7 &&& 0b11000000) >>> 6
           hierarchy := (b7 &&& 0b00111000) >>> 3
           codeRateHp := b7 &&& 0b00000111
           codeRateLp := (b8 &&& 0b11100000) >>> 5
           guardInterval := (b8 &&& 0b00011000) >>> 3
           transmission := (b8 &&& 0b00000110) >>> 1
           otherFrequencyFlag := b8 &&& 0b00000001 }

/-- `Desc5A::size`, src/psi/descriptors/x5a.rs:87-89. -/
def Desc5A.size (_ : Desc5A) : Nat := 13

/-- `Desc5A::assemble`, src/psi/descriptors/x5a.rs:91-117 (`set_bits!` expanded, src/bits.rs:9-21). -/
def Desc5A.assemble (d : Desc5A) (buffer : List UInt8) : R (List UInt8) := do
  let buffer := buffer ++ [0x5A]
  let buffer := buffer ++ [UInt8.ofNat (13 - 2)]
  let skip := buffer.length
  let buffer := resize buffer (skip + 11) 0x00
  let buffer ← setU32At buffer skip (d.frequency / 10)
  let buffer ← setIdx buffer (skip + 4)
    (setBits8 8 [(d.bandwidth, 3), (d.priority, 1), (d.timeSlicing, 1), (d.mpeFec, 1), (0b00000011, 2)])
  let buffer ← setIdx buffer (skip + 5)
    (setBits8 8 [(d.modulation, 2), (d.hierarchy, 3), (d.codeRateHp, 3)])
  let buffer ← setIdx buffer (skip + 6)
    (setBits8 8 [(d.codeRateLp, 3), (d.guardInterval, 2), (d.transmission, 2), (d.otherFrequencyFlag, 1)])
  setU32At buffer (skip + 7) 0xFFFFFFFF

/-! ## x83.rs -/

/-- `struct Desc83i`, src/psi/descriptors/x83.rs:16-20. -/
structure Desc83i where
  serviceId : UInt16
  visible : UInt8
  lcn : UInt16
deriving DecidableEq, Repr

/-- `struct Desc83`, src/psi/descriptors/x83.rs:27-30. -/
structure Desc83 where
  items : List Desc83i
deriving DecidableEq, Repr

/-- `Desc83::check`, src/psi/descriptors/x83.rs:35-38. -/
def Desc83.check (s : List UInt8) : R Bool := return s.length ≥ 2 && (s.length - 2) % 4 == 0

/-- Loop of `Desc83::parse`, src/psi/descriptors/x83.rs:43-53. -/
def Desc83.parseLoop (s : List UInt8) : (fuel skip : Nat) → List Desc83i → R (List Desc83i)
  | 0, _, _ => .error .diverge
  | fuel + 1, skip, items =>
    if s.length ≥ skip + 4 then do
      let serviceId ← getU16At s skip
      let v : UInt8 ← idx s (skip + 2)
      let lcn ← getU16At s (skip + 2)
      Desc83.parseLoop s fuel (skip + 4)
        (items ++ [{ serviceId := serviceId, visible := v >>> 7, lcn := lcn &&& 0x03FF }])
    else .ok items

/-- `Desc83::parse`, src/psi/descriptors/x83.rs:40-55. -/
def Desc83.parse (s : List UInt8) : R Desc83 := do
  return { items := ← Desc83.parseLoop s (s.length + 1) 2 [] }

/-- `Desc83::size`, src/psi/descriptors/x83.rs:66-68. -/
def Desc83.size (d : Desc83) : Nat := 2 + d.items.length * 4

/-- Loop of `Desc83::assemble`, src/psi/descriptors/x83.rs:79-87. -/
def Desc83.assembleLoop : List Desc83i → (skip : Nat) → List UInt8 → R (List UInt8)
  | [], _, buffer => .ok buffer
  | item :: rest, skip, buffer => do
    let buffer ← setU16At buffer skip item.serviceId
    let buffer ← setU16At buffer (skip + 2)
      (setBits16 16 [(item.visible.toUInt16, 1), (0x1F, 5), (item.lcn, 10)])
    Desc83.assembleLoop rest (skip + 4) buffer

/-- `Desc83::assemble`, src/psi/descriptors/x83.rs:70-88. -/
def Desc83.assemble (d : Desc83) (buffer : List UInt8) : R (List UInt8) := do
  let size := d.size
  let skip := buffer.length
  let buffer := resize buffer (skip + size) 0x00
  let buffer ← setIdx buffer skip 0x83
  let buffer ← setIdx buffer (skip + 1) (UInt8.ofNat (size - 2))
  Desc83.assembleLoop d.items (skip + 2) buffer

/-! ## mod.rs -/

/-- `Descriptor(Box<dyn Desc>)`, src/psi/descriptors/mod.rs:36-50. -/
inductive Desc where
  | raw (d : DescRaw)
  | d09 (d : Desc09)
  | d0A (d : Desc0A)
  | d0E (d : Desc0E)
  | d40 (d : Desc40)
  | d41 (d : Desc41)
  | d43 (d : Desc43)
  | d44 (d : Desc44)
  | d48 (d : Desc48)
  | d4D (d : Desc4D)
  | d4E (d : Desc4E)
  | d52 (d : Desc52)
  | d58 (d : Desc58)
  | d5A (d : Desc5A)
  | d83 (d : Desc83)
deriving DecidableEq, Repr

namespace Desc

/-- `Descriptor::tag`, src/psi/descriptors/mod.rs:115, dispatching to the `tag` methods
(raw.rs:38-40, x09.rs:49-51, x0a.rs:60-62, x0e.rs:42-44, x40.rs:40-42, x41.rs:58-60, x43.rs:69-71,
x44.rs:56-58, x48.rs:59-61, x4d.rs:58-60, x4e.rs:83-85, x52.rs:42-44, x58.rs:84, x5a.rs:82-84,
x83.rs:61-63). -/
def tag : Desc → UInt8
  | raw d => d.tag
  | d09 _ => 0x09
  | d0A _ => 0x0A
  | d0E _ => 0x0E
  | d40 _ => 0x40
  | d41 _ => 0x41
  | d43 _ => 0x43
  | d44 _ => 0x44
  | d48 _ => 0x48
  | d4D _ => 0x4D
  | d4E _ => 0x4E
  | d52 _ => 0x52
  | d58 _ => 0x58
  | d5A _ => 0x5A
  | d83 _ => 0x83

/-- `Descriptor::size`, src/psi/descriptors/mod.rs:112. -/
def size : Desc → Nat
  | raw d => d.size
  | d09 d => d.size
  | d0A d => d.size
  | d0E d => d.size
  | d40 d => d.size
  | d41 d => d.size
  | d43 d => d.size
  | d44 d => d.size
  | d48 d => d.size
  | d4D d => d.size
  | d4E d => d.size
  | d52 d => d.size
  | d58 d => d.size
  | d5A d => d.size
  | d83 d => d.size

/-- `Descriptor::assemble`, src/psi/descriptors/mod.rs:109. -/
def assemble (p : Profile) (d : Desc) (buffer : List UInt8) : R (List UInt8) :=
  match d with
  | raw d => d.assemble buffer
  | d09 d => d.assemble buffer
  | d0A d => d.assemble buffer
  | d0E d => d.assemble buffer
  | d40 d => d.assemble buffer
  | d41 d => d.assemble buffer
  | d43 d => d.assemble p buffer
  | d44 d => d.assemble p buffer
  | d48 d => d.assemble buffer
  | d4D d => d.assemble buffer
  | d4E d => d.assemble buffer
  | d52 d => d.assemble buffer
  | d58 d => d.assemble p buffer
  | d5A d => d.assemble buffer
  | d83 d => d.assemble buffer

/-- The fallback arm, src/psi/descriptors/mod.rs:104. -/
def parseRaw (s : List UInt8) : R Desc := raw <$> DescRaw.parse s

/-- `Descriptor::parse`, src/psi/descriptors/mod.rs:88-106. -/
def parse (p : Profile) (s : List UInt8) : R Desc := do
  let tag : UInt8 ← idx s 0
  if tag = 0x09 then if ← Desc09.check s then d09 <$> Desc09.parse s else parseRaw s
  else if tag = 0x0A then if ← Desc0A.check s then d0A <$> Desc0A.parse s else parseRaw s
  else if tag = 0x0E then if ← Desc0E.check s then d0E <$> Desc0E.parse s else parseRaw s
  else if tag = 0x40 then if ← Desc40.check s then d40 <$> Desc40.parse s else parseRaw s
  else if tag = 0x41 then if ← Desc41.check s then d41 <$> Desc41.parse s else parseRaw s
  else if tag = 0x43 then if ← Desc43.check s then d43 <$> Desc43.parse p s else parseRaw s
  else if tag = 0x44 then if ← Desc44.check s then d44 <$> Desc44.parse p s else parseRaw s
  else if tag = 0x48 then if ← Desc48.check s then d48 <$> Desc48.parse s else parseRaw s
  else if tag = 0x4D then if ← Desc4D.check s then d4D <$> Desc4D.parse s else parseRaw s
  else if tag = 0x4E then if ← Desc4E.check s then d4E <$> Desc4E.parse s else parseRaw s
  else if tag = 0x52 then if ← Desc52.check s then d52 <$> Desc52.parse s else parseRaw s
  else if tag = 0x58 then if ← Desc58.check s then d58 <$> Desc58.parse p s else parseRaw s
  else if tag = 0x5A then if ← Desc5A.check s then d5A <$> Desc5A.parse p s else parseRaw s
  else if tag = 0x83 then if ← Desc83.check s then d83 <$> Desc83.parse s else parseRaw s
  else parseRaw s

/-- `<Descriptor as Clone>::clone`, src/psi/descriptors/mod.rs:54-72: dispatch on the tag, then
`downcast_ref::<T>().unwrap()` (lines 118-120), which panics when the value has another type. -/
def clone (d : Desc) : R Desc :=
  if d.tag = 0x09 then match d with | d09 x => .ok (d09 x) | _ => panic
  else if d.tag = 0x0A then match d with | d0A x => .ok (d0A x) | _ => panic
  else if d.tag = 0x0E then match d with | d0E x => .ok (d0E x) | _ => panic
  else if d.tag = 0x40 then match d with | d40 x => .ok (d40 x) | _ => panic
  else if d.tag = 0x41 then match d with | d41 x => .ok (d41 x) | _ => panic
  else if d.tag = 0x43 then match d with | d43 x => .ok (d43 x) | _ => panic
  else if d.tag = 0x44 then match d with | d44 x => .ok (d44 x) | _ => panic
  else if d.tag = 0x48 then match d with | d48 x => .ok (d48 x) | _ => panic
  else if d.tag = 0x4D then match d with | d4D x => .ok (d4D x) | _ => panic
  else if d.tag = 0x4E then match d with | d4E x => .ok (d4E x) | _ => panic
  else if d.tag = 0x52 then match d with | d52 x => .ok (d52 x) | _ => panic
  else if d.tag = 0x58 then match d with | d58 x => .ok (d58 x) | _ => panic
  else if d.tag = 0x5A then match d with | d5A x => .ok (d5A x) | _ => panic
  else if d.tag = 0x83 then match d with | d83 x => .ok (d83 x) | _ => panic
  else match d with | raw x => .ok (raw x) | _ => panic

/-- The concrete type of the value in the box (what `Any::type_id` tells apart). -/
inductive Kind where
  | raw
  | d09
  | d0A
  | d0E
  | d40
  | d41
  | d43
  | d44
  | d48
  | d4D
  | d4E
  | d52
  | d58
  | d5A
  | d83
deriving DecidableEq, Repr

/-- The concrete type of a descriptor (`as_any_ref`, src/psi/descriptors/mod.rs:44-47). -/
def kind : Desc → Kind
  | raw _ => .raw
  | d09 _ => .d09
  | d0A _ => .d0A
  | d0E _ => .d0E
  | d40 _ => .d40
  | d41 _ => .d41
  | d43 _ => .d43
  | d44 _ => .d44
  | d48 _ => .d48
  | d4D _ => .d4D
  | d4E _ => .d4E
  | d52 _ => .d52
  | d58 _ => .d58
  | d5A _ => .d5A
  | d83 _ => .d83

/-- `Descriptor::downcast_ref::<T>` and `downcast_mut::<T>`, src/psi/descriptors/mod.rs:117-125: `unwrap` panics when the
value has another type. -/
def downcast (k : Kind) (d : Desc) : R Desc := if d.kind = k then .ok d else panic

end Desc

/-- `struct Descriptors(Vec<Descriptor>)`, src/psi/descriptors/mod.rs:131. -/
abbrev Descriptors := List Desc

namespace Descriptors

/-- The loop of `Descriptors::parse`, src/psi/descriptors/mod.rs:143-150. -/
def parseLoop (p : Profile) (s : List UInt8) : (fuel skip : Nat) → Descriptors → R Descriptors
  | 0, _, _ => .error .diverge
  | fuel + 1, skip, ds =>
    if s.length ≥ skip + 2 then do
      let next := skip + 2 + (← idx s (skip + 1)).toNat
      if next > s.length then return ds
      let d ← Desc.parse p (← slice s skip next)
      parseLoop p s fuel next (ds ++ [d])
    else .ok ds

/-- `Descriptors::parse`, src/psi/descriptors/mod.rs:141-151. -/
def parse (p : Profile) (self : Descriptors) (s : List UInt8) : R Descriptors :=
  parseLoop p s (s.length + 1) 0 self

/-- The loop of `Descriptors::assemble`, src/psi/descriptors/mod.rs:155-157. -/
def assembleLoop (p : Profile) : Descriptors → List UInt8 → R (List UInt8)
  | [], buffer => .ok buffer
  | d :: rest, buffer => do assembleLoop p rest (← d.assemble p buffer)

/-- `Descriptors::assemble`, src/psi/descriptors/mod.rs:153-159.  Returns the byte count and the buffer. -/
def assemble (p : Profile) (self : Descriptors) (buffer : List UInt8) : R (Nat × List UInt8) := do
  let size := buffer.length
  let buffer ← assembleLoop p self buffer
  return (← usizeSub p buffer.length size, buffer)

/-- `Descriptors::size`, src/psi/descriptors/mod.rs:162. -/
def size (self : Descriptors) : Nat := self.foldl (fun acc x => acc + x.size) 0

/-- `<Descriptors as Clone>::clone` (derived), src/psi/descriptors/mod.rs:130. -/
def clone (self : Descriptors) : R Descriptors := self.mapM Desc.clone

/-- `Descriptors::is_empty`, src/psi/descriptors/mod.rs:165. -/
def isEmpty (self : Descriptors) : Bool := List.isEmpty self

/-- `Descriptors::len`, src/psi/descriptors/mod.rs:168. -/
def len (self : Descriptors) : Nat := List.length self

/-- `Descriptors::get` (and `get_mut`, read), src/psi/descriptors/mod.rs:171, 174. -/
def get (self : Descriptors) (index : Nat) : Option Desc := self[index]?

/-- Assigning through `Descriptors::get_mut`, src/psi/descriptors/mod.rs:174. -/
def set (self : Descriptors) (index : Nat) (d : Desc) : Descriptors := List.set self index d

/-- `Descriptors::push`, src/psi/descriptors/mod.rs:177-182. -/
def push (self : Descriptors) (d : Desc) : Descriptors := self ++ [d]

/-- `Descriptors::iter`, src/psi/descriptors/mod.rs:185: the descriptors in the order visited. -/
def iter (self : Descriptors) : List Desc := self

end Descriptors
end Mpegts
