import Verif.Model.TextData

/-! # `src/textcode/mod.rs`: DVB strings -/

namespace Mpegts

/-- src/textcode/mod.rs:17 -/
def ISO6937 : UInt8 := 0
/-- src/textcode/mod.rs:29 -/
def ISO8859_4 : UInt8 := 4
/-- src/textcode/mod.rs:59 -/
def ISO8859_15 : UInt8 := 15
/-- src/textcode/mod.rs:62 -/
def UTF8 : UInt8 := 21

/-- `get_codepage_map`, src/textcode/mod.rs:67-86. -/
def getCodepageMap (codepage : UInt8) : Option (List UInt16) :=
  match codepage.toNat with
  | 0 => some TextData.ISO6937
  | 1 => some TextData.ISO8859_1
  | 2 => some TextData.ISO8859_2
  | 3 => some TextData.ISO8859_3
  | 4 => some TextData.ISO8859_4
  | 5 => some TextData.ISO8859_5
  | 6 => some TextData.ISO8859_6
  | 7 => some TextData.ISO8859_7
  | 8 => some TextData.ISO8859_8
  | 9 => some TextData.ISO8859_9
  | 10 => some TextData.ISO8859_10
  | 11 => some TextData.ISO8859_11
  | 13 => some TextData.ISO8859_13
  | 14 => some TextData.ISO8859_14
  | 15 => some TextData.ISO8859_15
  | _ => none

/-- `struct StringDVB`, src/textcode/mod.rs:89-92. -/
structure StringDVB where
  codepage : UInt8
  data : List UInt8
deriving DecidableEq, Repr

namespace StringDVB

/-- `StringDVB::default()` (derived), src/textcode/mod.rs:88. -/
def default : StringDVB := ⟨0, []⟩

/-! ### The standard library's UTF-8 encoder and lossy decoder -/

/-- `str::as_bytes` of the string with these characters (Lean core's UTF-8 encoder). -/
def strAsBytes (s : List Char) : List UInt8 := s.flatMap String.utf8EncodeChar

/-- A UTF-8 continuation byte `10xxxxxx`. -/
def isCont (b : UInt8) : Bool := (b &&& 0xC0) == 0x80

/-- The replacement character U+FFFD. -/
def replacement : Char := '�'

/-- Is `b1` acceptable as second byte after the three-byte lead `b0`?  (The table in the Rust standard
library's `Utf8Chunks::next`.) -/
def second3 (b0 b1 : UInt8) : Bool :=
  (b0 == 0xE0 && 0xA0 ≤ b1 && b1 ≤ 0xBF) ||
  (0xE1 ≤ b0 && b0 ≤ 0xEC && 0x80 ≤ b1 && b1 ≤ 0xBF) ||
  (b0 == 0xED && 0x80 ≤ b1 && b1 ≤ 0x9F) ||
  (0xEE ≤ b0 && b0 ≤ 0xEF && 0x80 ≤ b1 && b1 ≤ 0xBF)

/-- Is `b1` acceptable as second byte after the four-byte lead `b0`?  (Same source.) -/
def second4 (b0 b1 : UInt8) : Bool :=
  (b0 == 0xF0 && 0x90 ≤ b1 && b1 ≤ 0xBF) ||
  (0xF1 ≤ b0 && b0 ≤ 0xF3 && 0x80 ≤ b1 && b1 ≤ 0xBF) ||
  (b0 == 0xF4 && 0x80 ≤ b1 && b1 ≤ 0x8F)

/-- One step of `String::from_utf8_lossy`: the character produced from the head of the input and the
number of bytes it consumes (a maximal ill-formed prefix gives U+FFFD). -/
def lossyStep (b0 : UInt8) (rest : List UInt8) : Char × Nat :=
  if b0 < 0x80 then (Char.ofNat b0.toNat, 1)
  else if 0xC2 ≤ b0 ∧ b0 ≤ 0xDF then
    match rest with
    | b1 :: _ =>
      if isCont b1 then
        (Char.ofNat ((b0.toNat % 32) * 64 + b1.toNat % 64), 2)
      else (replacement, 1)
    | [] => (replacement, 1)
  else if 0xE0 ≤ b0 ∧ b0 ≤ 0xEF then
    match rest with
    | b1 :: rest1 =>
      if second3 b0 b1 then
        match rest1 with
        | b2 :: _ =>
          if isCont b2 then
            (Char.ofNat ((b0.toNat % 16) * 4096 + (b1.toNat % 64) * 64 + b2.toNat % 64), 3)
          else (replacement, 2)
        | [] => (replacement, 2)
      else (replacement, 1)
    | [] => (replacement, 1)
  else if 0xF0 ≤ b0 ∧ b0 ≤ 0xF4 then
    match rest with
    | b1 :: rest1 =>
      if second4 b0 b1 then
        match rest1 with
        | b2 :: rest2 =>
          if isCont b2 then
            match rest2 with
            | b3 :: _ =>
              if isCont b3 then
                (Char.ofNat ((b0.toNat % 8) * 262144 + (b1.toNat % 64) * 4096 + (b2.toNat % 64) * 64
                  + b3.toNat % 64), 4)
              else (replacement, 3)
            | [] => (replacement, 3)
          else (replacement, 2)
        | [] => (replacement, 2)
      else (replacement, 1)
    | [] => (replacement, 1)
  else (replacement, 1)

/-- `String::from_utf8_lossy`; `skip` is the number of bytes already consumed by the last step. -/
def lossyLoop : Nat → List UInt8 → List Char
  | _, [] => []
  | skip + 1, _ :: rest => lossyLoop skip rest
  | 0, b0 :: rest =>
    let r := lossyStep b0 rest
    r.1 :: lossyLoop (r.2 - 1) rest

/-- `String::from_utf8_lossy` (standard library). -/
def fromUtf8Lossy (data : List UInt8) : List Char := lossyLoop 0 data

/-! ### Display -/

/-- `char::from_u32_unchecked`: undefined behaviour unless `u` is a Unicode scalar value. -/
def charUnchecked (u : UInt16) : R Char :=
  if h : u.toUInt32.isValidChar then .ok ⟨u.toUInt32, h⟩ else .error .ub

/-- Loop of `Display::fmt`, src/textcode/mod.rs:109-118: characters written for each byte. -/
def displayLoop (map : List UInt16) : List UInt8 → R (List Char)
  | [] => .ok []
  | c :: rest =>
    if c ≤ 0x7F then do
      let tail ← displayLoop map rest
      return Char.ofNat c.toNat :: tail
    else if c ≥ 0xA0 then do
      let u ← idx map (c.toNat - 0xA0)
      let ch ← if u = 0 then pure '?' else charUnchecked u
      let tail ← displayLoop map rest
      return ch :: tail
    else displayLoop map rest

/-- `Display::fmt`, src/textcode/mod.rs:95-121.  `none` is `Err(fmt::Error)`. -/
def display (s : StringDVB) : R (Option (List Char)) :=
  if s.data.isEmpty then .ok (some [])
  else if s.codepage = UTF8 then .ok (some (fromUtf8Lossy s.data))
  else
    match getCodepageMap s.codepage with
    | none => .ok none
    | some map => do return some (← displayLoop map s.data)

/-- `to_string()`: the blanket `ToString` impl panics when `Display::fmt` returns an error. -/
def toStringR (s : StringDVB) : R (List Char) := do
  match ← display s with
  | some cs => return cs
  | none => panic

/-! ### Encoding -/

/-- Body of the loop of `from_str`, src/textcode/mod.rs:157-174: bytes pushed for one character. -/
def encodeChar (map : List UInt16) (ch : Char) : List UInt8 :=
  let c : UInt16 := ch.val.toUInt16
  if c ≤ 0x007F then [c.toUInt8]
  else if c ≥ 0x00A0 then
    match map.findIdx? (fun u => u == c) with
    | some v => [UInt8.ofNat v + 0xA0]
    | none =>
      if c = 0x00AB ∨ c = 0x00BB then [0x22]
      else if c = 0x2018 ∨ c = 0x2019 then [0x27]
      else if c = 0x201B then [0x27]
      else if c = 0x201C ∨ c = 0x201D then [0x22]
      else if c = 0x201F then [0x22]
      else if c = 0x2026 then [0x2E, 0x2E, 0x2E]
      else [0x3F]
  else []

/-- `StringDVB::from_str`, src/textcode/mod.rs:135-179; a `&str` is its list of characters. -/
def fromStr (s : List Char) (codepage : UInt8) : StringDVB :=
  if codepage = UTF8 then ⟨codepage, strAsBytes s⟩
  else
    match getCodepageMap codepage with
    | none => ⟨UTF8, strAsBytes s⟩
    | some map => ⟨codepage, s.flatMap (encodeChar map)⟩

/-- `size`, src/textcode/mod.rs:199-209. -/
def size (s : StringDVB) : Nat :=
  if s.data.isEmpty then 0
  else if s.codepage = ISO6937 then s.data.length
  else if s.codepage ≤ ISO8859_4 then 3 + s.data.length
  else 1 + s.data.length

/-- `assemble`, src/textcode/mod.rs:216-234. -/
def assemble (s : StringDVB) (dst : List UInt8) : List UInt8 :=
  if s.data.isEmpty then dst
  else
    let dst :=
      if s.codepage = ISO6937 then dst
      else if s.codepage ≤ ISO8859_4 then dst ++ [0x10] ++ [0x00] ++ [s.codepage]
      else if s.codepage ≤ ISO8859_15 then dst ++ [s.codepage - 4]
      else dst ++ [s.codepage]
    dst ++ s.data

/-- `assemble_sized`, src/textcode/mod.rs:236-241. -/
def assembleSized (s : StringDVB) (dst : List UInt8) : R (List UInt8) :=
  let size := dst.length
  let dst := dst ++ [0x00]
  let dst := s.assemble dst
  setIdx dst size (UInt8.ofNat (dst.length - size - 1))

/-- `truncate`, src/textcode/mod.rs:243-250. -/
def truncate (p : Profile) (s : StringDVB) (size : Nat) : R StringDVB := do
  if s.data.length > size then
    let data := resize s.data size 0
    let data ← setIdx data (← usizeSub p size 1) 0x2E
    let data ← setIdx data (← usizeSub p size 2) 0x2E
    let data ← setIdx data (← usizeSub p size 3) 0x2E
    return { s with data := data }
  else return s

/-- The `for _ in 1 .. 3` loop, src/textcode/mod.rs:270-275, with `n` iterations left. -/
def splitBack (p : Profile) (data : List UInt8) : Nat → Nat → R Nat
  | 0, next => .ok next
  | n + 1, next => do
    if ((← idx data next) &&& 0xC0) != 0x80 then return next
    splitBack p data n (← usizeSub p next 1)

/-- The `while` loop of `split`, src/textcode/mod.rs:267-282. -/
def splitLoop (p : Profile) (s : StringDVB) (size : Nat) :
    (fuel : Nat) → (skip : Nat) → (out : List StringDVB) → R (List StringDVB)
  | 0, _, _ => .error .diverge
  | fuel + 1, skip, out =>
    if skip < s.data.length then do
      let next := min s.data.length (skip + size)
      let next ←
        if s.codepage = UTF8 ∧ next < s.data.length then splitBack p s.data 2 next else pure next
      let piece ← slice s.data skip next
      splitLoop p s size fuel next (out ++ [⟨s.codepage, piece⟩])
    else .ok out

/-- `split`, src/textcode/mod.rs:252-285, with an explicit bound `fuel` on the number of loop
iterations (`.diverge` when exceeded). -/
def splitFuel (p : Profile) (fuel : Nat) (s : StringDVB) (size : Nat) : R (List StringDVB) := do
  let size ←
    if s.codepage = 0 then pure size
    else if s.codepage = UTF8 then usizeSub p size 1
    else usizeSub p size 3
  if s.data.isEmpty then return [s]
  splitLoop p s size fuel 0 []

/-- `split` with enough fuel for every terminating run (each iteration but the last consumes a byte). -/
def split (p : Profile) (s : StringDVB) (size : Nat) : R (List StringDVB) :=
  splitFuel p (s.data.length + 1) s size

/-- `From<&[u8]>`, src/textcode/mod.rs:289-318. -/
def ofBytes (data : List UInt8) : StringDVB :=
  match data with
  | [] => default
  | b0 :: rest =>
    if b0 = UTF8 then ⟨UTF8, rest⟩
    else if b0 ≥ 0x20 then ⟨0, data⟩
    else if b0 < 0x10 then ⟨b0 + 4, rest⟩
    else if b0 = 0x10 ∧ data.length ≥ 3 then ⟨data.getD 2 0, data.drop 3⟩
    else ⟨0, [0x3F]⟩

end StringDVB
end Mpegts
