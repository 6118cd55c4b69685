import Verif.Spec.CodePage

/-! # Specification: DVB strings (EN 300 468 annex A)

Independent of the model: bytes, characters and numbers only. -/

namespace Spec.Text

/-- The character-table selector written in front of a text in table `cp`: nothing for the default
table, `10 00 nn` for ISO 8859-1 to -4, one byte `nn - 4` for ISO 8859-5 to -15, and the number itself
otherwise (`15` hexadecimal for UTF-8). -/
def selector (cp : Nat) : List UInt8 :=
  if cp = 0 then []
  else if cp ≤ 4 then [0x10, 0x00, UInt8.ofNat cp]
  else if cp ≤ 15 then [UInt8.ofNat (cp - 4)]
  else [UInt8.ofNat cp]

/-- The encoding of a text: an empty text is no byte at all, otherwise selector and characters. -/
def encoding (cp : Nat) (data : List UInt8) : List UInt8 :=
  match data with
  | [] => []
  | _ => selector cp ++ data

/-- The character byte `b` stands for in the single-byte table with upper half `t`. -/
def charOf (t : List Nat) (b : UInt8) : Option Char :=
  if b.toNat < 0x80 then some (Char.ofNat b.toNat)
  else if b.toNat < 0xA0 then none
  else
    match t[b.toNat - 0xA0]? with
    | some 0 => none
    | some u => some (Char.ofNat u)
    | none => none

/-- What a text in that table is displayed as: control bytes `80`..`9F` are not shown, unassigned bytes
show as `?`. -/
def shown (t : List Nat) (data : List UInt8) : List Char :=
  data.flatMap fun b =>
    match charOf t b with
    | some c => [c]
    | none => if b.toNat < 0xA0 then [] else ['?']

/-- `c` belongs to the repertoire of the table. -/
def InTable (t : List Nat) (c : Char) : Prop := ∃ b, charOf t b = some c

/-- What is written instead of a character that the table lacks: plain quotes for typographic quotes,
three dots for the ellipsis, a question mark for everything else. -/
def substitute (c : Char) : List UInt8 :=
  if c = '«' ∨ c = '»' ∨ c = '“' ∨ c = '”' ∨ c = '‟' then ['"'.toUInt8]
  else if c = '‘' ∨ c = '’' ∨ c = '‛' then ['\''.toUInt8]
  else if c = '…' then ['.'.toUInt8, '.'.toUInt8, '.'.toUInt8]
  else ['?'.toUInt8]

/-- UTF-8. -/
def utf8 (s : List Char) : List UInt8 := s.flatMap String.utf8EncodeChar

end Spec.Text
