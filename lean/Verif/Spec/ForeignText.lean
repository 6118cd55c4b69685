import Verif.Spec.Text

/-! # Specification: texts as other senders write them (EN 300 468 annex A)

Independent of the model. -/

namespace Spec.ForeignText
open Spec

/-! ## The default table (ISO/IEC 6937) -/

/-- One character of a text in the default table: a byte of its own, or an accent byte followed by the letter that carries
the accent. -/
inductive Glyph where
  | plain (b : UInt8)
  | accented (accent letter : UInt8)

/-- The bytes sent for a character. -/
def Glyph.bytes : Glyph → List UInt8
  | .plain b => [b]
  | .accented m l => [m, l]

/-- The accents `C1` to `CF` without the unassigned `C9` and `CC`. -/
def isAccent (b : UInt8) : Prop := 0xC1 ≤ b.toNat ∧ b.toNat ≤ 0xCF ∧ b.toNat ≠ 0xC9 ∧ b.toNat ≠ 0xCC

/-- An unaccented letter. -/
def isLetter (b : UInt8) : Prop := (0x41 ≤ b.toNat ∧ b.toNat ≤ 0x5A) ∨ (0x61 ≤ b.toNat ∧ b.toNat ≤ 0x7A)

/-- The character is one of the table: a plain byte with an assigned character that is no accent, or an accented letter. -/
def Glyph.Valid : Glyph → Prop
  | .plain b => 0x20 ≤ b.toNat ∧ Text.charOf CodePage.iso6937 b ≠ none ∧ ¬ isAccent b
  | .accented m l => isAccent m ∧ isLetter l

def Glyph.isPlain : Glyph → Prop
  | .plain _ => True
  | .accented _ _ => False

/-- The character of one byte of the table (a blank stands in for bytes without character). -/
def glyphChar (b : UInt8) : Char := (Text.charOf CodePage.iso6937 b).getD ' '

/-- The text in Unicode, where a combining mark comes after its letter. -/
def Glyph.text : Glyph → List Char
  | .plain b => [glyphChar b]
  | .accented m l => [glyphChar l, glyphChar m]

/-- The same with the mark in front, where Unicode attaches it to the character before. -/
def Glyph.markFirst : Glyph → List Char
  | .plain b => [glyphChar b]
  | .accented m l => [glyphChar m, glyphChar l]

/-- Letters of western European languages that the default table has as accent and letter, with these two bytes. -/
def accentedLetters : List (Char × UInt8 × UInt8) :=
  [('À', 0xC1, 0x41), ('Á', 0xC2, 0x41), ('Â', 0xC3, 0x41), ('Ã', 0xC4, 0x41), ('Ä', 0xC8, 0x41), ('Å', 0xCA, 0x41),
   ('Ç', 0xCB, 0x43), ('È', 0xC1, 0x45), ('É', 0xC2, 0x45), ('Ê', 0xC3, 0x45), ('Ë', 0xC8, 0x45), ('Ì', 0xC1, 0x49),
   ('Í', 0xC2, 0x49), ('Î', 0xC3, 0x49), ('Ï', 0xC8, 0x49), ('Ñ', 0xC4, 0x4E), ('Ò', 0xC1, 0x4F), ('Ó', 0xC2, 0x4F),
   ('Ô', 0xC3, 0x4F), ('Õ', 0xC4, 0x4F), ('Ö', 0xC8, 0x4F), ('Ù', 0xC1, 0x55), ('Ú', 0xC2, 0x55), ('Û', 0xC3, 0x55),
   ('Ü', 0xC8, 0x55), ('Ý', 0xC2, 0x59), ('à', 0xC1, 0x61), ('á', 0xC2, 0x61), ('â', 0xC3, 0x61), ('ã', 0xC4, 0x61),
   ('ä', 0xC8, 0x61), ('å', 0xCA, 0x61), ('ç', 0xCB, 0x63), ('è', 0xC1, 0x65), ('é', 0xC2, 0x65), ('ê', 0xC3, 0x65),
   ('ë', 0xC8, 0x65), ('ì', 0xC1, 0x69), ('í', 0xC2, 0x69), ('î', 0xC3, 0x69), ('ï', 0xC8, 0x69), ('ñ', 0xC4, 0x6E),
   ('ò', 0xC1, 0x6F), ('ó', 0xC2, 0x6F), ('ô', 0xC3, 0x6F), ('õ', 0xC4, 0x6F), ('ö', 0xC8, 0x6F), ('ù', 0xC1, 0x75),
   ('ú', 0xC2, 0x75), ('û', 0xC3, 0x75), ('ü', 0xC8, 0x75), ('ý', 0xC2, 0x79), ('ÿ', 0xC8, 0x79)]

/-! ## Control codes -/

/-- A text in a single-byte table with the control codes of table A.1: `8A` starts a new line, the other codes `80` to
`9F` (emphasis on and off, reserved codes) show nothing. -/
def lines (t : List Nat) (data : List UInt8) : List Char :=
  data.flatMap fun b =>
    if b = 0x8A then ['\n']
    else match Text.charOf t b with
      | some c => [c]
      | none => []

/-- Every byte is a control code or has a character. -/
def Covered (t : List Nat) (data : List UInt8) : Prop :=
  ∀ b ∈ data, (0x80 ≤ b.toNat ∧ b.toNat < 0xA0) ∨ Text.charOf t b ≠ none

/-- In UTF-8 the control codes are U+E080 to U+E09F (table A.2); U+E08A starts a new line. -/
def isControl (c : Char) : Prop := 0xE080 ≤ c.val.toNat ∧ c.val.toNat ≤ 0xE09F

instance : DecidablePred isControl := fun c => by unfold isControl; infer_instance

def linesUtf8 (text : List Char) : List Char :=
  text.flatMap fun c => if c = Char.ofNat 0xE08A then ['\n'] else if isControl c then [] else [c]

/-! ## Selecting a table -/

/-- How a text says that it is in ISO 8859-`n` (table A.3 and A.4): one byte `n - 4` for the parts 5 to 15, or `10 00 n`. -/
inductive Selects : (n : Nat) → List UInt8 → Prop where
  | short (n : Nat) (h : 5 ≤ n ∧ n ≤ 15) : Selects n [UInt8.ofNat (n - 4)]
  | long (n : Nat) (h : 1 ≤ n ∧ n ≤ 15) : Selects n [0x10, 0x00, UInt8.ofNat n]

end Spec.ForeignText
