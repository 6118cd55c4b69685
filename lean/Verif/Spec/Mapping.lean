import Verif.Model.Chars

/-! # Unicode's mapping files and the source text of a table

The files at unicode.org/Public/MAPPINGS/ISO8859: comments after `#`, empty lines, and one line for each assigned byte,
`0xA1<tab>0x0104<tab># LATIN CAPITAL LETTER A WITH OGONEK`, in upper case hexadecimal. -/

namespace Spec.Mapping
open Mpegts

/-- A hexadecimal digit in upper case. -/
def upperDigit (n : Nat) : Char := Char.ofNat (if n < 10 then 0x30 + n else 0x41 + (n - 10))

/-- A hexadecimal digit in lower case. -/
def lowerDigit (n : Nat) : Char := Char.ofNat (if n < 10 then 0x30 + n else 0x61 + (n - 10))

/-- The lowest `k` hexadecimal digits of a number. -/
def digits (d : Nat → Char) : (k n : Nat) → List Char
  | 0, _ => []
  | k + 1, n => digits d k (n / 16) ++ [d (n % 16)]

/-- The value of a digit of a number in base `base`, at most 16. -/
def digitOf (base : Nat) (c : Char) : Option Nat := (List.range base).find? fun v => c = upperDigit v ∨ c = lowerDigit v

/-- The value of a number without sign. -/
def valueOf (base : Nat) (w : List Char) : Option Nat := w.foldlM (fun n c => (digitOf base c).map (n * base + ·)) 0

/-- The value of a number below `limit`; it may have a plus sign. -/
def numberBelow (limit base : Nat) (w : List Char) : Option Nat :=
  let w := if w.head? = some '+' then w.tail else w
  if w = [] then none else (valueOf base w).filter (· < limit)

/-- The number of the part in the name of a file, `8859-2.TXT`: up to the first dot, between the first and the second hyphen. -/
def partOfName (name : List Char) : Option Nat :=
  let stem := name.takeWhile (· ≠ '.')
  if '-' ∈ stem then numberBelow (2 ^ 31) 10 (((stem.dropWhile (· ≠ '-')).drop 1).takeWhile (· ≠ '-')) else none

/-- The parts of ISO 8859 and what the source says about them. -/
def partTitle : Nat → Option (List Char)
  | 1 => some t!"Western European"
  | 2 => some t!"Central European"
  | 3 => some t!"South European"
  | 4 => some t!"North European"
  | 5 => some t!"Cyrillic"
  | 6 => some t!"Arabic"
  | 7 => some t!"Greek"
  | 8 => some t!"Hebrew"
  | 9 => some t!"Turkish"
  | 10 => some t!"Nordic"
  | 11 => some t!"Thai"
  | 13 => some t!"Baltic Rim"
  | 14 => some t!"Celtic"
  | 15 => some t!"Western European"
  | 16 => some t!"South-Eastern European"
  | _ => none

/-- The characters with the property White_Space, Unicode Standard, PropList.txt. -/
def whiteSpace : List Nat :=
  [0x09, 0x0A, 0x0B, 0x0C, 0x0D, 0x20, 0x85, 0xA0, 0x1680, 0x2000, 0x2001, 0x2002, 0x2003, 0x2004, 0x2005, 0x2006, 0x2007, 0x2008, 0x2009, 0x200A,
   0x2028, 0x2029, 0x202F, 0x205F, 0x3000]

/-- A line of a mapping file. -/
inductive Line where
  | comment (text : List Char)
  | empty
  | entry (byte code : Nat) (remark : List Char)

/-- A line has no line break inside, a byte has eight bits, and its character is in the Basic Multilingual Plane. -/
def Line.Valid : Line → Prop
  | .comment t => '\n' ∉ t
  | .empty => True
  | .entry b c t => b < 256 ∧ c < 65536 ∧ '\n' ∉ t

/-- The text of a line. -/
def Line.text : Line → List Char
  | .comment t => t!"#" ++ t
  | .empty => []
  | .entry b c t => t!"0x" ++ digits upperDigit 2 b ++ t!"\t0x" ++ digits upperDigit 4 c ++ t!"\t" ++ t

/-- The text of a file. -/
def fileText (ls : List Line) : List Char := ls.flatMap fun l => l.text ++ ['\n']

/-- The character a line assigns to a byte. -/
def Line.assigns (byte : Nat) : Line → Option Nat
  | .entry b c _ => if b = byte then some c else none
  | _ => none

/-- The character a file assigns to a byte: that of the last line for it, 0 if there is none. -/
def assigned (byte : Nat) (ls : List Line) : Nat := (ls.filterMap (Line.assigns byte)).getLast?.getD 0

/-- The characters of the bytes A0 to FF. -/
def table (ls : List Line) : List Nat := (List.range 96).map fun i => assigned (0xA0 + i) ls

/-- A row of sixteen numbers of an array. -/
def row (vs : List Nat) : List Char := t!"\n   " ++ vs.flatMap fun v => t!" 0x" ++ digits lowerDigit 4 v ++ t!","

/-- The Rust source of a table: six rows of sixteen numbers. -/
def source (name remark : List Char) (vs : List Nat) : List Char :=
  t!"/// " ++ remark ++ t!"\npub static ISO" ++ name ++ t!": [u16; 96] = [" ++
    (List.range 6).flatMap (fun r => row ((vs.drop (16 * r)).take 16)) ++ t!"\n];\n\n"

/-- A file that lists exactly the characters of a table of the bytes A0 to FF (0: not assigned). -/
def Lists (ls : List Line) (vs : List Nat) : Prop := vs.length = 96 ∧ ∀ i < 96, assigned (0xA0 + i) ls = vs.getD i 0

end Spec.Mapping
