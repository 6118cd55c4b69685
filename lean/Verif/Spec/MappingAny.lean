import Verif.Spec.Mapping

/-! # What the generator makes of any text and any directory -/

namespace Spec.Mapping
open Mpegts

/-- A white space character. -/
def white (c : Char) : Bool := whiteSpace.contains c.toNat

/-- A text without the white space around it. -/
def trimmed (l : List Char) : List Char := ((l.dropWhile white).reverse.dropWhile white).reverse

/-- What is left of a text without its first `n` bytes in UTF-8, if a character ends there. -/
def dropBytes : (n : Nat) → List Char → Option (List Char)
  | 0, w => some w
  | _ + 1, [] => none
  | n + 1, c :: w => if c.utf8Size ≤ n + 1 then dropBytes (n + 1 - c.utf8Size) w else none

/-- The number in a column: the first two bytes, `0x` in Unicode's files, are not looked at. -/
def column (limit : Nat) (w : List Char) : Option Nat := (dropBytes 2 w).bind (numberBelow limit 16)

/-- What a line says.  Blank lines, comments and bytes below A0 say nothing; a line is bad if one of its first two columns is no
number, where only the first is looked at if it is below A0. -/
def lineOf (line : List Char) : Option Line :=
  if trimmed line = [] ∨ (trimmed line).head? = some '#' then some .empty
  else match (trimmed line).splitOnP white with
    | [] => none
    | w₁ :: more => (column 256 w₁).bind fun b =>
      if b < 0xA0 then some .empty
      else match more with
        | [] => none
        | w₂ :: _ => (column 65536 w₂).map fun c => .entry b c []

/-- What the lines of a text say, if none of them is bad. -/
def linesOf (content : List Char) : Option (List Line) := (content.splitOn '\n').mapM lineOf

/-- The name of a table: that of the file up to the first dot, with `_` for `-`. -/
def tableName (path : List Char) : List Char := (path.takeWhile (· ≠ '.')).map fun c => if c = '-' then '_' else c

/-- The part a file is about and the source of its table, if its name tells a part of the standard and none of its lines is bad. -/
def fileSource (f : List Char × List Char) : Option (Nat × List Char) :=
  (partOfName f.1).bind fun n => (partTitle n).bind fun title => (linesOf f.2).map fun ls => (n, source (tableName f.1) title (table ls))

/-- The source for a directory of files: one part after the other, the files of one part in the order of the directory, without the
hidden files; nothing if one of the others is bad. -/
def directorySource (dir : List (List Char × List Char)) : Option (List Char) :=
  ((dir.filter fun f => f.1.head? ≠ some '.').mapM fileSource).map fun xs =>
    (List.range 17).flatMap fun n => (xs.filter fun x => x.1 = n).flatMap (·.2)

end Spec.Mapping
