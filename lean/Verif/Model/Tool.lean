import Verif.Model.Rust
import Verif.Model.Chars

/-! # `tools/iso8859-parser.rs`: the generator of `src/textcode/data.rs`

Text is a list of characters: the mapping files are taken to be UTF-8, and so are the names.  Input/output errors are not modelled, nor is
what has been printed before a panic.  `fs::read_dir` is a list of names and contents in any order. -/

namespace Mpegts.Tool
open Mpegts

/-- tools/iso8859-parser.rs:12 -/
def ARR_SIZE : Nat := 0xFF - 0x9F

/-- `char::is_whitespace`: the Unicode property White_Space. -/
def isWhitespace (c : Char) : Bool :=
  let n := c.toNat
  (0x09 ≤ n && n ≤ 0x0D) || n == 0x20 || n == 0x85 || n == 0xA0 || n == 0x1680 || (0x2000 ≤ n && n ≤ 0x200A) ||
  n == 0x2028 || n == 0x2029 || n == 0x202F || n == 0x205F || n == 0x3000

/-- `BufRead::lines`: a carriage return before the line feed belongs to the line end. -/
def stripCr (line : List Char) : List Char := if line.getLast? = some '\r' then line.dropLast else line

/-- `BufRead::lines`; `cur` is the line read so far.  A last line without line feed counts if it is not empty. -/
def linesLoop : (cur : List Char) → List Char → List (List Char)
  | cur, [] => if cur.isEmpty then [] else [cur]
  | cur, c :: rest => if c = '\n' then stripCr cur :: linesLoop [] rest else linesLoop (cur ++ [c]) rest

/-- `str::trim_left`. -/
def trimLeft (s : List Char) : List Char := s.dropWhile isWhitespace

/-- `str::trim_right`. -/
def trimRight (s : List Char) : List Char := (s.reverse.dropWhile isWhitespace).reverse

/-- `&s[2 ..]`: panics if the string has less than two bytes or byte 2 is inside a character. -/
def from2 : List Char → R (List Char)
  | a :: rest =>
    if a.utf8Size = 2 then .ok rest
    else if a.utf8Size = 1 then
      match rest with
      | b :: rest => if b.utf8Size = 1 then .ok rest else panic
      | [] => panic
    else panic
  | [] => panic

/-- The value of a digit, `char::to_digit(radix)`. -/
def digitValue (radix : Nat) (c : Char) : Option Nat :=
  let n := c.toNat
  let v := if 0x30 ≤ n ∧ n ≤ 0x39 then some (n - 0x30) else if 0x61 ≤ n ∧ n ≤ 0x7A then some (n - 0x61 + 10)
    else if 0x41 ≤ n ∧ n ≤ 0x5A then some (n - 0x41 + 10) else none
  match v with
  | some v => if v < radix then some v else none
  | none => none

/-- The digits of `from_str_radix`: `none` for a character that is no digit or a value that is not below `limit`. -/
def digitsLoop (radix limit : Nat) : (acc : Nat) → List Char → Option Nat
  | acc, [] => some acc
  | acc, c :: rest =>
    match digitValue radix c with
    | none => none
    | some v => if acc * radix + v < limit then digitsLoop radix limit (acc * radix + v) rest else none

/-- `from_str_radix(s, radix).unwrap()` of an unsigned type with values below `limit`. -/
def parseUnsigned (radix limit : Nat) (s : List Char) : R Nat :=
  let digits := match s with
    | '+' :: rest => rest
    | _ => s
  if digits.isEmpty then panic
  else match digitsLoop radix limit 0 digits with
    | some v => .ok v
    | none => panic

/-- `i32::from_str_radix(s, 10).unwrap()`. -/
def parseI32 (s : List Char) : R Int :=
  match s with
  | '-' :: rest =>
    if rest.isEmpty then panic
    else match digitsLoop 10 (2 ^ 31 + 1) 0 rest with
      | some v => .ok (-(v : Int))
      | none => panic
  | _ => do return ((← parseUnsigned 10 (2 ^ 31) s : Nat) : Int)

/-- The loop over the lines of a mapping file, tools/iso8859-parser.rs:23-43. -/
def tableLoop : (arr : List Nat) → List (List Char) → R (List Nat)
  | arr, [] => .ok arr
  | arr, line :: rest =>
    let line := trimLeft line
    if line.head? = some '#' then tableLoop arr rest
    else
      let line := trimRight line
      if line.isEmpty then tableLoop arr rest
      else do
        let code ← parseUnsigned 16 256 (← from2 (line.takeWhile (!isWhitespace ·)))
        if code < 0xA0 then tableLoop arr rest
        else
          let code := code - 0xA0
          match line.dropWhile (!isWhitespace ·) with
          | [] => panic
          | _ :: second => do
            let unicode ← parseUnsigned 16 65536 (← from2 (second.takeWhile (!isWhitespace ·)))
            if code < arr.length then tableLoop (arr.set code unicode) rest else panic

/-- `{:04x}`. -/
def hex4 (n : Nat) : List Char :=
  let d := Nat.toDigits 16 n
  List.replicate (4 - d.length) '0' ++ d

/-- The loop that prints the array, tools/iso8859-parser.rs:45-52. -/
def printLoop : (n : Nat) → List Nat → List Char
  | _, [] => []
  | n, u :: rest => (if n % 16 = 0 then t!"\n    " else t!" ") ++ t!"0x" ++ hex4 u ++ t!"," ++ printLoop (n + 1) rest

/-- `read_file`, tools/iso8859-parser.rs:14-57. -/
def readFile (path partName content : List Char) : R (List Char) := do
  let arr := List.replicate ARR_SIZE 0
  let path := path.takeWhile (· ≠ '.')
  let path := path.map fun c => if c = '-' then '_' else c
  let arr ← tableLoop arr (linesLoop [] content)
  return t!"/// " ++ partName ++ t!"\n" ++ t!"pub static ISO" ++ path ++ t!": [u16; " ++ Nat.toDigits 10 ARR_SIZE ++ t!"] = [" ++
    printLoop 0 arr ++ t!"\n" ++ t!"];\n\n"

/-- `get_part`, tools/iso8859-parser.rs:74-79. -/
def getPart (name : List Char) : R Int :=
  match (name.takeWhile (· ≠ '.')).dropWhile (· ≠ '-') with
  | [] => panic
  | _ :: rest => parseI32 (rest.takeWhile (· ≠ '-'))

/-- The names of the parts, tools/iso8859-parser.rs:87-104. -/
def partName (n : Int) : R (List Char) :=
  if n = 1 then .ok t!"Western European"
  else if n = 2 then .ok t!"Central European"
  else if n = 3 then .ok t!"South European"
  else if n = 4 then .ok t!"North European"
  else if n = 5 then .ok t!"Cyrillic"
  else if n = 6 then .ok t!"Arabic"
  else if n = 7 then .ok t!"Greek"
  else if n = 8 then .ok t!"Hebrew"
  else if n = 9 then .ok t!"Turkish"
  else if n = 10 then .ok t!"Nordic"
  else if n = 11 then .ok t!"Thai"
  else if n = 13 then .ok t!"Baltic Rim"
  else if n = 14 then .ok t!"Celtic"
  else if n = 15 then .ok t!"Western European"
  else if n = 16 then .ok t!"South-Eastern European"
  else panic

/-- One step of the stable `sort_by`, tools/iso8859-parser.rs:80-84 (as an insertion sort). -/
def insert (x : Int × List Char × List Char) : List (Int × List Char × List Char) → List (Int × List Char × List Char)
  | [] => [x]
  | y :: rest => if x.1 ≤ y.1 then x :: y :: rest else y :: insert x rest

/-- `sort_by`. -/
def sort : List (Int × List Char × List Char) → List (Int × List Char × List Char)
  | [] => []
  | x :: rest => insert x (sort rest)

/-- The parts of all files. -/
def partsLoop : List (List Char × List Char) → R (List (Int × List Char × List Char))
  | [] => .ok []
  | f :: rest => do
    let n ← getPart f.1
    return (n, f) :: (← partsLoop rest)

/-- The loop over the sorted files, tools/iso8859-parser.rs:86-106. -/
def filesLoop : List (Int × List Char × List Char) → R (List Char)
  | [] => .ok []
  | (n, name, content) :: rest => do
    let part ← partName n
    let text ← readFile name part content
    return text ++ (← filesLoop rest)

/-- `main`, tools/iso8859-parser.rs:59-109: the text printed for a directory of files. -/
def main (dir : List (List Char × List Char)) : R (List Char) := do
  filesLoop (sort (← partsLoop (dir.filter fun f => f.1.head? ≠ some '.')))

end Mpegts.Tool
