import Verif.Model.Desc
import Verif.Spec.Bytes
import Verif.Spec.Bcd
import Verif.Spec.Tables

/-! # Specification: what the bytes of a descriptor say

The bit positions of the syntax tables of ISO/IEC 13818-1 section 2.6 and EN 300 468 section 6.2, read off any byte string, whatever its
reserved bits and whether or not its digits are decimal.  A descriptor with a body its table does not allow is kept as bytes. -/

namespace Spec.Reading
open Mpegts Table

/-- `width` bits of a byte string from its bit `start` on, counted from the first (most significant) bit of the first byte. -/
def bitsAt (s : List UInt8) (start width : Nat) : Nat := beNat s / 2 ^ (8 * s.length - start - width) % 2 ^ width

example : bitsAt [0xAB, 0xCD, 0xEF] 4 12 = 0xBCD := by decide
example : bitsAt [0xAB, 0xCD, 0xEF] 17 2 = 0b11 := by decide

/-- A text after a code of its character table. -/
def text (s : List UInt8) : StringDVB := StringDVB.ofBytes s

/-- Four digits as hours and minutes, in minutes; sixty times the hours are taken modulo 256 (C21). -/
def minutes (x : Nat) : Nat := unbcd 2 (x / 2 ^ 8) * 60 % 256 + unbcd 2 x

/-- A date and a time of day, in seconds from 1970 on (a number of 64 bits). -/
def time (date hms : Nat) : Nat := (2 ^ 64 + date - unixEpochMjd) * 86400 + seconds hms

/-- The items of an extended event descriptor: pairs of texts with their lengths, as long as the length of all of them is not used up. -/
def pairs (total : Nat) : List UInt8 → List (StringDVB × StringDVB)
  | [] => []
  | n :: r =>
    if total = 0 then []
    else
      let m := bitsAt r (8 * n.toNat) 8
      (text (r.take n.toNat), text ((r.drop (n.toNat + 1)).take m)) :: pairs (total - (2 + n.toNat + m)) (r.drop (n.toNat + 1 + m))
termination_by s => s.length
decreasing_by simp; omega

/-- The descriptor with this tag and this body. -/
def decode (tag : UInt8) (body : List UInt8) : Desc :=
  let b := bitsAt body
  let raw : Desc := .raw ⟨tag, body⟩
  if tag = 0x09 then
    if 4 ≤ body.length then .d09 ⟨.ofNat (b 0 16), .ofNat (b 19 13), body.drop 4⟩ else raw
  else if tag = 0x0A then
    if 4 ∣ body.length then .d0A ⟨(chunks 4 body).map fun i => ⟨text (i.take 3), .ofNat (bitsAt i 24 8)⟩⟩ else raw
  else if tag = 0x0E then
    if body.length = 3 then .d0E ⟨.ofNat (b 2 22)⟩ else raw
  else if tag = 0x40 then .d40 ⟨text body⟩
  else if tag = 0x41 then
    if 3 ∣ body.length then .d41 ⟨(chunks 3 body).map fun i => ⟨.ofNat (bitsAt i 0 16), .ofNat (bitsAt i 16 8)⟩⟩ else raw
  else if tag = 0x43 then
    if body.length = 11 then .d43
      { frequency := .ofNat (unbcd 8 (b 0 32) * 10), orbitalPosition := .ofNat (unbcd 4 (b 32 16) * 6), westEastFlag := .ofNat (b 48 1)
        polarization := .ofNat (b 49 2), rof := .ofNat (b 51 2), s2 := .ofNat (b 53 1), modulation := .ofNat (b 54 2)
        symbolRate := .ofNat (unbcd 6 (b 56 24)), fec := .ofNat (b 84 4) }
    else raw
  else if tag = 0x44 then
    if body.length = 11 then .d44
      { frequency := .ofNat (unbcd 8 (b 0 32) * 100), fecOuter := .ofNat (b 44 4), modulation := .ofNat (b 48 8)
        symbolRate := .ofNat (unbcd 6 (b 56 24)), fec := .ofNat (b 84 4) }
    else raw
  else if tag = 0x48 then
    let n := b 8 8
    let m := b (16 + 8 * n) 8
    if 3 ≤ body.length ∧ body.length = 3 + n + m then
      .d48 ⟨.ofNat (b 0 8), text ((body.drop 2).take n), text (body.drop (3 + n))⟩
    else raw
  else if tag = 0x4D then
    let n := b 24 8
    let m := b (32 + 8 * n) 8
    if 5 ≤ body.length ∧ body.length = 5 + n + m then .d4D ⟨text (body.take 3), text ((body.drop 4).take n), text (body.drop (5 + n))⟩
    else raw
  else if tag = 0x4E then
    let n := b 32 8
    let m := b (40 + 8 * n) 8
    if 6 ≤ body.length ∧ body.length = 6 + n + m then .d4E
      { number := .ofNat (b 0 4), lastNumber := .ofNat (b 4 4), lang := text ((body.drop 1).take 3), items := pairs n (body.drop 5)
        text := text (body.drop (6 + n)) }
    else raw
  else if tag = 0x52 then
    if body.length = 1 then .d52 ⟨.ofNat (b 0 8)⟩ else raw
  else if tag = 0x58 then
    if 13 ∣ body.length then .d58 ⟨(chunks 13 body).map fun i =>
      { countryCode := text (i.take 3), regionId := .ofNat (bitsAt i 24 6), offsetPolarity := .ofNat (bitsAt i 31 1)
        offset := .ofNat (minutes (bitsAt i 32 16)), timeOfChange := .ofNat (time (bitsAt i 48 16) (bitsAt i 64 24))
        nextOffset := .ofNat (minutes (bitsAt i 88 16)) }⟩
    else raw
  else if tag = 0x5A then
    if body.length = 11 then .d5A
      { frequency := .ofNat (b 0 32 * 10), bandwidth := .ofNat (b 32 3), priority := .ofNat (b 35 1), timeSlicing := .ofNat (b 36 1)
        mpeFec := .ofNat (b 37 1), modulation := .ofNat (b 40 2), hierarchy := .ofNat (b 42 3), codeRateHp := .ofNat (b 45 3)
        codeRateLp := .ofNat (b 48 3), guardInterval := .ofNat (b 51 2), transmission := .ofNat (b 53 2), otherFrequencyFlag := .ofNat (b 55 1) }
    else raw
  else if tag = 0x83 then
    if 4 ∣ body.length then .d83 ⟨(chunks 4 body).map fun i => ⟨.ofNat (bitsAt i 0 16), .ofNat (bitsAt i 16 1), .ofNat (bitsAt i 22 10)⟩⟩ else raw
  else raw

/-- The descriptors of a loop, one after another; a truncated one ends the loop. -/
def descriptors : List UInt8 → List Desc
  | tag :: n :: r => if n.toNat ≤ r.length then decode tag (r.take n.toNat) :: descriptors (r.drop n.toNat) else []
  | _ => []
termination_by s => s.length
decreasing_by simp; omega

example : decode 0x0E [0x01, 0x23, 0x45] = .d0E ⟨0x12345⟩ := by decide
example : decode 0x0E [0x01, 0x23] = .raw ⟨0x0E, [0x01, 0x23]⟩ := by decide

end Spec.Reading
