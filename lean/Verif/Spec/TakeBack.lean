import Verif.Model.ReaderBox
import Verif.Spec.Reader

/-! # Specification: a reader and its source used side by side

A user who reads packets may also read from the source directly, exchange it (a reconnection), look at it, or take it back and
put it into a new reader.  `byBytes` says what they should see, about bytes alone. -/

namespace Spec
open Mpegts

/-- What a user does next. -/
inductive Use where
  /-- read a packet -/
  | packet
  /-- read `n` bytes from the source itself, through `get_mut` -/
  | bytes (n : Nat)
  /-- look at the bytes the source still has, through `get_ref` -/
  | look
  /-- take the source back with `into_inner` and make a new reader of it -/
  | rewrap
  /-- exchange the source for another one (`mem::replace`), through `get_mut`; the bytes left in the old one are seen -/
  | exchange (src : Source)

/-- `n` bytes of a source, or all there are: the source is read until they are complete or it says `Ok(0)` or fails (what
`take(n).read_to_end` does). -/
def takeBytes : (fuel n : Nat) → Source → List UInt8 × Source
  | 0, _, s => ([], s)
  | fuel + 1, n, s =>
    if n = 0 then ([], s) else
    match s.read n with
    | (.error _, s') => ([], s')
    | (.ok [], s') => ([], s')
    | (.ok bs, s') => let x := takeBytes fuel (n - bs.length) s'; (bs ++ x.1, x.2)

/-- The user's program: it does one thing after the other with a reader, and takes the source back in the end. -/
def useReader : List Use → TsReader Source → (buf : List UInt8) → R (List (List UInt8) × Source)
  | [], r, _ => .ok ([], r.intoInner)
  | .packet :: l, r, buf => do
    let x ← r.readPacket buf
    let seen := match x.res with
      | .ok n => x.buf.take n
      | .error _ => []
    let y ← useReader l x.st x.buf
    return (seen :: y.1, y.2)
  | .bytes n :: l, r, buf => do
    let x := r.getMut (takeBytes n n)
    let y ← useReader l x.2 buf
    return (x.1 :: y.1, y.2)
  | .look :: l, r, buf => do
    let y ← useReader l r buf
    return (r.getRef.data :: y.1, y.2)
  | .rewrap :: l, r, buf => useReader l (TsReader.new r.intoInner) buf
  | .exchange src :: l, r, buf => do
    let x := r.getMut fun old => (old, src)
    let y ← useReader l x.2 buf
    return (x.1.data :: y.1, y.2)

/-- What the user should see, and which bytes should be left in the end. -/
def byBytes : List Use → List UInt8 → List (List UInt8) × List UInt8
  | [], d => ([], d)
  | .packet :: l, d =>
    match nextPacket d with
    | some (pk, rest) => let y := byBytes l rest; (pk :: y.1, y.2)
    | none => let y := byBytes l []; ([] :: y.1, y.2)
  | .bytes n :: l, d => let y := byBytes l (d.drop n); (d.take n :: y.1, y.2)
  | .look :: l, d => let y := byBytes l d; (d :: y.1, y.2)
  | .rewrap :: l, d => byBytes l d
  | .exchange src :: l, d => let y := byBytes l src.data; (d :: y.1, y.2)

/-- The sources a user brings in keep delivering. -/
def Use.Steady : Use → Prop
  | .exchange src => Spec.Steady src
  | _ => True

example : byBytes [.bytes 2, .packet, .look] ([1, 2, 3] ++ (0x47 :: List.replicate 187 9) ++ [5, 6]) =
    ([[1, 2], 0x47 :: List.replicate 187 9, [5, 6]], [5, 6]) := by decide +kernel

end Spec
