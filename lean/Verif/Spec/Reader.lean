import Verif.Model.Reader
import Verif.Spec.Feed

/-! # Specification: packets in a byte stream

What a packet reader should return, said about the bytes of the stream alone. -/

namespace Spec
open Mpegts

/-- The source keeps delivering: its schedule has short reads of any size, but no failure and no `Ok(0)` before the end
of the data. -/
def Steady (s : Source) : Prop := ∀ e ∈ s.events, ∃ n, e = ReadEvent.chunk n

/-- Between `s` and `s'` the source handed out exactly `bytes`, and its schedule went through `evs`. -/
def Delivered (s s' : Source) (bytes : List UInt8) (evs : List ReadEvent) : Prop :=
  s.data = bytes ++ s'.data ∧ s.events = evs ++ s'.events

/-- All of `evs` are (short) reads. -/
def Chunks (evs : List ReadEvent) : Prop := ∀ e ∈ evs, ∃ n, e = ReadEvent.chunk n

/-- How a call of the reader ends without a packet: the source is at its end, or said `Ok(0)`, or failed. -/
def Stop (res : Except IoError Nat) (st : Source) (evs : List ReadEvent) : Prop :=
  (res = .ok 0 ∧ st.data = [] ∧ Chunks evs) ∨
  (res = .ok 0 ∧ ∃ cs, evs = cs ++ [.zero] ∧ Chunks cs) ∨
  ∃ e cs, res = .error e ∧ evs = cs ++ [.err e] ∧ Chunks cs

/-- What the interrupted `read` call of a source reports. -/
def reported : ReadEvent → Except IoError Nat
  | .err e => .error e
  | _ => .ok 0

/-- The next packet of a stream and what follows it: bytes that are not 0x47 are skipped, then 188 bytes are taken. -/
def nextPacket (data : List UInt8) : Option (List UInt8 × List UInt8) :=
  let d := data.dropWhile (· != 0x47)
  if 188 ≤ d.length then some (d.take 188, d.drop 188) else none

theorem nextPacket_lt {data pk rest : List UInt8} (h : nextPacket data = some (pk, rest)) : rest.length < data.length := by
  simp only [nextPacket] at h
  have := (List.dropWhile_sublist (l := data) (· != 0x47)).length_le
  split at h
  · injection h with h; injection h with h1 h2
    rw [← h2, List.length_drop]; omega
  · cases h

/-- All packets of a stream. -/
def packetsOf (data : List UInt8) : List (List UInt8) :=
  match _h : nextPacket data with
  | none => []
  | some (pk, rest) => pk :: packetsOf rest
termination_by data.length
decreasing_by exact nextPacket_lt _h

/-- The loop a user writes around `TsReader::read`, with one buffer: keep reading until `Ok(0)` or an error, collecting the
bytes reported.  (`fuel` bounds the number of calls; the theorems say how much is enough.) -/
def readAll : (fuel : Nat) → Source → (buf : List UInt8) → R (List (List UInt8))
  | 0, _, _ => .error .diverge
  | fuel + 1, src, buf => do
    let r ← TsReader.read src buf
    match r.res with
    | .error _ => return []
    | .ok 0 => return []
    | .ok x => return r.buf.take x :: (← readAll fuel r.st r.buf)

/-- A stream made of packets, each after a gap. -/
def interleave : List (List UInt8 × List UInt8) → List UInt8
  | [] => []
  | (gap, pk) :: l => gap ++ pk ++ interleave l

example : nextPacket (1 :: 2 :: 0x47 :: List.replicate 187 9 ++ [7]) = some (0x47 :: List.replicate 187 9, [7]) := by decide +kernel
example : nextPacket (0x47 :: List.replicate 186 9) = none := by decide +kernel

end Spec
