import Verif.Spec.Cbr

/-! # Specification: any implementation of `io::Read` as a source -/

namespace Spec
open Mpegts

/-- The number of bytes a `read` call reports. -/
def countOf (res : Except IoError Nat) : Nat :=
  match res with
  | .ok x => x
  | .error _ => 0

/-- The contract of `Read`: a call returns, reports no more bytes than the buffer has, and changes none but those it reports. -/
def HonestRead {σ : Type} (rd : TsReadImpl σ) : Prop :=
  ∀ st buf, ∃ r, rd st buf = .ok r ∧ r.buf.length = buf.length ∧ countOf r.res ≤ buf.length ∧
    r.buf.drop (countOf r.res) = buf.drop (countOf r.res)

/-- What a call did, in the schedule of a `Source`. -/
def eventOf : Except IoError Nat → ReadEvent
  | .ok 0 => .zero
  | .ok (n + 1) => .chunk n
  | .error e => .err e

/-- The source that delivers what is on a record of calls, and goes on with `more` and `evs`. -/
def sourceOf (record : List (Except IoError Nat × List UInt8)) (more : List UInt8) (evs : List ReadEvent) : Source :=
  ⟨(record.map (·.2)).flatten ++ more, record.map (fun c => eventOf c.1) ++ evs⟩

/-- Asked for one byte at a time, the source delivers `n` bytes other than the sync byte. -/
def Stalls {σ : Type} (rd : TsReadImpl σ) : (n : Nat) → σ → (buf : List UInt8) → Prop
  | 0, _, _ => True
  | n + 1, st, buf => ∃ r b, rd st buf = .ok r ∧ r.res = .ok 1 ∧ r.buf = [b] ∧ b ≠ 0x47 ∧ Stalls rd n r.st r.buf

/-- A `Source` as an implementation of `Read`. -/
def sourceRead : TsReadImpl Source := fun s buf =>
  match s.read buf.length with
  | (.error e, s) => .ok ⟨.error e, buf, s⟩
  | (.ok bytes, s) => .ok ⟨.ok bytes.length, bytes ++ buf.drop bytes.length, s⟩

/-- A source that follows a script: each call writes the given bytes, as far as they fit, and claims the given number; at the end it
reports `Ok(0)`. -/
def scripted : TsReadImpl (List (Nat × List UInt8)) := fun script buf =>
  match script with
  | [] => .ok ⟨.ok 0, buf, []⟩
  | (claim, bytes) :: script => .ok ⟨.ok claim, bytes.take buf.length ++ buf.drop bytes.length, script⟩

/-- Calls that deliver these bytes and say so. -/
def told (pieces : List (List UInt8)) : List (Nat × List UInt8) := pieces.map fun bytes => (bytes.length, bytes)

end Spec
