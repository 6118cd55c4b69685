import Verif.Model.ReaderOn
import Verif.Spec.Drain

/-! # Specification: readers on drains

A `TsDrain` is a byte source, so a `TsReader` can be put on it, and so on: `TsReader<TsDrain<TsReader<TsDrain<TsReader<R>>>>>`. -/

namespace Spec
open Mpegts

/-- The state of `n` readers on drains on a reader of a source. -/
def Stack : Nat → Type
  | 0 => Source
  | n + 1 => TsDrain (Stack n)

/-- The outermost reader's `read`; `fuel` bounds how often it may call the drain. -/
def stackRead (p : Profile) (fuel : Nat) : (n : Nat) → TsReadImpl (Stack n)
  | 0 => TsReader.read
  | n + 1 => TsReader.readOn p (fun (d : TsDrain (Stack n)) buf => d.read (stackRead p fuel n) buf) fuel

/-- The readers and drains as they are made: each drain's memory has arbitrary contents. -/
def stackNew (garbage : Nat → Nat → UInt8) (src : Source) : (n : Nat) → Stack n
  | 0 => src
  | n + 1 => TsDrain.new (stackNew garbage src n) (garbage n)

/-- What a sequence of calls with these buffers reports: results and bytes. -/
def reports {σ : Type} (rd : TsReadImpl σ) : σ → (bufs : List (List UInt8)) → R (List (Except IoError Nat × List UInt8))
  | _, [] => .ok []
  | st, buf :: bufs => do
    let r ← rd st buf
    return (r.res, got r) :: (← reports rd r.st bufs)

/-- What is expected of a user's own `TsRead`: a call reports a packet that begins with the sync byte, or `Ok(0)`, or an error, does not change
the size of the buffer, and does not depend on what is in the buffer. -/
def PlainTsRead {σ : Type} (rd : TsReadImpl σ) : Prop :=
  ∀ st, ∃ res bytes st', ((res = .ok 188 ∧ bytes.length = 188 ∧ bytes.head? = some 0x47) ∨ (res = .ok 0 ∧ bytes = []) ∨
      ((∃ e, res = .error e) ∧ bytes = [])) ∧
    ∀ b : List UInt8, 188 ≤ b.length → ∃ r, rd st b = .ok r ∧ r.res = res ∧ got r = bytes ∧ r.st = st' ∧ r.buf.length = b.length

/-- A `TsRead` of a user that has its packets in memory: each call hands out the next one. -/
def fromMemory : TsReadImpl (List (List UInt8)) := fun st buf =>
  match st with
  | [] => .ok ⟨.ok 0, buf, []⟩
  | pk :: l => .ok ⟨.ok pk.length, pk ++ buf.drop pk.length, l⟩

end Spec
