import Verif.Spec.Reader

/-! # Specification: reading a packet source byte-wise -/

namespace Spec
open Mpegts

/-- What a `TsRead` promises: given room for a packet it returns, reports 188 bytes or `Ok(0)` or an error, and does not
change the size of the buffer (a Rust slice cannot be resized). -/
def PacketReader {σ : Type} (rd : TsReadImpl σ) : Prop :=
  ∀ st buf, 188 ≤ buf.length → ∃ r, rd st buf = .ok r ∧ r.buf.length = buf.length ∧
    (r.res = .ok 188 ∨ r.res = .ok 0 ∨ ∃ e, r.res = .error e)

/-- The bytes a `read` call reports. -/
def got {σ : Type} (r : ReadRes σ) : List UInt8 :=
  match r.res with
  | .ok x => r.buf.take x
  | .error _ => []

/-- A packet source that keeps a log of the bytes it has reported. -/
def logged {σ : Type} (rd : TsReadImpl σ) : TsReadImpl (σ × List UInt8) := fun st buf => do
  let r ← rd st.1 buf
  return ⟨r.res, r.buf, (r.st, st.2 ++ got r)⟩

/-- A sequence of `read` calls on a drain, into the given buffers: all bytes reported, and the drain afterwards. -/
def drainRun {σ : Type} (rd : TsReadImpl σ) : TsDrain σ → (bufs : List (List UInt8)) → R (List UInt8 × TsDrain σ)
  | d, [] => .ok ([], d)
  | d, buf :: bufs => do
    let r ← d.read rd buf
    let (out, d') ← drainRun rd r.st bufs
    return (got r ++ out, d')

/-- The loop `io::copy` runs: read, with a buffer of its choice each time, until `Ok(0)` or an error. -/
def copyAll {σ : Type} (rd : TsReadImpl σ) : (fuel : Nat) → TsDrain σ → (bufs : Nat → List UInt8) → R (List UInt8)
  | 0, _, _ => .error .diverge
  | fuel + 1, d, bufs => do
    let r ← d.read rd (bufs 0)
    match r.res with
    | .error _ => return []
    | .ok 0 => return []
    | .ok x => return r.buf.take x ++ (← copyAll rd fuel r.st (fun i => bufs (i + 1)))

/-- The bytes of the last packet a drain has not handed out yet. -/
def pending {σ : Type} (d : TsDrain σ) : List UInt8 := if d.pos = 0 then [] else d.buf.drop d.pos

end Spec
