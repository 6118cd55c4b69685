import Verif.Model.Cbr
import Verif.Spec.Drain
import Verif.Spec.Clock

/-! # Specification: what a packet collector should hold -/

namespace Spec
open Mpegts

/-- The PID and the PCR value of a packet that carries a PCR: adaptation field present, at least seven bytes long, PCR flag set. -/
def pcrOf (pk : List UInt8) : Option (Nat × Nat) :=
  if (pk.getD 3 0).toNat / 2 ^ 5 % 2 = 1 ∧ 7 ≤ (pk.getD 4 0).toNat ∧ (pk.getD 5 0).toNat / 2 ^ 4 % 2 = 1 then
    some (beNat ((pk.drop 1).take 2) % 2 ^ 13,
      beNat ((pk.drop 6).take 6) / 2 ^ 15 * 300 + beNat ((pk.drop 6).take 6) % 2 ^ 9)
  else none

/-- The clock of a stream: the PID on which the first PCR comes, and the last PCR on that PID. -/
def clockOf (pks : List (List UInt8)) : Option (Nat × Nat) :=
  match pks.filterMap pcrOf with
  | [] => none
  | (pid, pcr) :: l => ((pid, pcr) :: l).reverse.find? (fun x => x.1 = pid)

/-- A packet source that keeps a record of its calls: what they returned, and the packet. -/
def taped {σ : Type} (rd : TsReadImpl σ) : TsReadImpl (σ × List (Except IoError Nat × List UInt8)) := fun st buf => do
  let r ← rd st.1 buf
  return ⟨r.res, r.buf, (r.st, st.2 ++ [(r.res, got r)])⟩

/-- The packets on such a record. -/
def packetsIn (tape : List (Except IoError Nat × List UInt8)) : List (List UInt8) := (tape.map (·.2)).filter (· ≠ [])

/-- A sequence of `read` calls with the given buffers: what each returned and left in its buffer. -/
def cbrRun {σ : Type} (rd : TsReadImpl σ) : Cbr σ → (bufs : List (List UInt8)) → R (List (Except IoError Nat × List UInt8) × Cbr σ)
  | c, [] => .ok ([], c)
  | c, buf :: bufs => do
    let r ← c.read rd buf
    let (out, c') ← cbrRun rd r.st bufs
    return ((r.res, r.buf) :: out, c')

example : clockOf [[0x47, 0x01, 0x00, 0x20, 7, 0x10, 0, 0, 0, 0, 0x80, 5], [0x47, 0x01, 0x01, 0x20, 7, 0x10, 0, 0, 0, 0, 0x80, 6],
    [0x47, 0x01, 0x00, 0x20, 7, 0x10, 0, 0, 0, 1, 0x00, 7], [0x47, 0x01, 0x00, 0x10, 7, 0x10, 0, 0, 0, 1, 0x00, 7]] =
    some (0x100, 607) := by decide +kernel

end Spec
