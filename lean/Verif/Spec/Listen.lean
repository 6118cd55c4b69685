import Verif.Spec.Reader

/-! # Specification: receiving a table from a byte stream -/

namespace Spec
open Mpegts

/-- The stream carries, on PID `pid`, the packets `pks`: it consists of packets (188 bytes, the first 0x47), each after bytes
that are not 0x47, and a tail without a complete packet, and the packets of that PID are `pks`, in order. -/
def Carries (pid : Nat) (data : List UInt8) (pks : List (List UInt8)) : Prop :=
  ∃ (l : List (List UInt8 × List UInt8)) (gap part : List UInt8), data = interleave l ++ (gap ++ part) ∧
    (∀ x ∈ l, 0x47 ∉ x.1 ∧ x.2.length = 188 ∧ x.2.head? = some 0x47) ∧
    0x47 ∉ gap ∧ (part = [] ∨ part.head? = some 0x47) ∧ part.length < 188 ∧
    (l.map (·.2)).filter (fun pk => pidOf pk = pid) = pks

/-- The loop a user writes to receive a table: read packets from the source, give those of PID `pid` (`get_pid`) to the
reassembler, and let the table parse what the reassembler holds. -/
def listen {α : Type} (parse : α → Psi → R α) (p : Profile) (pid : Nat) (t : α) (s : Psi) (fuel : Nat) (src : Source)
    (buf : List UInt8) : R (α × Psi) := do
  let pks ← readAll fuel src buf
  pks.foldlM (fun st ts => do
    let q ← Ts.getPid ts
    if q.toNat = pid then do
      let s ← st.2.mux p ts
      let t ← parse st.1 s
      pure (t, s)
    else pure st) (t, s)

end Spec
