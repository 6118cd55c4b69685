import Verif.Spec.Feed

/-! # Specification: what a reassembler holds after any packets

The reading of ISO/IEC 13818-1, 2.4.4 that the crate follows, for packets with any contents: what is held is one piece of payload that starts
with a section, and the last continuity counter.  `none` stands for a panic. -/

namespace Spec.Reassembly

/-- Where the payload of a packet starts.  The library counts in 8 bits: an adaptation_field_length above 250 is a panic in a build with
overflow checks and wraps around otherwise. -/
def payloadAt (checked : Bool) (ts : List UInt8) : Option Nat :=
  if hasAdaptation ts = false then some 4
  else if (ts.getD 4 0).toNat ≤ 250 then some (5 + (ts.getD 4 0).toNat)
  else if checked then none
  else some ((ts.getD 4 0).toNat - 251)

/-- The bytes held, and the last counter. -/
structure Held where
  bytes : List UInt8
  last : Nat
deriving DecidableEq

/-- What is held of a section under way when the next section begins: a section that is complete, with more behind it, makes place. -/
def remaining (held : List UInt8) : List UInt8 :=
  if 3 ≤ held.length ∧ declaredSize held < held.length then held.drop (declaredSize held) else held

/-- A packet with payload at `o` in which a section begins. -/
def start (h : Held) (ts : List UInt8) (o : Nat) : Option Held :=
  if 183 ≤ (ts.getD o 0).toNat then some { h with bytes := [] }
  else if (ts.getD o 0).toNat ≠ 0 ∧ ccOf ts = (h.last + 1) % 16 ∧ h.bytes ≠ [] then
    some ⟨remaining h.bytes ++ ts.drop (o + 1), ccOf ts⟩
  else if 188 < o + 1 + (ts.getD o 0).toNat then none
  else some ⟨upToEnd (ts.drop (o + 1 + (ts.getD o 0).toNat)), ccOf ts⟩

/-- A packet with payload at `o` in which no section begins. -/
def carryOn (h : Held) (ts : List UInt8) (o : Nat) : Held :=
  if ccOf ts = (h.last + 1) % 16 then ⟨(h.bytes ++ ts.drop o).take (declaredSize (h.bytes ++ ts.drop o)), ccOf ts⟩
  else { h with bytes := [] }

/-- Any packet arrives. -/
def packet (checked : Bool) (h : Held) (ts : List UInt8) : Option Held :=
  if hasPayload ts = false then some h
  else match payloadAt checked ts with
    | none => none
    | some o =>
      if 188 ≤ o then some { h with bytes := [] }
      else if pusiOf ts then start h ts o
      else some (carryOn h ts o)

/-- All packets since the reassembler was made. -/
def packets (checked : Bool) (pks : List (List UInt8)) : Option Held := pks.foldlM (packet checked) ⟨[], 0⟩

/-- The same with a table that is given what is held after every packet; `read` says what it makes of it. -/
def table {α : Type} (checked : Bool) (read : α → List UInt8 → Option α) (t : α) (pks : List (List UInt8)) : Option (α × Held) :=
  pks.foldlM (fun st ts => do
    let h ← packet checked st.2 ts
    let t ← read st.1 h.bytes
    pure (t, h)) (t, ⟨[], 0⟩)

end Spec.Reassembly
