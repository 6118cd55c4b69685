import Verif.Model.Psi
import Verif.Spec.Section

/-! # Specification: packet histories of a reassembler

`feed` is the loop a user writes around `Psi::mux`; the other definitions read header fields of a raw packet as
ISO/IEC 13818-1 defines them and do not use the model. -/

namespace Spec

/-- payload_present bit of a packet. -/
def hasPayload (ts : List UInt8) : Bool := decide ((ts.getD 3 0).toNat / 16 % 2 = 1)
/-- adaptation_field_present bit. -/
def hasAdaptation (ts : List UInt8) : Bool := decide ((ts.getD 3 0).toNat / 32 % 2 = 1)
/-- payload_unit_start_indicator. -/
def pusiOf (ts : List UInt8) : Bool := decide ((ts.getD 1 0).toNat / 64 % 2 = 1)
/-- continuity_counter. -/
def ccOf (ts : List UInt8) : Nat := (ts.getD 3 0).toNat % 16
/-- PID. -/
def pidOf (ts : List UInt8) : Nat := (ts.getD 1 0).toNat % 32 * 256 + (ts.getD 2 0).toNat
/-- Offset of the first payload byte. -/
def offsetOf (ts : List UInt8) : Nat := if hasAdaptation ts then 5 + (ts.getD 4 0).toNat else 4
/-- pointer_field (first payload byte of a PUSI packet). -/
def pointerOf (ts : List UInt8) : Nat := (ts.getD (offsetOf ts) 0).toNat
/-- The section bytes a packet carries: its payload without the pointer_field. -/
def sectionBytes (ts : List UInt8) : List UInt8 := if pusiOf ts then ts.drop (offsetOf ts + 1) else ts.drop (offsetOf ts)

/-- A 188-byte packet whose adaptation_field_length does not overflow the offset computation (ISO/IEC 13818-1
allows at most 183). -/
def IsPacket (ts : List UInt8) : Prop := ts.length = 188 ∧ (hasAdaptation ts = true → (ts.getD 4 0).toNat ≤ 250)

instance (ts : List UInt8) : Decidable (IsPacket ts) := by unfold IsPacket; infer_instance

/-- A transport packet of PID `pid`: 188 bytes, the first of which is the sync byte. -/
def IsTsPacket (pid : Nat) (pk : List UInt8) : Prop := pk.length = 188 ∧ pk.head? = some 0x47 ∧ pidOf pk = pid

instance decIsTsPacket (pid : Nat) (pk : List UInt8) : Decidable (IsTsPacket pid pk) := by unfold IsTsPacket; infer_instance

/-- Consecutive packets of the list have consecutive continuity counters. -/
def Consecutive (l : List (List UInt8)) : Prop :=
  ∀ i a b, l[i]? = some a → l[i + 1]? = some b → ccOf b = (ccOf a + 1) % 16

open Mpegts in
/-- Feed packets to a reassembler, one `mux` call each. -/
def feed (p : Profile) (s : Psi) (pks : List (List UInt8)) : R Psi := pks.foldlM (fun s ts => s.mux p ts) s

end Spec

namespace Spec
open Mpegts

/-- One reassembler per PID, each packet given to the one of its PID (`get_pid`). -/
def route (p : Profile) (σ : Nat → Psi) (pks : List (List UInt8)) : R (Nat → Psi) :=
  pks.foldlM (fun σ ts => do
    let pid ← Ts.getPid ts
    let s ← (σ pid.toNat).mux p ts
    pure (fun i => if i = pid.toNat then s else σ i)) σ

end Spec

namespace Spec
open Mpegts

/-- The loop a user writes to receive a table: give each packet to the reassembler, then let the table parse what the
reassembler holds (`parse` ignores a section that is not complete). -/
def receive {α : Type} (parse : α → Psi → R α) (p : Profile) (t : α) (s : Psi) (pks : List (List UInt8)) : R (α × Psi) :=
  pks.foldlM (fun st ts => do
    let s ← st.2.mux p ts
    let t ← parse st.1 s
    pure (t, s)) (t, s)

end Spec
