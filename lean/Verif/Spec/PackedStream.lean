import Verif.Spec.Feed

/-! # Specification: sections one behind the other

ISO/IEC 13818-1, 2.4.4: sections may follow each other without a gap, so that a packet can hold the end of one and the beginning of
the next; its pointer_field counts the bytes before the beginning.  After the last section of a packet the rest of it may be filled
with 0xFF.  Each packet may have an adaptation field, and packets without payload may come in between. -/

namespace Spec
open Mpegts

/-- A packet with payload, with or without payload_unit_start_indicator. -/
structure Laden (ts : List UInt8) (start : Bool) : Prop where
  packet : IsPacket ts
  payload : hasPayload ts = true
  start : pusiOf ts = start
  offset : offsetOf ts < 188

/-- `Packing got rest cc pks secs`: `got` has been sent of a section, `rest` is still to come, and `cc` is the continuity counter of
the next packet of the section.  The packets `pks` carry `rest` and then the sections `secs`, and no packet holds the beginning of more
than one of them.  (A section's first two packets have to hold three of its bytes, see C85.) -/
inductive Packing : (got rest : List UInt8) → (cc : Nat) → (pks secs : List (List UInt8)) → Prop
  | done (got : List UInt8) (cc : Nat) : Packing got [] cc [] []
  | empty {got rest : List UInt8} {cc : Nat} {pks secs : List (List UInt8)} (ts : List UInt8) (hl : ts.length = 188)
      (h : hasPayload ts = false) (hp : Packing got rest cc pks secs) : Packing got rest cc (ts :: pks) secs
  | start {got piece rest : List UInt8} {cc : Nat} {pks secs : List (List UInt8)} (ts : List UInt8) (n : Nat) (h : Laden ts true)
      (h0 : pointerOf ts = 0) (hd : ts.drop (offsetOf ts + 1) = piece ++ List.replicate n 0xFF) (hp : piece ≠ []) (hn : n = 0 ∨ rest = [])
      (hs : Packing piece rest (ccOf ts + 1) pks secs) : Packing got [] cc (ts :: pks) ((piece ++ rest) :: secs)
  | next {got piece rest : List UInt8} {cc : Nat} {pks secs : List (List UInt8)} (ts : List UInt8) (n : Nat) (h : Laden ts false)
      (hc : ccOf ts = cc % 16) (hd : ts.drop (offsetOf ts) = piece ++ List.replicate n 0xFF) (hp : piece ≠ []) (h3 : 3 ≤ got.length + piece.length)
      (hn : n = 0 ∨ rest = []) (hs : Packing (got ++ piece) rest (ccOf ts + 1) pks secs) : Packing got (piece ++ rest) cc (ts :: pks) secs
  | turn {got tail piece rest : List UInt8} {cc : Nat} {pks secs : List (List UInt8)} (ts : List UInt8) (n : Nat) (h : Laden ts true)
      (hc : ccOf ts = cc % 16) (ht : tail ≠ []) (h0 : pointerOf ts = tail.length)
      (hd : ts.drop (offsetOf ts + 1) = tail ++ (piece ++ List.replicate n 0xFF)) (hp : piece ≠ []) (hn : n = 0 ∨ rest = [])
      (hs : Packing piece rest (ccOf ts + 1) pks secs) : Packing got tail cc (ts :: pks) ((piece ++ rest) :: secs)

/-- What is done with one packet, as in `test_parse_ts_two_psi`, tests/psi.rs:50-61: a packet in which a section begins behind the end of
another one (pointer_field not 0) is given to the reassembler twice.  Packets without payload are not looked at. -/
def packedStep {α : Type} (parse : α → Psi → R α) (p : Profile) (st : α × Psi) (ts : List UInt8) : R (α × Psi) :=
  if hasPayload ts = false then pure st
  else do
    let s ← st.2.mux p ts
    let t ← parse st.1 s
    if pusiOf ts = true ∧ pointerOf ts ≠ 0 then do
      let s ← s.mux p ts
      let t ← parse t s
      pure (t, s)
    else pure (t, s)

/-- The loop that receives such sections. -/
def receivePacked {α : Type} (parse : α → Psi → R α) (p : Profile) (t : α) (s : Psi) (pks : List (List UInt8)) : R (α × Psi) :=
  pks.foldlM (packedStep parse p) (t, s)

end Spec
