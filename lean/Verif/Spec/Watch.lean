import Verif.Spec.Feed
import Verif.Spec.Loss

/-! # Specification: a receiver that reads a section only when it differs from the last one it read -/

namespace Spec
open Mpegts

/-- What a user writes behind `mux`, with the table and the last section read:
`if psi.check() && psi != last { table.parse(&psi); last = psi.clone() }`. -/
def watch {α : Type} (parse : α → Psi → R α) (p : Profile) (st : α × Psi) (s : Psi) : R (α × Psi) := do
  if ← s.check p then
    if ← s.eq p st.2 then pure st
    else do
      let t ← parse st.1 s
      pure (t, s)
  else pure st

/-- Two sections of the same size with the same CRC (their last four bytes). -/
def looksLike (a b : List UInt8) : Bool := decide (a.length = b.length ∧ a.drop (a.length - 4) = b.drop (b.length - 4))

/-- The sections (the section of `x` is `bytes x`) that do not look like the last one before that remained; `prev` is the one before all. -/
def changes {β : Type} (bytes : β → List UInt8) : (prev : List UInt8) → List β → List β
  | _, [] => []
  | prev, x :: r => if looksLike (bytes x) prev then changes bytes prev r else x :: changes bytes (bytes x) r

example : changes (fun n => List.replicate n 0) [] [5, 5, 6, 6, 6, 5] = [5, 6, 5] := by decide

end Spec
