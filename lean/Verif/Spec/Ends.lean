import Verif.Model.Rust

/-! # Calls that come to an end (C120) -/

namespace Spec
open Mpegts

/-- A call returns a value or panics: it neither runs forever nor has undefined behaviour. -/
def Ends {α : Type} (r : R α) : Prop := (∃ v, r = .ok v) ∨ r = panic

/-- For every state and buffer, a `TsRead` implementation ends. -/
def AlwaysEnds {σ ρ : Type} (rd : σ → List UInt8 → R ρ) : Prop := ∀ st buf, Ends (rd st buf)

end Spec
