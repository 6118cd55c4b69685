import Verif.Spec.Cbr

/-! # Specification: measuring time along a stream -/

namespace Spec
open Mpegts

/-- How a receiver measures time: the differences of consecutive readings, as the given function computes them, added up. -/
def elapsed (delta : UInt64 → UInt64 → R UInt64) : List UInt64 → R Nat
  | a :: b :: l => do
    let d ← delta a b
    let rest ← elapsed delta (b :: l)
    return d.toNat + rest
  | _ => .ok 0

/-- What a clock that starts again after `period` ticks shows at these times. -/
def readings (period : Nat) (times : List Nat) : List UInt64 := times.map fun t => UInt64.ofNat (t % period)

/-- Times at which a clock is read: in order, and less than a period after each other. -/
def Running (period : Nat) : List Nat → Prop
  | a :: b :: l => a ≤ b ∧ b < a + period ∧ Running period (b :: l)
  | _ => True

/-- How often a clock starts again between two times. -/
def restarts (period a b : Nat) : Nat := b / period - a / period

/-- The PCR of a packet that carries one, if the packet has this PID. -/
def clockOn (pid : UInt16) (pk : List UInt8) : R (List UInt64) := do
  if (← Ts.getPid pk) == pid then return [← Ts.getPcr pk] else return []

/-- How a receiver reads the clock of a program off the packets of a stream: the PCR of each packet that carries one and has this PID. -/
def readClock (pid : UInt16) : List (List UInt8) → R (List UInt64)
  | [] => .ok []
  | pk :: pks => do
    let has ← Ts.isPcr pk
    let v ← if has then clockOn pid pk else pure []
    return v ++ (← readClock pid pks)

/-- The PCRs with this PID among packets, by the definition of the packet format. -/
def clockValues (pid : Nat) (pks : List (List UInt8)) : List Nat := ((pks.filterMap pcrOf).filter (fun x => x.1 = pid)).map (·.2)

/-- The time at which byte `x` of a stream passes that is sent at a constant rate of `bytes` bytes in `ticks` ticks, from time `t₀` on. -/
def passes (t₀ ticks bytes x : Nat) : Nat := t₀ + x * ticks / bytes

example : elapsed (fun a b => .ok (b - a)) [3, 5, 10] = .ok 7 := by decide
example : readings 100 [95, 99, 103] = [95, 99, 3] := by decide
example : restarts 100 95 303 = 3 := by decide
example : Running 100 [95, 99, 103] := ⟨by omega, by omega, by omega, by omega, trivial⟩
example : passes 1000 27000000 1000000 188 = 6076 := by decide

end Spec
