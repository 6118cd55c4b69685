import Verif.Spec.Tune
import Verif.Model.Pcr

/-! # Specification: a relay that shifts the clocks of a stream -/

namespace Spec
open Mpegts

/-- The code a user writes to shift the clock of a packet that carries one: the PCR plus an offset, modulo the period of the clock
(300 * 2^33 ticks). -/
def shiftClock (offset : UInt64) (ts : List UInt8) : R (List UInt8) := do
  if ← Ts.isPcr ts then
    let pcr ← Ts.getPcr ts
    Ts.setPcr ts ((pcr + offset) % 2576980377600)
  else pure ts

end Spec
