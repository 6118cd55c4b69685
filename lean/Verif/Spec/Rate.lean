import Verif.Spec.Elapsed

/-! # Specification: measuring the bit rate of a stream -/

namespace Spec
open Mpegts

/-- How a receiver measures the bit rate (in kbit/s): the difference of two PCRs, and the bytes between them. -/
def measureRate (p : Profile) (first second bytes : UInt64) : R UInt64 := do
  let delta ← Ts.pcrDelta p first second
  Ts.pcrDeltaBitrate p delta bytes

/-- What the PCR shows at a time. -/
def pcrAt (time : Nat) : UInt64 := UInt64.ofNat (time % pcrPeriod)

end Spec
