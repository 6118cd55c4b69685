import Verif.Model.Desc

/-! # What a list of descriptors is read back as

Used by C106: a table arrives with the descriptors its own descriptors are read back as. -/

namespace Spec
open Mpegts

/-- Assemble the list, and parse the bytes. -/
def readBack (p : Profile) (ds : Descriptors) : R Descriptors := do
  let bytes ← Descriptors.assemble p ds []
  Descriptors.parse p [] bytes.2

/-- The program descriptors of a PMT are assembled after the low byte of their length, and as many bytes are parsed from that byte on:
the code starts one byte too early (C55). -/
def readBackShifted (p : Profile) (ds : Descriptors) : R Descriptors := do
  let bytes ← Descriptors.assemble p ds []
  Descriptors.parse p [] ((UInt8.ofNat bytes.1 :: bytes.2).take bytes.1)

end Spec
