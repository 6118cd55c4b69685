import Verif.Spec.Listen
import Verif.Model.Tdt

/-! # Specification: the local time -/

namespace Spec
open Mpegts

/-- A region of a country and how far its clocks are from UTC: so many minutes, and so many from some moment on, west or east of Greenwich. -/
structure Zone where
  country : List Char
  region : UInt8
  west : Bool
  offset : UInt16
  change : UInt64
  next : UInt16

/-- Minutes east (or west) of Greenwich, as seconds to be added. -/
def shift (west : Bool) (minutes : Nat) : Int := if west then -(minutes * 60 : Int) else minutes * 60

/-- What the clocks of the region show when it is `utc` in Greenwich (in seconds since 1970). -/
def Zone.clock (z : Zone) (utc : UInt64) : Int := utc.toNat + shift z.west (if utc < z.change then z.offset else z.next).toNat

/-- The entry of a local time offset descriptor as a user of the crate writes it. -/
def Zone.item (z : Zone) : Desc58i := ⟨StringDVB.fromStr z.country 0, z.region, if z.west then 1 else 0, z.offset, z.change, z.next⟩

/-- Three letters, a number of six bits, a time the wire format can carry. -/
structure Zone.Ok (z : Zone) : Prop where
  letters : z.country.length = 3 ∧ ∀ c ∈ z.country, 0x20 ≤ c.val.toNat ∧ c.val.toNat < 0x80
  region : z.region.toNat < 64
  change : 40587 + z.change.toNat / 86400 < 2 ^ 16

/-- All the local time offsets in a list of descriptors. -/
def zoneItems (ds : Descriptors) : List Desc58i := ds.flatMap fun
  | .d58 d => d.items
  | _ => []

/-- What a user does to find the offsets of a region. -/
def findZone (country : List Char) (region : UInt8) : List Desc58i → R (Option Desc58i)
  | [] => pure none
  | i :: r => do
    if (← i.countryCode.toStringR) = country ∧ i.regionId = region then pure (some i) else findZone country region r

/-- What a user does to show the local time: receive the TOT, find the region, and add or subtract the offset that is in force. -/
def localTime (p : Profile) (pid : Nat) (s : Psi) (country : List Char) (region : UInt8) (fuel : Nat) (src : Source) (buf : List UInt8) :
    R (Option Int) := do
  let (t, _) ← listen (Tot.parse p) p pid Tot.default s fuel src buf
  let zone ← findZone country region (zoneItems t.descriptors)
  pure (zone.map fun i => t.time.toNat + shift (i.offsetPolarity == 1) (if t.time < i.timeOfChange then i.offset else i.nextOffset).toNat)

end Spec
