import Verif.Spec.Listen
import Verif.Spec.Text
import Verif.Model.Sdt
import Verif.Model.Nit
import Verif.Model.Eit

/-! # Specification: the names of services, networks and events, from text to text -/

namespace Spec
open Mpegts

/-- A text that can be written with a code page: its table has all the characters (and the text does not begin with a control character if
that is the default table, which has no selector in front), or no table is named, which gives UTF-8. -/
def Writable (s : List Char) (cp : UInt8) : Prop :=
  CodePage.upper cp.toNat = none ∨
  ∃ t, CodePage.upper cp.toNat = some t ∧ (∀ c ∈ s, Text.InTable t c) ∧ (cp = 0 → ∀ c, s.head? = some c → 0x20 ≤ c.val.toNat)

/-- A service with its names as texts and the code pages to write them with; `item` has everything else. -/
structure NamedService where
  item : SdtItem
  type : UInt8
  provider : List Char
  providerTable : UInt8
  name : List Char
  nameTable : UInt8

/-- The service as a user of the crate puts it into an SDT. -/
def NamedService.entry (x : NamedService) : SdtItem :=
  { x.item with
    descriptors :=
      Desc.d48 ⟨x.type, StringDVB.fromStr x.provider x.providerTable, StringDVB.fromStr x.name x.nameTable⟩ :: x.item.descriptors }

/-- An event with its language, name and text; `item` has everything else. -/
structure NamedEvent where
  item : EitItem
  lang : List Char
  name : List Char
  nameTable : UInt8
  text : List Char
  textTable : UInt8

/-- The event as a user of the crate puts it into an EIT. -/
def NamedEvent.entry (x : NamedEvent) : EitItem :=
  { x.item with
    descriptors :=
      Desc.d4D ⟨StringDVB.fromStr x.lang 0, StringDVB.fromStr x.name x.nameTable, StringDVB.fromStr x.text x.textTable⟩ :: x.item.descriptors }

/-- A service descriptor, if it is one. -/
def asService : Desc → Option Desc48
  | .d48 d => some d
  | _ => none

/-- A network name descriptor, if it is one. -/
def asNetwork : Desc → Option Desc40
  | .d40 d => some d
  | _ => none

/-- A short event descriptor, if it is one. -/
def asEvent : Desc → Option Desc4D
  | .d4D d => some d
  | _ => none

/-- The service descriptors in a list: type, provider and name as shown. -/
def serviceNames (ds : Descriptors) : R (List (UInt8 × List Char × List Char)) :=
  (ds.filterMap asService).mapM fun d => do pure (d.serviceType, ← d.provider.toStringR, ← d.name.toStringR)

/-- The network names in a list of descriptors as shown. -/
def networkNames (ds : Descriptors) : R (List (List Char)) :=
  (ds.filterMap asNetwork).mapM fun d => d.name.toStringR

/-- The short event descriptors in a list: language, name and text as shown. -/
def eventNames (ds : Descriptors) : R (List (List Char × List Char × List Char)) :=
  (ds.filterMap asEvent).mapM fun d => do
    pure (← d.lang.toStringR, ← d.name.toStringR, ← d.text.toStringR)

/-- What a user does to list the services: receive the SDT and show the service descriptors of each entry. -/
def listServices (p : Profile) (pid : Nat) (s : Psi) (fuel : Nat) (src : Source) (buf : List UInt8) :
    R (List (UInt16 × List (UInt8 × List Char × List Char))) := do
  let (t, _) ← listen (Sdt.parse p) p pid Sdt.default s fuel src buf
  t.items.mapM fun i => do pure (i.pnr, ← serviceNames i.descriptors)

/-- What a user does to name the network: receive the NIT and show its network name descriptors. -/
def nameNetwork (p : Profile) (pid : Nat) (s : Psi) (fuel : Nat) (src : Source) (buf : List UInt8) : R (List (List Char)) := do
  let (t, _) ← listen (Nit.parse p) p pid Nit.default s fuel src buf
  networkNames t.descriptors

/-- What a user does to list the present and the following event: receive the EIT and show the short event descriptors of each entry. -/
def listEvents (p : Profile) (pid : Nat) (s : Psi) (fuel : Nat) (src : Source) (buf : List UInt8) :
    R (List (UInt16 × UInt64 × List (List Char × List Char × List Char))) := do
  let (t, _) ← listen (Eit.parse p) p pid Eit.default s fuel src buf
  t.items.mapM fun i => do pure (i.eventId, i.start, ← eventNames i.descriptors)

end Spec
