import Verif.Spec.Listen
import Verif.Model.Nit

/-! # Specification: finding a channel by its number, and how to tune to it -/

namespace Spec
open Mpegts

/-- How a transport stream is delivered, with all parameters, in the units documented in the crate: frequencies in kHz (satellite) or Hz,
orbital positions in minutes of arc. -/
inductive Delivery where
  | satellite (d : Desc43)
  | cable (d : Desc44)
  | terrestrial (d : Desc5A)
deriving DecidableEq

/-- The descriptor a user of the crate writes. -/
def Delivery.desc : Delivery → Desc
  | satellite d => .d43 d
  | cable d => .d44 d
  | terrestrial d => .d5A d

/-- Steps of 10 kHz and of six minutes of arc (satellite), 100 Hz (cable), 10 Hz (terrestrial). -/
def Delivery.OnGrid : Delivery → Prop
  | satellite d => 10 ∣ d.frequency.toNat ∧ 6 ∣ d.orbitalPosition.toNat
  | cable d => 100 ∣ d.frequency.toNat
  | terrestrial d => 10 ∣ d.frequency.toNat

/-- Rounded down to whole steps. -/
def Delivery.rounded : Delivery → Delivery
  | satellite d => .satellite { d with
      frequency := UInt32.ofNat (d.frequency.toNat / 10 * 10)
      orbitalPosition := UInt16.ofNat (d.orbitalPosition.toNat / 6 * 6) }
  | cable d => .cable { d with frequency := UInt32.ofNat (d.frequency.toNat / 100 * 100) }
  | terrestrial d => .terrestrial { d with frequency := UInt32.ofNat (d.frequency.toNat / 10 * 10) }

/-- A transport stream of a network: its ids, how it is delivered, its services (id and type), its channels (service id, whether it is shown
in the list, number), and anything else that is said about it. -/
structure Multiplex where
  tsid : UInt16
  onid : UInt16
  delivery : Delivery
  services : List (UInt16 × UInt8)
  channels : List (UInt16 × Bool × UInt16)
  others : Descriptors

/-- The same with its delivery rounded, its channel numbers modulo 1024, and the channels with numbers from 32768 on shown. -/
def Multiplex.blurred (m : Multiplex) : Multiplex := { m with
  delivery := m.delivery.rounded
  channels := m.channels.map fun c => (c.1, c.2.1 || 32768 ≤ c.2.2.toNat, c.2.2 % 1024) }

/-- One entry of a service list, as a user of the crate writes it. -/
def serviceEntry (x : UInt16 × UInt8) : Desc41i := ⟨x.1, x.2⟩

/-- One entry of a list of channel numbers, as a user of the crate writes it. -/
def channelEntry (x : UInt16 × Bool × UInt16) : Desc83i := ⟨x.1, if x.2.1 then 1 else 0, x.2.2⟩

/-- The transport stream as a user of the crate puts it into a NIT. -/
def Multiplex.entry (m : Multiplex) : NitItem :=
  ⟨m.tsid, m.onid, [m.delivery.desc, .d41 ⟨m.services.map serviceEntry⟩, .d83 ⟨m.channels.map channelEntry⟩] ++ m.others⟩

/-- Nothing else is said about delivery, services and channels. -/
def Unrelated : Desc → Prop
  | .d41 _ | .d43 _ | .d44 _ | .d5A _ | .d83 _ => False
  | _ => True

/-- What a viewer who enters a number gets: the ids of the service, whether it is shown in the list, its types, and how to tune to it. -/
structure Channel where
  onid : UInt16
  tsid : UInt16
  service : UInt16
  shown : Bool
  types : List UInt8
  delivery : List Delivery
deriving DecidableEq

/-- The channels of a transport stream with this number. -/
def Multiplex.numbered (number : UInt16) (m : Multiplex) : List Channel :=
  (m.channels.filter (·.2.2 = number)).map fun c =>
    ⟨m.onid, m.tsid, c.1, c.2.1, (m.services.filter (·.1 = c.1)).map (·.2), [m.delivery]⟩

/-- How the delivery is described, if the descriptor does. -/
def asDelivery : Desc → Option Delivery
  | .d43 d => some (.satellite d)
  | .d44 d => some (.cable d)
  | .d5A d => some (.terrestrial d)
  | _ => none

/-- The entries of a service list, if it is one. -/
def asServices : Desc → List Desc41i
  | .d41 d => d.items
  | _ => []

/-- The entries of a list of channel numbers, if it is one. -/
def asNumbers : Desc → List Desc83i
  | .d83 d => d.items
  | _ => []

/-- What a user reads off a received transport stream. -/
def channelsIn (number : UInt16) (i : NitItem) : List Channel :=
  ((i.descriptors.flatMap asNumbers).filter (·.lcn = number)).map fun n =>
    ⟨i.onid, i.tsid, n.serviceId, n.visible = 1, ((i.descriptors.flatMap asServices).filter (·.serviceId = n.serviceId)).map (·.serviceType),
      i.descriptors.filterMap asDelivery⟩

/-- What a user does to find a channel: receive the NIT and look through all transport streams. -/
def findChannel (p : Profile) (pid : Nat) (s : Psi) (number : UInt16) (fuel : Nat) (src : Source) (buf : List UInt8) : R (List Channel) := do
  let (t, _) ← listen (Nit.parse p) p pid Nit.default s fuel src buf
  pure (t.items.flatMap (channelsIn number))

end Spec
