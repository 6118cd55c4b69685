import Verif.Spec.ForeignText
import Verif.Spec.Names
import Verif.Spec.Tune
import Verif.Spec.Descriptor
import Verif.Spec.Guide

/-! # Specification: the services of any sender, by name -/

namespace Spec
open Mpegts

/-- The bytes of a text as a sender writes it, and what it says (EN 300 468 annex A), for the texts that are displayed right (C115): in a part
of ISO 8859, announced in either way, with a character for each byte; in the default table without accents; or in UTF-8 without control codes. -/
inductive SaysText : List UInt8 → List Char → Prop where
  | iso8859 (n : Nat) (t : List Nat) (sel data : List UInt8) (hs : ForeignText.Selects n sel) (ht : CodePage.upper n = some t) (hne : data ≠ [])
      (hc : ∀ b ∈ data, Text.charOf t b ≠ none) : SaysText (sel ++ data) (Text.shown t data)
  | default (gs : List ForeignText.Glyph) (hv : ∀ g ∈ gs, g.Valid) (hp : ∀ g ∈ gs, g.isPlain) :
      SaysText (gs.flatMap (·.bytes)) (gs.flatMap (·.text))
  | utf8 (s : List Char) (hc : ∀ c ∈ s, ¬ ForeignText.isControl c) : SaysText (0x15 :: Text.utf8 s) s

/-- The descriptors of a service as bytes, and the service descriptors among them: type, provider and name.  Other descriptors may be any
that can be read. -/
inductive SaysServices (p : Profile) : List UInt8 → List (UInt8 × List Char × List Char) → Prop where
  | done : SaysServices p [] []
  | service (type : UInt8) (provider name : List UInt8) (x y : List Char) (hl : 3 + provider.length + name.length ≤ 255)
      (hx : SaysText provider x) (hy : SaysText name y) {descs : List UInt8} {l : List (UInt8 × List Char × List Char)} (h : SaysServices p descs l) :
      SaysServices p (Descriptor.service type.toNat provider name ++ descs) ((type, x, y) :: l)
  | other (tag : UInt8) (payload : List UInt8) (ht : tag ≠ 0x48) (hl : payload.length ≤ 255)
      (hr : ∃ d, Desc.parse p (Descriptor.descriptor tag.toNat payload) = .ok d)
      {descs : List UInt8} {l : List (UInt8 × List Char × List Char)} (h : SaysServices p descs l) :
      SaysServices p (Descriptor.descriptor tag.toNat payload ++ descs) l

/-- What a user does to list the services, where sections may lie one behind the other. -/
def listServicesPacked (p : Profile) (pid : Nat) (s : Psi) (fuel : Nat) (src : Source) (buf : List UInt8) :
    R (List (UInt16 × List (UInt8 × List Char × List Char))) := do
  let (t, _) ← listenPacked (Sdt.parse p) p pid Sdt.default s fuel src buf
  t.items.mapM fun i => do pure (i.pnr, ← serviceNames i.descriptors)

/-- What a user does to watch a service of which they know the name, where sections may lie one behind the other. -/
def watchServicePacked (p : Profile) (name : List Char) (fuel : Nat) (src : Source) (buf : List UInt8) :
    R (Option (Nat × List (UInt8 × List (Option Nat × Option Nat × List UInt8)))) := do
  let services ← listServicesPacked p 0x11 Psi.default fuel src buf
  match services.find? (fun s => s.2.any (·.2.2 == name)) with
  | none => pure none
  | some s => tunePacked p s.1 fuel src buf

/-! ## Events -/

/-- The descriptors of an event as bytes, and the short event descriptors among them: language, name and text. -/
inductive SaysEvents (p : Profile) : List UInt8 → List (List Char × List Char × List Char) → Prop where
  | done : SaysEvents p [] []
  | event (lang name text : List UInt8) (x y z : List Char) (h3 : lang.length = 3) (hl : 5 + name.length + text.length ≤ 255)
      (hx : SaysText lang x) (hy : SaysText name y) (hz : SaysText text z) {descs : List UInt8} {l : List (List Char × List Char × List Char)}
      (h : SaysEvents p descs l) : SaysEvents p (Descriptor.shortEvent lang name text ++ descs) ((x, y, z) :: l)
  | other (tag : UInt8) (payload : List UInt8) (ht : tag ≠ 0x4D) (hl : payload.length ≤ 255)
      (hr : ∃ d, Desc.parse p (Descriptor.descriptor tag.toNat payload) = .ok d)
      {descs : List UInt8} {l : List (List Char × List Char × List Char)} (h : SaysEvents p descs l) :
      SaysEvents p (Descriptor.descriptor tag.toNat payload ++ descs) l

/-- What a user does to tell a viewer what is on: the events of the service on air at this time, each with what its short event descriptors say. -/
def tellWhatIsOn (p : Profile) (pid : Nat) (service : UInt16) (time : Nat) (s : Psi) (fuel : Nat) (src : Source) (buf : List UInt8) :
    R (List (UInt16 × List (List Char × List Char × List Char))) := do
  (← whatIsOnPacked p pid service time s fuel src buf).mapM fun i => do pure (i.eventId, ← eventNames i.descriptors)

/-! ## Networks -/

/-- The descriptors of a network as bytes, and the network names among them. -/
inductive SaysNetwork (p : Profile) : List UInt8 → List (List Char) → Prop where
  | done : SaysNetwork p [] []
  | name (text : List UInt8) (x : List Char) (hl : text.length ≤ 255) (hx : SaysText text x) {descs : List UInt8} {l : List (List Char)}
      (h : SaysNetwork p descs l) : SaysNetwork p (Descriptor.networkName text ++ descs) (x :: l)
  | other (tag : UInt8) (payload : List UInt8) (ht : tag ≠ 0x40) (hl : payload.length ≤ 255)
      (hr : ∃ d, Desc.parse p (Descriptor.descriptor tag.toNat payload) = .ok d) {descs : List UInt8} {l : List (List Char)}
      (h : SaysNetwork p descs l) : SaysNetwork p (Descriptor.descriptor tag.toNat payload ++ descs) l

/-- What a user does to name the network, where sections may lie one behind the other. -/
def nameNetworkPacked (p : Profile) (pid : Nat) (s : Psi) (fuel : Nat) (src : Source) (buf : List UInt8) : R (List (List Char)) := do
  let (t, _) ← listenPacked (Nit.parse p) p pid Nit.default s fuel src buf
  networkNames t.descriptors

end Spec
