import Verif.Model.Desc
import Verif.Spec.Descriptor
import Verif.Props.C23_C26

/-! # How the descriptor types of the crate map to the fields of the standard

`Desc.wire d` is the encoding the standards prescribe for the field values stored in `d`; `Desc.InRange d` says that
every field value fits the field of the standard.  The stored units are the ones documented in the crate:
satellite frequency in 10 kHz steps of a kHz value, orbital position in minutes of arc (0.1 degree is 6), symbol
rate in ksymbols/s (the standard counts 100 symbols/s), cable frequency in Hz (the standard counts 100 Hz),
terrestrial frequency in Hz (the standard counts 10 Hz). -/

namespace Mpegts
open Spec

/-- The bytes of a text (specification of C24). -/
def text (s : StringDVB) : List UInt8 := Text.encoding s.codepage.toNat s.data

namespace Desc

/-- The encoding prescribed for a descriptor value. -/
def wire : Desc → List UInt8
  | raw d => Descriptor.descriptor d.tag.toNat d.data
  | d09 d => Descriptor.conditionalAccess d.caid.toNat d.pid.toNat d.data
  | d0A d => Descriptor.language (d.items.map fun i => (text i.code, i.audioType.toNat))
  | d0E d => Descriptor.maximumBitrate d.bitrate.toNat
  | d40 d => Descriptor.networkName (text d.name)
  | d41 d => Descriptor.serviceList (d.items.map fun i => (i.serviceId.toNat, i.serviceType.toNat))
  | d43 d => Descriptor.satellite (d.frequency.toNat / 10) (d.orbitalPosition.toNat / 6) d.westEastFlag.toNat
      d.polarization.toNat d.rof.toNat d.s2.toNat d.modulation.toNat (d.symbolRate.toNat * 10) d.fec.toNat
  | d44 d => Descriptor.cable (d.frequency.toNat / 100) d.fecOuter.toNat d.modulation.toNat (d.symbolRate.toNat * 10)
      d.fec.toNat
  | d48 d => Descriptor.service d.serviceType.toNat (text d.provider) (text d.name)
  | d4D d => Descriptor.shortEvent (text d.lang) (text d.name) (text d.text)
  | d4E d => Descriptor.extendedEvent d.number.toNat d.lastNumber.toNat (text d.lang)
      (d.items.map fun i => (text i.1, text i.2)) (text d.text)
  | d52 d => Descriptor.streamIdentifier d.tag.toNat
  | d58 d => Descriptor.localTimeOffset (d.items.map fun i =>
      { country := text i.countryCode
        region := i.regionId.toNat
        polarity := i.offsetPolarity.toNat
        offset := i.offset.toNat
        time := i.timeOfChange.toNat
        next := i.nextOffset.toNat })
  | d5A d => Descriptor.terrestrial (d.frequency.toNat / 10) d.bandwidth.toNat d.priority.toNat d.timeSlicing.toNat
      d.mpeFec.toNat d.modulation.toNat d.hierarchy.toNat d.codeRateHp.toNat d.codeRateLp.toNat d.guardInterval.toNat
      d.transmission.toNat d.otherFrequencyFlag.toNat
  | d83 d => Descriptor.logicalChannels (d.items.map fun i => (i.serviceId.toNat, i.visible.toNat, i.lcn.toNat))

/-- Every field value fits its field: bit fields, decimal digits, three-letter codes, and a body of at most 255
bytes. -/
def InRange : Desc → Prop
  | raw d => d.data.length ≤ 255
  | d09 d => d.pid.toNat < 2 ^ 13 ∧ 4 + d.data.length ≤ 255
  | d0A d => (∀ i ∈ d.items, (text i.code).length = 3) ∧ 4 * d.items.length ≤ 255
  | d0E d => d.bitrate.toNat < 2 ^ 22
  | d40 d => (text d.name).length ≤ 255
  | d41 d => 3 * d.items.length ≤ 255
  | d43 d => d.frequency.toNat / 10 < 10 ^ 8 ∧ d.orbitalPosition.toNat / 6 < 10 ^ 4 ∧ d.westEastFlag.toNat < 2 ∧
      d.polarization.toNat < 4 ∧ d.rof.toNat < 4 ∧ d.s2.toNat < 2 ∧ d.modulation.toNat < 4 ∧
      d.symbolRate.toNat * 10 < 10 ^ 7 ∧ d.fec.toNat < 16
  | d44 d => d.frequency.toNat / 100 < 10 ^ 8 ∧ d.fecOuter.toNat < 16 ∧ d.symbolRate.toNat * 10 < 10 ^ 7 ∧
      d.fec.toNat < 16
  | d48 d => 3 + (text d.provider).length + (text d.name).length ≤ 255
  | d4D d => (text d.lang).length = 3 ∧ 5 + (text d.name).length + (text d.text).length ≤ 255
  | d4E d => d.number.toNat < 16 ∧ d.lastNumber.toNat < 16 ∧ (text d.lang).length = 3 ∧
      6 + (d.items.map fun i => 2 + (text i.1).length + (text i.2).length).sum + (text d.text).length ≤ 255
  | d52 _ => True
  | d58 d => (∀ i ∈ d.items, (text i.countryCode).length = 3 ∧ i.regionId.toNat < 64 ∧ i.offsetPolarity.toNat < 2 ∧
      i.offset.toNat < 24 * 60 ∧ unixEpochMjd + i.timeOfChange.toNat / 86400 < 2 ^ 16 ∧ i.nextOffset.toNat < 24 * 60) ∧
      13 * d.items.length ≤ 255
  | d5A d => d.bandwidth.toNat < 8 ∧ d.priority.toNat < 2 ∧ d.timeSlicing.toNat < 2 ∧ d.mpeFec.toNat < 2 ∧
      d.modulation.toNat < 4 ∧ d.hierarchy.toNat < 8 ∧ d.codeRateHp.toNat < 8 ∧ d.codeRateLp.toNat < 8 ∧
      d.guardInterval.toNat < 4 ∧ d.transmission.toNat < 4 ∧ d.otherFrequencyFlag.toNat < 2
  | d83 d => (∀ i ∈ d.items, i.visible.toNat < 2 ∧ i.lcn.toNat < 2 ^ 10) ∧ 4 * d.items.length ≤ 255

/-- The one kind whose assembly is wrong: an extended event descriptor with items. -/
def HasItems : Desc → Prop
  | d4E d => d.items ≠ []
  | _ => False

end Desc
end Mpegts
