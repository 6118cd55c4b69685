import Verif.Model.Desc

/-! # Specification: the descriptors that carry codes of languages or countries

ISO 639 and ISO 3166 codes have three letters; EN 300 468 and ISO/IEC 13818-1 give them fields of 24 bits. -/

namespace Spec.Codes
open Mpegts

/-- The codes of languages and countries in a descriptor. -/
def codes : Desc → List StringDVB
  | .d0A d => d.items.map (·.code)
  | .d4D d => [d.lang]
  | .d4E d => [d.lang]
  | .d58 d => d.items.map (·.countryCode)
  | _ => []

example : codes (.d4D ⟨⟨0, [0x65, 0x6E, 0x67]⟩, ⟨0, []⟩, ⟨0, []⟩⟩) = [⟨0, [0x65, 0x6E, 0x67]⟩] := rfl

end Spec.Codes
