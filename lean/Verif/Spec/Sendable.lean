import Verif.Model.Pat
import Verif.Model.Pmt
import Verif.Model.Nit
import Verif.Model.Sdt
import Verif.Model.Eit
import Verif.Model.Tdt

/-! # What a debug build refuses to send

Only the numbers that delivery system descriptors carry as decimal digits are ever refused: a number is
refused when the first two of its digits are not decimal, where the digits are those of the number after
the conversions to `u16` and `u8` that the encoder makes. -/

namespace Mpegts

/-- An eight digit number is refused: its first two digits, as the encoder sees them, make 100 or more. -/
def refused8 (n : Nat) : Prop := 100 ≤ n / 10000 % 65536 / 100 % 256

/-- A four digit number is refused. -/
def refused4 (n : Nat) : Prop := 100 ≤ n / 100 % 256

/-- A descriptor with such a number: satellite and cable delivery system descriptors. -/
def Desc.Refused : Desc → Prop
  | .d43 d => refused8 (d.frequency.toNat / 10) ∨ refused4 (d.orbitalPosition.toNat / 6) ∨ refused8 d.symbolRate.toNat
  | .d44 d => refused8 (d.frequency.toNat / 100) ∨ refused8 d.symbolRate.toNat
  | _ => False

/-- All descriptors of a table. -/
def Pmt.allDescriptors (t : Pmt) : List Desc := t.descriptors ++ t.items.flatMap (·.descriptors)
@[inherit_doc Pmt.allDescriptors]
def Nit.allDescriptors (t : Nit) : List Desc := t.descriptors ++ t.items.flatMap (·.descriptors)
@[inherit_doc Pmt.allDescriptors]
def Sdt.allDescriptors (t : Sdt) : List Desc := t.items.flatMap (·.descriptors)
@[inherit_doc Pmt.allDescriptors]
def Eit.allDescriptors (t : Eit) : List Desc := t.items.flatMap (·.descriptors)
@[inherit_doc Pmt.allDescriptors]
def Tot.allDescriptors (t : Tot) : List Desc := t.descriptors

end Mpegts
