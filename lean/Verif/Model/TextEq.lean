import Verif.Model.Text

/-! # Model of `StringDVB`'s accessors and comparison (src/textcode/mod.rs) -/

namespace Mpegts
namespace StringDVB

/-- Derived `PartialEq`, src/textcode/mod.rs:88-92: field by field. -/
def eq (a b : StringDVB) : Bool := a.codepage == b.codepage && a.data == b.data

/-- `get_codepage`, src/textcode/mod.rs:181-184. -/
def getCodepage (s : StringDVB) : UInt8 := s.codepage

/-- `as_bytes`, src/textcode/mod.rs:186-189. -/
def asBytes (s : StringDVB) : List UInt8 := s.data

/-- `is_empty`, src/textcode/mod.rs:191-194. -/
def isEmpty (s : StringDVB) : Bool := s.data.isEmpty

end StringDVB
end Mpegts
