/-! # Specification: reading bytes that should be UTF-8

Independent of the model.  Well-formed bytes stand for their characters.  Ill-formed bytes show as replacement characters
U+FFFD, one for every maximal piece: the longest beginning of a character's encoding that is found there, or a single
byte where not even a character begins (The Unicode Standard, section 3.9, "substitution of maximal subparts"). -/

namespace Spec.Utf8

/-- `bs` is how the encoding of some character begins. -/
def Begins (bs : List UInt8) : Prop := ∃ c, bs <+: String.utf8EncodeChar c

/-- `Reading data text`: the bytes `data` are read as `text`. -/
inductive Reading : List UInt8 → List Char → Prop where
  | nil : Reading [] []
  | char (c : Char) (rest : List UInt8) (text : List Char) (h : Reading rest text) :
      Reading (String.utf8EncodeChar c ++ rest) (c :: text)
  | bad (bs rest : List UInt8) (text : List Char) (nonempty : bs ≠ [])
      (piece : bs.length = 1 ∨ Begins bs)
      (maximal : ∀ b, rest.head? = some b → ¬ Begins (bs ++ [b]))
      (illFormed : ∀ c, ¬ String.utf8EncodeChar c <+: bs ++ rest)
      (h : Reading rest text) :
      Reading (bs ++ rest) ('�' :: text)

end Spec.Utf8
