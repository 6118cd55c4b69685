/-! # Character lists as literals

`t!"abc"` stands for `['a', 'b', 'c']`: text is modelled as a list of characters. -/

namespace Mpegts
open Lean in
/-- `t!"abc"` is the list of the characters of the literal. -/
macro:max "t!" s:str : term => do
  let cs := s.getString.toList.toArray.map fun c => (⟨Syntax.mkCharLit c⟩ : TSyntax `term)
  `([$cs,*])

example : t!"ab\n" = ['a', 'b', '\n'] := rfl

end Mpegts
