import Verif.Model.Lang
import Verif.Spec.Iso639

/-! # C31: language codes -/

namespace Mpegts
open Spec

set_option maxRecDepth 100000

/-- C31: for every language listed, the two-letter code converts to the bibliographic code, and both three-letter codes
convert back to the two-letter code. -/
theorem C31_listed : ∀ r ∈ Iso639.rows, Lang.convert r.1 = some r.2.2 ∧ Lang.convert r.2.1 = some r.1 ∧
    Lang.convert r.2.2 = some r.1 := by decide +kernel

/-- C31: converting there and back is the identity, starting from a two-letter code … -/
theorem C31_there_and_back (r : String × String × String) (h : r ∈ Iso639.rows) :
    (Lang.convert r.1 >>= Lang.convert) = some r.1 := by
  obtain ⟨h1, -, h3⟩ := C31_listed r h
  rw [h1]; exact h3

/-- C31: … and from a bibliographic code. -/
theorem C31_back_and_there (r : String × String × String) (h : r ∈ Iso639.rows) :
    (Lang.convert r.2.2 >>= Lang.convert) = some r.2.2 := by
  obtain ⟨h1, -, h3⟩ := C31_listed r h
  rw [h3]; exact h1

theorem lang_list_rows : ∀ l ∈ Lang.LANG_LIST, (l.iso639_1, l.iso639_2t, l.iso639_2b) ∈ Iso639.rows := by decide +kernel

/-- C31: any other string gives nothing. -/
theorem C31_unknown (code : String) (h : ∀ r ∈ Iso639.rows, code ≠ r.1 ∧ code ≠ r.2.1 ∧ code ≠ r.2.2) :
    Lang.convert code = none := by
  have h' : ∀ l ∈ Lang.LANG_LIST, code ≠ l.iso639_1 ∧ code ≠ l.iso639_2t ∧ code ≠ l.iso639_2b :=
    fun l hl => h _ (lang_list_rows l hl)
  have f1 : (Lang.LANG_LIST.find? fun item => item.iso639_1 == code) = none := by
    rw [List.find?_eq_none]
    intro l hl
    have := (h' l hl).1
    simpa using fun e => this (Eq.symm e)
  have f2 : (Lang.LANG_LIST.find? fun item => item.iso639_2t == code || item.iso639_2b == code) = none := by
    rw [List.find?_eq_none]
    intro l hl
    have := (h' l hl).2
    simpa using ⟨fun e => this.1 (Eq.symm e), fun e => this.2 (Eq.symm e)⟩
  rw [Lang.convert, f1, f2]
  split
  · rfl
  · split <;> rfl

example : ∀ r ∈ Iso639.rows, "xx" ≠ r.1 ∧ "xx" ≠ r.2.1 ∧ "xx" ≠ r.2.2 := by decide +kernel
example : ("de", "deu", "ger") ∈ Iso639.rows ∧ Iso639.rows.length = 146 := by decide +kernel

end Mpegts
