import Verif.Spec.Tables

/-! # Specification: distributing entries some of which are too large for a section -/

namespace Spec.Table

/-- `groups` distributes `items` over sections greedily, as `Packed` says, except that what does not fit into any section is sent all the
same: a section is within `limit`, or is a first section that is too large before any item is added to it and has none, or is a later
section with a single item. -/
structure Spread {α : Type} (size : α → Nat) (limit first next : Nat) (items : List α) (groups : List (List α)) : Prop where
  all : groups.flatten = items
  nonempty : groups ≠ []
  progress : ∀ g ∈ groups.tail, g ≠ []
  fits : ∀ i g, groups[i]? = some g → (if i = 0 then first else next) + (g.map size).sum ≤ limit ∨ (i = 0 ∧ g = [] ∧ limit < first) ∨
    (0 < i ∧ ∃ x, g = [x] ∧ limit < next + size x)
  full : ∀ i g h x, groups[i]? = some g → groups[i + 1]? = some h → h.head? = some x →
    limit < (if i = 0 then first else next) + (g.map size).sum + size x

/-- Three items of 4, 30 and 5 bytes, of which a section of 20 bytes, 3 of them header, can hold the first and the last. -/
example : Spread (fun n => n) 20 3 3 [4, 30, 5] [[4], [30], [5]] where
  all := rfl
  nonempty := by simp
  progress := by simp
  fits := by
    intro i g h
    match i with
    | 0 => simp at h; subst h; simp
    | 1 => simp at h; subst h; simp
    | 2 => simp at h; subst h; simp
    | i + 3 => simp at h
  full := by
    intro i g h x hg hh hx
    match i with
    | 0 => simp at hg hh; subst hg hh; simp at hx; omega
    | 1 => simp at hg hh; subst hg hh; simp at hx; simp; omega
    | i + 2 => simp at hh

end Spec.Table
