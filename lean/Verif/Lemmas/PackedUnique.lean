import Verif.Lemmas.Tables
namespace Mpegts
open Spec Spec.Table

theorem _root_.Spec.Table.Packed.tail {α : Type} {size : α → Nat} {limit first next : Nat} {items g : List α} {h : List α} {r : List (List α)}
    (P : Packed size limit first next items (g :: h :: r)) : Packed size limit next next (h :: r).flatten (h :: r) := by
  refine ⟨rfl, List.cons_ne_nil _ _, ?_, ?_, ?_⟩
  · intro x hx
    exact P.progress x (List.mem_cons_of_mem _ hx)
  · intro i x hx
    have := P.fits (i + 1) x hx
    rw [if_neg (by omega)] at this
    rw [ite_self]; exact this
  · intro i x y z h1 h2 h3
    have := P.full (i + 1) x y z h1 h2 h3
    rw [if_neg (by omega)] at this
    rw [ite_self]; exact this

theorem _root_.Spec.Table.Packed.head_le {α : Type} {size : α → Nat} {limit first next : Nat} {items g h : List α} {r q : List (List α)}
    (P : Packed size limit first next items (g :: r)) (Q : Packed size limit first next items (h :: q)) : h.length ≤ g.length := by
  by_contra hlt
  have e1 := P.all
  have e2 := Q.all
  rw [List.flatten_cons] at e1 e2
  have hr : r ≠ [] := by
    rintro rfl
    rw [List.flatten_nil, List.append_nil] at e1
    have := congrArg List.length (e1.trans e2.symm)
    rw [List.length_append] at this
    omega
  obtain ⟨k, r, rfl⟩ := List.exists_cons_of_ne_nil hr
  have hk := P.progress k List.mem_cons_self
  obtain ⟨x, k, rfl⟩ := List.exists_cons_of_ne_nil hk
  have h1 := P.full 0 g (x :: k) x rfl rfl rfl
  have h2 := Q.fits 0 h rfl
  rw [if_pos rfl] at h1 h2
  have h3 : ∃ z, h = g ++ x :: z := by
    have h4 : h = items.take h.length := by rw [← e2, List.take_left']; rfl
    rw [← e1, List.take_append, List.take_of_length_le (by omega)] at h4
    obtain ⟨m, hm⟩ : ∃ m, h.length - g.length = m + 1 := ⟨h.length - g.length - 1, by omega⟩
    rw [hm] at h4
    exact ⟨_, h4⟩
  obtain ⟨z, rfl⟩ := h3
  simp only [List.map_append, List.map_cons, List.sum_append, List.sum_cons] at h2
  omega

/-- There is only one way to pack. -/
theorem _root_.Spec.Table.Packed.unique {α : Type} {size : α → Nat} {limit first next : Nat} {items : List α} {gs hs : List (List α)}
    (P : Packed size limit first next items gs) (Q : Packed size limit first next items hs) : gs = hs := by
  induction gs generalizing first items hs with
  | nil => exact absurd rfl P.nonempty
  | cons g r ih =>
    obtain ⟨h, q, rfl⟩ := List.exists_cons_of_ne_nil Q.nonempty
    have hl := Nat.le_antisymm (Q.head_le P) (P.head_le Q)
    have e := P.all.trans Q.all.symm
    rw [List.flatten_cons, List.flatten_cons] at e
    obtain ⟨rfl, e'⟩ := List.append_inj e hl
    clear e
    refine congrArg (g :: ·) ?_
    cases r with
    | nil =>
      cases q with
      | nil => rfl
      | cons y q =>
        have := Q.progress y List.mem_cons_self
        rw [List.flatten_cons, List.flatten_nil] at e'
        have := congrArg List.length e'
        rw [List.length_append, List.length_nil] at this
        exact absurd (List.eq_nil_of_length_eq_zero (by omega)) (Q.progress y List.mem_cons_self)
    | cons x r =>
      cases q with
      | nil =>
        rw [List.flatten_cons, List.flatten_nil] at e'
        have := congrArg List.length e'
        rw [List.length_append, List.length_nil] at this
        exact absurd (List.eq_nil_of_length_eq_zero (by omega)) (P.progress x List.mem_cons_self)
      | cons y q =>
        refine ih P.tail ?_
        rw [e']; exact Q.tail

end Mpegts
