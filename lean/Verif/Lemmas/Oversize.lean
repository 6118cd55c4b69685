import Verif.Spec.Oversize
import Verif.Lemmas.Tables

/-! # Greedy distribution of entries of any size -/

namespace Mpegts
open Spec Spec.Table

/-- With room for nothing more, the first section stays as it is. -/
theorem fill_head_nil {α : Type} (size : α → Nat) (limit next used : Nat) (h : limit < used) (l : List α) :
    ∃ gs, fill size limit next used l = [] :: gs := by
  cases l with
  | nil => exact ⟨[], rfl⟩
  | cons x r => rw [fill, if_neg (by omega)]; exact ⟨_, rfl⟩

theorem spread_fill {α : Type} (size : α → Nat) (limit next : Nat) (items : List α) (used : Nat) :
    Spread size limit used next items (fill size limit next used items) := by
  induction items generalizing used with
  | nil =>
    refine ⟨rfl, by simp [fill], by simp [fill], ?_, ?_⟩
    · intro i g h
      match i with
      | 0 =>
        simp [fill] at h; subst h
        simp only [if_true, List.map_nil, List.sum_nil, Nat.add_zero, true_and]
        omega
      | i + 1 => simp [fill] at h
    · intro i g h x hg hh; simp [fill] at hh
  | cons x r ih =>
    rw [fill]
    split
    · next hfit =>
      have P := ih (used + size x)
      obtain ⟨g0, gs, hgs⟩ := List.exists_cons_of_ne_nil P.nonempty
      rw [hgs] at P ⊢
      refine ⟨?_, by simp [pushHead], ?_, ?_, ?_⟩
      · rw [pushHead_flatten, P.all]
      · rw [pushHead_tail]; exact P.progress
      · intro i g h
        match i with
        | 0 =>
          simp [pushHead] at h; subst h
          have := P.fits 0 g0 rfl
          simp at this ⊢; omega
        | i + 1 => exact (P.fits (i + 1) g h).imp id (Or.imp (fun h => absurd h.1 (by omega)) id)
      · intro i g h y hg hh hy
        match i with
        | 0 =>
          simp [pushHead] at hg; subst hg
          have := P.full 0 g0 h y rfl hh hy
          simp at this ⊢; omega
        | i + 1 => exact P.full (i + 1) g h y hg hh hy
    · next hfit =>
      have P := ih (next + size x)
      have hnil := fill_head_nil size limit next (next + size x)
      obtain ⟨g0, gs, hgs⟩ := List.exists_cons_of_ne_nil P.nonempty
      rw [hgs] at P ⊢
      refine ⟨?_, by simp, ?_, ?_, ?_⟩
      · rw [List.flatten_cons, pushHead_flatten, P.all]; rfl
      · intro g hg
        simp only [pushHead, List.tail_cons, List.mem_cons] at hg
        rcases hg with rfl | hg
        · simp
        · exact P.progress g hg
      · intro i g h
        match i with
        | 0 =>
          simp at h; subst h
          simp only [if_true, List.map_nil, List.sum_nil, Nat.add_zero, true_and]
          omega
        | 1 =>
          simp [pushHead] at h; subst h
          by_cases ho : limit < next + size x
          · obtain ⟨gs', h'⟩ := hnil ho r
            rw [hgs] at h'
            refine .inr (.inr ⟨by omega, x, ?_, ho⟩)
            rw [(List.cons.inj h').1]
          · have := P.fits 0 g0 rfl
            simp at this ⊢; omega
        | i + 2 =>
          have := P.fits (i + 1) g h
          simpa using this
      · intro i g h y hg hh hy
        match i with
        | 0 =>
          simp at hg; subst hg
          simp [pushHead] at hh; subst hh
          simp at hy; subst hy
          simp; omega
        | 1 =>
          simp [pushHead] at hg; subst hg
          have := P.full 0 g0 h y rfl hh hy
          simp at this ⊢; omega
        | i + 2 =>
          have := P.full (i + 1) g h y hg hh hy
          simpa using this

/-- No section is larger than the limit, the start of the first section, or a section with one item. -/
theorem spread_bound {α : Type} {size : α → Nat} {limit first next : Nat} {items : List α} {gs : List (List α)}
    (P : Spread size limit first next items gs) (cap : Nat) (hl : limit ≤ cap) (hf : first ≤ cap) (hi : ∀ x ∈ items, next + size x ≤ cap)
    (i : Nat) (g : List α) (hg : gs[i]? = some g) : (if i = 0 then first else next) + (g.map size).sum ≤ cap := by
  rcases P.fits i g hg with h | ⟨h1, h2, -⟩ | ⟨h1, x, h2, -⟩
  · omega
  · subst h2; simpa [h1] using hf
  · subst h2
    have : x ∈ items := P.all ▸ List.mem_flatten.2 ⟨[x], List.mem_of_getElem? hg, List.mem_singleton.2 rfl⟩
    rw [if_neg (by omega)]
    simpa using hi x this

theorem size_le_sum {α : Type} (size : α → Nat) {g : List α} {x : α} (h : x ∈ g) : size x ≤ (g.map size).sum := by
  induction g with
  | nil => simp at h
  | cons y r ih =>
    rw [List.map_cons, List.sum_cons]
    rcases List.mem_cons.1 h with rfl | h
    · omega
    · have := ih h; omega

/-- An item that does not fit is the only one of its section. -/
theorem spread_alone {α : Type} {size : α → Nat} {limit first next : Nat} {items : List α} {gs : List (List α)}
    (P : Spread size limit first next items gs) (hf : next ≤ first) (x : α) (hx : x ∈ items) (ho : limit < next + size x) :
    ∃ i, 0 < i ∧ gs[i]? = some [x] := by
  rw [← P.all] at hx
  obtain ⟨g, hg, hxg⟩ := List.mem_flatten.1 hx
  obtain ⟨i, hi⟩ := List.getElem?_of_mem hg
  have hs : size x ≤ (g.map size).sum := size_le_sum size hxg
  rcases P.fits i g hi with h | ⟨-, h2, -⟩ | ⟨h1, y, h2, -⟩
  · split at h <;> omega
  · subst h2; simp at hxg
  · subst h2
    rw [List.mem_singleton.1 hxg]
    exact ⟨i, h1, hi⟩

/-- If everything fits, this is the distribution of `Packed`. -/
theorem packed_of_spread {α : Type} {size : α → Nat} {limit first next : Nat} {items : List α} {gs : List (List α)}
    (P : Spread size limit first next items gs) (hf : first ≤ limit) (hi : ∀ x ∈ items, next + size x ≤ limit) :
    Packed size limit first next items gs :=
  ⟨P.all, P.nonempty, P.progress, spread_bound P limit (Nat.le_refl _) hf hi, P.full⟩

end Mpegts
