import Verif.Spec.DebugText
import Verif.Props.C27_C28

/-! # Lemmas on the `Debug` text -/

namespace Mpegts
open Spec Spec.Shown

/-- Lines, each ended by a line break. -/
def joinNl (ls : List Text) : Text := ls.flatMap (· ++ ['\n'])

theorem joinNl_append (a b : List Text) : joinNl (a ++ b) = joinNl a ++ joinNl b := by simp [joinNl]

theorem separated_snoc (ls : List Text) (x : Text) : separated ['\n'] (ls ++ [x]) = joinNl ls ++ x := by
  induction ls with
  | nil => rfl
  | cons l ls ih =>
    cases ls with
    | nil => simp [separated, joinNl]
    | cons m ms =>
      rw [List.cons_append, List.cons_append, separated, ← List.cons_append, ih]
      · simp [joinNl]
      · simp

theorem separated_comma (ls : List Text) (h : ls ≠ []) : separated ['\n'] ls ++ [',', '\n'] = joinNl (comma ls) := by
  induction ls with
  | nil => exact absurd rfl h
  | cons l ls ih =>
    cases ls with
    | nil => simp [separated, comma, joinNl]
    | cons m ms =>
      have := ih (by simp)
      rw [separated, comma]
      · simp only [joinNl, List.flatMap_cons] at this ⊢
        rw [← this]; simp
      · simp
      · simp

theorem separated_cons (sep t : Text) (ts : List Text) : separated sep (t :: ts) = t ++ ts.flatMap (sep ++ ·) := by
  induction ts generalizing t with
  | nil => simp [separated]
  | cons u us ih =>
    rw [separated, ih u]
    · simp
    · simp

theorem separated_label (t : Text) (ls : List Text) (h : ls ≠ []) : t ++ separated ['\n'] ls = separated ['\n'] (label t ls) := by
  cases ls with
  | nil => exact absurd rfl h
  | cons l ls => rw [label, separated_cons, separated_cons, List.append_assoc]

theorem padLoop_line (l rest : Text) (h : '\n' ∉ l) : padLoop false (l ++ '\n' :: rest) = l ++ '\n' :: padLoop true rest := by
  induction l with
  | nil => rfl
  | cons c l ih =>
    have hc : (c == '\n') = false := by
      simp only [beq_eq_false_iff_ne]; intro e; exact h (by simp [e])
    rw [List.cons_append, padLoop, hc, ih (fun hm => h (by simp [hm]))]; rfl

theorem pad_joinNl (ls : List Text) (h : ∀ l ∈ ls, '\n' ∉ l) : pad (joinNl ls) = joinNl (indent ls) := by
  induction ls with
  | nil => rfl
  | cons l ls ih =>
    have hl := h l (by simp)
    have ih := ih (fun m hm => h m (by simp [hm]))
    have e : joinNl (l :: ls) = l ++ '\n' :: joinNl ls := by simp [joinNl]
    rw [e]
    have e2 : joinNl (indent (l :: ls)) = t!"    " ++ (l ++ '\n' :: joinNl (indent ls)) := by simp [joinNl, indent]
    rw [e2, ← ih]
    cases l with
    | nil => rfl
    | cons c l =>
      have hc : (c == '\n') = false := by
        simp only [beq_eq_false_iff_ne]; intro e; exact hl (by simp [e])
      rw [pad, List.cons_append, padLoop, hc, padLoop_line l _ (fun hm => hl (by simp [hm]))]
      rfl

/-- Lines as they must be: at least one, and no line break inside. -/
def Lined (ls : List Text) : Prop := ls ≠ [] ∧ ∀ l ∈ ls, '\n' ∉ l

theorem Lined.comma {ls : List Text} (h : Lined ls) : Lined (comma ls) := by
  obtain ⟨h1, h2⟩ := h
  induction ls with
  | nil => exact absurd rfl h1
  | cons l ls ih =>
    cases ls with
    | nil =>
      refine ⟨by simp [Shown.comma], fun m hm => ?_⟩
      simp only [Shown.comma, List.mem_singleton] at hm
      have := h2 l (by simp)
      subst hm; simp [this]
    | cons m ms =>
      have ih := ih (by simp) (fun x hx => h2 x (by simp [hx]))
      rw [Shown.comma]
      · refine ⟨by simp, fun x hx => ?_⟩
        rcases List.mem_cons.mp hx with e | e
        · subst e; exact h2 _ (by simp)
        · exact ih.2 x e
      · simp

theorem Lined.label {ls : List Text} (h : Lined ls) {t : Text} (ht : '\n' ∉ t) : Lined (label t ls) := by
  obtain ⟨h1, h2⟩ := h
  cases ls with
  | nil => exact absurd rfl h1
  | cons l ls =>
    refine ⟨by simp [Shown.label], fun m hm => ?_⟩
    rcases List.mem_cons.mp hm with e | e
    · subst e; simp [ht, h2 l (by simp)]
    · exact h2 m (by simp [e])

theorem indent_clean {ls : List Text} (h : ∀ l ∈ ls, '\n' ∉ l) : ∀ l ∈ indent ls, '\n' ∉ l := by
  intro l hl
  obtain ⟨m, hm, rfl⟩ := List.mem_map.mp hl
  simp [h m hm]

theorem pad_field (name : Text) (ls : List Text) (hn : '\n' ∉ name) (h : Lined ls) :
    pad (name ++ t!": " ++ separated ['\n'] ls ++ t!",\n") = joinNl (indent (comma (label (name ++ t!": ") ls))) := by
  rw [separated_label _ _ h.1]
  have hl : Lined (label (name ++ t!": ") ls) := h.label (by simp [hn])
  rw [separated_comma _ hl.1]
  exact pad_joinNl _ hl.comma.2

theorem pad_entry (ls : List Text) (h : Lined ls) : pad (separated ['\n'] ls ++ t!",\n") = joinNl (indent (comma ls)) := by
  rw [separated_comma _ h.1]
  exact pad_joinNl _ h.comma.2

/-- What `to_string()` returns, if it does. -/
def displayed (s : StringDVB) : Text :=
  match s.toStringR with
  | .ok t => t
  | .error _ => []

/-- `r` writes the text of `x`, or panics because a string in it has no text. -/
structure Says (f : Fmt) (r : R Text) (x : Shown) : Prop where
  bad : (∃ s ∈ x.strings, ¬ Displayable s) → r = panic
  good : (∀ s ∈ x.strings, Displayable s) → r = .ok (x.text f.alternate fun s => f.quote (displayed s))
  lined : Lined (x.lines fun s => f.quote (displayed s))

theorem Says.cases {f : Fmt} {r : R Text} {x : Shown} (h : Says f r x) :
    ((∃ s ∈ x.strings, ¬ Displayable s) ∧ r = panic) ∨
    ((∀ s ∈ x.strings, Displayable s) ∧ r = .ok (x.text f.alternate fun s => f.quote (displayed s))) := by
  by_cases hb : ∃ s ∈ x.strings, ¬ Displayable s
  · exact .inl ⟨hb, h.bad hb⟩
  · have : ∀ s ∈ x.strings, Displayable s := fun s hs => Classical.byContradiction fun hn => hb ⟨s, hs, hn⟩
    exact .inr ⟨this, h.good this⟩

/-- Fields written as the specification says. -/
inductive SaysFields (f : Fmt) : List (Text × R Text) → List (Text × Shown) → Prop
  | nil : SaysFields f [] []
  | cons {n : Text} {r : R Text} {x : Shown} {rs xs} (hn : '\n' ∉ n) (h : Says f r x) (t : SaysFields f rs xs) :
      SaysFields f ((n, r) :: rs) ((n, x) :: xs)

inductive SaysItems (f : Fmt) : List (R Text) → List Shown → Prop
  | nil : SaysItems f [] []
  | cons {r : R Text} {x : Shown} {rs xs} (h : Says f r x) (t : SaysItems f rs xs) : SaysItems f (r :: rs) (x :: xs)

theorem SaysItems.map {f : Fmt} {α : Type} (l : List α) (r : α → R Text) (x : α → Shown) (h : ∀ a ∈ l, Says f (r a) (x a)) :
    SaysItems f (l.map r) (l.map x) := by
  induction l with
  | nil => exact .nil
  | cons a l ih => exact .cons (h a (by simp)) (ih fun b hb => h b (by simp [hb]))

abbrev qOf (f : Fmt) : StringDVB → Text := fun s => f.quote (displayed s)

/-- The rest of a record on one line, after its first field. -/
def tailLine (f : Fmt) (xs : List (Text × Shown)) : Text := xs.flatMap fun x => t!", " ++ x.1 ++ t!": " ++ x.2.oneLine (qOf f)

theorem structLoop_line (f : Fmt) (hf : f.alternate = false) {rs xs} (h : SaysFields f rs xs) (hg : ∀ s ∈ xs.flatMap (·.2.strings), Displayable s)
    (out : Text) : structLoop f true out rs = .ok (out ++ tailLine f xs ++ t!" }") := by
  induction h generalizing out with
  | nil => simp [structLoop, hf, tailLine]
  | @cons n r x rs xs hn h t ih =>
    have h1 := h.good (fun s hs => hg s (by simp [hs]))
    simp only [text, hf, Bool.false_eq_true, if_false] at h1
    rw [structLoop, h1, ok_bind, ih (fun s hs => hg s (by
      simp only [List.flatMap_cons, List.mem_append]; exact .inr hs))]
    simp [hf, tailLine]

theorem structLoop_lines (f : Fmt) (hf : f.alternate = true) {rs xs} (h : SaysFields f rs xs) (hg : ∀ s ∈ xs.flatMap (·.2.strings), Displayable s)
    (out : Text) : structLoop f true out rs =
      .ok (out ++ joinNl (xs.flatMap fun x => indent (comma (label (x.1 ++ t!": ") (x.2.lines (qOf f))))) ++ t!"}") := by
  induction h generalizing out with
  | nil => simp [structLoop, hf, joinNl]
  | @cons n r x rs xs hn h t ih =>
    have h1 := h.good (fun s hs => hg s (by simp [hs]))
    simp only [text, hf, if_true] at h1
    rw [structLoop, h1, ok_bind, ih (fun s hs => hg s (by
      simp only [List.flatMap_cons, List.mem_append]; exact .inr hs))]
    simp only [hf, if_true]
    rw [pad_field n _ hn h.lined, List.flatMap_cons, joinNl_append]
    simp

theorem structLoop_panic (f : Fmt) {rs xs} (h : SaysFields f rs xs) (hb : ∃ s ∈ xs.flatMap (·.2.strings), ¬ Displayable s) (has : Bool)
    (out : Text) : structLoop f has out rs = panic := by
  induction h generalizing has out with
  | nil => obtain ⟨s, hs, -⟩ := hb; simp at hs
  | @cons n r x rs xs hn h t ih =>
    rcases h.cases with ⟨-, h1⟩ | ⟨h0, h1⟩
    · rw [structLoop, h1]; rfl
    · rw [structLoop, h1, ok_bind]
      refine ih ?_ _ _
      obtain ⟨s, hs, hn⟩ := hb
      simp only [List.flatMap_cons, List.mem_append] at hs
      rcases hs with hs | hs
      · exact absurd (h0 s hs) hn
      · exact ⟨s, hs, hn⟩

theorem Says.struct (f : Fmt) {name : Text} (hname : '\n' ∉ name) {rs xs} (h : SaysFields f rs xs) (hne : xs ≠ []) :
    Says f (structText f name rs) (.record name xs) where
  bad hb := structLoop_panic f h hb _ _
  good hg := by
    have hg' : ∀ s ∈ xs.flatMap (·.2.strings), Displayable s := hg
    cases h with
    | nil => exact absurd rfl hne
    | @cons n r x rs xs hn h t =>
      have h1 := h.good (fun s hs => hg' s (by simp [hs]))
      have hg2 : ∀ s ∈ xs.flatMap (·.2.strings), Displayable s := fun s hs => hg' s (by
        simp only [List.flatMap_cons, List.mem_append]; exact .inr hs)
      cases hf : f.alternate with
      | false =>
        simp only [text, hf, Bool.false_eq_true, if_false] at h1 ⊢
        rw [structText, structLoop, h1, ok_bind, structLoop_line f hf t hg2]
        simp only [hf, Bool.false_eq_true, if_false, record, List.map_cons, separated_cons]
        simp [tailLine, List.flatMap_map]
      | true =>
        simp only [text, hf, if_true] at h1 ⊢
        rw [structText, structLoop, h1, ok_bind, structLoop_lines f hf t hg2]
        simp only [hf, if_true, Bool.false_eq_true, if_false]
        rw [pad_field n _ hn h.lined]
        simp only [record]
        rw [separated_snoc, joinNl_append, List.flatMap_cons, joinNl_append]
        simp [joinNl]
  lined := by
    refine ⟨by simp [record], fun l hl => ?_⟩
    simp only [record, List.mem_append, List.mem_singleton, List.mem_flatMap] at hl
    rcases hl with (e | ⟨x, hx, hl⟩) | e
    · subst e; simp [hname]
    · refine indent_clean (?_ : ∀ m ∈ comma (label (x.1 ++ t!": ") (x.2.lines (qOf f))), '\n' ∉ m) l hl
      have : '\n' ∉ x.1 ∧ Lined (x.2.lines (qOf f)) := by
        clear hne hl
        induction h with
        | nil => simp at hx
        | cons hn h t ih =>
          rcases List.mem_cons.mp hx with e | e
          · subst e; exact ⟨hn, h.lined⟩
          · exact ih e
      exact (this.2.label (by simp [this.1])).comma.2
    · subst e; simp

theorem listLoop_line (f : Fmt) (hf : f.alternate = false) {rs xs} (h : SaysItems f rs xs) (hg : ∀ s ∈ xs.flatMap (·.strings), Displayable s)
    (out : Text) : listLoop f true out rs = .ok (out ++ (xs.flatMap fun x => t!", " ++ x.oneLine (qOf f)) ++ t!"]") := by
  induction h generalizing out with
  | nil => simp [listLoop]
  | @cons r x rs xs h t ih =>
    have h1 := h.good (fun s hs => hg s (by simp [hs]))
    simp only [text, hf, Bool.false_eq_true, if_false] at h1
    rw [listLoop, h1, ok_bind, ih (fun s hs => hg s (by
      simp only [List.flatMap_cons, List.mem_append]; exact .inr hs))]
    simp [hf]

theorem listLoop_lines (f : Fmt) (hf : f.alternate = true) {rs xs} (h : SaysItems f rs xs) (hg : ∀ s ∈ xs.flatMap (·.strings), Displayable s)
    (out : Text) : listLoop f true out rs = .ok (out ++ joinNl (xs.flatMap fun x => indent (comma (x.lines (qOf f)))) ++ t!"]") := by
  induction h generalizing out with
  | nil => simp [listLoop, joinNl]
  | @cons r x rs xs h t ih =>
    have h1 := h.good (fun s hs => hg s (by simp [hs]))
    simp only [text, hf, if_true] at h1
    rw [listLoop, h1, ok_bind, ih (fun s hs => hg s (by
      simp only [List.flatMap_cons, List.mem_append]; exact .inr hs))]
    simp only [hf, if_true]
    rw [pad_entry _ h.lined, List.flatMap_cons, joinNl_append]
    simp

theorem listLoop_panic (f : Fmt) {rs xs} (h : SaysItems f rs xs) (hb : ∃ s ∈ xs.flatMap (·.strings), ¬ Displayable s) (has : Bool)
    (out : Text) : listLoop f has out rs = panic := by
  induction h generalizing has out with
  | nil => obtain ⟨s, hs, -⟩ := hb; simp at hs
  | @cons r x rs xs h t ih =>
    rcases h.cases with ⟨-, h1⟩ | ⟨h0, h1⟩
    · rw [listLoop, h1]; rfl
    · rw [listLoop, h1, ok_bind]
      refine ih ?_ _ _
      obtain ⟨s, hs, hn⟩ := hb
      simp only [List.flatMap_cons, List.mem_append] at hs
      rcases hs with hs | hs
      · exact absurd (h0 s hs) hn
      · exact ⟨s, hs, hn⟩

theorem SaysItems.lined {f : Fmt} {rs xs} (h : SaysItems f rs xs) : ∀ x ∈ xs, Lined (x.lines (qOf f)) := by
  induction h with
  | nil => simp
  | cons h t ih =>
    intro x hx
    rcases List.mem_cons.mp hx with e | e
    · subst e; exact h.lined
    · exact ih x e

theorem Says.list (f : Fmt) {rs xs} (h : SaysItems f rs xs) : Says f (listText f rs) (.list xs) where
  bad hb := listLoop_panic f h hb _ _
  good hg := by
    have hg' : ∀ s ∈ xs.flatMap (·.strings), Displayable s := hg
    cases h with
    | nil => cases hf : f.alternate <;> simp [listText, listLoop, text, Shown.list, separated]
    | @cons r x rs xs h t =>
      have h1 := h.good (fun s hs => hg' s (by simp [hs]))
      have hg2 : ∀ s ∈ xs.flatMap (·.strings), Displayable s := fun s hs => hg' s (by
        simp only [List.flatMap_cons, List.mem_append]; exact .inr hs)
      cases hf : f.alternate with
      | false =>
        simp only [text, hf, Bool.false_eq_true, if_false] at h1 ⊢
        rw [listText, listLoop, h1, ok_bind, listLoop_line f hf t hg2]
        simp only [hf, Bool.false_eq_true, if_false, Shown.list, List.map_cons, separated_cons]
        simp [List.flatMap_map]
      | true =>
        simp only [text, hf, if_true] at h1 ⊢
        rw [listText, listLoop, h1, ok_bind, listLoop_lines f hf t hg2]
        simp only [hf, if_true, Bool.false_eq_true, if_false]
        rw [pad_entry _ h.lined]
        simp only [Shown.list, List.cons_ne_nil, if_false]
        rw [separated_snoc, joinNl_append, List.flatMap_cons, joinNl_append]
        simp [joinNl]
  lined := by
    by_cases he : xs = []
    · subst he; exact ⟨by simp [Shown.list], by simp [Shown.list]⟩
    · simp only [Shown.list, if_neg he]
      refine ⟨by simp, fun l hl => ?_⟩
      simp only [List.mem_append, List.mem_singleton, List.mem_flatMap] at hl
      rcases hl with (e | ⟨x, hx, hl⟩) | e
      · subst e; simp
      · exact indent_clean (h.lined x hx).comma.2 l hl
      · subst e; simp

theorem Says.pair (f : Fmt) {r₁ r₂ : R Text} {a b : Shown} (h₁ : Says f r₁ a) (h₂ : Says f r₂ b) : Says f (tupleText f [r₁, r₂]) (.pair a b) where
  bad := by
    rintro ⟨s, hs, hn⟩
    rcases h₁.cases with ⟨-, e₁⟩ | ⟨g₁, e₁⟩
    · rw [tupleText, tupleLoop, e₁]; rfl
    · rcases h₂.cases with ⟨-, e₂⟩ | ⟨g₂, e₂⟩
      · rw [tupleText, tupleLoop, e₁, ok_bind, tupleLoop, e₂]; rfl
      · rcases List.mem_append.mp hs with hs | hs
        · exact absurd (g₁ s hs) hn
        · exact absurd (g₂ s hs) hn
  good hg := by
    have e₁ := h₁.good (fun s hs => hg s (List.mem_append.mpr (.inl hs)))
    have e₂ := h₂.good (fun s hs => hg s (List.mem_append.mpr (.inr hs)))
    cases hf : f.alternate with
    | false =>
      simp only [text, hf, Bool.false_eq_true, if_false] at e₁ e₂ ⊢
      rw [tupleText, tupleLoop, e₁, ok_bind, tupleLoop, e₂, ok_bind, tupleLoop]
      simp [hf, Shown.pair]
    | true =>
      simp only [text, hf, if_true] at e₁ e₂ ⊢
      rw [tupleText, tupleLoop, e₁, ok_bind, tupleLoop, e₂, ok_bind, tupleLoop]
      simp only [hf, if_true, Bool.false_eq_true, if_false]
      rw [pad_entry _ h₁.lined, pad_entry _ h₂.lined]
      simp only [Shown.pair]
      rw [separated_snoc, joinNl_append, joinNl_append]
      simp [joinNl]
  lined := by
    refine ⟨by simp [Shown.pair], fun l hl => ?_⟩
    simp only [Shown.pair, List.mem_append, List.mem_singleton] at hl
    rcases hl with ((e | hl) | hl) | e
    · subst e; simp
    · exact indent_clean h₁.lined.comma.2 l hl
    · exact indent_clean h₂.lined.comma.2 l hl
    · subst e; simp

theorem Says.atom (f : Fmt) (t : Text) (ht : '\n' ∉ t) : Says f (.ok t) (.atom t) where
  bad := by rintro ⟨s, hs, -⟩; simp [Shown.atom] at hs
  good _ := by cases hf : f.alternate <;> simp [text, Shown.atom, separated]
  lined := ⟨by simp [Shown.atom], by simp [Shown.atom, ht]⟩

theorem digits_clean (n : Nat) : '\n' ∉ Nat.toDigits 10 n := by
  intro h
  have := Nat.isDigit_of_mem_toDigits (by decide) (by decide) h
  revert this; decide

theorem Says.num (f : Fmt) (n : Nat) : Says f (numText n) (.num n) := Says.atom f _ (digits_clean n)

theorem Says.bool (f : Fmt) (b : Bool) : Says f (boolText b) (.bool b) := by
  cases b <;> exact Says.atom f _ (by decide)

theorem Says.bytes (f : Fmt) (l : List UInt8) : Says f (listText f (l.map fun b => numText b.toNat)) (.list (l.map fun b => .num b.toNat)) :=
  Says.list f (SaysItems.map l _ _ fun b _ => Says.num f b.toNat)

end Mpegts
