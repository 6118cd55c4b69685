import Verif.Props.C29_C30

/-! # C30: splitting UTF-8 into pieces of two or three bytes

One byte of each piece is the selector, so one or two are left for characters. -/

namespace Mpegts
open Spec

/-- Going back ends at a character that starts at most `k` bytes before. -/
theorem splitBack_stop (p : Profile) (data : List UInt8) (k next L : Nat) (h : next < data.length) (hL : L ≤ next)
    (hnc : StringDVB.isCont (data[L]'(by omega)) = false) (hk : next - L ≤ k) :
    ∃ m, StringDVB.splitBack p data k next = .ok m ∧ L ≤ m ∧ ∃ hm : m ≤ next,
      (∀ j, m < j → j ≤ next → ∀ hj : j < data.length, StringDVB.isCont data[j] = true) ∧
      StringDVB.isCont (data[m]'(by omega)) = false := by
  induction k generalizing next with
  | zero =>
    obtain rfl : next = L := by omega
    exact ⟨next, rfl, by omega, by omega, fun j h1 h2 => by omega, hnc⟩
  | succ k ih =>
    rw [StringDVB.splitBack, idx_ok h]
    simp only [ok_bind]
    by_cases hc : ((data[next] &&& 0xC0) != 0x80) = true
    · rw [if_pos hc]
      refine ⟨next, rfl, by omega, by omega, fun j h1 h2 => by omega, ?_⟩
      simpa [StringDVB.isCont] using hc
    · have hne : next ≠ L := by
        rintro rfl
        apply hc
        simpa [StringDVB.isCont] using hnc
      rw [if_neg hc, usizeSub_ok p (by omega)]
      simp only [ok_bind]
      obtain ⟨m, h1, h2, h3, h4, h5⟩ := ih (next - 1) (by omega) (by omega) hnc (by omega)
      refine ⟨m, h1, by omega, by omega, ?_, h5⟩
      intro j hj1 hj2 hj
      by_cases e : j = next
      · subst e; simpa [StringDVB.isCont] using hc
      · exact h4 j hj1 (by omega) hj

theorem utf8_length_pos (c : Char) (s : List Char) : (Text.utf8 (c :: s)).length = (String.utf8EncodeChar c).length + (Text.utf8 s).length := by
  rw [Text.utf8, List.flatMap_cons, List.length_append]; rfl

/-- Where the next piece ends if there is room for one or two bytes. -/
theorem cut_small (p : Profile) (done rest : List Char) (c : Char) (r : Nat) (hr : 1 ≤ r ∧ r ≤ 2) (data : List UInt8)
    (hd : data = Text.utf8 (done ++ c :: rest)) (L : Nat) (hL : L = (Text.utf8 done).length) :
    ∃ m, (if (21 : UInt8) = UTF8 ∧ min data.length (L + r) < data.length
          then StringDVB.splitBack p data 2 (min data.length (L + r)) else pure (min data.length (L + r))) = .ok m ∧
      (r < (String.utf8EncodeChar c).length → m = L) ∧ ((String.utf8EncodeChar c).length ≤ r → L < m) ∧ m ≤ L + r ∧ L ≤ m ∧ m ≤ data.length ∧
      (m = data.length ∨ ∃ hm : m < data.length, StringDVB.isCont data[m] = false) := by
  obtain ⟨b, bs, e, hb, hcont, -⟩ := utf8_shape c
  have hd' : data = Text.utf8 done ++ (b :: (bs ++ Text.utf8 rest)) := by
    rw [hd, utf8_append, Text.utf8, Text.utf8, List.flatMap_cons, e]; rfl
  have hlen : data.length = L + (bs.length + 1) + (Text.utf8 rest).length := by
    rw [hd', hL]; simp only [List.length_append, List.length_cons]; omega
  have hc : (String.utf8EncodeChar c).length = bs.length + 1 := by rw [e]; rfl
  rw [hc]
  have at0 : ∀ h : L < data.length, StringDVB.isCont data[L] = false := by
    intro h
    simp only [hd', hL, List.getElem_append_right (Nat.le_refl _), Nat.sub_self, List.getElem_cons_zero]
    exact hb
  have atc : ∀ j, j < bs.length → ∀ h : L + (j + 1) < data.length, StringDVB.isCont data[L + (j + 1)] = true := by
    intro j hj h
    simp only [hd', hL]
    rw [List.getElem_append_right (by omega)]
    simp only [Nat.add_sub_cancel_left, List.getElem_cons_succ, List.getElem_append_left hj]
    exact hcont _ (List.getElem_mem _)
  have atn : ∀ h : L + (bs.length + 1) < data.length, StringDVB.isCont data[L + (bs.length + 1)] = false := by
    intro h
    cases rest with
    | nil => rw [hlen, show Text.utf8 [] = [] from rfl, List.length_nil] at h; omega
    | cons d rest =>
      obtain ⟨b', bs', e', hb', -⟩ := utf8_shape d
      have : Text.utf8 (d :: rest) = b' :: (bs' ++ Text.utf8 rest) := by rw [Text.utf8, List.flatMap_cons, e']; rfl
      simp only [hd', hL, this]
      rw [List.getElem_append_right (by omega)]
      simp only [Nat.add_sub_cancel_left, List.getElem_cons_succ, List.getElem_append_right (Nat.le_refl _), Nat.sub_self,
        List.getElem_cons_zero]
      exact hb'
  by_cases hm : min data.length (L + r) < data.length
  · rw [if_pos ⟨rfl, hm⟩]
    have hmin : min data.length (L + r) = L + r := by omega
    rw [hmin] at hm ⊢
    obtain ⟨m, h1, h2, h3, h4, h5⟩ := splitBack_stop p data 2 (L + r) L hm (by omega) (at0 (by omega)) (by omega)
    refine ⟨m, h1, fun h => ?_, fun h => ?_, h3, h2, by omega, .inr ⟨by omega, h5⟩⟩
    · refine Decidable.byContradiction fun hne => ?_
      obtain ⟨j, rfl⟩ : ∃ j, m = L + (j + 1) := ⟨m - L - 1, by omega⟩
      rw [atc j (by omega) (by omega)] at h5
      cases h5
    · refine Decidable.byContradiction fun hlt => ?_
      have := h4 (L + (bs.length + 1)) (by omega) (by omega) (by omega)
      rw [atn (by omega)] at this
      cases this
  · rw [if_neg fun k => hm k.2]
    exact ⟨_, rfl, fun h => by omega, fun h => by omega, by omega, by omega, by omega, .inl (by omega)⟩

/-- Loop invariant for these sizes: the remaining text is cut between characters, until one is too long. -/
theorem splitLoop_small (p : Profile) (s done rest : List Char) (he : s = done ++ rest) (r : Nat) (hr : 1 ≤ r ∧ r ≤ 2) (fuel : Nat)
    (out : List StringDVB) :
    ((∀ c ∈ rest, (String.utf8EncodeChar c).length ≤ r) → (Text.utf8 rest).length < fuel →
      ∃ parts : List (List Char), StringDVB.splitLoop p ⟨21, Text.utf8 s⟩ r fuel (Text.utf8 done).length out =
        .ok (out ++ parts.map fun t => ⟨21, Text.utf8 t⟩) ∧ parts.flatten = rest ∧
        ∀ t ∈ parts, t ≠ [] ∧ (Text.utf8 t).length ≤ r) ∧
    ((∃ c ∈ rest, r < (String.utf8EncodeChar c).length) →
      StringDVB.splitLoop p ⟨21, Text.utf8 s⟩ r fuel (Text.utf8 done).length out = .error .diverge) := by
  induction fuel generalizing done rest out with
  | zero => exact ⟨fun _ h => by omega, fun _ => rfl⟩
  | succ fuel ih =>
    have hl : (Text.utf8 s).length = (Text.utf8 done).length + (Text.utf8 rest).length := by
      rw [he, utf8_append, List.length_append]
    cases rest with
    | nil =>
      refine ⟨fun _ _ => ⟨[], ?_, rfl, by simp⟩, fun ⟨c, h, _⟩ => (nomatch h)⟩
      rw [StringDVB.splitLoop, if_neg (by rw [show Text.utf8 [] = [] from rfl, List.length_nil] at hl; show ¬ _ < (Text.utf8 s).length; omega)]
      simp
    | cons c rest =>
      have hcl := utf8_length_pos c rest
      have hcp : 0 < (String.utf8EncodeChar c).length := by
        obtain ⟨b, bs, e, -⟩ := utf8_shape c
        rw [e]; simp
      have hlt : (Text.utf8 done).length < (Text.utf8 s).length := by omega
      obtain ⟨m, hm, h1, h2, h3, h4, h5, h6⟩ := cut_small p done rest c r hr (Text.utf8 s) (by rw [he]) _ rfl
      have hstep := splitLoop_step p ⟨21, Text.utf8 s⟩ r fuel _ out hlt m hm
      rw [slice, if_pos ⟨h4, h5⟩] at hstep
      simp only [ok_bind] at hstep
      -- the cut is at a character boundary
      obtain ⟨a, b, hab, hal⟩ : ∃ a b, c :: rest = a ++ b ∧ (Text.utf8 a).length = m - (Text.utf8 done).length := by
        apply utf8_boundary (c :: rest) _ (by omega)
        rcases h6 with h6 | ⟨g1, g2⟩
        · left; omega
        · right
          have hsr : Text.utf8 s = Text.utf8 done ++ Text.utf8 (c :: rest) := by rw [he, utf8_append]
          refine ⟨by omega, ?_⟩
          simp only [hsr] at g2
          rw [List.getElem_append_right (by omega)] at g2
          exact g2
      have hm' : m = (Text.utf8 (done ++ a)).length := by rw [utf8_append, List.length_append]; omega
      have hrl : (Text.utf8 (c :: rest)).length = (Text.utf8 a).length + (Text.utf8 b).length := by rw [hab, utf8_append, List.length_append]
      have hpiece : ((Text.utf8 s).take m).drop (Text.utf8 done).length = Text.utf8 a := by
        have e1 : Text.utf8 s = Text.utf8 (done ++ a) ++ Text.utf8 b := by
          rw [he, hab, ← List.append_assoc, utf8_append]
        rw [e1, hm', List.take_left, utf8_append, List.drop_left]
      obtain ⟨ih1, ih2⟩ := ih (done ++ a) b (by rw [he, hab, List.append_assoc]) (out ++ [⟨21, Text.utf8 a⟩])
      rw [hstep, hpiece, hm']
      constructor
      · intro hall hf
        have hpos := h2 (hall c (by simp))
        obtain ⟨parts, g1, g2, g3⟩ := ih1 (fun d hd => hall d (by rw [hab]; simp [hd])) (by omega)
        refine ⟨a :: parts, ?_, by rw [List.flatten_cons, g2, hab], ?_⟩
        · rw [g1]; simp
        · intro t ht
          rcases List.mem_cons.1 ht with rfl | ht
          · refine ⟨?_, by omega⟩
            rintro rfl
            rw [show Text.utf8 [] = [] from rfl, List.length_nil] at hal
            omega
          · exact g3 t ht
      · rintro ⟨d, hd, hlong⟩
        refine ih2 ⟨d, ?_, hlong⟩
        rw [hab] at hd
        rcases List.mem_append.1 hd with hd | hd
        · exfalso
          obtain ⟨x, y, rfl⟩ := List.append_of_mem hd
          rw [utf8_append, List.length_append, utf8_length_pos] at hal
          omega
        · exact hd

/-- C30, for pieces of two or three bytes: a UTF-8 text whose characters all fit is cut between characters, into pieces that
are not empty and fit. -/
theorem C30_utf8_small_partial (p : Profile) (s : List Char) (n : Nat) (hn : n = 2 ∨ n = 3) (hne : s ≠ [])
    (hs : ∀ c ∈ s, (String.utf8EncodeChar c).length + 1 ≤ n) :
    ∃ parts : List (List Char), (StringDVB.fromStr s 21).split p n = .ok (parts.map fun t => StringDVB.fromStr t 21) ∧
      parts.flatten = s ∧ ∀ t ∈ parts, t ≠ [] ∧ (Text.utf8 t).length + 1 ≤ n := by
  have hd : Text.utf8 s ≠ [] := by
    intro h
    have := lossy_utf8 s
    rw [h] at this
    exact hne this.symm
  obtain ⟨parts, h1, h2, h3⟩ := (splitLoop_small p s [] s rfl (n - 1) (by omega) ((Text.utf8 s).length + 1) []).1
    (fun c hc => by have := hs c hc; omega) (by omega)
  refine ⟨parts, ?_, h2, fun t ht => ⟨(h3 t ht).1, by have := (h3 t ht).2; omega⟩⟩
  simp only [C27_utf8]
  have := splitFuel_eq p ((Text.utf8 s).length + 1) ⟨21, Text.utf8 s⟩ n (by show 1 ≤ n; omega) hd
  rw [StringDVB.split, this]
  exact h1

/-- C30 is false for pieces of two or three bytes if a character of the UTF-8 text does not fit: `split` runs forever. -/
theorem C30_utf8_small_refuted (p : Profile) (s : List Char) (n : Nat) (hn : n = 2 ∨ n = 3) (c : Char) (hc : c ∈ s)
    (hl : n ≤ (String.utf8EncodeChar c).length) (fuel : Nat) :
    (StringDVB.fromStr s 21).splitFuel p fuel n = .error .diverge := by
  have hd : Text.utf8 s ≠ [] := by
    intro h
    have := lossy_utf8 s
    rw [h] at this
    rw [← this] at hc
    cases hc
  simp only [C27_utf8]
  have := splitFuel_eq p fuel ⟨21, Text.utf8 s⟩ n (by show 1 ≤ n; omega) hd
  rw [this]
  exact (splitLoop_small p s [] s rfl (n - 1) (by omega) fuel []).2 ⟨c, hc, by omega⟩

example : (StringDVB.fromStr ['a', 'П', 'b', 'c'] 21).split .debug 3 =
    .ok [StringDVB.fromStr ['a'] 21, StringDVB.fromStr ['П'] 21, StringDVB.fromStr ['b', 'c'] 21] := by decide +kernel
example : ∀ c ∈ ['a', 'П', 'b', 'c'], (String.utf8EncodeChar c).length + 1 ≤ 3 := by decide +kernel
example (p : Profile) (fuel : Nat) : (StringDVB.fromStr ['a', '€', 'b'] 21).splitFuel p fuel 3 = .error .diverge :=
  C30_utf8_small_refuted p _ 3 (.inr rfl) '€' (by simp) (by decide +kernel) fuel

end Mpegts
