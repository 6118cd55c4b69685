import Verif.Props.C120
import Verif.Spec.Utf8Bytes

/-! # C120: splitting any bytes as UTF-8 -/

namespace Mpegts
open Spec

theorem continues_iff : ∀ b : UInt8, ((b &&& 0xC0) != 0x80) = true ↔ ¬ Continues b := by
  unfold Continues; decide +kernel

theorem continuesAt_lt {data : List UInt8} {i : Nat} (h : ContinuesAt data i) : i < data.length := by
  obtain ⟨b, h, -⟩ := h
  exact (List.getElem?_eq_some_iff.1 h).1

theorem splitBack_here (p : Profile) (data : List UInt8) (k n : Nat) (h : n < data.length) (hc : ¬ ContinuesAt data n) :
    StringDVB.splitBack p data (k + 1) n = .ok n := by
  have : ¬ Continues data[n] := fun h' => hc ⟨_, List.getElem?_eq_getElem h, h'⟩
  rw [StringDVB.splitBack, idx_ok h, ok_bind, if_pos ((continues_iff _).2 this), pure_eq_ok]

theorem splitBack_back (p : Profile) (data : List UInt8) (k n : Nat) (hc : ContinuesAt data (n + 1)) :
    StringDVB.splitBack p data (k + 1) (n + 1) = StringDVB.splitBack p data k n := by
  have h := (continuesAt_lt hc)
  obtain ⟨b, h1, h2⟩ := hc
  rw [List.getElem?_eq_getElem h, Option.some.injEq] at h1
  subst h1
  rw [StringDVB.splitBack, idx_ok h, ok_bind, if_neg (fun e => (continues_iff _).1 e h2), usizeSub_ok p (by omega), ok_bind, Nat.add_sub_cancel]

/-- Going back from the first byte: in a debug build the subtraction overflows, in a release build it gives a position no text has. -/
theorem splitBack_first (p : Profile) (data : List UInt8) (k : Nat) (hl : data.length < 2 ^ 63) (hc : ContinuesAt data 0) :
    StringDVB.splitBack p data (k + 1) 0 = panic ∨ StringDVB.splitBack p data (k + 1) 0 = .ok (2 ^ 64 - 1) := by
  have h := (continuesAt_lt hc)
  obtain ⟨b, h1, h2⟩ := hc
  rw [List.getElem?_eq_getElem h, Option.some.injEq] at h1
  subst h1
  rw [StringDVB.splitBack, idx_ok h, ok_bind, if_neg (fun e => (continues_iff _).1 e h2)]
  cases p with
  | debug => left; rfl
  | release =>
    have e : usizeSub .release 0 1 = .ok (2 ^ 64 - 1) := rfl
    rw [e]
    simp only [ok_bind]
    cases k with
    | zero => right; rfl
    | succ k =>
      left
      rw [StringDVB.splitBack]
      have : idx data (2 ^ 64 - 1) = panic := by
        unfold idx
        rw [List.getElem?_eq_none (by omega)]
      rw [this]; rfl

theorem splitBack_zero (p : Profile) (data : List UInt8) (n : Nat) : StringDVB.splitBack p data 0 n = .ok n := rfl

section
variable (p : Profile) (s : StringDVB) (hcp : s.codepage.toNat = 21)
include hcp

/-- One iteration, the end of the piece within the text. -/
theorem step_utf8 (r fuel skip m : Nat) (out : List StringDVB) (h : skip + r < s.data.length)
    (hm : StringDVB.splitBack p s.data 2 (skip + r) = .ok m) :
    s.splitLoop p r (fuel + 1) skip out =
      slice s.data skip m >>= fun piece => s.splitLoop p r fuel m (out ++ [⟨s.codepage, piece⟩]) := by
  refine splitLoop_step p s r fuel skip out (by omega) m ?_
  have e : min s.data.length (skip + r) = skip + r := by omega
  rw [e, if_pos ⟨(utf8_iff _).2 hcp, h⟩, hm]

theorem step_panic (r fuel skip : Nat) (out : List StringDVB) (h : skip + r < s.data.length) (hl : s.data.length < 2 ^ 63)
    (hm : StringDVB.splitBack p s.data 2 (skip + r) = panic ∨ StringDVB.splitBack p s.data 2 (skip + r) = .ok (2 ^ 64 - 1)) :
    s.splitLoop p r (fuel + 1) skip out = panic := by
  rcases hm with hm | hm
  · have e : min s.data.length (skip + r) = skip + r := by omega
    rw [StringDVB.splitLoop, if_pos (by omega), e, if_pos ⟨(utf8_iff _).2 hcp, h⟩, hm]
    rfl
  · rw [step_utf8 p s hcp r fuel skip _ out h hm]
    have : slice s.data skip (2 ^ 64 - 1) = panic := by
      unfold slice
      rw [if_neg (by omega)]
    rw [this]; rfl

omit hcp in
/-- The last iteration. -/
theorem step_last (r fuel skip : Nat) (out : List StringDVB) (h0 : skip < s.data.length) (h : s.data.length ≤ skip + r) :
    ∃ l, s.splitLoop p r (fuel + 2) skip out = .ok l := by
  have e : min s.data.length (skip + r) = s.data.length := by omega
  rw [splitLoop_step p s r (fuel + 1) skip out h0 s.data.length (by rw [e, if_neg (by omega)]; rfl), slice, if_pos ⟨by omega, Nat.le_refl _⟩, ok_bind,
    StringDVB.splitLoop, if_neg (by omega)]
  exact ⟨_, rfl⟩

/-- No byte further: forever. -/
theorem stuck (r skip : Nat) (h : skip + r < s.data.length) (hm : StringDVB.splitBack p s.data 2 (skip + r) = .ok skip) :
    ∀ fuel out, s.splitLoop p r fuel skip out = .error .diverge := by
  intro fuel
  induction fuel with
  | zero => intro out; rfl
  | succ fuel ih =>
    intro out
    rw [step_utf8 p s hcp r fuel skip skip out h hm, slice, if_pos ⟨Nat.le_refl _, by omega⟩, ok_bind, ih]

/-- Some bytes further. -/
theorem go_on (r skip m : Nat) (h : skip + r < s.data.length) (hm : StringDVB.splitBack p s.data 2 (skip + r) = .ok m) (h1 : skip < m)
    (h2 : m ≤ s.data.length) (fuel : Nat) (out : List StringDVB) :
    ∃ out', s.splitLoop p r (fuel + 1) skip out = s.splitLoop p r fuel m out' := by
  rw [step_utf8 p s hcp r fuel skip m out h hm, slice, if_pos ⟨by omega, h2⟩, ok_bind]
  exact ⟨_, rfl⟩

theorem forever_of_step (r skip m : Nat) (h : skip + r < s.data.length) (hm : StringDVB.splitBack p s.data 2 (skip + r) = .ok m) (h1 : skip < m)
    (h2 : m ≤ s.data.length) (hf : ∀ fuel out, s.splitLoop p r fuel m out = .error .diverge) :
    ∀ fuel out, s.splitLoop p r fuel skip out = .error .diverge := by
  intro fuel out
  cases fuel with
  | zero => rfl
  | succ fuel =>
    obtain ⟨out', e⟩ := go_on p s hcp r skip m h hm h1 h2 fuel out
    rw [e, hf]

theorem ends_of_step (r skip m : Nat) (h : skip + r < s.data.length) (hm : StringDVB.splitBack p s.data 2 (skip + r) = .ok m) (h1 : skip < m)
    (h2 : m ≤ s.data.length) (hf : ∀ fuel out, s.data.length - m < fuel → ∃ l, s.splitLoop p r fuel m out = .ok l) :
    ∀ fuel out, s.data.length - skip < fuel → ∃ l, s.splitLoop p r fuel skip out = .ok l := by
  intro fuel out hlt
  obtain ⟨k, rfl⟩ : ∃ k, fuel = k + 1 := ⟨fuel - 1, by omega⟩
  obtain ⟨out', e⟩ := go_on p s hcp r skip m h hm h1 h2 k out
  rw [e]
  exact hf _ _ (by omega)

/-- One byte beside the selector, from a byte on that does not continue a character. -/
theorem loop_one : ∀ d skip, s.data.length - skip = d → skip < s.data.length → ¬ ContinuesAt s.data skip →
    ((∃ j, skip < j ∧ ContinuesAt s.data j) → ∀ fuel out, s.splitLoop p 1 fuel skip out = .error .diverge) ∧
    ((¬ ∃ j, skip < j ∧ ContinuesAt s.data j) → ∀ fuel out, s.data.length - skip < fuel → ∃ l, s.splitLoop p 1 fuel skip out = .ok l) := by
  intro d
  induction d using Nat.strongRecOn with
  | _ d ih =>
    intro skip hd h0 hc
    by_cases hlast : s.data.length ≤ skip + 1
    · refine ⟨fun ⟨j, h1, h2⟩ => absurd (continuesAt_lt h2) (by omega), fun _ fuel out hf => ?_⟩
      obtain ⟨k, rfl⟩ : ∃ k, fuel = k + 2 := ⟨fuel - 2, by omega⟩
      exact step_last p s 1 k skip out h0 hlast
    · by_cases hn : ContinuesAt s.data (skip + 1)
      · have hm : StringDVB.splitBack p s.data 2 (skip + 1) = .ok skip := by
          rw [splitBack_back p _ 1 _ hn, splitBack_here p _ 0 _ h0 hc]
        exact ⟨fun _ => stuck p s hcp 1 skip (by omega) hm, fun h => absurd ⟨_, by omega, hn⟩ h⟩
      · have hm := splitBack_here p s.data 1 (skip + 1) (by omega) hn
        obtain ⟨i1, i2⟩ := ih (s.data.length - (skip + 1)) (by omega) (skip + 1) rfl (by omega) hn
        have he : (∃ j, skip < j ∧ ContinuesAt s.data j) ↔ ∃ j, skip + 1 < j ∧ ContinuesAt s.data j := by
          constructor
          · rintro ⟨j, h1, h2⟩
            refine ⟨j, ?_, h2⟩
            have : j ≠ skip + 1 := by rintro rfl; exact hn h2
            omega
          · rintro ⟨j, h1, h2⟩
            exact ⟨j, by omega, h2⟩
        rw [he]
        exact ⟨fun h => forever_of_step p s hcp 1 skip _ (by omega) hm (by omega) (by omega) (i1 h),
          fun h => ends_of_step p s hcp 1 skip _ (by omega) hm (by omega) (by omega) (i2 h)⟩

/-- Two bytes beside the selector. -/
theorem loop_two : ∀ d skip, s.data.length - skip = d → skip < s.data.length →
    ((∃ i, skip ≤ i ∧ ContinuesAt s.data (i + 1) ∧ ContinuesAt s.data (i + 2)) → ∀ fuel out, s.splitLoop p 2 fuel skip out = .error .diverge) ∧
    ((¬ ∃ i, skip ≤ i ∧ ContinuesAt s.data (i + 1) ∧ ContinuesAt s.data (i + 2)) →
      ∀ fuel out, s.data.length - skip < fuel → ∃ l, s.splitLoop p 2 fuel skip out = .ok l) := by
  intro d
  induction d using Nat.strongRecOn with
  | _ d ih =>
    intro skip hd h0
    by_cases hlast : s.data.length ≤ skip + 2
    · refine ⟨fun ⟨j, h1, _, h2⟩ => absurd (continuesAt_lt h2) (by omega), fun _ fuel out hf => ?_⟩
      obtain ⟨k, rfl⟩ : ∃ k, fuel = k + 2 := ⟨fuel - 2, by omega⟩
      exact step_last p s 2 k skip out h0 hlast
    · by_cases hn : ContinuesAt s.data (skip + 2)
      · by_cases hn1 : ContinuesAt s.data (skip + 1)
        · have hm : StringDVB.splitBack p s.data 2 (skip + 2) = .ok skip := by
            rw [splitBack_back p _ 1 (skip + 1) hn, splitBack_back p _ 0 skip hn1, splitBack_zero]
          exact ⟨fun _ => stuck p s hcp 2 skip (by omega) hm, fun h => absurd ⟨_, Nat.le_refl _, hn1, hn⟩ h⟩
        · have hm : StringDVB.splitBack p s.data 2 (skip + 2) = .ok (skip + 1) := by
            rw [splitBack_back p _ 1 (skip + 1) hn, splitBack_here p _ 0 _ (by omega) hn1]
          obtain ⟨i1, i2⟩ := ih (s.data.length - (skip + 1)) (by omega) (skip + 1) rfl (by omega)
          have he : (∃ i, skip ≤ i ∧ ContinuesAt s.data (i + 1) ∧ ContinuesAt s.data (i + 2)) ↔
              ∃ i, skip + 1 ≤ i ∧ ContinuesAt s.data (i + 1) ∧ ContinuesAt s.data (i + 2) := by
            constructor
            · rintro ⟨j, h1, h2, h3⟩
              refine ⟨j, ?_, h2, h3⟩
              have : j ≠ skip := by rintro rfl; exact hn1 h2
              omega
            · rintro ⟨j, h1, h2⟩
              exact ⟨j, by omega, h2⟩
          rw [he]
          exact ⟨fun h => forever_of_step p s hcp 2 skip _ (by omega) hm (by omega) (by omega) (i1 h),
            fun h => ends_of_step p s hcp 2 skip _ (by omega) hm (by omega) (by omega) (i2 h)⟩
      · have hm := splitBack_here p s.data 1 (skip + 2) (by omega) hn
        obtain ⟨i1, i2⟩ := ih (s.data.length - (skip + 2)) (by omega) (skip + 2) rfl (by omega)
        have he : (∃ i, skip ≤ i ∧ ContinuesAt s.data (i + 1) ∧ ContinuesAt s.data (i + 2)) ↔
            ∃ i, skip + 2 ≤ i ∧ ContinuesAt s.data (i + 1) ∧ ContinuesAt s.data (i + 2) := by
          constructor
          · rintro ⟨j, h1, h2, h3⟩
            refine ⟨j, ?_, h2, h3⟩
            have : j ≠ skip := by rintro rfl; exact hn h3
            have : j ≠ skip + 1 := by rintro rfl; exact hn h2
            omega
          · rintro ⟨j, h1, h2⟩
            exact ⟨j, by omega, h2⟩
        rw [he]
        exact ⟨fun h => forever_of_step p s hcp 2 skip _ (by omega) hm (by omega) (by omega) (i1 h),
          fun h => ends_of_step p s hcp 2 skip _ (by omega) hm (by omega) (by omega) (i2 h)⟩

end

theorem split_bytes (p : Profile) (s : StringDVB) (n : Nat) (hcp : s.codepage.toNat = 21) (hl : s.data.length < 2 ^ 63) (h1 : 1 ≤ n) :
    (Stuck n s.data ∧ ∀ fuel, s.splitFuel p fuel n = .error .diverge) ∨
    (Stumbles n s.data ∧ ¬ Stuck n s.data ∧ s.split p n = panic) ∨ (¬ Stumbles n s.data ∧ ¬ Stuck n s.data ∧ ∃ l, s.split p n = .ok l) := by
  have h0 : s.codepage ≠ 0 := by intro e; rw [e] at hcp; simp at hcp
  have hres : reserved s.codepage = 1 := by rw [reserved, if_neg h0, if_pos hcp]
  have hroom : room s.codepage n = n - 1 := by rw [room, if_neg h0, if_pos hcp]
  by_cases hd : s.data = []
  · have hno : ∀ i, ¬ ContinuesAt s.data i := fun i h => by have := (continuesAt_lt h); rw [hd] at this; simp at this
    refine .inr (.inr ⟨?_, ?_, ?_⟩)
    · rintro (⟨-, h⟩ | ⟨-, h, -⟩) <;> exact hno _ h
    · rintro (⟨-, h, -⟩ | ⟨-, ⟨j, -, h⟩, -⟩ | ⟨-, i, h, -⟩)
      · exact h hd
      · exact hno _ h
      · exact hno _ h
    · have e : s.data.isEmpty = true := by rw [hd]; rfl
      refine ⟨[s], ?_⟩
      rw [StringDVB.split, StringDVB.splitFuel, if_neg h0, if_pos ((utf8_iff _).2 hcp), usizeSub_ok p h1, ok_bind]
      simp only []
      rw [if_pos e]
      rfl
  have hpos := List.length_pos_iff.2 hd
  have hF : ∀ fuel, s.splitFuel p fuel n = s.splitLoop p (n - 1) fuel 0 [] := fun fuel => by
    rw [splitFuel_eq p fuel s n (by omega) hd, hroom]
  have hS : s.split p n = s.splitLoop p (n - 1) (s.data.length + 1) 0 [] := hF _
  rcases (by omega : n = 1 ∨ n = 2 ∨ n = 3 ∨ 4 ≤ n) with rfl | rfl | rfl | h4
  · by_cases hc : ContinuesAt s.data 0
    · refine .inr (.inl ⟨.inl ⟨rfl, hc⟩, ?_, ?_⟩)
      · rintro (⟨-, -, h⟩ | ⟨h, -⟩ | ⟨h, -⟩)
        · exact h hc
        · omega
        · omega
      · rw [hS]
        exact step_panic p s hcp 0 _ 0 [] (by omega) hl (splitBack_first p s.data 1 hl hc)
    · refine .inl ⟨.inl ⟨rfl, hd, hc⟩, fun fuel => ?_⟩
      rw [hF]
      exact stuck p s hcp 0 0 (by omega) (splitBack_here p _ 1 0 (by omega) hc) fuel []
  · by_cases hc : ContinuesAt s.data 0
    · by_cases hc1 : ContinuesAt s.data 1
      · refine .inr (.inl ⟨.inr ⟨rfl, hc, hc1⟩, ?_, ?_⟩)
        · rintro (⟨h, -⟩ | ⟨-, -, h⟩ | ⟨h, -⟩)
          · omega
          · exact h ⟨hc, hc1⟩
          · omega
        · rw [hS]
          refine step_panic p s hcp 1 _ 0 [] (continuesAt_lt hc1) hl ?_
          rw [show 0 + 1 = 0 + 1 from rfl, splitBack_back p _ 1 0 hc1]
          exact splitBack_first p s.data 0 hl hc
      · have hns : ¬ Stumbles 2 s.data := by
          rintro (⟨h, -⟩ | ⟨-, -, h⟩)
          · omega
          · exact hc1 h
        by_cases hlast : s.data.length ≤ 0 + 1
        · refine .inr (.inr ⟨hns, ?_, ?_⟩)
          · rintro (⟨h, -⟩ | ⟨-, ⟨j, h, h'⟩, -⟩ | ⟨h, -⟩)
            · omega
            · have := (continuesAt_lt h'); omega
            · omega
          · rw [hS]
            obtain ⟨k, hk⟩ : ∃ k, s.data.length + 1 = k + 2 := ⟨s.data.length - 1, by omega⟩
            rw [hk]
            exact step_last p s 1 k 0 [] hpos hlast
        · have hm := splitBack_here p s.data 1 (0 + 1) (by omega) hc1
          obtain ⟨i1, i2⟩ := loop_one p s hcp _ (0 + 1) rfl (by omega) hc1
          by_cases hj : ∃ j, 0 + 1 < j ∧ ContinuesAt s.data j
          · refine .inl ⟨.inr (.inl ⟨rfl, ?_, fun h => hc1 h.2⟩), fun fuel => ?_⟩
            · obtain ⟨j, a, b⟩ := hj
              exact ⟨j, by omega, b⟩
            · rw [hF]
              exact forever_of_step p s hcp 1 0 _ (by omega) hm (by omega) (by omega) (i1 hj) fuel []
          · refine .inr (.inr ⟨hns, ?_, ?_⟩)
            · rintro (⟨h, -⟩ | ⟨-, ⟨j, h, h'⟩, -⟩ | ⟨h, -⟩)
              · omega
              · refine hj ⟨j, ?_, h'⟩
                have : j ≠ 1 := by rintro rfl; exact hc1 h'
                omega
              · omega
            · rw [hS]
              exact ends_of_step p s hcp 1 0 _ (by omega) hm (by omega) (by omega) (i2 hj) _ [] (by omega)
    · obtain ⟨i1, i2⟩ := loop_one p s hcp _ 0 rfl hpos hc
      have hns : ¬ Stumbles 2 s.data := by
        rintro (⟨h, -⟩ | ⟨-, h, -⟩)
        · omega
        · exact hc h
      by_cases hj : ∃ j, 0 < j ∧ ContinuesAt s.data j
      · exact .inl ⟨.inr (.inl ⟨rfl, hj, fun h => hc h.1⟩), fun fuel => by rw [hF]; exact i1 hj fuel []⟩
      · refine .inr (.inr ⟨hns, ?_, ?_⟩)
        · rintro (⟨h, -⟩ | ⟨-, h, -⟩ | ⟨h, -⟩)
          · omega
          · exact hj h
          · omega
        · rw [hS]
          exact i2 hj _ [] (by omega)
  · obtain ⟨i1, i2⟩ := loop_two p s hcp _ 0 rfl hpos
    by_cases hj : ∃ i, 0 ≤ i ∧ ContinuesAt s.data (i + 1) ∧ ContinuesAt s.data (i + 2)
    · refine .inl ⟨.inr (.inr ⟨rfl, ?_⟩), fun fuel => by rw [hF]; exact i1 hj fuel []⟩
      obtain ⟨i, -, h⟩ := hj
      exact ⟨i, h⟩
    · refine .inr (.inr ⟨?_, ?_, ?_⟩)
      · rintro (⟨h, -⟩ | ⟨h, -⟩) <;> omega
      · rintro (⟨h, -⟩ | ⟨h, -⟩ | ⟨-, i, h⟩)
        · omega
        · omega
        · exact hj ⟨i, Nat.zero_le _, h⟩
      · rw [hS]
        exact i2 hj _ [] (by omega)
  · obtain ⟨pieces, h, -⟩ := C30_split_partial p s n hd (by omega) (fun _ => h4)
    refine .inr (.inr ⟨?_, ?_, _, h⟩)
    · rintro (⟨h, -⟩ | ⟨h, -⟩) <;> omega
    · rintro (⟨h, -⟩ | ⟨h, -⟩ | ⟨h, -⟩) <;> omega

/-- C120 is false for `split`, exactly, whatever bytes a text that is marked as UTF-8 has: it is split forever if the pieces have one byte and
the text does not begin in the middle of a character, or two bytes and any byte but the first continues a character (but not the first two both),
or three bytes and there are two bytes in a row, not the first, that continue a character. -/
theorem C120_split_bytes_refuted (p : Profile) (s : StringDVB) (n : Nat) (hcp : s.codepage.toNat = 21) (hl : s.data.length < 2 ^ 63) :
    ((∀ fuel, s.splitFuel p fuel n = .error .diverge) ↔ Stuck n s.data) ∧ (Ends (s.split p n) ↔ ¬ Stuck n s.data) := by
  have h0 : s.codepage ≠ 0 := by intro e; rw [e] at hcp; simp at hcp
  have hres : reserved s.codepage = 1 := by rw [reserved, if_neg h0, if_pos hcp]
  have key : (Stuck n s.data ∧ ∀ fuel, s.splitFuel p fuel n = .error .diverge) ∨ (¬ Stuck n s.data ∧ Ends (s.split p n)) := by
    by_cases h1 : 1 ≤ n
    · rcases split_bytes p s n hcp hl h1 with ⟨a, b⟩ | ⟨-, a, b⟩ | ⟨-, a, b⟩
      · exact .inl ⟨a, b⟩
      · exact .inr ⟨a, .inr b⟩
      · exact .inr ⟨a, .inl b⟩
    · refine .inr ⟨?_, ?_⟩
      · rintro (⟨h, -⟩ | ⟨h, -⟩ | ⟨h, -⟩) <;> omega
      · by_cases hd : s.data = []
        · exact ends_empty p s n hd
        · exact ends_underflow p s n (by omega) hd hl
  rcases key with ⟨a, b⟩ | ⟨a, b⟩
  · exact ⟨⟨fun _ => a, fun _ => b⟩, ⟨fun h => absurd h (not_ends_of_forever p s n b), fun h => absurd a h⟩⟩
  · exact ⟨⟨fun h => absurd b (not_ends_of_forever p s n h), fun h => absurd h a⟩, ⟨fun _ => a, fun _ => b⟩⟩

/-- C30, whatever bytes a text that is marked as UTF-8 has: with room for the selector `split` panics exactly if the pieces have one byte and the
text begins in the middle of a character, or two bytes and the first two bytes of the text continue a character. -/
theorem C30_bytes_refuted (p : Profile) (s : StringDVB) (n : Nat) (hcp : s.codepage.toNat = 21) (hl : s.data.length < 2 ^ 63) (h1 : 1 ≤ n) :
    s.split p n = panic ↔ Stumbles n s.data := by
  rcases split_bytes p s n hcp hl h1 with ⟨a, b⟩ | ⟨a, -, b⟩ | ⟨a, -, l, b⟩
  · refine ⟨fun h => ?_, fun h => ?_⟩
    · have := b (s.data.length + 1)
      rw [StringDVB.split, this] at h
      exact absurd h (by simp [panic])
    · rcases h with ⟨h, h'⟩ | ⟨h, h'⟩ <;> rcases a with ⟨g, -, g'⟩ | ⟨g, -, g'⟩ | ⟨g, -⟩ <;> first | omega | exact absurd h' g'
  · exact ⟨fun _ => a, fun _ => b⟩
  · refine ⟨fun h => ?_, fun h => absurd h a⟩
    rw [b] at h
    exact absurd h (by simp [panic])

/-- Text cut off in the middle of a letter, and text of two Latin-1 letters. -/
example : Stuck 2 [0x41, 0x42, 0xBF] ∧ Stuck 3 [0x80, 0xB0, 0xA0, 0x41] ∧ ¬ Stuck 3 [0x80, 0xB0, 0x41] ∧ Stumbles 2 [0x80, 0xB0, 0xA0] := by
  refine ⟨.inr (.inl ⟨rfl, ⟨2, by decide, by decide⟩, by decide⟩), .inr (.inr ⟨rfl, 0, by decide, by decide⟩), ?_, .inr ⟨rfl, by decide, by decide⟩⟩
  rintro (⟨h, -⟩ | ⟨h, -⟩ | ⟨-, i, h, h'⟩)
  · omega
  · omega
  · have := (continuesAt_lt h')
    obtain rfl : i = 0 := by simp at this; omega
    exact absurd h' (by decide)
example : (StringDVB.mk 21 [0x80, 0xB0]).split .release 2 = panic :=
  (C30_bytes_refuted .release ⟨21, [0x80, 0xB0]⟩ 2 rfl (by decide) (by decide)).2 (.inr ⟨rfl, by decide, by decide⟩)
example : ∀ fuel, (StringDVB.mk 21 [0x41, 0x42, 0xBF]).splitFuel .debug fuel 2 = .error .diverge :=
  (C120_split_bytes_refuted .debug ⟨21, [0x41, 0x42, 0xBF]⟩ 2 rfl (by decide)).1.2 (.inr (.inl ⟨rfl, ⟨2, by decide, by decide⟩, by decide⟩))

end Mpegts
