import Verif.Model.Tool
import Verif.Model.Text
import Verif.Spec.Mapping
import Verif.Spec.CodePage
import Verif.Props.C27_C28

/-! # C119: the generator of the code page tables -/

namespace Mpegts
open Spec Spec.Mapping

namespace Tool

theorem linesLoop_line (cur l rest : List Char) (h : '\n' ∉ l) :
    linesLoop cur (l ++ '\n' :: rest) = stripCr (cur ++ l) :: linesLoop [] rest := by
  induction l generalizing cur with
  | nil => simp [linesLoop]
  | cons c l ih =>
    have hc : c ≠ '\n' := fun e => h (by simp [e])
    rw [List.cons_append, linesLoop, if_neg hc, ih _ (fun hm => h (by simp [hm]))]
    simp

theorem digit_value : ∀ n < 16, digitValue 16 (upperDigit n) = some n ∧ upperDigit n ≠ '+' ∧ upperDigit n ≠ '\n' ∧
    isWhitespace (upperDigit n) = false ∧ (upperDigit n).utf8Size = 1 := by decide +kernel

theorem digits2 (d : Nat → Char) (n : Nat) : digits d 2 n = [d (n / 16 % 16), d (n % 16)] := by
  simp [digits]

theorem digits4 (d : Nat → Char) (n : Nat) : digits d 4 n = [d (n / 16 / 16 / 16 % 16), d (n / 16 / 16 % 16), d (n / 16 % 16), d (n % 16)] := by
  simp [digits]

theorem line_clean (l : Line) (hv : l.Valid) : '\n' ∉ l.text := by
  cases l with
  | comment t =>
    have hv : '\n' ∉ t := hv
    simpa [Line.text] using hv
  | empty => simp [Line.text]
  | entry b c t =>
    obtain ⟨hb, hc, ht⟩ := hv
    have e : ∀ n, upperDigit (n % 16) ≠ '\n' := fun n => (digit_value _ (Nat.mod_lt _ (by decide))).2.2.1
    simp only [Line.text, digits2, digits4]
    simp only [List.mem_append, List.mem_cons, List.not_mem_nil, or_false, ht, not_or]
    refine ⟨⟨⟨⟨⟨by decide, by decide⟩, (e _).symm, (e _).symm⟩, ⟨by decide, by decide, by decide⟩⟩, (e _).symm, (e _).symm, (e _).symm, (e _).symm⟩, by decide⟩

theorem lines_file (ls : List Line) (hv : ∀ l ∈ ls, l.Valid) (more : List Char) :
    linesLoop [] (fileText ls ++ more) = (ls.map fun l => stripCr l.text) ++ linesLoop [] more := by
  induction ls with
  | nil => rfl
  | cons l ls ih =>
    have e : fileText (l :: ls) ++ more = l.text ++ '\n' :: (fileText ls ++ more) := by simp [fileText]
    rw [e, linesLoop_line _ _ _ (line_clean l (hv l (by simp))), ih (fun m hm => hv m (by simp [hm]))]
    simp

theorem stripCr_prefix (a b : List Char) (hl : a.getLast? ≠ some '\r') : ∃ b', stripCr (a ++ b) = a ++ b' ∧ b' <+: b := by
  unfold stripCr
  by_cases hb : b = []
  · subst hb
    rw [List.append_nil, if_neg hl]; exact ⟨[], by simp, List.nil_prefix⟩
  · split
    · exact ⟨b.dropLast, List.dropLast_append_of_ne_nil hb, List.dropLast_prefix b⟩
    · exact ⟨b, rfl, List.prefix_refl b⟩

theorem trimRight_prefix (a b : List Char) (c : Char) (hc : isWhitespace c = false) :
    ∃ b', trimRight (a ++ c :: b) = a ++ c :: b' ∧ b' <+: b := by
  have key : ∀ (r tail : List Char), ∃ r', (r ++ c :: tail).dropWhile isWhitespace = r' ++ c :: tail ∧ r' <:+ r := by
    intro r tail
    induction r with
    | nil => exact ⟨[], by simp [hc], List.suffix_refl _⟩
    | cons x r ih =>
      rw [List.cons_append, List.dropWhile_cons]
      split
      · obtain ⟨r', e, h⟩ := ih
        exact ⟨r', e, h.trans (List.suffix_cons x r)⟩
      · exact ⟨x :: r, rfl, List.suffix_refl _⟩
  obtain ⟨r', e, h⟩ := key b.reverse a.reverse
  refine ⟨r'.reverse, ?_, ?_⟩
  · rw [trimRight]
    have : (a ++ c :: b).reverse = b.reverse ++ c :: a.reverse := by simp
    rw [this, e]; simp
  · have := List.reverse_prefix.mpr h
    simpa using this

theorem trimLeft_same (c : Char) (r : List Char) (h : isWhitespace c = false) : trimLeft (c :: r) = c :: r := by
  simp [trimLeft, h]

theorem parse_cons (radix limit : Nat) (c : Char) (rest : List Char) (hc : c ≠ '+') :
    parseUnsigned radix limit (c :: rest) = match digitsLoop radix limit 0 (c :: rest) with
      | some v => .ok v
      | none => panic := by
  unfold parseUnsigned
  split
  · rename_i h; injection h with h1; exact absurd h1 hc
  · rfl

theorem parse2 (b : Nat) (hb : b < 256) : parseUnsigned 16 256 (digits upperDigit 2 b) = .ok b := by
  rw [digits2]
  obtain ⟨v1, p1, -⟩ := digit_value (b / 16 % 16) (Nat.mod_lt _ (by decide))
  obtain ⟨v0, -⟩ := digit_value (b % 16) (Nat.mod_lt _ (by decide))
  rw [parse_cons _ _ _ _ p1]
  simp only [digitsLoop, v1, v0]
  rw [if_pos (by omega), if_pos (by omega)]
  simp only []
  congr 1; omega

theorem parse4 (u : Nat) (hu : u < 65536) : parseUnsigned 16 65536 (digits upperDigit 4 u) = .ok u := by
  rw [digits4]
  obtain ⟨v3, p3, -⟩ := digit_value (u / 16 / 16 / 16 % 16) (Nat.mod_lt _ (by decide))
  obtain ⟨v2, -⟩ := digit_value (u / 16 / 16 % 16) (Nat.mod_lt _ (by decide))
  obtain ⟨v1, -⟩ := digit_value (u / 16 % 16) (Nat.mod_lt _ (by decide))
  obtain ⟨v0, -⟩ := digit_value (u % 16) (Nat.mod_lt _ (by decide))
  rw [parse_cons _ _ _ _ p3]
  simp only [digitsLoop, v3, v2, v1, v0]
  rw [if_pos (by omega), if_pos (by omega), if_pos (by omega), if_pos (by omega)]
  simp only []
  congr 1; omega

theorem digitValue_eq (base : Nat) (hb : base = 10 ∨ base = 16) (c : Char) : digitValue base c = digitOf base c := by
  by_cases hc : c.toNat < 128
  · have key : ∀ n < 128, digitValue 10 (Char.ofNat n) = digitOf 10 (Char.ofNat n) ∧ digitValue 16 (Char.ofNat n) = digitOf 16 (Char.ofNat n) := by
      decide +kernel
    have := key c.toNat hc
    rw [Char.ofNat_toNat] at this
    rcases hb with rfl | rfl
    · exact this.1
    · exact this.2
  · have h1 : digitValue base c = none := by
      unfold digitValue
      simp only []
      rw [if_neg (by omega), if_neg (by omega), if_neg (by omega)]
    have hd : ∀ v < 16, (upperDigit v).toNat < 128 ∧ (lowerDigit v).toNat < 128 := by decide +kernel
    rw [h1, digitOf, eq_comm, List.find?_eq_none]
    intro v hv
    have hv16 : v < 16 := by have := List.mem_range.1 hv; omega
    simp only [decide_eq_true_eq, not_or]
    exact ⟨fun e => hc (e ▸ (hd v hv16).1), fun e => hc (e ▸ (hd v hv16).2)⟩

theorem digitsLoop_eq (base limit : Nat) (hb : base = 10 ∨ base = 16) (s : List Char) : ∀ acc, acc < limit →
    digitsLoop base limit acc s = (s.foldlM (fun n c => (digitOf base c).map (n * base + ·)) acc).filter (· < limit) := by
  have big : ∀ (s : List Char) (acc : Nat), limit ≤ acc → ∀ v, s.foldlM (fun n c => (digitOf base c).map (n * base + ·)) acc = some v → limit ≤ v := by
    intro s
    induction s with
    | nil => intro acc h v e; injection e with e; omega
    | cons c s ih =>
      intro acc h v e
      rw [List.foldlM_cons] at e
      cases hd : digitOf base c with
      | none => rw [hd] at e; cases e
      | some d =>
        rw [hd] at e
        refine ih (acc * base + d) ?_ v e
        have : acc * 1 ≤ acc * base := Nat.mul_le_mul_left _ (by omega)
        omega
  induction s with
  | nil =>
    intro acc h
    show some acc = (some acc).filter _
    simp [Option.filter, h]
  | cons c s ih =>
    intro acc h
    rw [digitsLoop, digitValue_eq base hb, List.foldlM_cons]
    cases hd : digitOf base c with
    | none => rfl
    | some d =>
      simp only [Option.map_some]
      show _ = (s.foldlM (fun n c => (digitOf base c).map (n * base + ·)) (acc * base + d) : Option Nat).filter _
      split
      · rename_i h'; exact ih _ h'
      · rename_i h'
        cases hv : s.foldlM (fun n c => (digitOf base c).map (n * base + ·)) (acc * base + d) with
        | none => rfl
        | some v =>
          have := big s _ (by omega) v hv
          simp [Option.filter]; omega

theorem parseUnsigned_eq (base limit : Nat) (hb : base = 10 ∨ base = 16) (hl : 0 < limit) (s : List Char) :
    parseUnsigned base limit s = match numberBelow limit base s with
      | some v => .ok v
      | none => panic := by
  have key : ∀ w : List Char, (if w.isEmpty then (panic : R Nat) else match digitsLoop base limit 0 w with
      | some v => .ok v
      | none => panic) = match (if w = [] then none else (valueOf base w).filter (· < limit)) with
      | some v => .ok v
      | none => panic := by
    intro w
    cases w with
    | nil => rfl
    | cons c w =>
      rw [digitsLoop_eq base limit hb _ 0 hl]
      rfl
  unfold parseUnsigned numberBelow
  split
  · exact key _
  · rename_i h
    have : s.head? ≠ some '+' := by
      intro e
      cases s with
      | nil => cases e
      | cons c s => injection e with e; exact h s (by rw [e])
    simp only [if_neg this]
    exact key _

theorem numberBelow_lt {limit base : Nat} {w : List Char} {b : Nat} (hn : numberBelow limit base w = some b) : b < limit := by
  unfold numberBelow at hn
  simp only [] at hn
  split at hn <;> split at hn <;> first | cases hn | (have := Option.filter_eq_some_iff.1 hn; simpa using this.2)

/-- A line with two numbers, whatever their digits. -/
theorem columns_step (arr : List Nat) (ha : arr.length = 96) (w₁ w₂ tail : List Char) (sep : Char) (hs : isWhitespace sep = true)
    (h1 : ∀ c ∈ w₁, isWhitespace c = false) (h2 : ∀ c ∈ w₂, isWhitespace c = false) (ht : ∀ c, tail.head? = some c → isWhitespace c = true)
    (rest : List (List Char)) :
    tableLoop arr (stripCr (t!"0x" ++ w₁ ++ [sep] ++ t!"0x" ++ w₂ ++ tail) :: rest) = (match numberBelow 256 16 w₁ with
      | none => panic
      | some b => if b < 0xA0 then tableLoop arr rest else match numberBelow 65536 16 w₂ with
        | none => panic
        | some c => tableLoop (arr.set (b - 0xA0) c) rest) := by
  have w0 : isWhitespace '0' = false := by decide
  have wx : isWhitespace 'x' = false := by decide
  obtain ⟨z, lz, hz, hzw⟩ : ∃ z lz, ('x' :: w₂) = lz ++ [z] ∧ isWhitespace z = false := by
    refine ⟨('x' :: w₂).getLast (by simp), ('x' :: w₂).dropLast, (List.dropLast_concat_getLast (by simp)).symm, ?_⟩
    have := List.getLast_mem (l := 'x' :: w₂) (by simp)
    rcases List.mem_cons.1 this with h | h
    · rw [h]; exact wx
    · exact h2 _ h
  have hzr : z ≠ '\r' := by rintro rfl; exact absurd hzw (by decide)
  have e0 : t!"0x" ++ w₁ ++ [sep] ++ t!"0x" ++ w₂ ++ tail = ('0' :: 'x' :: (w₁ ++ sep :: '0' :: lz) ++ [z]) ++ tail := by
    have : t!"0x" ++ w₁ ++ [sep] ++ t!"0x" ++ w₂ ++ tail = '0' :: 'x' :: (w₁ ++ sep :: '0' :: ('x' :: w₂)) ++ tail := by simp
    rw [this, hz]; simp
  obtain ⟨t', e, ht'⟩ := stripCr_prefix ('0' :: 'x' :: (w₁ ++ sep :: '0' :: lz) ++ [z]) tail (by rw [List.getLast?_concat]; simpa using hzr)
  rw [e0, e, tableLoop]
  have el : '0' :: 'x' :: (w₁ ++ sep :: '0' :: lz) ++ [z] ++ t' = '0' :: 'x' :: (w₁ ++ sep :: '0' :: lz ++ [z] ++ t') := by simp
  rw [el, trimLeft_same _ _ w0]
  obtain ⟨s, es, hs'⟩ := trimRight_prefix ('0' :: 'x' :: (w₁ ++ sep :: '0' :: lz)) t' z hzw
  have es' : trimRight ('0' :: 'x' :: (w₁ ++ sep :: '0' :: lz ++ [z] ++ t')) = '0' :: 'x' :: (w₁ ++ sep :: '0' :: 'x' :: (w₂ ++ s)) := by
    have a1 : '0' :: 'x' :: (w₁ ++ sep :: '0' :: lz ++ [z] ++ t') = '0' :: 'x' :: (w₁ ++ sep :: '0' :: lz) ++ z :: t' := by simp
    have a2 : '0' :: 'x' :: (w₁ ++ sep :: '0' :: lz) ++ z :: s = '0' :: 'x' :: (w₁ ++ sep :: '0' :: ((lz ++ [z]) ++ s)) := by simp
    rw [a1, es, a2, ← hz]; simp
  have hsw : ∀ c, s.head? = some c → isWhitespace c = true := by
    intro c hc
    cases s with
    | nil => cases hc
    | cons x r =>
      injection hc with hc
      subst hc
      have hp := hs'.trans ht'
      obtain ⟨q, hq⟩ := hp
      exact ht x (by rw [← hq]; rfl)
  have tk : ∀ (w r : List Char), (∀ c ∈ w, isWhitespace c = false) → (∀ c, r.head? = some c → isWhitespace c = true) →
      List.takeWhile (!isWhitespace ·) (w ++ r) = w ∧ List.dropWhile (!isWhitespace ·) (w ++ r) = r := by
    intro w r hw hr
    induction w with
    | nil =>
      cases r with
      | nil => exact ⟨rfl, rfl⟩
      | cons x r => simp [List.takeWhile_cons, List.dropWhile_cons, hr x rfl]
    | cons a w ih =>
      have := ih fun c h => hw c (List.mem_cons_of_mem _ h)
      simp [List.takeWhile_cons, List.dropWhile_cons, hw a (by simp), this.1, this.2]
  have k := tk ('0' :: 'x' :: w₁) (sep :: '0' :: 'x' :: (w₂ ++ s)) (by
    intro c hc
    rcases List.mem_cons.1 hc with rfl | hc
    · exact w0
    rcases List.mem_cons.1 hc with rfl | hc
    · exact wx
    exact h1 c hc) (by intro c hc; injection hc with hc; rw [← hc]; exact hs)
  have k' := tk ('0' :: 'x' :: w₂) s (by
    intro c hc
    rcases List.mem_cons.1 hc with rfl | hc
    · exact w0
    rcases List.mem_cons.1 hc with rfl | hc
    · exact wx
    exact h2 c hc) hsw
  simp only [es', List.head?_cons, Option.some.injEq, show ('0' : Char) ≠ '#' by decide, if_false, List.isEmpty_cons, Bool.false_eq_true]
  have f : ∀ w, from2 ('0' :: 'x' :: w) = .ok w := fun _ => rfl
  have k1 : List.takeWhile (!isWhitespace ·) ('0' :: 'x' :: (w₁ ++ sep :: '0' :: 'x' :: (w₂ ++ s))) = '0' :: 'x' :: w₁ := k.1
  have k2 : List.dropWhile (!isWhitespace ·) ('0' :: 'x' :: (w₁ ++ sep :: '0' :: 'x' :: (w₂ ++ s))) = sep :: '0' :: 'x' :: (w₂ ++ s) := k.2
  have k3 : List.takeWhile (!isWhitespace ·) ('0' :: 'x' :: (w₂ ++ s)) = '0' :: 'x' :: w₂ := k'.1
  rw [k1, k2, f, ok_bind, parseUnsigned_eq 16 256 (.inr rfl) (by decide)]
  cases hn : numberBelow 256 16 w₁ with
  | none => rfl
  | some b =>
    have hb : b < 256 := numberBelow_lt hn
    simp only [ok_bind]
    by_cases hA : b < 0xA0
    · rw [if_pos hA, if_pos hA]
    · rw [if_neg hA, if_neg hA, k3, f, ok_bind, parseUnsigned_eq 16 65536 (.inr rfl) (by decide)]
      cases numberBelow 65536 16 w₂ with
      | none => rfl
      | some c => simp only [ok_bind]; rw [if_pos (by omega)]

/-- What one line does to the array. -/
def update (arr : List Nat) : Line → List Nat
  | .entry b c _ => if b < 0xA0 then arr else arr.set (b - 0xA0) c
  | _ => arr

theorem line_step (arr : List Nat) (ha : arr.length = 96) (l : Line) (hv : l.Valid) (rest : List (List Char)) :
    tableLoop arr (stripCr l.text :: rest) = tableLoop (update arr l) rest := by
  cases l with
  | comment t =>
    obtain ⟨b', e, -⟩ := stripCr_prefix ['#'] t (by decide)
    rw [Line.text, e, tableLoop]
    have : trimLeft (['#'] ++ b') = '#' :: b' := trimLeft_same '#' b' (by decide)
    rw [this]; rfl
  | empty => rfl
  | entry b c t =>
    obtain ⟨hb, hc, ht⟩ := hv
    have w : ∀ n, isWhitespace (upperDigit (n % 16)) = false := fun n => (digit_value _ (Nat.mod_lt _ (by decide))).2.2.2.1
    have z : ∀ n, (upperDigit (n % 16)).utf8Size = 1 := fun n => (digit_value _ (Nat.mod_lt _ (by decide))).2.2.2.2
    have p2 := parse2 b hb
    have p4 := parse4 c hc
    rw [digits2] at p2
    rw [digits4] at p4
    simp only [Line.text, digits2, digits4]
    have wb1 := w (b / 16); have wb0 := w b
    have wc3 := w (c / 16 / 16 / 16); have wc2 := w (c / 16 / 16); have wc1 := w (c / 16); have wc0 := w c
    have zb1 := z (b / 16); have zb0 := z b
    generalize upperDigit (b / 16 % 16) = b1 at *
    generalize upperDigit (b % 16) = b0 at *
    generalize upperDigit (c / 16 / 16 / 16 % 16) = c3 at *
    generalize upperDigit (c / 16 / 16 % 16) = c2 at *
    generalize upperDigit (c / 16 % 16) = c1 at *
    generalize upperDigit (c % 16) = c0 at *
    obtain ⟨t', e, ht'⟩ := stripCr_prefix (t!"0x" ++ [b1, b0] ++ t!"\t0x" ++ [c3, c2, c1, c0] ++ t!"\t") t (by simp)
    rw [e, tableLoop]
    have el : t!"0x" ++ [b1, b0] ++ t!"\t0x" ++ [c3, c2, c1, c0] ++ t!"\t" ++ t' = '0' :: 'x' :: b1 :: b0 :: '\t' :: '0' :: 'x' :: c3 :: c2 :: c1 :: c0 :: '\t' :: t' := rfl
    rw [el, trimLeft_same _ _ (by decide)]
    obtain ⟨s, es, hs⟩ := trimRight_prefix ('0' :: 'x' :: b1 :: b0 :: '\t' :: '0' :: 'x' :: c3 :: c2 :: c1 :: []) ('\t' :: t') c0 wc0
    have es' : trimRight ('0' :: 'x' :: b1 :: b0 :: '\t' :: '0' :: 'x' :: c3 :: c2 :: c1 :: c0 :: '\t' :: t') =
      '0' :: 'x' :: b1 :: b0 :: '\t' :: '0' :: 'x' :: c3 :: c2 :: c1 :: c0 :: s := es
    have hsw : s = [] ∨ ∃ r, s = '\t' :: r := by
      cases s with
      | nil => exact .inl rfl
      | cons x r => exact .inr ⟨r, by have := List.cons_prefix_cons.mp hs; rw [this.1]⟩
    simp only [es', List.head?_cons, Option.some.injEq, show ('0' : Char) ≠ '#' by decide, if_false, List.isEmpty_cons, Bool.false_eq_true]
    have w0 : isWhitespace '0' = false := by decide
    have wx : isWhitespace 'x' = false := by decide
    have wt : isWhitespace '\t' = true := by decide
    have k1 : List.takeWhile (!isWhitespace ·) ('0' :: 'x' :: b1 :: b0 :: '\t' :: '0' :: 'x' :: c3 :: c2 :: c1 :: c0 :: s) = ['0', 'x', b1, b0] := by
      simp [List.takeWhile_cons, w0, wx, wb1, wb0, wt]
    have k2 : List.dropWhile (!isWhitespace ·) ('0' :: 'x' :: b1 :: b0 :: '\t' :: '0' :: 'x' :: c3 :: c2 :: c1 :: c0 :: s) =
        '\t' :: '0' :: 'x' :: c3 :: c2 :: c1 :: c0 :: s := by
      simp [List.dropWhile_cons, w0, wx, wb1, wb0, wt]
    have k3 : List.takeWhile (!isWhitespace ·) ('0' :: 'x' :: c3 :: c2 :: c1 :: c0 :: s) = ['0', 'x', c3, c2, c1, c0] := by
      rcases hsw with rfl | ⟨r, rfl⟩ <;> simp [List.takeWhile_cons, w0, wx, wc3, wc2, wc1, wc0, wt]
    have f1 : from2 ['0', 'x', b1, b0] = .ok [b1, b0] := rfl
    have f2 : from2 ['0', 'x', c3, c2, c1, c0] = .ok [c3, c2, c1, c0] := rfl
    rw [k1, k2, f1, ok_bind, p2, ok_bind]
    by_cases hA : b < 0xA0
    · rw [if_pos hA, update, if_pos hA]
    · rw [if_neg hA]
      simp only []
      rw [k3, f2, ok_bind, p4, ok_bind, if_pos (by omega), update, if_neg hA]

theorem update_length (arr : List Nat) (l : Line) : (update arr l).length = arr.length := by
  cases l with
  | comment t => rfl
  | empty => rfl
  | entry b c t => rw [update]; split <;> simp

theorem tableLoop_more (ls : List Line) (hv : ∀ l ∈ ls, l.Valid) (arr : List Nat) (ha : arr.length = 96) (more : List (List Char)) :
    tableLoop arr ((ls.map fun l => stripCr l.text) ++ more) = tableLoop (ls.foldl update arr) more := by
  induction ls generalizing arr with
  | nil => rfl
  | cons l ls ih =>
    rw [List.map_cons, List.cons_append, line_step arr ha l (hv l (by simp)), ih (fun m hm => hv m (by simp [hm])) _ (by rw [update_length, ha])]
    rfl

theorem tableLoop_lines (ls : List Line) (hv : ∀ l ∈ ls, l.Valid) (arr : List Nat) (ha : arr.length = 96) :
    tableLoop arr (ls.map fun l => stripCr l.text) = .ok (ls.foldl update arr) := by
  have h := tableLoop_more ls hv arr ha []
  rw [List.append_nil] at h
  exact h

theorem two_separators (b : Nat) (hb : b < 256) (s₁ s₂ : Char) (h1 : isWhitespace s₁ = true) (h2 : isWhitespace s₂ = true) (t : List Char)
    (arr : List Nat) (rest : List (List Char)) :
    tableLoop arr (stripCr (t!"0x" ++ digits upperDigit 2 b ++ [s₁, s₂] ++ t) :: rest) = if b < 0xA0 then tableLoop arr rest else panic := by
  have w : ∀ n, isWhitespace (upperDigit (n % 16)) = false := fun n => (digit_value _ (Nat.mod_lt _ (by decide))).2.2.2.1
  have z : ∀ n, (upperDigit (n % 16)).utf8Size = 1 := fun n => (digit_value _ (Nat.mod_lt _ (by decide))).2.2.2.2
  have p2 := parse2 b hb
  rw [digits2] at p2
  simp only [digits2]
  have wb1 := w (b / 16); have wb0 := w b
  have zb1 := z (b / 16); have zb0 := z b
  generalize upperDigit (b / 16 % 16) = b1 at *
  generalize upperDigit (b % 16) = b0 at *
  have hcr : b0 ≠ '\r' := by
    rintro rfl
    exact absurd wb0 (by decide)
  obtain ⟨t', e, ht'⟩ := stripCr_prefix (t!"0x" ++ [b1, b0]) (s₁ :: s₂ :: t) (by simpa using hcr)
  have el : t!"0x" ++ [b1, b0] ++ [s₁, s₂] ++ t = t!"0x" ++ [b1, b0] ++ (s₁ :: s₂ :: t) := rfl
  rw [el, e, tableLoop]
  have el : t!"0x" ++ [b1, b0] ++ t' = '0' :: 'x' :: b1 :: b0 :: t' := rfl
  rw [el, trimLeft_same _ _ (by decide)]
  obtain ⟨s, es, hs⟩ := trimRight_prefix ('0' :: 'x' :: b1 :: []) t' b0 wb0
  have es' : trimRight ('0' :: 'x' :: b1 :: b0 :: t') = '0' :: 'x' :: b1 :: b0 :: s := es
  have hp := hs.trans ht'
  have hsw : s = [] ∨ s = [s₁] ∨ ∃ r, s = s₁ :: s₂ :: r := by
    cases s with
    | nil => exact .inl rfl
    | cons x r =>
      have h := List.cons_prefix_cons.mp hp
      cases r with
      | nil => exact .inr (.inl (by rw [h.1]))
      | cons y r =>
        have h' := List.cons_prefix_cons.mp h.2
        exact .inr (.inr ⟨r, by rw [h.1, h'.1]⟩)
  simp only [es', List.head?_cons, Option.some.injEq, show ('0' : Char) ≠ '#' by decide, if_false, List.isEmpty_cons, Bool.false_eq_true]
  have w0 : isWhitespace '0' = false := by decide
  have wx : isWhitespace 'x' = false := by decide
  have k1 : List.takeWhile (!isWhitespace ·) ('0' :: 'x' :: b1 :: b0 :: s) = ['0', 'x', b1, b0] := by
    rcases hsw with rfl | rfl | ⟨r, rfl⟩ <;> simp [List.takeWhile_cons, w0, wx, wb1, wb0, h1]
  have k2 : List.dropWhile (!isWhitespace ·) ('0' :: 'x' :: b1 :: b0 :: s) = s := by
    rcases hsw with rfl | rfl | ⟨r, rfl⟩ <;> simp [List.dropWhile_cons, w0, wx, wb1, wb0, h1]
  have f1 : from2 ['0', 'x', b1, b0] = .ok [b1, b0] := rfl
  rw [k1, k2, f1, ok_bind, p2, ok_bind]
  by_cases hA : b < 0xA0
  · rw [if_pos hA, if_pos hA]
  · rw [if_neg hA, if_neg hA]
    rcases hsw with rfl | rfl | ⟨r, rfl⟩
    · rfl
    · rfl
    · simp only [List.takeWhile_cons, h2]; rfl

theorem fold_get (ls : List Line) (arr : List Nat) (ha : arr.length = 96) (i : Nat) (hi : i < 96) :
    (ls.foldl update arr).length = 96 ∧
    (ls.foldl update arr).getD i 0 = (ls.filterMap (Line.assigns (0xA0 + i))).getLast?.getD (arr.getD i 0) := by
  induction ls generalizing arr with
  | nil => exact ⟨ha, rfl⟩
  | cons l ls ih =>
    obtain ⟨h1, h2⟩ := ih (update arr l) (by rw [update_length, ha])
    refine ⟨h1, ?_⟩
    rw [List.foldl_cons, h2]
    have key : (update arr l).getD i 0 = (l.assigns (0xA0 + i)).getD (arr.getD i 0) := by
      cases l with
      | comment t => rfl
      | empty => rfl
      | entry b c t =>
        simp only [update, Line.assigns]
        by_cases hb : b < 0xA0
        · rw [if_pos hb, if_neg (by omega)]; rfl
        · rw [if_neg hb]
          by_cases e : b = 0xA0 + i
          · rw [if_pos e]
            have : b - 0xA0 = i := by omega
            rw [this, List.getD_eq_getElem?_getD, List.getElem?_set_self (by omega)]; rfl
          · rw [if_neg e, List.getD_eq_getElem?_getD, List.getElem?_set_ne (by omega)]; rfl
    rw [key, List.filterMap_cons]
    cases hl : l.assigns (0xA0 + i) with
    | none => rfl
    | some v =>
      simp only []
      rw [List.getLast?_cons]; simp

theorem digitChar_lower : ∀ n < 16, n.digitChar = lowerDigit n := by decide +kernel

theorem hex4_eq (u : Nat) (hu : u < 65536) : hex4 u = digits lowerDigit 4 u := by
  have D : ∀ n, (n % 16).digitChar = lowerDigit (n % 16) := fun n => digitChar_lower _ (Nat.mod_lt _ (by decide))
  have S : ∀ n, n < 16 → Nat.toDigits 16 n = [lowerDigit (n % 16)] := fun n hn => by
    rw [Nat.toDigits_of_lt_base hn, digitChar_lower n hn, Nat.mod_eq_of_lt hn]
  have L : ∀ n, 16 ≤ n → Nat.toDigits 16 n = Nat.toDigits 16 (n / 16) ++ [lowerDigit (n % 16)] := fun n hn => by
    rw [Nat.toDigits_of_base_le (by decide) hn, D]
  have Z : lowerDigit 0 = '0' := by decide
  rw [digits4]
  unfold hex4
  by_cases h1 : u < 16
  · rw [S u h1]
    have e1 : u / 16 % 16 = 0 := by omega
    have e2 : u / 16 / 16 % 16 = 0 := by omega
    have e3 : u / 16 / 16 / 16 % 16 = 0 := by omega
    rw [e1, e2, e3, Z]; rfl
  · rw [L u (by omega)]
    by_cases h2 : u / 16 < 16
    · rw [S _ h2]
      have e2 : u / 16 / 16 % 16 = 0 := by omega
      have e3 : u / 16 / 16 / 16 % 16 = 0 := by omega
      rw [e2, e3, Z]; rfl
    · rw [L (u / 16) (by omega)]
      by_cases h3 : u / 16 / 16 < 16
      · rw [S _ h3]
        have e3 : u / 16 / 16 / 16 % 16 = 0 := by omega
        rw [e3, Z]; rfl
      · rw [L (u / 16 / 16) (by omega), S (u / 16 / 16 / 16) (by omega)]; rfl

theorem printLoop_rest (vs rest : List Nat) (n : Nat) (hn : n % 16 ≠ 0) (hl : n % 16 + vs.length ≤ 16) (hv : ∀ v ∈ vs, v < 65536) :
    printLoop n (vs ++ rest) = (vs.flatMap fun v => t!" 0x" ++ digits lowerDigit 4 v ++ t!",") ++ printLoop (n + vs.length) rest := by
  induction vs generalizing n with
  | nil => rfl
  | cons v vs ih =>
    simp only [List.length_cons] at hl
    rw [List.cons_append, printLoop, if_neg hn, hex4_eq v (hv v (by simp))]
    by_cases h : vs = []
    · subst h; simp
    · have : 0 < vs.length := List.length_pos_iff.mpr h
      rw [ih (n + 1) (by omega) (by omega) (fun w hw => hv w (by simp [hw]))]
      simp [Nat.add_assoc, Nat.add_comm 1]

theorem printLoop_row (vs rest : List Nat) (n : Nat) (hn : n % 16 = 0) (hl : vs.length = 16) (hv : ∀ v ∈ vs, v < 65536) :
    printLoop n (vs ++ rest) = row vs ++ printLoop (n + 16) rest := by
  cases vs with
  | nil => simp at hl
  | cons v vs =>
    simp only [List.length_cons] at hl
    rw [List.cons_append, printLoop, if_pos hn, hex4_eq v (hv v (by simp)),
      printLoop_rest vs rest (n + 1) (by omega) (by omega) (fun w hw => hv w (by simp [hw]))]
    have : n + 1 + vs.length = n + 16 := by omega
    rw [this]
    simp [row]

theorem printLoop_table (vs : List Nat) (hl : vs.length = 96) (hv : ∀ v ∈ vs, v < 65536) :
    printLoop 0 vs = (List.range 6).flatMap fun r => row ((vs.drop (16 * r)).take 16) := by
  have step : ∀ k, k < 6 → printLoop (16 * k) (vs.drop (16 * k)) = row ((vs.drop (16 * k)).take 16) ++ printLoop (16 * (k + 1)) (vs.drop (16 * (k + 1))) := by
    intro k hk
    have e : vs.drop (16 * k) = (vs.drop (16 * k)).take 16 ++ vs.drop (16 * (k + 1)) := by
      rw [show 16 * (k + 1) = 16 * k + 16 by omega, ← List.drop_drop, List.take_append_drop]
    conv => lhs; rw [e]
    rw [printLoop_row _ _ _ (by omega) (by simp; omega) (fun v h => hv v (List.mem_of_mem_drop (List.mem_of_mem_take h)))]
    rfl
  have e0 : printLoop 0 vs = printLoop (16 * 0) (vs.drop (16 * 0)) := rfl
  rw [e0, step 0 (by decide), step 1 (by decide), step 2 (by decide), step 3 (by decide), step 4 (by decide), step 5 (by decide),
    List.drop_of_length_le (by omega : vs.length ≤ 16 * (5 + 1))]
  simp [List.range, List.range.loop, printLoop]

end Tool

theorem table_bound (ls : List Line) (hv : ∀ l ∈ ls, l.Valid) : ∀ v ∈ table ls, v < 65536 := by
  intro v h
  obtain ⟨i, -, rfl⟩ := List.mem_map.mp h
  unfold assigned
  cases e : (ls.filterMap (Line.assigns (0xA0 + i))).getLast? with
  | none => simp
  | some w =>
    have := List.mem_of_getLast? e
    obtain ⟨l, hl, hw⟩ := List.mem_filterMap.mp this
    have hv := hv l hl
    cases l with
    | comment t => simp [Line.assigns] at hw
    | empty => simp [Line.assigns] at hw
    | entry b c t =>
      simp only [Line.assigns] at hw
      split at hw
      · injection hw with hw; subst hw; exact hv.2.1
      · cases hw

/-- C119: for a mapping file in Unicode's format the generator prints the array of the characters the file assigns to the bytes
A0 to FF, 0 for those it does not assign, under the name of the file up to the first dot. -/
theorem C119_file (stem ext remark : List Char) (hs : '.' ∉ stem) (ls : List Line) (hv : ∀ l ∈ ls, l.Valid) :
    Tool.readFile (stem ++ '.' :: ext) remark (fileText ls) =
      .ok (source (stem.map fun c => if c = '-' then '_' else c) remark (table ls)) := by
  have h := Tool.tableLoop_lines ls hv (List.replicate 96 0) (by simp)
  have ht : ls.foldl Tool.update (List.replicate 96 0) = table ls := by
    apply List.ext_getElem?
    intro i
    by_cases hi : i < 96
    · obtain ⟨h1, h2⟩ := Tool.fold_get ls (List.replicate 96 0) (by simp) i hi
      rw [List.getD_eq_getElem?_getD, List.getElem?_eq_getElem (by omega)] at h2
      rw [List.getElem?_eq_getElem (by omega)]
      simp only [Option.getD_some] at h2
      rw [h2, table, List.getElem?_map, List.getElem?_range hi, Option.map_some, assigned]
      have e0 : (List.replicate 96 0).getD i 0 = 0 := by
        rw [List.getD_eq_getElem?_getD, List.getElem?_replicate, if_pos hi]; rfl
      rw [e0]
    · have h1 := (Tool.fold_get ls (List.replicate 96 0) (by simp) 0 (by decide)).1
      rw [List.getElem?_eq_none (by omega), List.getElem?_eq_none (by simp [table]; omega)]
  have hp : (stem ++ '.' :: ext).takeWhile (· ≠ '.') = stem := by
    rw [List.takeWhile_append_of_pos (by intro c hc; simp; rintro rfl; exact hs hc)]
    simp
  unfold Tool.readFile
  have hl := Tool.lines_file ls hv []
  rw [List.append_nil] at hl
  rw [hl, show Tool.linesLoop [] [] = [] from rfl, List.append_nil]
  simp only [show Tool.ARR_SIZE = 96 from rfl]
  rw [h, ok_bind, ht, hp, Tool.printLoop_table _ (by simp [table]) (table_bound ls hv)]
  have e96 : Nat.toDigits 10 96 = ['9', '6'] := by decide +kernel
  simp only [pure_eq_ok, source, e96]
  congr 1
  simp

/-- A file of the directory: its name and its text. -/
abbrev mappingFile (x : Nat × List Line) : List Char × List Char := (t!"8859-" ++ Nat.toDigits 10 x.1 ++ t!".TXT", fileText x.2)

theorem part_bound {n : Nat} {t : List Char} (h : partTitle n = some t) : n < 17 := by
  unfold partTitle at h
  split at h <;> first | omega | cases h

theorem part_facts : ∀ n < 17, (partTitle n).isSome = true →
    Tool.getPart (t!"8859-" ++ Nat.toDigits 10 n ++ t!".TXT") = .ok (n : Int) ∧ '.' ∉ Nat.toDigits 10 n ∧ '-' ∉ Nat.toDigits 10 n ∧
    Tool.partName n = .ok ((partTitle n).getD []) := by
  decide +kernel

namespace Tool

theorem insert_comm (x y : Int × List Char × List Char) (h : x.1 ≠ y.1) (l : List (Int × List Char × List Char)) :
    insert x (insert y l) = insert y (insert x l) := by
  induction l with
  | nil =>
    simp only [insert]
    by_cases h1 : x.1 ≤ y.1
    · rw [if_pos h1, if_neg (by omega)]
    · rw [if_neg h1, if_pos (by omega)]
  | cons z l ih =>
    simp only [insert]
    by_cases h1 : x.1 ≤ z.1 <;> by_cases h2 : y.1 ≤ z.1
    · rw [if_pos h1, if_pos h2]
      simp only [insert]
      by_cases h3 : x.1 ≤ y.1
      · rw [if_pos h3, if_neg (by omega), if_pos h2]
      · rw [if_neg h3, if_pos (by omega : y.1 ≤ x.1), if_pos h1]
    · rw [if_pos h1, if_neg h2, insert, if_pos h1, insert, if_neg (by omega), insert, if_neg h2]
    · rw [if_neg h1, if_pos h2, insert, if_neg (by omega), insert, if_neg h1, insert, if_pos h2]
    · rw [if_neg h1, if_neg h2, insert, if_neg h1, insert, if_neg h2, ih]

theorem sort_perm {l₁ l₂ : List (Int × List Char × List Char)} (p : l₁.Perm l₂) (hd : (l₁.map (·.1)).Nodup) : sort l₁ = sort l₂ := by
  induction p with
  | nil => rfl
  | cons x p ih =>
    rw [List.map_cons, List.nodup_cons] at hd
    rw [sort, sort, ih hd.2]
  | swap x y l =>
    simp only [List.map_cons, List.nodup_cons, List.mem_cons, not_or] at hd
    rw [sort, sort, sort, sort, insert_comm _ _ hd.1.1]
  | trans p₁ p₂ ih₁ ih₂ => rw [ih₁ hd, ih₂ ((p₁.map _).nodup_iff.mp hd)]

theorem sort_sorted (l : List (Int × List Char × List Char)) (h : l.Pairwise fun a b => a.1 < b.1) : sort l = l := by
  induction l with
  | nil => rfl
  | cons x l ih =>
    rw [List.pairwise_cons] at h
    rw [sort, ih h.2]
    cases l with
    | nil => rfl
    | cons y l =>
      have := h.1 y (by simp)
      rw [insert, if_pos (by omega)]

/-- The number of a part, if the name has one. -/
def partOf (name : List Char) : Int := match getPart name with
  | .ok n => n
  | .error _ => 0

theorem partsLoop_ok (l : List (List Char × List Char)) (h : ∀ f ∈ l, ∃ n, getPart f.1 = .ok n) :
    partsLoop l = .ok (l.map fun f => (partOf f.1, f)) := by
  induction l with
  | nil => rfl
  | cons f l ih =>
    obtain ⟨n, hn⟩ := h f (by simp)
    rw [partsLoop, hn, ok_bind, ih (fun g hg => h g (by simp [hg])), ok_bind, pure_eq_ok, List.map_cons, partOf, hn]

theorem partsLoop_mem (l : List (List Char × List Char)) (r) (h : partsLoop l = .ok r) (f) (hf : f ∈ l) : ∃ n, getPart f.1 = .ok n ∧ (n, f) ∈ r := by
  induction l generalizing r with
  | nil => cases hf
  | cons g l ih =>
    rw [partsLoop, bind_eq_ok] at h
    obtain ⟨n, hn, h⟩ := h
    rw [bind_eq_ok] at h
    obtain ⟨r', hr, h⟩ := h
    injection h with h
    subst h
    rcases List.mem_cons.mp hf with rfl | hf
    · exact ⟨n, hn, by simp⟩
    · obtain ⟨m, h1, h2⟩ := ih r' hr hf
      exact ⟨m, h1, by simp [h2]⟩

theorem mem_insert (x y : Int × List Char × List Char) (l) : y ∈ insert x l ↔ y = x ∨ y ∈ l := by
  induction l with
  | nil => simp [insert]
  | cons z l ih =>
    rw [insert]
    split
    · simp
    · simp only [List.mem_cons, ih]; exact or_left_comm

theorem mem_sort (y : Int × List Char × List Char) (l) : y ∈ sort l ↔ y ∈ l := by
  induction l with
  | nil => rfl
  | cons x l ih => rw [sort, mem_insert, ih, List.mem_cons]

theorem filesLoop_mem (l : List (Int × List Char × List Char)) (out) (h : filesLoop l = .ok out) (x) (hx : x ∈ l) :
    ∃ t u, partName x.1 = .ok t ∧ readFile x.2.1 t x.2.2 = .ok u := by
  induction l generalizing out with
  | nil => cases hx
  | cons y l ih =>
    obtain ⟨n, name, content⟩ := y
    rw [filesLoop, bind_eq_ok] at h
    obtain ⟨t, ht, h⟩ := h
    rw [bind_eq_ok] at h
    obtain ⟨u, hu, h⟩ := h
    rw [bind_eq_ok] at h
    obtain ⟨v, hv, h⟩ := h
    rcases List.mem_cons.mp hx with rfl | hx
    · exact ⟨t, u, ht, hu⟩
    · exact ih v hv hx

end Tool

/-- C119: the generator prints the tables in the order of their parts, whatever the order of the directory, and takes no notice of
hidden files. -/
theorem C119_directory (parts : List (Nat × List Line)) (hv : ∀ x ∈ parts, ∀ l ∈ x.2, l.Valid) (hp : ∀ x ∈ parts, (partTitle x.1).isSome = true)
    (ho : parts.Pairwise fun a b => a.1 < b.1) (hidden dir : List (List Char × List Char)) (hh : ∀ f ∈ hidden, f.1.head? = some '.')
    (hd : dir.Perm (parts.map mappingFile ++ hidden)) :
    Tool.main dir = .ok (parts.flatMap fun x => source (t!"8859_" ++ Nat.toDigits 10 x.1) ((partTitle x.1).getD []) (table x.2)) := by
  have facts : ∀ x ∈ parts, Tool.getPart (mappingFile x).1 = .ok (x.1 : Int) ∧ '.' ∉ Nat.toDigits 10 x.1 ∧ '-' ∉ Nat.toDigits 10 x.1 ∧
      Tool.partName x.1 = .ok ((partTitle x.1).getD []) := by
    intro x hx
    have h := hp x hx
    obtain ⟨t, ht⟩ := Option.isSome_iff_exists.mp h
    exact part_facts x.1 (part_bound ht) h
  have hf : (dir.filter fun f => f.1.head? ≠ some '.').Perm (parts.map mappingFile) := by
    have h := hd.filter (fun f => decide (f.1.head? ≠ some '.'))
    rw [List.filter_append] at h
    have e1 : (parts.map mappingFile).filter (fun f => decide (f.1.head? ≠ some '.')) = parts.map mappingFile := by
      rw [List.filter_eq_self]
      intro f hm
      obtain ⟨x, -, rfl⟩ := List.mem_map.mp hm
      simp
    have e2 : hidden.filter (fun f => decide (f.1.head? ≠ some '.')) = [] := by
      rw [List.filter_eq_nil_iff]
      intro f hm
      simp [hh f hm]
    rw [e1, e2, List.append_nil] at h
    exact h
  have hg : ∀ f ∈ dir.filter (fun f => f.1.head? ≠ some '.'), ∃ n, Tool.getPart f.1 = .ok n := by
    intro f hm
    obtain ⟨x, hx, rfl⟩ := List.mem_map.mp (hf.mem_iff.mp hm)
    exact ⟨_, (facts x hx).1⟩
  have em : (parts.map mappingFile).map (fun f => (Tool.partOf f.1, f)) = parts.map fun x => ((x.1 : Int), mappingFile x) := by
    rw [List.map_map]
    apply List.map_congr_left
    intro x hx
    simp only [Function.comp, Tool.partOf, (facts x hx).1]
  have hs : (parts.map fun x => ((x.1 : Int), mappingFile x)).Pairwise fun a b => a.1 < b.1 := by
    rw [List.pairwise_map]
    exact ho.imp (fun h => by simp only []; omega)
  have hn : (((dir.filter fun f => f.1.head? ≠ some '.').map fun f => (Tool.partOf f.1, f)).map (·.1)).Nodup := by
    rw [((hf.map fun f => (Tool.partOf f.1, f)).map (·.1)).nodup_iff, em, List.map_map, List.Nodup, List.pairwise_map]
    exact ho.imp (fun h => by simp only [Function.comp]; omega)
  rw [Tool.main, Tool.partsLoop_ok _ hg, ok_bind, Tool.sort_perm (hf.map _) hn, em, Tool.sort_sorted _ hs]
  clear hf hd hg em hs hn ho
  induction parts with
  | nil => rfl
  | cons x parts ih =>
    obtain ⟨-, h1, h2, h3⟩ := facts x (by simp)
    have hst : '.' ∉ t!"8859-" ++ Nat.toDigits 10 x.1 := by
      rw [List.mem_append, not_or]; exact ⟨by decide, h1⟩
    have he : mappingFile x = ((t!"8859-" ++ Nat.toDigits 10 x.1) ++ '.' :: ['T', 'X', 'T'], fileText x.2) := by
      simp [mappingFile]
    have hmap : (t!"8859-" ++ Nat.toDigits 10 x.1).map (fun c => if c = '-' then '_' else c) = t!"8859_" ++ Nat.toDigits 10 x.1 := by
      rw [List.map_append]
      congr 1
      conv => rhs; rw [← List.map_id (Nat.toDigits 10 x.1)]
      apply List.map_congr_left
      intro c hc
      have : c ≠ '-' := fun e => h2 (e ▸ hc)
      simp [this]
    rw [List.map_cons, he, Tool.filesLoop, h3, ok_bind, C119_file _ _ _ hst _ (hv x (by simp)), ok_bind,
      ih (fun y hy => hv y (by simp [hy])) (fun y hy => hp y (by simp [hy])) (fun y hy => facts y (by simp [hy])), ok_bind, hmap]
    rfl

theorem Tool.getPart_eq (name : List Char) : Tool.getPart name = match partOfName name with
    | some n => .ok (n : Int)
    | none => panic := by
  unfold Tool.getPart partOfName
  have hd : ∀ l : List Char, ('-' ∈ l → ∃ r, l.dropWhile (· ≠ '-') = '-' :: r) ∧ ('-' ∉ l → l.dropWhile (· ≠ '-') = []) := by
    intro l
    induction l with
    | nil => simp
    | cons c l ih =>
      by_cases hc : c = '-'
      · subst hc; simp
      · simp only [List.mem_cons, List.dropWhile_cons, hc, ne_eq, not_false_eq_true, decide_true, if_true]
        exact ⟨fun h => ih.1 (h.resolve_left fun e => hc e.symm), fun h => ih.2 fun h' => h (.inr h')⟩
  simp only []
  by_cases hm : '-' ∈ name.takeWhile (· ≠ '.')
  · obtain ⟨r, hr⟩ := (hd _).1 hm
    rw [if_pos hm, hr]
    simp only [List.drop_succ_cons, List.drop_zero]
    unfold Tool.parseI32
    split
    · rename_i w hw
      have hall : ∀ c ∈ r.takeWhile (· ≠ '-'), c ≠ '-' := by
        intro c hc
        have := List.all_takeWhile (p := fun c : Char => decide (c ≠ '-')) (l := r)
        simpa using List.all_eq_true.1 this c hc
      exact absurd rfl (hall '-' (by rw [hw]; simp))
    · rw [Tool.parseUnsigned_eq 10 (2 ^ 31) (.inl rfl) (by decide)]
      cases numberBelow (2 ^ 31) 10 (r.takeWhile (· ≠ '-')) <;> rfl
  · rw [if_neg hm, (hd _).2 hm]

/-- C119: it fails for a file whose name is not that of a part of the standard. -/
theorem C119_unknown (dir : List (List Char × List Char)) (f) (hf : f ∈ dir) (hh : f.1.head? ≠ some '.')
    (hu : ((partOfName f.1).bind partTitle).isSome = false) (out : List Char) : Tool.main dir ≠ .ok out := by
  intro h
  rw [Tool.main, bind_eq_ok] at h
  obtain ⟨r, hr, h⟩ := h
  obtain ⟨m, hm, hmem⟩ := Tool.partsLoop_mem _ _ hr f (by rw [List.mem_filter]; exact ⟨hf, by simpa using hh⟩)
  obtain ⟨t, u, ht, -⟩ := Tool.filesLoop_mem _ _ h _ ((Tool.mem_sort _ _).mpr hmem)
  rw [Tool.getPart_eq] at hm
  cases hp : partOfName f.1 with
  | none => rw [hp] at hm; cases hm
  | some n =>
    rw [hp] at hm hu
    injection hm with hm
    subst hm
    have key : ∀ n < 17, (partTitle n).isSome = false → n = 0 ∨ n = 12 := by decide
    have hn : n = 0 ∨ n = 12 ∨ 16 < n := by
      by_cases h17 : n < 17
      · rcases key n h17 hu with h | h
        · exact .inl h
        · exact .inr (.inl h)
      · exact .inr (.inr (by omega))
    simp only [Tool.partName] at ht
    repeat rw [if_neg (by omega)] at ht
    cases ht

/-- C119: from files that list the characters of the standard's tables, the generator prints the tables the crate uses. -/
theorem C119_crate (n : Nat) (cp : UInt8) (hcp : cp.toNat = n) (t : List Nat) (ht : CodePage.upper n = some t) (stem ext remark : List Char)
    (hs : '.' ∉ stem) (ls : List Line) (hv : ∀ l ∈ ls, l.Valid) (hl : Lists ls t) :
    ∃ m, getCodepageMap cp = some m ∧ Tool.readFile (stem ++ '.' :: ext) remark (fileText ls) =
      .ok (source (stem.map fun c => if c = '-' then '_' else c) remark (m.map (·.toNat))) := by
  refine ⟨t.map UInt16.ofNat, by rw [map_eq, hcp, ht]; rfl, ?_⟩
  rw [C119_file stem ext remark hs ls hv]
  have e : table ls = t := by
    apply List.ext_getElem?
    intro i
    by_cases hi : i < 96
    · rw [table, List.getElem?_map, List.getElem?_range hi, Option.map_some, hl.2 i hi, List.getElem?_eq_getElem (by rw [hl.1]; exact hi),
        List.getD_eq_getElem?_getD, List.getElem?_eq_getElem (by rw [hl.1]; exact hi)]; rfl
    · rw [List.getElem?_eq_none (by simp [table]; omega), List.getElem?_eq_none (by rw [hl.1]; omega)]
  have g := good_tables cp t (by rw [hcp]; exact ht)
  have e2 : (t.map UInt16.ofNat).map (·.toNat) = t := by
    rw [List.map_map]
    conv => rhs; rw [← List.map_id t]
    apply List.map_congr_left
    intro u hu
    have := (g.2 u hu).1
    simp only [Function.comp, id]
    exact u16n _ (by omega)
  rw [e, e2]

theorem white_iff (c : Char) : Tool.isWhitespace c = true ↔ c.toNat ∈ whiteSpace := by
  simp only [Tool.isWhitespace, whiteSpace, Bool.or_eq_true, Bool.and_eq_true, decide_eq_true_eq, beq_iff_eq, List.mem_cons, List.not_mem_nil, or_false]
  omega

theorem Tool.line_more (path remark : List Char) (ls : List Line) (hv : ∀ l ∈ ls, l.Valid) (line rest : List Char) (hc : '\n' ∉ line) :
    Tool.readFile path remark (fileText ls ++ line ++ '\n' :: rest) = (do
      let arr ← Tool.tableLoop (ls.foldl Tool.update (List.replicate 96 0)) (Tool.stripCr line :: Tool.linesLoop [] rest)
      return t!"/// " ++ remark ++ t!"\n" ++ t!"pub static ISO" ++ ((path.takeWhile (· ≠ '.')).map fun c => if c = '-' then '_' else c) ++ t!": [u16; " ++
        Nat.toDigits 10 96 ++ t!"] = [" ++ Tool.printLoop 0 arr ++ t!"\n" ++ t!"];\n\n") ∧
    Tool.readFile path remark (fileText ls ++ rest) = (do
      let arr ← Tool.tableLoop (ls.foldl Tool.update (List.replicate 96 0)) (Tool.linesLoop [] rest)
      return t!"/// " ++ remark ++ t!"\n" ++ t!"pub static ISO" ++ ((path.takeWhile (· ≠ '.')).map fun c => if c = '-' then '_' else c) ++ t!": [u16; " ++
        Nat.toDigits 10 96 ++ t!"] = [" ++ Tool.printLoop 0 arr ++ t!"\n" ++ t!"];\n\n") := by
  unfold Tool.readFile
  rw [List.append_assoc, Tool.lines_file ls hv, Tool.lines_file ls hv, Tool.linesLoop_line _ _ _ hc, List.nil_append]
  simp only [show Tool.ARR_SIZE = 96 from rfl]
  rw [Tool.tableLoop_more ls hv _ (by simp), Tool.tableLoop_more ls hv _ (by simp)]
  exact ⟨rfl, rfl⟩

/-- C119: a line of white space is ignored. -/
theorem C119_blank (path remark : List Char) (ls : List Line) (hv : ∀ l ∈ ls, l.Valid) (blank rest : List Char) (hb : ∀ c ∈ blank, c.toNat ∈ whiteSpace)
    (hn : '\n' ∉ blank) :
    Tool.readFile path remark (fileText ls ++ blank ++ '\n' :: rest) = Tool.readFile path remark (fileText ls ++ rest) := by
  obtain ⟨e1, e2⟩ := Tool.line_more path remark ls hv blank rest hn
  rw [e1, e2]
  have hw : ∀ c ∈ Tool.stripCr blank, Tool.isWhitespace c = true := by
    intro c hc
    refine (white_iff c).2 (hb c ?_)
    unfold Tool.stripCr at hc
    split at hc
    · exact List.dropLast_subset _ hc
    · exact hc
  have ht : Tool.trimLeft (Tool.stripCr blank) = [] := by
    generalize Tool.stripCr blank = l at hw
    unfold Tool.trimLeft
    induction l with
    | nil => rfl
    | cons a l ih => rw [List.dropWhile_cons, hw a (by simp), if_pos rfl]; exact ih fun c h => hw c (List.mem_cons_of_mem _ h)
  rw [Tool.tableLoop, ht]
  rfl

/-- C119: it fails on a line of one character other than white space and the comment sign. -/
theorem C119_stray (path remark : List Char) (ls : List Line) (hv : ∀ l ∈ ls, l.Valid) (c : Char) (rest : List Char) (hc : c.toNat ∉ whiteSpace)
    (h : c ≠ '#') : Tool.readFile path remark (fileText ls ++ [c] ++ '\n' :: rest) = panic := by
  have hw : Tool.isWhitespace c = false := by
    have := mt (white_iff c).1 hc
    simpa using this
  have hn : '\n' ∉ [c] := by
    intro hm
    rw [← List.mem_singleton.1 hm] at hc
    exact hc (by decide)
  have hr : c ≠ '\r' := by rintro rfl; exact hc (by decide)
  rw [(Tool.line_more path remark ls hv [c] rest hn).1]
  have e1 : Tool.stripCr [c] = [c] := by simp [Tool.stripCr, hr]
  have e3 : Tool.trimRight [c] = [c] := by simp [Tool.trimRight, hw]
  rw [e1, Tool.tableLoop, Tool.trimLeft_same _ _ hw]
  simp only [e3, List.head?_cons, Option.some.injEq, h, if_false, List.isEmpty_cons, Bool.false_eq_true, List.takeWhile_cons, hw, Bool.not_false, if_true,
    List.takeWhile_nil, Tool.from2]
  split
  · rfl
  · split <;> rfl

/-- C119: a line of two numbers, whatever its digits are, with any white space between and behind them.  It fails if the first is no
number below 256, ignores a byte below A0, fails if the second is no number below 65536, and else takes the line like one of Unicode's. -/
theorem C119_columns (path remark : List Char) (ls : List Line) (hv : ∀ l ∈ ls, l.Valid) (w₁ w₂ tail rest : List Char) (sep : Char)
    (hs : sep.toNat ∈ whiteSpace) (h1 : ∀ c ∈ w₁, c.toNat ∉ whiteSpace) (h2 : ∀ c ∈ w₂, c.toNat ∉ whiteSpace)
    (ht : ∀ c, tail.head? = some c → c.toNat ∈ whiteSpace) (hn : '\n' ∉ sep :: tail) :
    Tool.readFile path remark (fileText ls ++ (t!"0x" ++ w₁ ++ [sep] ++ t!"0x" ++ w₂ ++ tail) ++ '\n' :: rest) =
      match numberBelow 256 16 w₁ with
      | none => panic
      | some b => if b < 0xA0 then Tool.readFile path remark (fileText ls ++ rest) else match numberBelow 65536 16 w₂ with
        | none => panic
        | some c => Tool.readFile path remark (fileText (ls ++ [.entry b c []]) ++ rest) := by
  have nw : ∀ w : List Char, (∀ c ∈ w, c.toNat ∉ whiteSpace) → '\n' ∉ w := fun w h hm => h _ hm (by decide)
  have nb : ∀ c : Char, c.toNat ∉ whiteSpace → Tool.isWhitespace c = false := fun c h => by
    have := mt (white_iff c).1 h
    simpa using this
  rw [(Tool.line_more path remark ls hv _ rest (by
    simp only [List.mem_append, List.mem_cons, List.not_mem_nil, or_false, not_or] at hn ⊢
    exact ⟨⟨⟨⟨⟨⟨by decide, by decide⟩, nw _ h1⟩, hn.1⟩, by decide, by decide⟩, nw _ h2⟩, hn.2⟩)).1,
    (Tool.line_more path remark ls hv [] rest (by simp)).2]
  have hlen : ∀ (l : List Line) (a : List Nat), (l.foldl Tool.update a).length = a.length := by
    intro l
    induction l with
    | nil => intro a; rfl
    | cons x l ih => intro a; rw [List.foldl_cons, ih, Tool.update_length]
  rw [Tool.columns_step _ (by rw [hlen]; simp) w₁ w₂ tail sep ((white_iff _).2 hs) (fun c h => nb c (h1 c h)) (fun c h => nb c (h2 c h))
    (fun c h => (white_iff c).2 (ht c h))]
  cases hb : numberBelow 256 16 w₁ with
  | none => rfl
  | some b =>
    have b256 := Tool.numberBelow_lt hb
    simp only []
    split
    · rfl
    · rename_i hA
      cases hc : numberBelow 65536 16 w₂ with
      | none => rfl
      | some c =>
        have c65536 := Tool.numberBelow_lt hc
        simp only []
        have hv' : ∀ l ∈ ls ++ [Line.entry b c []], l.Valid := by
          intro l hl
          rcases List.mem_append.1 hl with h | h
          · exact hv l h
          · rw [List.mem_singleton.1 h]; exact ⟨b256, c65536, by simp⟩
        rw [(Tool.line_more path remark (ls ++ [Line.entry b c []]) hv' [] rest (by simp)).2, List.foldl_append]
        simp only [List.foldl_cons, List.foldl_nil, Tool.update, if_neg hA]

/-- C119: a second separator between the columns makes it fail, unless the byte is below A0. -/
theorem C119_separator (path remark : List Char) (ls : List Line) (hv : ∀ l ∈ ls, l.Valid) (b : Nat) (hb : b < 256) (s₁ s₂ : Char)
    (h1 : s₁.toNat ∈ whiteSpace) (h2 : s₂.toNat ∈ whiteSpace) (hn1 : s₁ ≠ '\n') (hn2 : s₂ ≠ '\n') (t rest : List Char) (ht : '\n' ∉ t) :
    if b < 0xA0 then
      Tool.readFile path remark (fileText ls ++ (t!"0x" ++ digits upperDigit 2 b ++ [s₁, s₂] ++ t) ++ '\n' :: rest) =
        Tool.readFile path remark (fileText ls ++ rest)
    else Tool.readFile path remark (fileText ls ++ (t!"0x" ++ digits upperDigit 2 b ++ [s₁, s₂] ++ t) ++ '\n' :: rest) = panic := by
  have w : ∀ n, upperDigit (n % 16) ≠ '\n' := fun n => (Tool.digit_value _ (Nat.mod_lt _ (by decide))).2.2.1
  have hc : '\n' ∉ t!"0x" ++ digits upperDigit 2 b ++ [s₁, s₂] ++ t := by
    simp only [Tool.digits2, List.mem_append, List.mem_cons, List.not_mem_nil, or_false, not_or, ht]
    exact ⟨⟨⟨by decide, by decide⟩, (w _).symm, (w _).symm⟩, hn1.symm, hn2.symm⟩
  have e : Tool.readFile path remark (fileText ls ++ (t!"0x" ++ digits upperDigit 2 b ++ [s₁, s₂] ++ t) ++ '\n' :: rest) =
      if b < 0xA0 then Tool.readFile path remark (fileText ls ++ rest) else panic := by
    unfold Tool.readFile
    rw [List.append_assoc, Tool.lines_file ls hv, Tool.lines_file ls hv, Tool.linesLoop_line _ _ _ hc, List.nil_append]
    simp only [show Tool.ARR_SIZE = 96 from rfl]
    rw [Tool.tableLoop_more ls hv _ (by simp), Tool.tableLoop_more ls hv _ (by simp), Tool.two_separators b hb s₁ s₂ ((white_iff _).2 h1) ((white_iff _).2 h2)]
    split <;> rfl
  split
  · rename_i h; rw [e, if_pos h]
  · rename_i h; rw [e, if_neg h]

/-! A directory in which the tenth part comes before the second, with a hidden file. -/

/-- Two lines, the first with a comment. -/
def sampleTen : List Line := [.comment t!" Name: ISO/IEC 8859-10", .empty, .entry 0x41 0x41 t!"# LATIN CAPITAL LETTER A", .entry 0xA1 0x104 t!"# A WITH OGONEK"]

/-- One line, with a carriage return at its end. -/
def sampleTwo : List Line := [.entry 0xFF 0x2D9 t!"# DOT ABOVE\r"]

example : Tool.main [mappingFile (10, sampleTen), (t!".git", []), mappingFile (2, sampleTwo)] =
    .ok (source t!"8859_2" t!"Central European" (table sampleTwo) ++ source t!"8859_10" t!"Nordic" (table sampleTen)) := by
  have hv : ∀ x ∈ [(2, sampleTwo), (10, sampleTen)], ∀ l ∈ x.2, l.Valid := by
    simp [sampleTen, sampleTwo, Line.Valid]
  have h := C119_directory [(2, sampleTwo), (10, sampleTen)] hv (by decide) (by simp) [(t!".git", [])]
    [mappingFile (10, sampleTen), (t!".git", []), mappingFile (2, sampleTwo)] (by simp)
    (((List.Perm.swap _ _ _).trans (List.Perm.cons _ (List.Perm.swap _ _ _))).trans (List.Perm.swap _ _ _) |>.trans (List.Perm.cons _ (List.Perm.swap _ _ _)))
  rw [h]
  decide +kernel

example : (table sampleTen).take 3 = [0, 0x104, 0] ∧ (table sampleTwo).drop 94 = [0, 0x2D9] := by decide

/-- A file that lists the whole fifth part, as the crate has it. -/
def sampleFive : List Line := ((CodePage.upper 5).getD []).zipIdx.map fun x => .entry (0xA0 + x.2) x.1 []

example : (∀ i < 96, assigned (0xA0 + i) sampleFive = ((CodePage.upper 5).getD []).getD i 0) ∧ ((CodePage.upper 5).getD []).length = 96 := by decide +kernel

end Mpegts
