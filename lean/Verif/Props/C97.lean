import Verif.Props.C38

/-! # C97: the `check` and `parse` functions of the descriptor types

They are public, so they can be called with any slice, not only with one that `Descriptors::parse` has cut out. -/

namespace Mpegts
open Spec

/-! ## `check` -/

/-- `r` is a truth value: that of `P`. -/
def Answers (r : R Bool) (P : Prop) : Prop := ∃ b, r = .ok b ∧ (b = true ↔ P)

theorem answers_decide {r : R Bool} {b : Bool} {P : Prop} (h : r = .ok b) (hb : b = true ↔ P) : Answers r P := ⟨b, h, hb⟩

theorem mod_zero_iff (l k : Nat) : (decide (2 ≤ l) && (l - 2) % k == 0) = true ↔ ∃ n, l = 2 + k * n := by
  rw [Bool.and_eq_true, decide_eq_true_iff, beq_iff_eq]
  constructor
  · rintro ⟨h, h0⟩
    exact ⟨(l - 2) / k, by have := Nat.div_add_mod (l - 2) k; omega⟩
  · rintro ⟨n, rfl⟩
    exact ⟨by omega, by rw [Nat.add_sub_cancel_left, Nat.mul_mod_right]⟩

/-- C97: the kinds whose `check` only looks at the length. -/
theorem C97_check_length (s : List UInt8) :
    Answers (Desc09.check s) (6 ≤ s.length) ∧
    Answers (Desc0A.check s) (∃ n, s.length = 2 + 4 * n) ∧
    Answers (Desc0E.check s) (s.length = 5) ∧
    Answers (Desc40.check s) (2 ≤ s.length) ∧
    Answers (Desc41.check s) (∃ n, s.length = 2 + 3 * n) ∧
    Answers (Desc43.check s) (s.length = 13) ∧
    Answers (Desc44.check s) (s.length = 13) ∧
    Answers (Desc52.check s) (s.length = 3) ∧
    Answers (Desc58.check s) (∃ n, s.length = 2 + 13 * n) ∧
    Answers (Desc5A.check s) (s.length = 13) ∧
    Answers (Desc83.check s) (∃ n, s.length = 2 + 4 * n) :=
  ⟨answers_decide rfl (by simp), answers_decide rfl (mod_zero_iff _ _), answers_decide rfl (by simp), answers_decide rfl (by simp),
    answers_decide rfl (mod_zero_iff _ _), answers_decide rfl (by simp), answers_decide rfl (by simp), answers_decide rfl (by simp),
    answers_decide rfl (mod_zero_iff _ _), answers_decide rfl (by simp), answers_decide rfl (mod_zero_iff _ _)⟩

/-- C97: `check` of the service descriptor.  It answers `false` for less than five bytes and panics when the position of the service
name's length byte lies outside the slice; otherwise it says whether the length byte of the descriptor is the one its two texts require. -/
theorem C97_check_service (s : List UInt8) :
    (s.length < 5 → Desc48.check s = .ok false) ∧
    (5 ≤ s.length → s.length ≤ 4 + field s 3 1 → Desc48.check s = panic) ∧
    (5 ≤ s.length → 4 + field s 3 1 < s.length →
      Answers (Desc48.check s) (field s 1 1 = 3 + field s 3 1 + field s (4 + field s 3 1) 1)) := by
  unfold Desc48.check
  refine ⟨fun h => by rw [if_pos h]; rfl, fun h h' => ?_, fun h h' => ?_⟩
  · rw [if_neg (by omega), field_one s 3 (by omega)]
    simp only [pure_bind, ok_bind, u8_field]
    rw [idx_panic (by omega)]; rfl
  · rw [if_neg (by omega), field_one s 3 (by omega)]
    simp only [pure_bind, ok_bind, u8_field]
    rw [field_one s _ h', ok_bind, field_one s 1 (by omega), ok_bind]
    simp only [u8_field]
    exact answers_decide rfl (by simp)

/-- C97: `check` of the short event descriptor. -/
theorem C97_check_short_event (s : List UInt8) :
    (s.length < 7 → Desc4D.check s = .ok false) ∧
    (7 ≤ s.length → s.length ≤ 6 + field s 5 1 → Desc4D.check s = panic) ∧
    (7 ≤ s.length → 6 + field s 5 1 < s.length →
      Answers (Desc4D.check s) (field s 1 1 = 5 + field s 5 1 + field s (6 + field s 5 1) 1)) := by
  unfold Desc4D.check
  refine ⟨fun h => by rw [if_pos h]; rfl, fun h h' => ?_, fun h h' => ?_⟩
  · rw [if_neg (by omega), field_one s 5 (by omega)]
    simp only [pure_bind, ok_bind, u8_field]
    rw [idx_panic (by omega)]; rfl
  · rw [if_neg (by omega), field_one s 5 (by omega)]
    simp only [pure_bind, ok_bind, u8_field]
    rw [field_one s _ h', ok_bind, field_one s 1 (by omega), ok_bind]
    simp only [u8_field]
    exact answers_decide rfl (by simp)

/-- C97: `check` of the extended event descriptor. -/
theorem C97_check_extended_event (s : List UInt8) :
    (s.length < 8 → Desc4E.check s = .ok false) ∧
    (8 ≤ s.length → s.length ≤ 7 + field s 6 1 → Desc4E.check s = panic) ∧
    (8 ≤ s.length → 7 + field s 6 1 < s.length →
      Answers (Desc4E.check s) (field s 1 1 = 6 + field s 6 1 + field s (7 + field s 6 1) 1)) := by
  unfold Desc4E.check
  refine ⟨fun h => by rw [if_pos h]; rfl, fun h h' => ?_, fun h h' => ?_⟩
  · rw [if_neg (by omega), field_one s 6 (by omega)]
    simp only [pure_bind, ok_bind, u8_field]
    rw [idx_panic (by omega)]; rfl
  · rw [if_neg (by omega), field_one s 6 (by omega)]
    simp only [pure_bind, ok_bind, u8_field]
    rw [field_one s _ h', ok_bind, field_one s 1 (by omega), ok_bind]
    simp only [u8_field]
    exact answers_decide rfl (by simp)

/-! ## `parse` of an accepted slice -/

theorem sliceFrom_ok' {s : List UInt8} {n : Nat} (h : n ≤ s.length) : sliceFrom s n = .ok (s.drop n) := by
  rw [sliceFrom, if_pos h]

theorem accepted {r : R Bool} {P : Prop} (a : Answers r P) (h : r = .ok true) : P := by
  obtain ⟨b, hb, hi⟩ := a
  rw [hb] at h
  exact hi.1 (Except.ok.inj h)

/-- C97: for these kinds an accepted slice is always parsed. -/
theorem C97_parse (s : List UInt8) :
    (Desc09.check s = .ok true → ∃ d, Desc09.parse s = .ok d) ∧
    (Desc0A.check s = .ok true → ∃ d, Desc0A.parse s = .ok d) ∧
    (Desc0E.check s = .ok true → ∃ d, Desc0E.parse s = .ok d) ∧
    (Desc40.check s = .ok true → ∃ d, Desc40.parse s = .ok d) ∧
    (Desc41.check s = .ok true → ∃ d, Desc41.parse s = .ok d) ∧
    (Desc52.check s = .ok true → ∃ d, Desc52.parse s = .ok d) ∧
    (Desc83.check s = .ok true → ∃ d, Desc83.parse s = .ok d) := by
  obtain ⟨a1, a2, a3, a4, a5, -, -, a8, -, -, a11⟩ := C97_check_length s
  refine ⟨fun h => ?_, fun h => ?_, fun h => ?_, fun h => ?_, fun h => ?_, fun h => ?_, fun h => ?_⟩
  · have := accepted a1 h
    simp only [Desc09.parse, get16 (show 2 + 2 ≤ s.length by omega), get16 (show 4 + 2 ≤ s.length by omega), ok_bind,
      sliceFrom_ok' (show 6 ≤ s.length by omega)]
    exact ⟨_, rfl⟩
  · obtain ⟨n, hn⟩ := accepted a2 h
    exact ((d0A_loop_outcome s n 2 _ [] hn (by omega)).map _).good id
  · have := accepted a3 h
    simp only [Desc0E.parse, get24 (show 2 + 3 ≤ s.length by omega), ok_bind]
    exact ⟨_, rfl⟩
  · have := accepted a4 h
    simp only [Desc40.parse, ok_bind, sliceFrom_ok' (show 2 ≤ s.length by omega)]
    exact ⟨_, rfl⟩
  · obtain ⟨n, hn⟩ := accepted a5 h
    exact ((d41_loop_outcome s n 2 _ [] hn (by omega)).map _).good id
  · have := accepted a8 h
    simp only [Desc52.parse, field_one s 2 (by omega), ok_bind]
    exact ⟨_, rfl⟩
  · obtain ⟨n, hn⟩ := accepted a11 h
    exact ((d83_loop_outcome s n 2 _ [] hn (by omega)).map _).good id

theorem split_two (s : List UInt8) (h : 2 ≤ s.length) : ∃ t n body, s = t :: n :: body := by
  match s, h with
  | t :: n :: body, _ => exact ⟨t, n, body, rfl⟩

/-- C97 fails for the kinds with numbers: with overflow checks an accepted slice is parsed unless it holds digits that are not decimal,
a frequency that does not fit 32 bits, an offset of five hours or more or a date before 1970. -/
theorem C97_parse_numbers_partial (p : Profile) (s : List UInt8) :
    (Desc43.check s = .ok true → Outcome (Desc43.parse p s)
      (p = .debug ∧ ¬ (ValidBcd 8 (field s 2 4) ∧ ValidBcd 4 (field s 6 2) ∧ ValidBcd 6 (field s 9 3)))) ∧
    (Desc44.check s = .ok true → Outcome (Desc44.parse p s)
      (p = .debug ∧ ¬ (ValidBcd 8 (field s 2 4) ∧ unbcd 8 (field s 2 4) * 100 < 2 ^ 32 ∧ ValidBcd 6 (field s 9 3)))) ∧
    (Desc58.check s = .ok true → Outcome (Desc58.parse p s)
      (p = .debug ∧ ∃ j, 2 + 13 * j < s.length ∧ BadEntry (s.drop (2 + 13 * j)))) ∧
    (Desc5A.check s = .ok true → Outcome (Desc5A.parse p s) (p = .debug ∧ 2 ^ 32 ≤ field s 2 4 * 10)) := by
  obtain ⟨-, -, -, -, -, a6, a7, -, a9, a10, -⟩ := C97_check_length s
  refine ⟨fun h => ?_, fun h => ?_, fun h => ?_, fun h => ?_⟩
  · have hl := accepted a6 h
    obtain ⟨t, n, body, rfl⟩ := split_two s (by omega)
    exact d43_outcome p n body (by simpa using hl)
  · have hl := accepted a7 h
    obtain ⟨t, n, body, rfl⟩ := split_two s (by omega)
    exact d44_outcome p n body (by simpa using hl)
  · obtain ⟨n, hl⟩ := accepted a9 h
    refine ((d58_loop_outcome p s n 2 _ [] hl (by omega)).map _).congr ?_
    refine and_congr_right fun _ => exists_congr fun j => and_congr_left fun _ => ?_
    omega
  · have hl := accepted a10 h
    obtain ⟨t, n, body, rfl⟩ := split_two s (by omega)
    exact d5A_outcome p n body (by simpa using hl)

/-- C97 fails for the kinds with inner lengths: `check` compares them with the length byte of the descriptor and not with the
length of the slice, so an accepted slice is parsed if and only if the slice is as long as its length byte says. -/
theorem C97_parse_texts_partial (s : List UInt8) :
    (Desc48.check s = .ok true → Outcome (Desc48.parse s) (s.length < 2 + field s 1 1)) ∧
    (Desc4D.check s = .ok true → Outcome (Desc4D.parse s) (s.length < 2 + field s 1 1)) ∧
    (Desc4E.check s = .ok true → Outcome (Desc4E.parse s)
      (s.length < 2 + field s 1 1 ∨ itemsOverrun (field s 6 1) (s.drop 7))) := by
  refine ⟨fun h => ?_, fun h => ?_, fun h => ?_⟩
  · obtain ⟨c1, c2, c3⟩ := C97_check_service s
    have h5 : 5 ≤ s.length := by
      by_contra hn; rw [c1 (by omega)] at h; cases h
    have hp : 4 + field s 3 1 < s.length := by
      by_contra hn; rw [c2 h5 (by omega)] at h; cases h
    have e := accepted (c3 h5 hp) h
    unfold Desc48.parse
    simp only [field_one s 3 (by omega), field_one s 2 (by omega), ok_bind, u8_field, field_one s _ hp]
    refine ((slice_outcome s _ _ (by omega)).bind fun _ _ => (slice_outcome s _ _ (by omega)).bind fun _ _ => Outcome.of_ok _).congr ?_
    rw [or_false]; omega
  · obtain ⟨c1, c2, c3⟩ := C97_check_short_event s
    have h5 : 7 ≤ s.length := by
      by_contra hn; rw [c1 (by omega)] at h; cases h
    have hp : 6 + field s 5 1 < s.length := by
      by_contra hn; rw [c2 h5 (by omega)] at h; cases h
    have e := accepted (c3 h5 hp) h
    unfold Desc4D.parse
    simp only [field_one s 5 (by omega), ok_bind, u8_field, field_one s _ hp]
    refine ((slice_outcome s _ _ (by omega)).bind fun _ _ => (slice_outcome s _ _ (by omega)).bind fun _ _ =>
      (slice_outcome s _ _ (by omega)).bind fun _ _ => Outcome.of_ok _).congr ?_
    rw [or_false]; omega
  · obtain ⟨c1, c2, c3⟩ := C97_check_extended_event s
    have h5 : 8 ≤ s.length := by
      by_contra hn; rw [c1 (by omega)] at h; cases h
    have hp : 7 + field s 6 1 < s.length := by
      by_contra hn; rw [c2 h5 (by omega)] at h; cases h
    have e := accepted (c3 h5 hp) h
    unfold Desc4E.parse
    simp only [field_one s 6 (by omega), field_one s 2 (by omega), ok_bind, u8_field, field_one s _ hp]
    refine ((slice_outcome s 3 6 (by omega)).bind fun _ _ => (d4E_loop_outcome s _ hp _ 7 [] (by omega) (by omega)).bind fun _ _ =>
      (slice_outcome s _ _ (by omega)).bind fun _ _ => Outcome.of_ok _).congr ?_
    rw [or_false, Nat.add_sub_cancel_left]
    generalize itemsOverrun _ _ = Q
    constructor
    · rintro (h | h | h)
      · omega
      · exact .inr h
      · exact .inl (by omega)
    · rintro (h | h)
      · exact .inr (.inr (by omega))
      · exact .inr (.inl h)

/-- C97 fails: a service descriptor cut off inside its name is accepted and makes `parse` panic, however long the name. -/
theorem C97_cut_service_refuted (type : UInt8) (name : List UInt8) (n : Nat) (hn : n < name.length) (hl : name.length ≤ 252) :
    let s := (Descriptor.service type.toNat [] name).take (5 + n)
    Desc48.check s = .ok true ∧ Desc48.parse s = panic := by
  intro s
  have e : s = [0x48, UInt8.ofNat (3 + name.length), type, 0, UInt8.ofNat name.length] ++ name.take n := by
    show ((Descriptor.service type.toNat [] name).take (5 + n)) = _
    have h1 : Descriptor.service type.toNat [] name =
        [0x48, UInt8.ofNat (3 + name.length), type, 0, UInt8.ofNat name.length] ++ name := by
      have : beBytes 1 type.toNat = [type] := by simp [beBytes]
      simp only [Descriptor.service, Descriptor.descriptor, Descriptor.sized, this, List.cons_append, List.nil_append, List.length_cons,
        List.length_nil]
      rw [show name.length + 1 + 1 + 1 = 3 + name.length by omega]
      rfl
    rw [h1, List.take_append, List.take_of_length_le (by simp)]
    simp
  have hs : s.length = 5 + n := by rw [e]; simp; omega
  have f1 : field s 1 1 = 3 + name.length := by rw [e]; simp [field, beNat]; omega
  have f3 : field s 3 1 = 0 := by rw [e]; rfl
  have f4 : field s 4 1 = name.length := by rw [e]; simp [field, beNat]; omega
  obtain ⟨-, -, c3⟩ := C97_check_service s
  have hc : Desc48.check s = .ok true := by
    obtain ⟨b, hb, hi⟩ := c3 (by omega) (by omega)
    rw [hb, hi.2 (by rw [f3, f1, Nat.add_zero, Nat.add_zero, f4])]
  exact ⟨hc, ((C97_parse_texts_partial s).1 hc).bad (by omega)⟩

/-! ### Concrete cases -/

example : Desc48.check [0x48, 5, 1, 1, 0x41, 1, 0x42] = .ok true ∧ Desc48.parse [0x48, 5, 1, 1, 0x41, 1, 0x42] ≠ panic := by decide +kernel
example : Desc48.check [0x48, 5, 1, 1, 0x41, 1] = .ok true ∧ Desc48.parse [0x48, 5, 1, 1, 0x41, 1] = panic := by decide +kernel
example : Desc48.check [0x48, 5, 1, 9, 0x41, 1] = panic := by decide +kernel
example : Desc4E.check [0x4E, 8, 0, 1, 2, 3, 1, 9, 1, 0x41] = .ok true ∧ Desc4E.parse [0x4E, 8, 0, 1, 2, 3, 1, 9, 1, 0x41] = panic := by
  decide +kernel
example : Desc43.check (List.replicate 13 0xAA) = .ok true ∧ Desc43.parse .debug (List.replicate 13 0xAA) = panic := by decide +kernel
example : Desc58.check (List.replicate 28 0) = .ok true := by decide +kernel

end Mpegts
