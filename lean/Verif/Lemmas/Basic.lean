import Verif.Model.Bytes

/-! # Helper lemmas about the `R` monad and the Rust primitives -/

namespace Mpegts

/-! The proofs are `id rfl` so that `simp` does not use these as definitional rewrites: the kernel would have to
re-check big terms by unfolding. -/

@[simp] theorem ok_bind {α β : Type} (a : α) (f : α → R β) : ((Except.ok a : R α) >>= f) = f a := id rfl
@[simp] theorem error_bind {α β : Type} (e : Fault) (f : α → R β) :
    ((Except.error e : R α) >>= f) = .error e := id rfl
@[simp] theorem pure_eq_ok {α : Type} (a : α) : (pure a : R α) = .ok a := id rfl
@[simp] theorem map_ok {α β : Type} (a : α) (f : α → β) : (f <$> (Except.ok a : R α)) = .ok (f a) := id rfl
@[simp] theorem map_error {α β : Type} (e : Fault) (f : α → β) :
    (f <$> (Except.error e : R α)) = .error e := id rfl

theorem bind_eq_ok {α β : Type} {x : R α} {f : α → R β} {b : β} :
    (x >>= f) = .ok b ↔ ∃ a, x = .ok a ∧ f a = .ok b := by
  cases x <;> simp

theorem idx_ok {α : Type} {l : List α} {i : Nat} (h : i < l.length) : idx l i = .ok l[i] := by
  simp [idx, h]

theorem idx_panic {α : Type} {l : List α} {i : Nat} (h : l.length ≤ i) : idx l i = panic := by
  simp [idx, h]

@[simp] theorem idx_zero {α : Type} (a : α) (l : List α) : idx (a :: l) 0 = .ok a := rfl
@[simp] theorem idx_succ {α : Type} (a : α) (l : List α) (n : Nat) : idx (a :: l) (n + 1) = idx l n := by
  simp [idx]
@[simp] theorem idx_nil {α : Type} (n : Nat) : idx ([] : List α) n = panic := by simp [idx]

@[simp] theorem setIdx_zero (a : UInt8) (l : List UInt8) (v : UInt8) : setIdx (a :: l) 0 v = .ok (v :: l) := by
  simp [setIdx]
@[simp] theorem setIdx_succ (a : UInt8) (l : List UInt8) (n : Nat) (v : UInt8) :
    setIdx (a :: l) (n + 1) v = (a :: ·) <$> setIdx l n v := by
  by_cases h : n < l.length <;> simp [setIdx, h]
@[simp] theorem setIdx_nil (n : Nat) (v : UInt8) : setIdx [] n v = panic := by simp [setIdx]

theorem setIdx_ok {l : List UInt8} {i : Nat} (v : UInt8) (h : i < l.length) :
    setIdx l i v = .ok (l.set i v) := by simp [setIdx, h]

/-- `setIdx` just behind a prefix. -/
theorem setIdx_append (a : List UInt8) (x : UInt8) (l : List UInt8) (v : UInt8) :
    setIdx (a ++ x :: l) a.length v = .ok (a ++ v :: l) := by
  simp [setIdx]

theorem setIdx_append_add (a l : List UInt8) (n : Nat) (v : UInt8) :
    setIdx (a ++ l) (a.length + n) v = (a ++ ·) <$> setIdx l n v := by
  by_cases h : n < l.length <;> simp [setIdx, h]

theorem idx_append_add {α : Type} (a l : List α) (n : Nat) : idx (a ++ l) (a.length + n) = idx l n := by
  simp [idx, List.getElem?_append_right (Nat.le_add_right a.length n)]

@[simp] theorem sliceFrom_zero {α : Type} (l : List α) : sliceFrom l 0 = .ok l := by simp [sliceFrom]
@[simp] theorem sliceFrom_succ {α : Type} (a : α) (l : List α) (n : Nat) :
    sliceFrom (a :: l) (n + 1) = sliceFrom l n := by simp [sliceFrom]

theorem sliceFrom_append_add {α : Type} (a l : List α) (n : Nat) :
    sliceFrom (a ++ l) (a.length + n) = sliceFrom l n := by
  simp [sliceFrom, List.drop_append, List.drop_of_length_le]

theorem sliceFrom_append {α : Type} (a l : List α) : sliceFrom (a ++ l) a.length = .ok l := by
  simpa using sliceFrom_append_add a l 0

theorem sliceTo_append {α : Type} (a l : List α) : sliceTo (a ++ l) a.length = .ok a := by
  simp [sliceTo]

theorem slice_append {α : Type} (a b c : List α) :
    slice (a ++ b ++ c) a.length (a.length + b.length) = .ok b := by
  simp [slice, List.take_append]

theorem atOff_append (a l : List UInt8) (n : Nat) (f : List UInt8 → R (List UInt8)) :
    atOff (a ++ l) (a.length + n) f = (a ++ ·) <$> atOff l n f := by
  unfold atOff
  rw [sliceFrom_append_add]
  cases h : sliceFrom l n with
  | error e => simp
  | ok t =>
    cases h2 : f t with
    | error e => simp [h2]
    | ok t' =>
      have : List.take (a.length + n) (a ++ l) = a ++ l.take n := by
        simp [List.take_append, List.take_of_length_le]
      simp [h2, this]

theorem resize_extend {α : Type} (l : List α) (k : Nat) (x : α) :
    resize l (l.length + k) x = l ++ List.replicate k x := by
  simp [resize, List.take_of_length_le]

theorem resize_shrink {α : Type} (l : List α) (n : Nat) (x : α) (h : n ≤ l.length) :
    resize l n x = l.take n := by
  simp [resize, Nat.sub_eq_zero_of_le h]

@[simp] theorem debugAssert_true (p : Profile) : debugAssert p true = .ok () := by cases p <;> rfl
@[simp] theorem debugAssert_release (c : Bool) : debugAssert .release c = .ok () := by cases c <;> rfl
@[simp] theorem debugAssert_debug_false : debugAssert .debug false = panic := rfl

theorem usizeSub_ok {a b : Nat} (p : Profile) (h : b ≤ a) : usizeSub p a b = .ok (a - b) := by
  simp [usizeSub, h]

/-! ### Deciding statements about all bytes -/

instance decidableForallUInt8 (P : UInt8 → Prop) [DecidablePred P] : Decidable (∀ a, P a) :=
  decidable_of_iff (∀ i : Fin 256, P (UInt8.ofNat i.val)) <| by
    constructor
    · intro h a
      have := h ⟨a.toNat, a.toNat_lt⟩
      simpa using this
    · intro h i; exact h _

/-! ### Numeric value of bit operations -/

theorem u8_and_mask (a : UInt8) (k : Nat) (m : UInt8) (hm : m.toNat = 2 ^ k - 1) :
    (a &&& m).toNat = a.toNat % 2 ^ k := by
  rw [UInt8.toNat_and, hm, Nat.and_two_pow_sub_one_eq_mod]

/-- Disjoint `or` is addition. -/
theorem nat_shl_or (a b k : Nat) (h : b < 2 ^ k) : (a * 2 ^ k) ||| b = a * 2 ^ k + b := by
  have := Nat.two_pow_add_eq_or_of_lt h a
  rw [Nat.mul_comm] at this
  exact this.symm

end Mpegts
