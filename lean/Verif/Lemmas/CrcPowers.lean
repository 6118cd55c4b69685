import Mathlib.Logic.Function.Iterate
import Mathlib.Data.List.Nodup

/-! # The powers of x modulo the generator of the CRC

That the first 32784 of them are pairwise different even without the last coefficient is computed by the kernel (in `CrcApart`), with
functions whose correctness is proved here.  They are written with recursors, for the kernel's sake. -/

namespace Mpegts.Crc

/-- Multiplication by x modulo x^32+x^26+x^23+x^22+x^16+x^12+x^11+x^10+x^8+x^7+x^5+x^4+x^2+x+1. -/
noncomputable def times (v : Nat) : Nat := Bool.rec (Nat.mul v 2) (Nat.xor (Nat.mul v 2) 0x104C11DB7) (Nat.ble 0x80000000 v)

/-- Keeps the kernel from recursing too deeply. -/
def goto {α : Type} (a : α) : α := a

/-- Evaluate `n` first. -/
noncomputable def force {α : Type} (n : Nat) (f : Nat → α) : α := Nat.rec (f 0) (fun w _ => f (Nat.succ w)) n

theorem force_eq {α : Type} (n : Nat) (f : Nat → α) : force n f = f n := by cases n <;> rfl

/-- The halves of `n` powers from `v` on whose last two bits are `c`, in front of `acc`, the last one first. -/
noncomputable def halves (c n : Nat) : Nat → List Nat → List Nat :=
  Nat.rec (fun _ acc => acc)
    (fun _ ih v acc => force (Nat.div v 2) fun u =>
      goto (force (times v) ih (Bool.rec acc (List.cons u acc) (Nat.beq (Nat.land u 3) c)))) n

/-- Multiplication by x, `n` times. -/
noncomputable def run (n : Nat) : Nat → Nat := Nat.rec (fun v => v) (fun _ ih v => goto (force (times v) ih)) n

/-- Those without and those with the bit `m`. -/
noncomputable def part (m : Nat) (l : List Nat) : List Nat → List Nat → (List Nat → List Nat → Bool) → Bool :=
  List.rec (fun a b k => k a b)
    (fun x _ ih a b k => goto (Bool.rec (ih a (List.cons x b) k) (ih (List.cons x a) b k) (Nat.beq (Nat.land x m) 0))) l

/-- Less than two elements. -/
noncomputable def short (l : List Nat) : Bool := List.rec true (fun _ r _ => List.rec true (fun _ _ _ => false) r) l

/-- No number occurs twice, as `k` bits from `m` downwards show. -/
noncomputable def distinct (k : Nat) : Nat → List Nat → Bool :=
  Nat.rec (fun _ l => short l)
    (fun _ ih m l => Bool.rec (part m l [] [] fun a b => Bool.rec false (ih (Nat.div m 2) b) (ih (Nat.div m 2) a)) true (short l)) k

theorem rec_bool {α : Type} (b : Bool) (x y : α) : (Bool.rec x y b : α) = if b then y else x := by cases b <;> rfl

theorem run_eq (n v : Nat) : run n v = times^[n] v := by
  induction n generalizing v with
  | zero => rfl
  | succ n ih =>
    show force (times v) (run n) = _
    rw [force_eq, ih, Function.iterate_succ_apply]

theorem part_eq (m : Nat) (l a b : List Nat) (k : List Nat → List Nat → Bool) :
    part m l a b k = k ((l.filter fun x => Nat.beq (Nat.land x m) 0).reverse ++ a) ((l.filter fun x => !Nat.beq (Nat.land x m) 0).reverse ++ b) := by
  induction l generalizing a b with
  | nil => rfl
  | cons x r ih =>
    show (Bool.rec (part m r a (x :: b) k) (part m r (x :: a) b k) (Nat.beq (Nat.land x m) 0) : Bool) = _
    cases h : Nat.beq (Nat.land x m) 0
    · show part m r a (x :: b) k = _
      rw [ih, List.filter_cons_of_neg (fun e => by rw [h] at e; cases e), List.filter_cons_of_pos (by rw [h]; rfl)]
      simp
    · show part m r (x :: a) b k = _
      rw [ih, List.filter_cons_of_pos (by rw [h]), List.filter_cons_of_neg (fun e => by rw [h] at e; cases e)]
      simp

theorem nodup_split (f : Nat → Bool) (l : List Nat) (h1 : (l.filter f).Nodup) (h2 : (l.filter fun x => !f x).Nodup) : l.Nodup := by
  refine (List.filter_append_perm f l).nodup_iff.1 (List.nodup_append.2 ⟨h1, h2, ?_⟩)
  intro a ha b hb e
  subst e
  have := (List.mem_filter.1 ha).2
  have := (List.mem_filter.1 hb).2
  simp_all

theorem short_nodup (l : List Nat) (h : short l = true) : l.Nodup := by
  match l with
  | [] => exact List.nodup_nil
  | [x] => exact List.nodup_singleton x
  | x :: y :: r => cases h

theorem distinct_nodup (k m : Nat) (l : List Nat) (h : distinct k m l = true) : l.Nodup := by
  induction k generalizing m l with
  | zero => exact short_nodup l h
  | succ k ih =>
    have h : (Bool.rec (part m l [] [] fun a b => Bool.rec false (distinct k (Nat.div m 2) b) (distinct k (Nat.div m 2) a)) true (short l) : Bool) =
      true := h
    cases hs : short l
    · rw [hs] at h
      have h : (part m l [] [] fun a b => Bool.rec false (distinct k (Nat.div m 2) b) (distinct k (Nat.div m 2) a)) = true := h
      rw [part_eq, rec_bool, List.append_nil, List.append_nil] at h
      split at h
      · rename_i h1
        refine nodup_split (fun x => Nat.beq (Nat.land x m) 0) _ ?_ ?_
        · exact List.nodup_reverse.1 (ih _ _ h1)
        · exact List.nodup_reverse.1 (ih _ _ h)
      · cases h
    · exact short_nodup l hs

theorem halves_eq (c n v : Nat) (acc : List Nat) :
    halves c n v acc = (((List.range n).map fun k => times^[k] v / 2).filter fun u => Nat.beq (Nat.land u 3) c).reverse ++ acc := by
  induction n generalizing v acc with
  | zero => rfl
  | succ n ih =>
    show (force (Nat.div v 2) fun u => force (times v) (halves c n) (Bool.rec acc (u :: acc) (Nat.beq (Nat.land u 3) c))) = _
    rw [force_eq, force_eq, ih, rec_bool, List.range_succ_eq_map, List.map_cons, List.map_map]
    have e : ((fun k => times^[k] v / 2) ∘ Nat.succ) = fun k => times^[k] (times v) / 2 := rfl
    rw [e, List.filter_cons]
    rw [show Nat.div v 2 = v / 2 from rfl, Function.iterate_zero_apply]
    split <;> simp

theorem nodup_classes (l : List Nat) (h : ∀ c, c < 4 → (l.filter fun u => Nat.beq (Nat.land u 3) c).Nodup) : l.Nodup := by
  have h4 : ∀ u, Nat.land u 3 < 4 := fun u => Nat.lt_of_le_of_lt Nat.and_le_right (by decide)
  rw [List.nodup_iff_count_le_one]
  intro a
  have := List.nodup_iff_count_le_one.1 (h (Nat.land a 3) (h4 a)) a
  rwa [List.count_filter (by exact Nat.beq_refl _)] at this

theorem halves_inj (n : Nat) (h : ∀ c, c < 4 → distinct 31 (2 ^ 30) (halves c n 1 []) = true) (a b : Nat) (ha : a < n) (hb : b < n)
    (e : times^[a] 1 / 2 = times^[b] 1 / 2) : a = b := by
  have h : ((List.range n).map fun k => times^[k] 1 / 2).Nodup := by
    refine nodup_classes _ fun c hc => ?_
    have h := distinct_nodup _ _ _ (h c hc)
    rwa [halves_eq, List.append_nil, List.nodup_reverse] at h
  exact List.inj_on_of_nodup_map h (List.mem_range.2 ha) (List.mem_range.2 hb) e

end Mpegts.Crc
