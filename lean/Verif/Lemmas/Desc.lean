import Verif.Lemmas.Bytes
import Verif.Lemmas.Bcd
import Verif.Spec.Descriptor

/-! # Helper lemmas for descriptors: stores and loads on explicit byte lists, bit fields -/

namespace Mpegts
open Spec Spec.Descriptor

/-! ### Loads and stores on explicit lists -/

theorem atOff_succ (a : UInt8) (l : List UInt8) (n : Nat) (f : List UInt8 → R (List UInt8)) :
    atOff (a :: l) (n + 1) f = (a :: ·) <$> atOff l n f := by
  have := atOff_append [a] l n f
  rw [show [a].length + n = n + 1 from Nat.add_comm ..] at this
  exact this

theorem setU16At_succ (a : UInt8) (l : List UInt8) (n : Nat) (v : UInt16) :
    setU16At (a :: l) (n + 1) v = (a :: ·) <$> setU16At l n v := atOff_succ ..
theorem setU24At_succ (a : UInt8) (l : List UInt8) (n : Nat) (v : UInt32) :
    setU24At (a :: l) (n + 1) v = (a :: ·) <$> setU24At l n v := atOff_succ ..
theorem setU32At_succ (a : UInt8) (l : List UInt8) (n : Nat) (v : UInt32) :
    setU32At (a :: l) (n + 1) v = (a :: ·) <$> setU32At l n v := atOff_succ ..

theorem setU16At_zero (a b : UInt8) (l : List UInt8) (v : UInt16) :
    setU16At (a :: b :: l) 0 v = .ok (beBytes 2 v.toNat ++ l) := by
  rw [setU16At_ok v (by simp)]; simp
theorem setU24At_zero (a b c : UInt8) (l : List UInt8) (v : UInt32) :
    setU24At (a :: b :: c :: l) 0 v = .ok (beBytes 3 v.toNat ++ l) := by
  rw [setU24At_ok v (by simp)]; simp
theorem setU32At_zero (a b c d : UInt8) (l : List UInt8) (v : UInt32) :
    setU32At (a :: b :: c :: d :: l) 0 v = .ok (beBytes 4 v.toNat ++ l) := by
  rw [setU32At_ok v (by simp)]; simp

theorem getU16At_succ (a : UInt8) (l : List UInt8) (n : Nat) : getU16At (a :: l) (n + 1) = getU16At l n := by
  simp [getU16At]
theorem getU24At_succ (a : UInt8) (l : List UInt8) (n : Nat) : getU24At (a :: l) (n + 1) = getU24At l n := by
  simp [getU24At]
theorem getU32At_succ (a : UInt8) (l : List UInt8) (n : Nat) : getU32At (a :: l) (n + 1) = getU32At l n := by
  simp [getU32At]

theorem getU16At_append (a l : List UInt8) (n : Nat) : getU16At (a ++ l) (a.length + n) = getU16At l n := by
  simp only [getU16At, sliceFrom_append_add]
theorem getU24At_append (a l : List UInt8) (n : Nat) : getU24At (a ++ l) (a.length + n) = getU24At l n := by
  simp only [getU24At, sliceFrom_append_add]
theorem getU32At_append (a l : List UInt8) (n : Nat) : getU32At (a ++ l) (a.length + n) = getU32At l n := by
  simp only [getU32At, sliceFrom_append_add]

theorem getU16At_beBytes (v : Nat) (l : List UInt8) : getU16At (beBytes 2 v ++ l) 0 = .ok (UInt16.ofNat v) := by
  rw [getU16At_ok (by simp)]
  have : List.take 2 (List.drop 0 (beBytes 2 v ++ l)) = beBytes 2 v := by
    rw [List.drop_zero, List.take_append_of_le_length (by simp), List.take_of_length_le (by simp)]
  rw [this, beNat_beBytes]
  refine congrArg _ (UInt16.toNat_inj.1 ?_)
  rw [UInt16.toNat_ofNat', UInt16.toNat_ofNat']; omega
theorem getU24At_beBytes (v : Nat) (l : List UInt8) :
    getU24At (beBytes 3 v ++ l) 0 = .ok (UInt32.ofNat (v % 2 ^ 24)) := by
  rw [getU24At_ok (by simp)]
  have : List.take 3 (List.drop 0 (beBytes 3 v ++ l)) = beBytes 3 v := by
    rw [List.drop_zero, List.take_append_of_le_length (by simp), List.take_of_length_le (by simp)]
  rw [this, beNat_beBytes, show (256 : Nat) ^ 3 = 2 ^ 24 from by decide]
theorem getU32At_beBytes (v : Nat) (l : List UInt8) : getU32At (beBytes 4 v ++ l) 0 = .ok (UInt32.ofNat v) := by
  rw [getU32At_ok (by simp)]
  have : List.take 4 (List.drop 0 (beBytes 4 v ++ l)) = beBytes 4 v := by
    rw [List.drop_zero, List.take_append_of_le_length (by simp), List.take_of_length_le (by simp)]
  rw [this, beNat_beBytes]
  refine congrArg _ (UInt32.toNat_inj.1 ?_)
  rw [UInt32.toNat_ofNat', UInt32.toNat_ofNat']; omega

/-- The same on lists written out. -/
theorem getU16At_cons (v : Nat) (l : List UInt8) :
    getU16At (UInt8.ofNat (v / 256 ^ 1) :: UInt8.ofNat (v / 256 ^ 0) :: l) 0 = .ok (UInt16.ofNat v) :=
  getU16At_beBytes v l
theorem getU24At_cons (v : Nat) (l : List UInt8) :
    getU24At (UInt8.ofNat (v / 256 ^ 2) :: UInt8.ofNat (v / 256 ^ 1) :: UInt8.ofNat (v / 256 ^ 0) :: l) 0 =
      .ok (UInt32.ofNat (v % 2 ^ 24)) :=
  getU24At_beBytes v l
theorem getU32At_cons (v : Nat) (l : List UInt8) :
    getU32At (UInt8.ofNat (v / 256 ^ 3) :: UInt8.ofNat (v / 256 ^ 2) :: UInt8.ofNat (v / 256 ^ 1) ::
      UInt8.ofNat (v / 256 ^ 0) :: l) 0 = .ok (UInt32.ofNat v) :=
  getU32At_beBytes v l

/-! ### Bit fields -/

/-- Total width of a sequence of fields. -/
def width (g : List (Nat × Nat)) : Nat := (g.map Prod.fst).sum

theorem pack_foldl (g : List (Nat × Nat)) (acc : Nat) :
    g.foldl (fun acc f => acc * 2 ^ f.1 + f.2) acc = acc * 2 ^ width g + pack g := by
  induction g generalizing acc with
  | nil => simp [width, pack]
  | cons f g ih =>
    simp only [List.foldl_cons, pack, width, List.map_cons, List.sum_cons]
    rw [ih, ih (0 * 2 ^ f.1 + f.2)]
    simp only [width, Nat.pow_add]
    rw [Nat.zero_mul, Nat.zero_add, Nat.add_mul, Nat.mul_assoc, Nat.add_assoc]

theorem pack_append (f g : List (Nat × Nat)) : pack (f ++ g) = pack f * 2 ^ width g + pack g := by
  rw [pack, List.foldl_append, pack_foldl]; rfl

theorem pack_lt (g : List (Nat × Nat)) (h : ∀ f ∈ g, f.2 < 2 ^ f.1) : pack g < 2 ^ width g := by
  induction g with
  | nil => simp [pack, width]
  | cons f g ih =>
    have := pack_append [f] g
    rw [List.singleton_append] at this
    rw [this]
    have h1 := ih (fun x hx => h x (List.mem_cons_of_mem _ hx))
    have h2 := h f List.mem_cons_self
    have e : pack [f] = f.2 := by simp [pack]
    have w : width (f :: g) = f.1 + width g := by simp [width]
    rw [e, w, Nat.pow_add]
    calc f.2 * 2 ^ width g + pack g < f.2 * 2 ^ width g + 2 ^ width g := by omega
      _ = (f.2 + 1) * 2 ^ width g := by rw [Nat.succ_mul]
      _ ≤ 2 ^ f.1 * 2 ^ width g := Nat.mul_le_mul_right _ h2

theorem beBytes_split (m n a b : Nat) (hb : b < 256 ^ n) :
    beBytes (m + n) (a * 256 ^ n + b) = beBytes m a ++ beBytes n b := by
  induction m with
  | zero =>
    rw [Nat.zero_add, beBytes, List.nil_append]
    have := beBytes_mod n (a * 256 ^ n + b) (256 ^ n) (Nat.dvd_refl _)
    rw [← this, Nat.mul_add_mod_self_right, Nat.mod_eq_of_lt hb]
  | succ m ih =>
    rw [Nat.succ_add, beBytes, beBytes, ih, List.cons_append]
    have : (a * 256 ^ n + b) / 256 ^ (m + n) = a / 256 ^ m := by
      rw [Nat.pow_add, Nat.mul_comm (256 ^ m), ← Nat.div_div_eq_div_mul]
      refine congrArg (· / 256 ^ m) ?_
      rw [Nat.add_comm, Nat.add_mul_div_right _ _ (Nat.pow_pos (by omega)), Nat.div_eq_of_lt hb, Nat.zero_add]
    rw [this]

theorem beBytes_pack (m n : Nat) (f g : List (Nat × Nat)) (hw : width g = 8 * n) (h : ∀ x ∈ g, x.2 < 2 ^ x.1) :
    beBytes (m + n) (pack (f ++ g)) = beBytes m (pack f) ++ beBytes n (pack g) := by
  have e : (2 : Nat) ^ width g = 256 ^ n := by rw [hw, Nat.pow_mul]
  rw [pack_append, e]
  refine beBytes_split m n _ _ ?_
  rw [← e]; exact pack_lt g h

theorem bcd_lt (k n : Nat) : bcd k n < 16 ^ k := by
  induction k generalizing n with
  | zero => simp [bcd]
  | succ k ih =>
    have := ih (n / 10)
    rw [bcd, Nat.pow_succ]; omega

/-- OR of disjoint parts. -/
theorem u8_or_disjoint (x y : UInt8) (k : Nat) (hx : x.toNat % 2 ^ k = 0) (hy : y.toNat < 2 ^ k) :
    (x ||| y).toNat = x.toNat + y.toNat := by
  rw [UInt8.toNat_or]
  have e : x.toNat = x.toNat / 2 ^ k * 2 ^ k := by
    have := Nat.div_add_mod x.toNat (2 ^ k); rw [hx, Nat.add_zero, Nat.mul_comm] at this; exact this.symm
  rw [e]; exact nat_shl_or _ _ _ hy

theorem u16_or_disjoint (x y : UInt16) (k : Nat) (hx : x.toNat % 2 ^ k = 0) (hy : y.toNat < 2 ^ k) :
    (x ||| y).toNat = x.toNat + y.toNat := by
  rw [UInt16.toNat_or]
  have e : x.toNat = x.toNat / 2 ^ k * 2 ^ k := by
    have := Nat.div_add_mod x.toNat (2 ^ k); rw [hx, Nat.add_zero, Nat.mul_comm] at this; exact this.symm
  rw [e]; exact nat_shl_or _ _ _ hy

theorem u32_or_disjoint (x y : UInt32) (k : Nat) (hx : x.toNat % 2 ^ k = 0) (hy : y.toNat < 2 ^ k) :
    (x ||| y).toNat = x.toNat + y.toNat := by
  rw [UInt32.toNat_or]
  have e : x.toNat = x.toNat / 2 ^ k * 2 ^ k := by
    have := Nat.div_add_mod x.toNat (2 ^ k); rw [hx, Nat.add_zero, Nat.mul_comm] at this; exact this.symm
  rw [e]; exact nat_shl_or _ _ _ hy

end Mpegts
