import Verif.Model.Bits
import Verif.Lemmas.Desc

/-! # Lemmas about `set_bits!` -/

namespace Mpegts

open Spec Spec.Descriptor

theorem u8_shl (a : UInt8) (k : Nat) (hk : k < 8) (h : a.toNat < 2 ^ (8 - k)) :
    (a <<< UInt8.ofNat k).toNat = a.toNat * 2 ^ k := by
  rw [UInt8.toNat_shiftLeft, UInt8.toNat_ofNat', Nat.mod_eq_of_lt (by omega : k < 2 ^ 8), Nat.mod_eq_of_lt hk, Nat.shiftLeft_eq]
  refine Nat.mod_eq_of_lt ?_
  have : (2 : Nat) ^ 8 = 2 ^ (8 - k) * 2 ^ k := by rw [← Nat.pow_add]; congr 1; omega
  rw [this]
  exact Nat.mul_lt_mul_of_pos_right h (Nat.two_pow_pos k)

theorem u16_shl (a : UInt16) (k : Nat) (hk : k < 16) (h : a.toNat < 2 ^ (16 - k)) :
    (a <<< UInt16.ofNat k).toNat = a.toNat * 2 ^ k := by
  rw [UInt16.toNat_shiftLeft, UInt16.toNat_ofNat', Nat.mod_eq_of_lt (by omega : k < 2 ^ 16), Nat.mod_eq_of_lt hk, Nat.shiftLeft_eq]
  refine Nat.mod_eq_of_lt ?_
  have : (2 : Nat) ^ 16 = 2 ^ (16 - k) * 2 ^ k := by rw [← Nat.pow_add]; congr 1; omega
  rw [this]
  exact Nat.mul_lt_mul_of_pos_right h (Nat.two_pow_pos k)

theorem pack_cons (w v : Nat) (g : List (Nat × Nat)) : pack ((w, v) :: g) = v * 2 ^ width g + pack g := by
  have := pack_append [(w, v)] g
  simpa [pack] using this

theorem setBits8_toNat (fields : List (UInt8 × Nat)) (shift : Nat) (hne : fields ≠ []) (hs : shift ≤ 8)
    (h : ∀ f ∈ fields, 0 < f.2 ∧ f.1.toNat < 2 ^ f.2) (hw : width (fields.map fun f => (f.2, f.1.toNat)) ≤ shift) :
    (setBits8 shift fields).toNat =
      pack (fields.map fun f => (f.2, f.1.toNat)) * 2 ^ (shift - width (fields.map fun f => (f.2, f.1.toNat))) := by
  induction fields generalizing shift with
  | nil => exact absurd rfl hne
  | cons f rest ih =>
    obtain ⟨v, size⟩ := f
    obtain ⟨h1, h2⟩ := h (v, size) (by simp)
    simp only [List.map_cons, width, List.sum_cons, pack_cons] at hw ⊢
    have hv : (v <<< UInt8.ofNat (shift - size)).toNat = v.toNat * 2 ^ (shift - size) := by
      refine u8_shl _ _ (by omega) (Nat.lt_of_lt_of_le h2 (Nat.pow_le_pow_right (by omega) (by omega)))
    cases rest with
    | nil => simpa [setBits8, pack, width] using hv
    | cons g r =>
      have hr : ∀ f ∈ g :: r, 0 < f.2 ∧ f.1.toNat < 2 ^ f.2 := fun f hf => h f (List.mem_cons_of_mem _ hf)
      have e := ih (shift - size) (by simp) (by omega) hr (by simp only [width]; omega)
      have hp := pack_lt ((g :: r).map fun f => (f.2, f.1.toNat)) (by
        intro f hf
        obtain ⟨x, hx, rfl⟩ := List.mem_map.1 hf
        exact (hr x hx).2)
      rw [show setBits8 shift ((v, size) :: g :: r) = (v <<< UInt8.ofNat (shift - size)) ||| setBits8 (shift - size) (g :: r) from rfl]
      simp only [width] at e hp ⊢
      generalize hW : (((g :: r).map fun f => (f.2, f.1.toNat)).map Prod.fst).sum = W at *
      generalize pack ((g :: r).map fun f => (f.2, f.1.toNat)) = P at *
      have hlt : P * 2 ^ (shift - size - W) < 2 ^ (shift - size) := by
        have : 2 ^ (shift - size) = 2 ^ W * 2 ^ (shift - size - W) := by rw [← Nat.pow_add]; congr 1; omega
        rw [this]; exact Nat.mul_lt_mul_of_pos_right hp (Nat.two_pow_pos _)
      rw [u8_or_disjoint _ _ (shift - size) (by rw [hv]; exact Nat.mul_mod_left _ _) (by rw [e]; exact hlt), hv, e]
      rw [Nat.add_mul, Nat.mul_assoc, ← Nat.pow_add]
      congr 3 <;> omega

theorem setBits16_toNat (fields : List (UInt16 × Nat)) (shift : Nat) (hne : fields ≠ []) (hs : shift ≤ 16)
    (h : ∀ f ∈ fields, 0 < f.2 ∧ f.1.toNat < 2 ^ f.2) (hw : width (fields.map fun f => (f.2, f.1.toNat)) ≤ shift) :
    (setBits16 shift fields).toNat =
      pack (fields.map fun f => (f.2, f.1.toNat)) * 2 ^ (shift - width (fields.map fun f => (f.2, f.1.toNat))) := by
  induction fields generalizing shift with
  | nil => exact absurd rfl hne
  | cons f rest ih =>
    obtain ⟨v, size⟩ := f
    obtain ⟨h1, h2⟩ := h (v, size) (by simp)
    simp only [List.map_cons, width, List.sum_cons, pack_cons] at hw ⊢
    have hv : (v <<< UInt16.ofNat (shift - size)).toNat = v.toNat * 2 ^ (shift - size) := by
      refine u16_shl _ _ (by omega) (Nat.lt_of_lt_of_le h2 (Nat.pow_le_pow_right (by omega) (by omega)))
    cases rest with
    | nil => simpa [setBits16, pack, width] using hv
    | cons g r =>
      have hr : ∀ f ∈ g :: r, 0 < f.2 ∧ f.1.toNat < 2 ^ f.2 := fun f hf => h f (List.mem_cons_of_mem _ hf)
      have e := ih (shift - size) (by simp) (by omega) hr (by simp only [width]; omega)
      have hp := pack_lt ((g :: r).map fun f => (f.2, f.1.toNat)) (by
        intro f hf
        obtain ⟨x, hx, rfl⟩ := List.mem_map.1 hf
        exact (hr x hx).2)
      rw [show setBits16 shift ((v, size) :: g :: r) = (v <<< UInt16.ofNat (shift - size)) ||| setBits16 (shift - size) (g :: r) from rfl]
      simp only [width] at e hp ⊢
      generalize hW : (((g :: r).map fun f => (f.2, f.1.toNat)).map Prod.fst).sum = W at *
      generalize pack ((g :: r).map fun f => (f.2, f.1.toNat)) = P at *
      have hlt : P * 2 ^ (shift - size - W) < 2 ^ (shift - size) := by
        have : 2 ^ (shift - size) = 2 ^ W * 2 ^ (shift - size - W) := by rw [← Nat.pow_add]; congr 1; omega
        rw [this]; exact Nat.mul_lt_mul_of_pos_right hp (Nat.two_pow_pos _)
      rw [u16_or_disjoint _ _ (shift - size) (by rw [hv]; exact Nat.mul_mod_left _ _) (by rw [e]; exact hlt), hv, e]
      rw [Nat.add_mul, Nat.mul_assoc, ← Nat.pow_add]
      congr 3 <;> omega

end Mpegts
