import Verif.Props.C140
import Verif.Spec.Damage
import Verif.Lemmas.CrcPowers
import Verif.Lemmas.CrcApart

/-! # C141: sections with a few damaged bits -/

namespace Mpegts
open Spec

/-! ## The shift register -/

/-- The register after a zero bit. -/
def Crc.zero (r : UInt32) : UInt32 := crcBit r false

/-- The register after a bit, if the bit entered at the low end. -/
def Crc.low (r : UInt32) (b : Bool) : UInt32 := Crc.zero r ^^^ (if b then 1 else 0)

namespace Crc

theorem zero_xor (r s : UInt32) : zero (r ^^^ s) = zero r ^^^ zero s := crcBit_xor r s false false

theorem zero_iter_xor (n : Nat) (r s : UInt32) : zero^[n] (r ^^^ s) = zero^[n] r ^^^ zero^[n] s := by
  induction n generalizing r s with
  | zero => rfl
  | succ n ih => rw [Function.iterate_succ_apply, Function.iterate_succ_apply, Function.iterate_succ_apply, zero_xor, ih]

theorem zero_iter_zero (n : Nat) : zero^[n] 0 = 0 := by
  induction n with
  | zero => rfl
  | succ n ih => rw [Function.iterate_succ_apply, show zero 0 = 0 from rfl, ih]

theorem zero_iter_inj (n : Nat) (r s : UInt32) (h : zero^[n] r = zero^[n] s) : r = s := by
  induction n generalizing r s with
  | zero => exact h
  | succ n ih =>
    rw [Function.iterate_succ_apply, Function.iterate_succ_apply] at h
    exact foldl_inj [false] r s (ih _ _ h)

/-- The generator is x^32. -/
theorem generator : ∃ n, crcBit 0 true = zero^[n] 1 := ⟨32, by decide +kernel⟩

theorem bit_split (n : Nat) (hn : crcBit 0 true = zero^[n] 1) (r : UInt32) (b : Bool) : crcBit r b = zero r ^^^ (if b then zero^[n] 1 else 0) := by
  have h := crcBit_xor r 0 false b
  rw [UInt32.xor_zero, Bool.false_xor] at h
  rw [h]
  cases b
  · exact congrArg _ (by simp only [Bool.false_eq_true, if_false]; decide)
  · rw [hn]; rfl

theorem fold_low (n : Nat) (hn : crcBit 0 true = zero^[n] 1) (d : List Bool) (r : UInt32) : d.foldl crcBit (zero^[n] r) = zero^[n] (d.foldl low r) := by
  induction d generalizing r with
  | nil => rfl
  | cons b d ih =>
    rw [List.foldl_cons, List.foldl_cons, ← ih, bit_split n hn, low, zero_iter_xor, ← Function.iterate_succ_apply' zero,
      ← Function.iterate_succ_apply zero]
    cases b
    · simp only [Bool.false_eq_true, if_false, zero_iter_zero]
    · rfl

theorem low_zeros (n : Nat) (r : UInt32) : (List.replicate n false).foldl low r = zero^[n] r := by
  induction n generalizing r with
  | zero => rfl
  | succ n ih =>
    rw [List.replicate_succ, List.foldl_cons, ih, Function.iterate_succ_apply]
    congr 1
    exact UInt32.xor_zero

theorem first_true (d : List Bool) (h : 1 ≤ d.count true) : ∃ i r, d = List.replicate i false ++ true :: r ∧ d.count true = r.count true + 1 := by
  induction d with
  | nil => simp at h
  | cons b d ih =>
    cases b
    · obtain ⟨i, r, h1, h2⟩ := ih (by simpa using h)
      exact ⟨i + 1, r, by rw [h1]; rfl, by simpa using h2⟩
    · exact ⟨0, d, rfl, by simp⟩

theorem no_true (d : List Bool) (h : d.count true = 0) : d = List.replicate d.length false := by
  rw [List.eq_replicate_iff]
  refine ⟨rfl, fun b hb => ?_⟩
  cases b
  · rfl
  · exact absurd hb (List.count_eq_zero.1 h)

/-! ## The powers of x -/

/-- Powers of x below this are different, and do not differ by 1. -/
def Apart (n : Nat) : Prop := ∀ a b, a < n → b < n → (zero^[a] 1).toNat / 2 = (zero^[b] 1).toNat / 2 → a = b

theorem Apart.xor {n : Nat} (h : Apart n) (a b : Nat) (ha : a < n) (hb : b < n) (hab : a ≠ b) (x : UInt32) (hx : x.toNat < 2) :
    zero^[a] 1 ^^^ zero^[b] 1 ≠ x := by
  intro e
  refine hab (h a b ha hb ?_)
  have e2 := congrArg (fun y : UInt32 => y.toNat / 2) e
  simp only [UInt32.toNat_xor] at e2
  rw [Nat.xor_div_two, Nat.div_eq_of_lt hx] at e2
  have e3 := congrArg (· ^^^ (zero^[b] 1).toNat / 2) e2
  simpa [Nat.xor_assoc] using e3

/-- An error of one, two or three bits changes the register. -/
theorem fold_ne (n : Nat) (h : Apart n) (d : List Bool) (hd : d.length ≤ n) (h1 : 1 ≤ d.count true) (h3 : d.count true ≤ 3) :
    d.foldl crcBit 0 ≠ 0 := by
  intro e
  obtain ⟨g, hg⟩ := generator
  rw [← zero_iter_zero g, fold_low g hg] at e
  have e := zero_iter_inj g _ _ e
  obtain ⟨i, r, rfl, c1⟩ := first_true d h1
  rw [List.foldl_append, low_zeros, zero_iter_zero, List.foldl_cons, show low 0 true = 1 by decide] at e
  simp only [List.length_append, List.length_replicate, List.length_cons] at hd
  have h0 : ∀ m, m < n → zero^[m] 1 ≠ 0 := fun m _ he => by
    rw [← zero_iter_zero m] at he
    exact absurd (zero_iter_inj m _ _ he) (by decide)
  by_cases r0 : r.count true = 0
  · rw [no_true r r0, low_zeros] at e
    exact h0 _ (by omega) e
  obtain ⟨j, q, rfl, c2⟩ := first_true r (by omega)
  simp only [List.length_append, List.length_replicate, List.length_cons] at hd
  have hlow : ∀ x, low x true = zero x ^^^ 1 := fun _ => rfl
  rw [List.foldl_append, low_zeros, List.foldl_cons, hlow, ← Function.iterate_succ_apply' zero] at e
  by_cases q0 : q.count true = 0
  · rw [no_true q q0, low_zeros] at e
    rw [← zero_iter_zero q.length] at e
    exact h.xor (j + 1) 0 (by omega) (by omega) (by omega) 0 (by decide) (zero_iter_inj _ _ _ e)
  obtain ⟨k, u, rfl, c3⟩ := first_true q (by omega)
  simp only [List.length_append, List.length_replicate, List.length_cons] at hd
  rw [List.foldl_append, low_zeros, List.foldl_cons, hlow, ← Function.iterate_succ_apply' zero, no_true u (by omega), low_zeros] at e
  rw [← zero_iter_zero u.length] at e
  have e := zero_iter_inj _ _ _ e
  rw [zero_iter_xor, ← Function.iterate_add_apply] at e
  refine h.xor (k + 1 + (j + 1)) (k + 1) (by omega) (by omega) (by omega) 1 (by decide) ?_
  have e := congrArg (· ^^^ (1 : UInt32)) e
  simpa [UInt32.xor_assoc] using e

theorem zero_toNat (r : UInt32) : (zero r).toNat = times r.toNat := by
  have hr := r.toNat_lt
  have hs : (r <<< 1).toNat = r.toNat * 2 % 2 ^ 32 := by
    rw [UInt32.toNat_shiftLeft, show (1 : UInt32).toNat % 32 = 1 from rfl, Nat.shiftLeft_eq, Nat.pow_one]
  unfold zero crcBit times
  rw [Crc.rec_bool]
  by_cases h : r.toNat < 0x80000000
  · have hb : r.toNat.testBit 31 = false := Nat.testBit_lt_two_pow h
    rw [hb, if_neg (by decide), if_neg (by rw [Nat.ble_eq]; omega), hs, Nat.mod_eq_of_lt (by omega)]
    rfl
  · have hb : r.toNat.testBit 31 = true := by
      rw [Nat.testBit_eq_decide_div_mod_eq, decide_eq_true_iff]
      omega
    rw [hb, if_pos (by decide), if_pos (by rw [Nat.ble_eq]; omega), UInt32.toNat_xor, hs]
    have e1 : r.toNat * 2 = 2 ^ 32 * 1 + r.toNat * 2 % 2 ^ 32 := by omega
    have e2 : (0x104C11DB7 : Nat) = 2 ^ 32 * 1 + 0x04C11DB7 := rfl
    have h1 : r.toNat * 2 % 2 ^ 32 < 2 ^ 32 := Nat.mod_lt _ (by decide)
    have hx : r.toNat * 2 % 2 ^ 32 ^^^ 0x04C11DB7 < 2 ^ 32 := Nat.xor_lt_two_pow h1 (by decide)
    have e3 : r.toNat * 2 ^^^ 0x104C11DB7 = r.toNat * 2 % 2 ^ 32 ^^^ 0x04C11DB7 := by
      rw [e1, e2, Nat.two_pow_add_eq_or_of_lt h1, Nat.two_pow_add_eq_or_of_lt (b := 0x04C11DB7) (by decide)]
      refine Nat.eq_of_testBit_eq fun i => ?_
      simp only [Nat.testBit_xor, Nat.testBit_or, Nat.mul_one, Nat.testBit_mod_two_pow, Nat.testBit_two_pow]
      by_cases hi : 32 = i
      · subst hi
        simp
        decide
      · simp [hi]
    exact e3.symm

theorem zero_iter_toNat (n : Nat) (r : UInt32) : (zero^[n] r).toNat = times^[n] r.toNat := by
  induction n generalizing r with
  | zero => rfl
  | succ n ih => rw [Function.iterate_succ_apply, Function.iterate_succ_apply, ih, zero_toNat]

theorem apart_iff (n : Nat) (h : ∀ a b, a < n → b < n → times^[a] 1 / 2 = times^[b] 1 / 2 → a = b) : Apart n := by
  intro a b ha hb e
  rw [zero_iter_toNat, zero_iter_toNat] at e
  exact h a b ha hb e

theorem apart : Apart 32784 := apart_iff _ powers_apart

end Crc

/-! ## Sections -/

theorem zip_self (d : List Bool) : List.zipWith xor d d = List.replicate d.length false := by
  induction d with
  | nil => rfl
  | cons b d ih => rw [List.zipWith_cons_cons, ih, List.length_cons, List.replicate_succ, Bool.xor_self]

/-- C141: two byte strings of the same length, at most 4098 bytes, that differ in one, two or three bits, wherever these are, have different
CRCs. -/
theorem C141_crc (a b : List UInt8) (hl : a.length = b.length) (hn : a.length ≤ 4098) (h1 : 1 ≤ damaged a b) (h3 : damaged a b ≤ 3) :
    crc32b a ≠ crc32b b := by
  rw [crc32b_eq, crc32b_eq]
  intro e
  have e : crc32 a = crc32 b := Except.ok.inj e
  have hb : (bits a).length = (bits b).length := by rw [bits_length, bits_length, hl]
  have hx := foldl_xor (bits a) (bits b) hb 0xFFFFFFFF 0xFFFFFFFF
  rw [UInt32.xor_self] at hx
  refine Crc.fold_ne 32784 Crc.apart _ ?_ h1 h3 (hx.trans ?_)
  · rw [List.length_zipWith, bits_length, bits_length]
    omega
  · show crc32 a ^^^ crc32 b = 0
    rw [e, UInt32.xor_self]

/-- C141: an intact section of the size a section can have, in which one, two or three bits are damaged afterwards, is rejected. -/
theorem C141_check (p : Profile) (s s' : Psi) (hs : s.check p = .ok true) (hsize : s'.size = s.size) (hn : s.size ≤ 4098)
    (h1 : 1 ≤ damaged (s.buffer.take s.size) (s'.buffer.take s.size)) (h3 : damaged (s.buffer.take s.size) (s'.buffer.take s.size) ≤ 3) :
    s'.check p = .ok false := by
  rw [Psi.check_eq] at hs ⊢
  have hs' : 7 < s.size ∧ s.size ≤ s.buffer.length ∧ crc32 (s.buffer.take s.size) = 0 := by simpa using hs
  by_cases hl : s.size ≤ s'.buffer.length
  · have := C141_crc _ _ (by rw [List.length_take, List.length_take]; omega) (by rw [List.length_take]; omega) h1 h3
    rw [crc32b_eq, crc32b_eq, hs'.2.2] at this
    have h0 : ¬ crc32 (s'.buffer.take s'.size) = 0 := by
      rw [hsize]; intro h; rw [h] at this; exact this rfl
    simp [h0]
  · have : ¬ s'.size ≤ s'.buffer.length := by omega
    simp [this]

theorem damaged_nonempty (a b : List UInt8) (h : 1 ≤ damaged a b) : b ≠ [] := by
  rintro rfl
  simp [damaged, bits] at h

/-- C141: parsing such a section leaves every table that has a CRC as it was. -/
theorem C141_tables (p : Profile) (s s' : Psi) (hs : s.check p = .ok true) (hsize : s'.size = s.size) (hn : s.size ≤ 4098)
    (h1 : 1 ≤ damaged (s.buffer.take s.size) (s'.buffer.take s.size)) (h3 : damaged (s.buffer.take s.size) (s'.buffer.take s.size) ≤ 3) :
    (∀ t : Pat, t.parse p s' = .ok t) ∧ (∀ t : Pmt, t.parse p s' = .ok t) ∧ (∀ t : Sdt, t.parse p s' = .ok t) ∧
      (∀ t : Nit, t.parse p s' = .ok t) ∧ (∀ t : Eit, t.parse p s' = .ok t) ∧ ∀ t : Tot, t.parse p s' = .ok t := by
  have hc := C141_check p s s' hs hsize hn h1 h3
  have hb : s'.buffer ≠ [] := fun e => damaged_nonempty _ _ h1 (by rw [e, List.take_nil])
  have hi : ∀ m, 8 ≤ m → ¬ Intact m s' := by
    intro m hm h
    rw [check_intact p s' m hm h.1, decide_eq_true h] at hc
    cases hc
  exact ⟨fun t => Pat.C65_pat p t s' (.inr hb) fun h => hi 12 (by decide) h.2, fun t => Pmt.C65_pmt p t s' (.inr hb) fun h => hi 16 (by decide) h.2,
    fun t => Sdt.C65_sdt p t s' (.inr hb) fun h => hi 15 (by decide) h.2, fun t => Nit.C65_nit p t s' (.inr hb) fun h => hi 16 (by decide) h.2,
    fun t => Eit.C65_eit p t s' (.inr hb) fun h => hi 18 (by decide) h.2, fun t => Tot.C65_tot p t s' (.inr hb) fun h => hi 14 (by decide) h.2⟩

theorem receive_rejected {α : Type} (parse : α → Psi → R α) (p : Profile) (t : α) (s : Psi) (pid cc : Nat) (hp : pid < 8192)
    (body sec : List UInt8) (h8 : 4 ≤ body.length) (hl : sec.length = (complete body).length) (hs : IsSection sec)
    (h1 : 1 ≤ damaged (complete body) sec) (h3 : damaged (complete body) sec ≤ 3)
    (hrej : ∀ psi : Psi, psi.buffer ≠ [] → (∀ m, 8 ≤ m → ¬ Intact m psi) → parse t psi = .ok t) :
    ∃ s', receive parse p t s (packets pid cc sec) = .ok (t, s') := by
  have hn : sec.length ≤ 4098 := by
    have := hs.2
    have := Nat.mod_lt (beNat ((sec.drop 1).take 2)) (show 0 < 4096 by decide)
    omega
  rw [receive_section parse p t s pid cc sec hs hp fun psi e1 e2 e3 =>
    hrej psi (by intro h; rw [h] at e3; simp at e3) fun m _ h => by have := h.2.1; omega]
  have hc := complete_sent (b := body) (by omega) (by omega) h8
  have hk : ∀ u : Psi, u.buffer = sec → u.size = sec.length → parse t u = .ok t := by
    intro u hb hz
    have hu := C141_check p { Psi.default with buffer := complete body, size := (complete body).length } u
      (by rw [Psi.check_eq]; exact congrArg Except.ok (decide_eq_true ⟨hc.2.1, Nat.le_refl _, by simpa using hc.2.2⟩))
      (by rw [hz, hl]) (by show (complete body).length ≤ 4098; omega)
      (by show 1 ≤ damaged ((complete body).take _) (u.buffer.take _); rw [hb, List.take_length, ← hl, List.take_length]; exact h1)
      (by show damaged ((complete body).take _) (u.buffer.take _) ≤ 3; rw [hb, List.take_length, ← hl, List.take_length]; exact h3)
    refine hrej u (by intro h; rw [hb] at h; have := hs.1; rw [h] at this; simp at this) fun m hm h => ?_
    rw [check_intact p u m hm h.1, decide_eq_true h] at hu
    cases hu
  have hk := hk { s with buffer := sec, size := sec.length, cc := UInt8.ofNat ((cc + packetCount sec.length - 1) % 16) } rfl rfl
  exact ⟨{ s with buffer := sec, size := sec.length, cc := UInt8.ofNat ((cc + packetCount sec.length - 1) % 16) }, by simp only [hk]; rfl⟩

/-- C141: a section sent in packets of which one, two or three bits are damaged on the way, but not its length, leaves the table of the
receiver as it was, whatever the state of the receiver. -/
theorem C141_received (p : Profile) (pid cc : Nat) (hp : pid < 8192) (s : Psi) (body sec : List UInt8) (h8 : 4 ≤ body.length)
    (hl : sec.length = (complete body).length) (hs : IsSection sec) (h1 : 1 ≤ damaged (complete body) sec) (h3 : damaged (complete body) sec ≤ 3) :
    (∀ t : Pat, ∃ s', receive (Pat.parse p) p t s (packets pid cc sec) = .ok (t, s')) ∧
      (∀ t : Pmt, ∃ s', receive (Pmt.parse p) p t s (packets pid cc sec) = .ok (t, s')) ∧
      (∀ t : Sdt, ∃ s', receive (Sdt.parse p) p t s (packets pid cc sec) = .ok (t, s')) ∧
      (∀ t : Nit, ∃ s', receive (Nit.parse p) p t s (packets pid cc sec) = .ok (t, s')) ∧
      (∀ t : Eit, ∃ s', receive (Eit.parse p) p t s (packets pid cc sec) = .ok (t, s')) ∧
      ∀ t : Tot, ∃ s', receive (Tot.parse p) p t s (packets pid cc sec) = .ok (t, s') := by
  have key {α : Type} (parse : α → Psi → R α) (t : α)
      (hrej : ∀ psi : Psi, psi.buffer ≠ [] → (∀ m, 8 ≤ m → ¬ Intact m psi) → parse t psi = .ok t) :=
    receive_rejected parse p t s pid cc hp body sec h8 hl hs h1 h3 hrej
  exact ⟨fun t => key _ t fun s' hb hi => Pat.C65_pat p t s' (.inr hb) fun h => hi 12 (by decide) h.2,
    fun t => key _ t fun s' hb hi => Pmt.C65_pmt p t s' (.inr hb) fun h => hi 16 (by decide) h.2,
    fun t => key _ t fun s' hb hi => Sdt.C65_sdt p t s' (.inr hb) fun h => hi 15 (by decide) h.2,
    fun t => key _ t fun s' hb hi => Nit.C65_nit p t s' (.inr hb) fun h => hi 16 (by decide) h.2,
    fun t => key _ t fun s' hb hi => Eit.C65_eit p t s' (.inr hb) fun h => hi 18 (by decide) h.2,
    fun t => key _ t fun s' hb hi => Tot.C65_tot p t s' (.inr hb) fun h => hi 14 (by decide) h.2⟩

/-! ## Four bits -/

/-- x^3006 + x^2866 + x^2215 + 1, a multiple of the generator: 376 bytes. -/
def fourBits : List UInt8 :=
  [0x40] ++ List.replicate 16 0 ++ [0x04] ++ List.replicate 81 0 ++ [0x80] ++ List.replicate 275 0 ++ [0x01]

theorem fourBits_bits : bits fourBits = List.replicate 1 false ++ true :: (List.replicate 139 false ++ true :: (List.replicate 650 false ++
    true :: (List.replicate 2214 false ++ [true]))) := by decide +kernel

theorem four_fold (a b c d : Nat) (h : Crc.run (d + 1) (Crc.run (c + 1) (Crc.run (b + 1) 1 ^^^ 1) ^^^ 1) = 1) :
    (List.replicate a false ++ true :: (List.replicate b false ++ true :: (List.replicate c false ++
      true :: (List.replicate d false ++ [true])))).foldl crcBit 0 = 0 := by
  obtain ⟨g, hg⟩ := Crc.generator
  have hlow : ∀ x, Crc.low x true = Crc.zero x ^^^ 1 := fun _ => rfl
  have h0 : Crc.low 0 true = 1 := by decide
  rw [← Crc.zero_iter_zero g, Crc.fold_low g hg]
  congr 1
  rw [List.foldl_append, Crc.low_zeros, Crc.zero_iter_zero, List.foldl_cons, h0, List.foldl_append, Crc.low_zeros, List.foldl_cons, hlow,
    List.foldl_append, Crc.low_zeros, List.foldl_cons, hlow, List.foldl_append, Crc.low_zeros, List.foldl_cons, hlow, List.foldl_nil,
    ← Function.iterate_succ_apply' Crc.zero, ← Function.iterate_succ_apply' Crc.zero, ← Function.iterate_succ_apply' Crc.zero]
  refine UInt32.toNat_inj.1 ?_
  rw [UInt32.toNat_xor, Crc.zero_iter_toNat, UInt32.toNat_xor, Crc.zero_iter_toNat, UInt32.toNat_xor, Crc.zero_iter_toNat, ← Crc.run_eq,
    ← Crc.run_eq, ← Crc.run_eq]
  show Crc.run (d + 1) (Crc.run (c + 1) (Crc.run (b + 1) 1 ^^^ 1) ^^^ 1) ^^^ 1 = 0
  rw [h]
  rfl

theorem fourBits_zero : (bits fourBits).foldl crcBit 0 = 0 := by
  rw [fourBits_bits]
  exact four_fold 1 139 650 2214 (by decide +kernel)

theorem fourBits_count : (bits fourBits).count true = 4 := by decide +kernel

/-- Three bits is the limit: in every intact section of 376 bytes or more there are four bits such that the section is accepted also with these
four damaged. -/
theorem C141_limit (p : Profile) (s : Psi) (hs : s.check p = .ok true) (hn : 376 ≤ s.size) :
    ∃ s' : Psi, s'.size = s.size ∧ s'.buffer.length = s.buffer.length ∧
      damaged (s.buffer.take s.size) (s'.buffer.take s.size) = 4 ∧ s'.check p = .ok true := by
  rw [Psi.check_eq] at hs
  have hs' : 7 < s.size ∧ s.size ≤ s.buffer.length ∧ crc32 (s.buffer.take s.size) = 0 := by simpa using hs
  obtain ⟨h7, hl, hc⟩ := hs'
  have hlf : fourBits.length = 376 := by decide +kernel
  obtain ⟨pre, w, post, e, e1, e2⟩ : ∃ pre w post, s.buffer = pre ++ w ++ post ∧ w.length = 376 ∧ (pre ++ w).length = s.size := by
    refine ⟨s.buffer.take (s.size - 376), (s.buffer.take s.size).drop (s.size - 376), s.buffer.drop s.size, ?_, ?_, ?_⟩
    · conv_lhs => rw [← List.take_append_drop s.size s.buffer, ← List.take_append_drop (s.size - 376) (s.buffer.take s.size), List.take_take,
        Nat.min_eq_left (by omega)]
    · simp; omega
    · simp; omega
  let w' := List.zipWith (· ^^^ ·) w fourBits
  have hw : w'.length = 376 := by simp only [w', List.length_zipWith]; omega
  have t1 : s.buffer.take s.size = pre ++ w := by rw [e, List.take_left' e2]
  have t2 : (pre ++ w' ++ post).take s.size = pre ++ w' := List.take_left' (by rw [List.length_append] at e2 ⊢; omega)
  have hb : ∀ a b : List UInt8, bits (a ++ b) = bits a ++ bits b := by intro a b; unfold bits; rw [List.flatMap_append]
  have hbw : bits w' = List.zipWith xor (bits w) (bits fourBits) := bits_xor w fourBits (by omega)
  have hbl : (bits w).length = (bits fourBits).length := by rw [bits_length, bits_length]; omega
  refine ⟨{ s with buffer := pre ++ w' ++ post }, rfl, ?_, ?_, ?_⟩
  · rw [e]; simp only [List.length_append]; omega
  · show damaged (s.buffer.take s.size) ((pre ++ w' ++ post).take s.size) = 4
    rw [t1, t2, damaged, hb, hb, List.zipWith_append rfl, zip_self, List.count_append, hbw]
    have h0 : ∀ x y : List Bool, x.length = y.length → List.zipWith xor x (List.zipWith xor x y) = y := by
      intro x
      induction x with
      | nil => intro y h; cases y with
        | nil => rfl
        | cons c y => cases h
      | cons b x ih => intro y h; cases y with
        | nil => cases h
        | cons c y =>
          rw [List.zipWith_cons_cons, List.zipWith_cons_cons, ih y (Nat.succ.inj h)]
          cases b <;> cases c <;> rfl
    rw [h0 _ _ hbl, fourBits_count]
    simp [List.count_replicate]
  · rw [Psi.check_eq]
    have hcr : crc32 (pre ++ w') = 0 := by
      rw [t1] at hc
      unfold crc32 at hc ⊢
      rw [hb, List.foldl_append] at hc ⊢
      have hx := foldl_xor (bits w) (bits fourBits) hbl ((bits pre).foldl crcBit 0xFFFFFFFF) 0
      rw [UInt32.xor_zero, fourBits_zero, UInt32.xor_zero, hc, ← hbw] at hx
      exact hx
    have hlen : s.size ≤ (pre ++ w' ++ post).length := by
      rw [e] at hl
      simp only [List.length_append] at hl ⊢
      omega
    refine congrArg Except.ok (decide_eq_true ⟨h7, hlen, ?_⟩)
    show crc32 ((pre ++ w' ++ post).take s.size) = 0
    rw [t2, hcr]

/-! ## Cases -/

/-- The section of three programmes of C140, with a bit of the section number, one of the last PID and one of the CRC damaged. -/
def damagedPat141 : Psi := { heldPat140 with
  buffer := ((heldPat140.buffer.modify 6 (· ^^^ 0x01)).modify 19 (· ^^^ 0x80)).modify 23 (· ^^^ 0x10) }

theorem damagedPat141_three : damaged (heldPat140.buffer.take heldPat140.size) (damagedPat141.buffer.take heldPat140.size) = 3 := by decide +kernel

example := C141_crc (heldPat140.buffer.take heldPat140.size) (damagedPat141.buffer.take heldPat140.size) (by decide +kernel) (by decide +kernel)
  (by decide +kernel) (by decide +kernel)

example : damagedPat141.check .release = .ok false := C141_check .release heldPat140 damagedPat141 heldPat140_intact rfl (by decide +kernel)
  (by rw [damagedPat141_three]; decide) damagedPat141_three.le

example : samplePat140.parse .debug damagedPat141 = .ok samplePat140 := (C141_tables .debug heldPat140 damagedPat141
  (Pat.held .debug samplePat140 _ heldPat140 rfl rfl) rfl (by decide +kernel) (by rw [damagedPat141_three]; decide)
  damagedPat141_three.le).1 _

/-- It is sent from PID 0; the receiver keeps another PAT. -/
example := (C141_received .release 0 5 (by decide) Psi.default [0x00, 0xB0, 0x00, 0x00, 0x03, 0xCF, 0x00, 0x00, 0x00, 0x01, 0xE1, 0x00]
  (((complete [0x00, 0xB0, 0x00, 0x00, 0x03, 0xCF, 0x00, 0x00, 0x00, 0x01, 0xE1, 0x00]).modify 6 (· ^^^ 0x03)).modify 12 (· ^^^ 0x80))
  (by decide) (by decide +kernel) (by decide +kernel) (by decide +kernel) (by decide +kernel)).1 samplePat140

/-- The section of a PAT of a hundred programmes, 412 bytes. -/
def hundredPat141 : Psi := { Psi.default with
  buffer := samplePat140.wire ((List.range 100).map fun k => ⟨UInt16.ofNat (k + 1), UInt16.ofNat (0x100 + k)⟩)
  size := (samplePat140.wire ((List.range 100).map fun k => ⟨UInt16.ofNat (k + 1), UInt16.ofNat (0x100 + k)⟩)).length }

example := C141_limit .release hundredPat141 (Pat.held .release samplePat140 _ hundredPat141 rfl rfl) (by decide +kernel)

end Mpegts
