import Verif.Props.C34_C39

/-! # C38: which descriptors make parsing panic

The exact condition, for every descriptor and both profiles.  Release builds panic on three kinds only (service, short
event, extended event), when an inner length runs past the end of the descriptor.  Debug builds also panic on
invalid decimal digits and on overflow in the kinds with decimal numbers and times. -/

namespace Mpegts
open Spec

/-! ## The condition -/

/-- The big-endian number in `n` bytes at `off`. -/
def field (s : List UInt8) (off n : Nat) : Nat := beNat ((s.drop off).take n)

/-- An `hh:mm` value that can be decoded: decimal digits, less than five hours. -/
def GoodOffset (x : Nat) : Prop := ValidBcd 4 x ∧ unbcd 2 (x / 256) < 5

/-- An entry of the local time offset descriptor that cannot be decoded with overflow checks. -/
def BadEntry (e : List UInt8) : Prop :=
  ¬ GoodOffset (field e 4 2) ∨ field e 6 2 < unixEpochMjd ∨ ¬ ValidBcd 6 (field e 8 3) ∨ ¬ GoodOffset (field e 11 2)

/-- In the items of an extended event descriptor (`s`: everything from the first item on, `budget`: announced length of all
items) an item runs past the end of the descriptor. -/
def itemsOverrun (budget : Nat) : List UInt8 → Prop
  | [] => 0 < budget
  | c :: r =>
    0 < budget ∧
      if r.length ≤ c.toNat then True
      else if r.length < c.toNat + 1 + field r c.toNat 1 then True
      else itemsOverrun (budget - (2 + c.toNat + field r c.toNat 1)) (r.drop (c.toNat + 1 + field r c.toNat 1))
termination_by s => s.length
decreasing_by simp; omega

/-- The descriptors that make parsing panic. -/
def Panics (p : Profile) (tag : UInt8) (body : List UInt8) : Prop :=
  if tag = 0x43 then p = .debug ∧ body.length = 11 ∧
    ¬ (ValidBcd 8 (field body 0 4) ∧ ValidBcd 4 (field body 4 2) ∧ ValidBcd 6 (field body 7 3))
  else if tag = 0x44 then p = .debug ∧ body.length = 11 ∧
    ¬ (ValidBcd 8 (field body 0 4) ∧ unbcd 8 (field body 0 4) * 100 < 2 ^ 32 ∧ ValidBcd 6 (field body 7 3))
  else if tag = 0x48 then 3 ≤ body.length ∧ body.length ≤ 2 + field body 1 1
  else if tag = 0x4D then 5 ≤ body.length ∧ body.length ≤ 4 + field body 3 1
  else if tag = 0x4E then 6 ≤ body.length ∧
    (body.length ≤ 5 + field body 4 1 ∨
      (body.length = 6 + field body 4 1 + field body (5 + field body 4 1) 1 ∧ itemsOverrun (field body 4 1) (body.drop 5)))
  else if tag = 0x58 then p = .debug ∧ 13 ∣ body.length ∧ ∃ j, 13 * j < body.length ∧ BadEntry (body.drop (13 * j))
  else if tag = 0x5A then p = .debug ∧ body.length = 11 ∧ 2 ^ 32 ≤ field body 0 4 * 10
  else False

/-! ## Computations that panic exactly when `P` -/

/-- `r` panics if `P`, and has a result otherwise. -/
structure Outcome {α : Type} (r : R α) (P : Prop) : Prop where
  bad : P → r = panic
  good : ¬ P → ∃ v, r = .ok v

namespace Outcome
variable {α β : Type}

theorem of_ok (v : α) : Outcome (.ok v : R α) False := ⟨False.elim, fun _ => ⟨v, rfl⟩⟩

theorem congr {r : R α} {P Q : Prop} (h : Outcome r P) (e : P ↔ Q) : Outcome r Q :=
  ⟨fun q => h.bad (e.2 q), fun q => h.good fun a => q (e.1 a)⟩

theorem bind {x : R α} {f : α → R β} {P Q : Prop} (h : Outcome x P) (k : ∀ v, x = .ok v → Outcome (f v) Q) :
    Outcome (x >>= f) (P ∨ Q) := by
  by_cases hp : P
  · rw [h.bad hp]
    exact ⟨fun _ => rfl, fun n => (n (.inl hp)).elim⟩
  · obtain ⟨v, hv⟩ := h.good hp
    have := k v hv
    rw [hv, ok_bind]
    exact this.congr ⟨.inr, fun o => o.resolve_left hp⟩

theorem map {x : R α} (f : α → β) {P : Prop} (h : Outcome x P) : Outcome (f <$> x) P := by
  constructor
  · intro hp; rw [h.bad hp]; rfl
  · intro hp; obtain ⟨v, hv⟩ := h.good hp; exact ⟨f v, by rw [hv]; rfl⟩

theorem bind_map {x : R α} {f : α → β} {P : Prop} (h : Outcome x P) : Outcome (do return f (← x)) P := by
  have := h.bind (f := fun v => (pure (f v) : R β)) (Q := False) (fun v _ => of_ok _)
  exact this.congr (by simp)
end Outcome

theorem idx_outcome (s : List UInt8) (i : Nat) : Outcome (idx s i) (s.length ≤ i) :=
  ⟨idx_panic, fun h => ⟨_, idx_ok (by omega)⟩⟩

theorem slice_outcome (s : List UInt8) (m n : Nat) (h : m ≤ n) : Outcome (slice s m n) (s.length < n) := by
  unfold slice
  constructor
  · intro hn; rw [if_neg (by omega)]
  · intro hn; rw [if_pos (by omega)]; exact ⟨_, rfl⟩

theorem fromBcd8_outcome (p : Profile) (x : UInt8) : Outcome (fromBcd8 p x) (p = .debug ∧ ¬ ValidBcd 2 x.toNat) := by
  constructor
  · rintro ⟨rfl, h⟩; exact fromBcd8_invalid x h
  · intro h
    cases p with
    | release => exact ⟨_, fromBcd8_release x⟩
    | debug => obtain ⟨v, hv, _⟩ := fromBcd8_ok .debug x (by simpa using h); exact ⟨v, hv⟩

theorem fromBcd16_outcome (p : Profile) (x : UInt16) : Outcome (fromBcd16 p x) (p = .debug ∧ ¬ ValidBcd 4 x.toNat) := by
  have e1 : (x >>> 8).toUInt8.toNat = x.toNat / 256 := by
    rw [u16_shr_toUInt8, UInt8.toNat_ofNat']; have := x.toNat_lt; omega
  have e2 : x.toUInt8.toNat = x.toNat % 256 := by simp
  refine ((fromBcd8_outcome p (x >>> 8).toUInt8).bind fun v _ =>
    (fromBcd8_outcome p x.toUInt8).bind fun w _ => Outcome.of_ok _).congr ?_
  rw [validBcd4_split, e1, e2]; tauto

theorem fromBcd32_outcome (p : Profile) (x : UInt32) : Outcome (fromBcd32 p x) (p = .debug ∧ ¬ ValidBcd 8 x.toNat) := by
  have e1 : (x >>> 16).toUInt16.toNat = x.toNat / 65536 := by
    have := x.toNat_lt
    rw [UInt32.toNat_toUInt16, UInt32.toNat_shiftRight]; simp [Nat.shiftRight_eq_div_pow]; omega
  have e2 : x.toUInt16.toNat = x.toNat % 65536 := by simp
  refine ((fromBcd16_outcome p (x >>> 16).toUInt16).bind fun v _ =>
    (fromBcd16_outcome p x.toUInt16).bind fun w _ => Outcome.of_ok _).congr ?_
  rw [validBcd8_split, e1, e2]; tauto

theorem fromBcdTime32_outcome (p : Profile) (x : UInt32) (hx : x.toNat < 2 ^ 24) :
    Outcome (fromBcdTime32 p x) (p = .debug ∧ ¬ ValidBcd 6 x.toNat) := by
  have e1 : (x >>> 16).toUInt8.toNat = x.toNat / 65536 := by rw [u32_shr16_toUInt8, UInt8.toNat_ofNat']; omega
  have e2 : (x >>> 8).toUInt8.toNat = x.toNat / 256 % 256 := by rw [u32_shr8_toUInt8, UInt8.toNat_ofNat']
  have e3 : x.toUInt8.toNat = x.toNat % 256 := by simp
  refine ((fromBcd8_outcome p (x >>> 16).toUInt8).bind fun v _ => (fromBcd8_outcome p (x >>> 8).toUInt8).bind fun w _ =>
    (fromBcd8_outcome p x.toUInt8).bind fun w _ => Outcome.of_ok _).congr ?_
  have : ValidBcd 6 x.toNat ↔ ValidBcd 2 (x.toNat / 65536) ∧ ValidBcd 2 (x.toNat / 256 % 256) ∧ ValidBcd 2 (x.toNat % 256) := by
    rw [show 6 = 4 + 2 from rfl, validBcd_add, validBcd4_split, ← validBcd_mod 2 x.toNat]
    norm_num only
    rw [Nat.div_div_eq_div_mul, and_assoc]
  rw [this, e1, e2, e3]; tauto

theorem mulU8_outcome (p : Profile) (a b : UInt8) : Outcome (mulU8 p a b) (p = .debug ∧ 256 ≤ a.toNat * b.toNat) := by
  unfold mulU8
  constructor
  · rintro ⟨rfl, h⟩; rw [if_neg (by omega)]; rfl
  · intro h
    split
    · exact ⟨_, rfl⟩
    · cases p with
      | debug => exfalso; exact h ⟨rfl, by omega⟩
      | release => exact ⟨_, rfl⟩

theorem mulU16_outcome (p : Profile) (a b : UInt16) : Outcome (mulU16 p a b) (p = .debug ∧ 65536 ≤ a.toNat * b.toNat) := by
  unfold mulU16
  constructor
  · rintro ⟨rfl, h⟩; rw [if_neg (by omega)]; rfl
  · intro h
    split
    · exact ⟨_, rfl⟩
    · cases p with
      | debug => exfalso; exact h ⟨rfl, by omega⟩
      | release => exact ⟨_, rfl⟩

theorem mulU32_outcome (p : Profile) (a b : UInt32) : Outcome (mulU32 p a b) (p = .debug ∧ 2 ^ 32 ≤ a.toNat * b.toNat) := by
  unfold mulU32
  constructor
  · rintro ⟨rfl, h⟩; rw [if_neg (by omega)]; rfl
  · intro h
    split
    · exact ⟨_, rfl⟩
    · cases p with
      | debug => exfalso; exact h ⟨rfl, by omega⟩
      | release => exact ⟨_, rfl⟩

theorem fromBcdTime16_outcome (p : Profile) (x : UInt16) : Outcome (fromBcdTime16 p x) (p = .debug ∧ ¬ GoodOffset x.toNat) := by
  have e1 : (x >>> 8).toUInt8.toNat = x.toNat / 256 := by
    rw [u16_shr_toUInt8, UInt8.toNat_ofNat']; have := x.toNat_lt; omega
  have e2 : x.toUInt8.toNat = x.toNat % 256 := by simp
  have h1 := fromBcd8_outcome p (x >>> 8).toUInt8
  by_cases hp : p = .debug ∧ ¬ ValidBcd 2 (x >>> 8).toUInt8.toNat
  · have : fromBcdTime16 p x = panic := by rw [fromBcdTime16, h1.bad hp]; rfl
    rw [this]
    refine ⟨fun _ => rfl, fun n => (n ⟨hp.1, fun g => hp.2 ?_⟩).elim⟩
    rw [e1]; exact ((validBcd4_split _).1 g.1).1
  · obtain ⟨v, hv⟩ := h1.good hp
    have : fromBcdTime16 p x = (do let h ← mulU8 p v 60; let m ← fromBcd8 p x.toUInt8; pure (h.toUInt16 + m.toUInt16)) := by
      rw [fromBcdTime16, hv, ok_bind]
    rw [this]
    refine ((mulU8_outcome p v 60).bind fun _ _ => (fromBcd8_outcome p x.toUInt8).bind fun w _ => Outcome.of_ok _).congr ?_
    cases p with
    | release => simp
    | debug =>
      have valid : ValidBcd 2 (x >>> 8).toUInt8.toNat := by simpa using hp
      obtain ⟨w, hw, hw'⟩ := fromBcd8_ok .debug (x >>> 8).toUInt8 valid
      rw [hv] at hw
      obtain rfl := Except.ok.inj hw
      rw [e1] at valid hw'
      simp only [true_and, GoodOffset, validBcd4_split, valid, e2, hw', show (60 : UInt8).toNat = 60 from rfl, or_false]
      rw [not_and_or]
      have : 256 ≤ unbcd 2 (x.toNat / 256) * 60 ↔ ¬ unbcd 2 (x.toNat / 256) < 5 := by omega
      rw [this]; tauto

theorem fromMjd_outcome (p : Profile) (x : UInt16) : Outcome (fromMjd p x) (p = .debug ∧ x.toNat < unixEpochMjd) := by
  constructor
  · rintro ⟨rfl, h⟩; exact C22_from_mjd_early x h
  · intro h
    cases p with
    | debug =>
      obtain ⟨t, ht, _⟩ := C22_from_mjd .debug x (by simpa using h)
      exact ⟨t, ht⟩
    | release =>
      simp only [fromMjd, debugAssert_release, ok_bind, subU64, mulU64, Profile.overflow]
      split
      · rw [ok_bind]; split <;> exact ⟨_, rfl⟩
      · rw [ok_bind]; split <;> exact ⟨_, rfl⟩

/-! ## Each kind -/

theorem field_cons2 (t n : UInt8) (body : List UInt8) (off k : Nat) : field (t :: n :: body) (off + 2) k = field body off k := by
  simp [field]

theorem field_lt (s : List UInt8) (off k : Nat) : field s off k < 256 ^ k := by
  have := beNat_lt ((s.drop off).take k)
  refine this.trans_le (Nat.pow_le_pow_right (by omega) ?_)
  simp

theorem field_one (s : List UInt8) (off : Nat) (h : off < s.length) : idx s off = .ok (UInt8.ofNat (field s off 1)) := by
  have e : (s.drop off).take 1 = [s[off]] := by rw [List.drop_eq_getElem_cons h]; rfl
  rw [idx_ok h, field, e]
  simp [beNat]

theorem u8_field (s : List UInt8) (off : Nat) : (UInt8.ofNat (field s off 1)).toNat = field s off 1 := by
  have := field_lt s off 1
  exact u8_ofNat_toNat _ (by omega)
theorem u16_field (s : List UInt8) (off : Nat) : (UInt16.ofNat (field s off 2)).toNat = field s off 2 := by
  have := field_lt s off 2
  rw [UInt16.toNat_ofNat']; exact Nat.mod_eq_of_lt (by omega)
theorem u24_field (s : List UInt8) (off : Nat) : (UInt32.ofNat (field s off 3)).toNat = field s off 3 := by
  have := field_lt s off 3
  rw [UInt32.toNat_ofNat']; exact Nat.mod_eq_of_lt (by omega)
theorem u32_field (s : List UInt8) (off : Nat) : (UInt32.ofNat (field s off 4)).toNat = field s off 4 := by
  have := field_lt s off 4
  rw [UInt32.toNat_ofNat']; exact Nat.mod_eq_of_lt (by omega)

theorem get16 {s : List UInt8} {n : Nat} (h : n + 2 ≤ s.length) : getU16At s n = .ok (UInt16.ofNat (field s n 2)) := getU16At_ok h
theorem get24 {s : List UInt8} {n : Nat} (h : n + 3 ≤ s.length) : getU24At s n = .ok (UInt32.ofNat (field s n 3)) := getU24At_ok h
theorem get32 {s : List UInt8} {n : Nat} (h : n + 4 ≤ s.length) : getU32At s n = .ok (UInt32.ofNat (field s n 4)) := getU32At_ok h

theorem fromBcd32_debug (x v : UInt32) (h : fromBcd32 .debug x = .ok v) : ValidBcd 8 x.toNat ∧ v.toNat = unbcd 8 x.toNat := by
  by_cases hv : ValidBcd 8 x.toNat
  · obtain ⟨w, hw, e⟩ := fromBcd32_ok .debug x hv
    rw [h] at hw; obtain rfl := Except.ok.inj hw; exact ⟨hv, e⟩
  · rw [(fromBcd32_outcome .debug x).bad ⟨rfl, hv⟩] at h; cases h
theorem fromBcd16_debug (x v : UInt16) (h : fromBcd16 .debug x = .ok v) : ValidBcd 4 x.toNat ∧ v.toNat = unbcd 4 x.toNat := by
  by_cases hv : ValidBcd 4 x.toNat
  · obtain ⟨w, hw, e⟩ := fromBcd16_ok .debug x hv
    rw [h] at hw; obtain rfl := Except.ok.inj hw; exact ⟨hv, e⟩
  · rw [(fromBcd16_outcome .debug x).bad ⟨rfl, hv⟩] at h; cases h

theorem unbcd8_lt (n : Nat) (h : ValidBcd 8 n) : unbcd 8 n < 100000000 := by
  rw [validBcd8_split] at h
  have := unbcd4_lt _ h.1; have := unbcd4_lt _ h.2; rw [unbcd8_split]; omega

theorem validBcd_eight_six (n : Nat) (h : n < 2 ^ 24) : ValidBcd 8 n ↔ ValidBcd 6 n := by
  rw [show 8 = 2 + 6 from rfl, validBcd_add]
  have : n / 16 ^ 6 = 0 := by omega
  rw [this]; simp [ValidBcd]

theorem mul_no_panic32 (p : Profile) (x v : UInt32) (k : UInt32) (h : fromBcd32 p x = .ok v) (hk : k.toNat ≤ 42) :
    Outcome (mulU32 p v k) False := by
  refine (mulU32_outcome p v k).congr ⟨?_, False.elim⟩
  rintro ⟨rfl, hb⟩
  obtain ⟨h1, h2⟩ := fromBcd32_debug x v h
  have := unbcd8_lt _ h1
  rw [h2] at hb
  have := Nat.mul_le_mul (Nat.le_of_lt this) hk
  omega

theorem mul_no_panic16 (p : Profile) (x v : UInt16) (k : UInt16) (h : fromBcd16 p x = .ok v) (hk : k.toNat ≤ 6) :
    Outcome (mulU16 p v k) False := by
  refine (mulU16_outcome p v k).congr ⟨?_, False.elim⟩
  rintro ⟨rfl, hb⟩
  obtain ⟨h1, h2⟩ := fromBcd16_debug x v h
  have := unbcd4_lt _ h1
  rw [h2] at hb
  have := Nat.mul_le_mul (Nat.le_of_lt this) hk
  omega

section
variable (p : Profile) (n : UInt8) (body : List UInt8)

theorem raw_outcome (t : UInt8) (h : n.toNat = body.length) : Outcome (Desc.parseRaw (t :: n :: body)) False := by
  have := parseRaw_ok t n body [] h
  rw [List.append_nil] at this
  rw [this]; exact .of_ok _

theorem d43_outcome {t : UInt8} (h : body.length = 11) : Outcome (Desc43.parse p (t :: n :: body))
    (p = .debug ∧ ¬ (ValidBcd 8 (field body 0 4) ∧ ValidBcd 4 (field body 4 2) ∧ ValidBcd 6 (field body 7 3))) := by
  have l : (t :: n :: body).length = 13 := by simp [h]
  generalize hs : t :: n :: body = s at l
  have f1 : field body 0 4 = field s 2 4 := by rw [← hs]; exact (field_cons2 ..).symm
  have f2 : field body 4 2 = field s 6 2 := by rw [← hs]; exact (field_cons2 ..).symm
  have f3 : field body 7 3 = field s 9 3 := by rw [← hs]; exact (field_cons2 ..).symm
  rw [f1, f2, f3]
  unfold Desc43.parse
  simp only [get32 (show 2 + 4 ≤ s.length by omega), get16 (show 6 + 2 ≤ s.length by omega),
    get24 (show 9 + 3 ≤ s.length by omega), field_one s 8 (by omega), field_one s 12 (by omega), ok_bind]
  refine ((fromBcd32_outcome p _).bind fun a ha => (mul_no_panic32 p _ a 10 ha (by decide)).bind fun _ _ =>
    (fromBcd16_outcome p _).bind fun b hb => (mul_no_panic16 p _ b 6 hb (by decide)).bind fun _ _ =>
    (fromBcd32_outcome p _).bind fun _ _ => Outcome.of_ok _).congr ?_
  have := field_lt s 9 3
  rw [u32_field, u16_field, u24_field, validBcd_eight_six (field s 9 3) (by omega)]
  tauto

theorem d44_outcome {t : UInt8} (h : body.length = 11) : Outcome (Desc44.parse p (t :: n :: body))
    (p = .debug ∧ ¬ (ValidBcd 8 (field body 0 4) ∧ unbcd 8 (field body 0 4) * 100 < 2 ^ 32 ∧ ValidBcd 6 (field body 7 3))) := by
  have l : (t :: n :: body).length = 13 := by simp [h]
  generalize hs : t :: n :: body = s at l
  have f1 : field body 0 4 = field s 2 4 := by rw [← hs]; exact (field_cons2 ..).symm
  have f3 : field body 7 3 = field s 9 3 := by rw [← hs]; exact (field_cons2 ..).symm
  rw [f1, f3]
  unfold Desc44.parse
  simp only [get32 (show 2 + 4 ≤ s.length by omega),
    get24 (show 9 + 3 ≤ s.length by omega), field_one s 7 (by omega), field_one s 8 (by omega), field_one s 12 (by omega), ok_bind]
  by_cases hv : p = .debug ∧ ¬ ValidBcd 8 (field s 2 4)
  · have := (fromBcd32_outcome p (UInt32.ofNat (field s 2 4))).bad (by rwa [u32_field])
    rw [this]
    exact ⟨fun _ => rfl, fun n => (n ⟨hv.1, fun g => hv.2 g.1⟩).elim⟩
  · obtain ⟨v, hv'⟩ := (fromBcd32_outcome p (UInt32.ofNat (field s 2 4))).good (by rwa [u32_field])
    rw [hv', ok_bind]
    refine ((mulU32_outcome p v 100).bind fun _ _ => (fromBcd32_outcome p _).bind fun _ _ => Outcome.of_ok _).congr ?_
    have := field_lt s 9 3
    rw [u24_field, validBcd_eight_six (field s 9 3) (by omega), show (100 : UInt32).toNat = 100 from rfl]
    cases p with
    | release => simp
    | debug =>
      obtain ⟨g1, g2⟩ := fromBcd32_debug _ _ hv'
      rw [u32_field] at g1 g2
      rw [g2]
      have e : 2 ^ 32 ≤ unbcd 8 (field s 2 4) * 100 ↔ ¬ unbcd 8 (field s 2 4) * 100 < 2 ^ 32 := Nat.not_lt.symm
      rw [e]
      generalize (unbcd 8 (field s 2 4) * 100 < 2 ^ 32) = Q
      tauto

theorem d5A_outcome {t : UInt8} (h : body.length = 11) : Outcome (Desc5A.parse p (t :: n :: body))
    (p = .debug ∧ 2 ^ 32 ≤ field body 0 4 * 10) := by
  have l : (t :: n :: body).length = 13 := by simp [h]
  generalize hs : t :: n :: body = s at l
  have f1 : field body 0 4 = field s 2 4 := by rw [← hs]; exact (field_cons2 ..).symm
  rw [f1]
  unfold Desc5A.parse
  simp only [get32 (show 2 + 4 ≤ s.length by omega), field_one s 6 (by omega), field_one s 7 (by omega),
    field_one s 8 (by omega), ok_bind]
  refine ((mulU32_outcome p _ _).bind fun _ _ => Outcome.of_ok _).congr ?_
  rw [u32_field, or_false, show (10 : UInt32).toNat = 10 from rfl]

/-! Item lists that never panic. -/

theorem d0A_loop_outcome (s : List UInt8) (k skip fuel : Nat) (out : List Desc0Ai) (h : s.length = skip + 4 * k) (hf : k < fuel) :
    Outcome (Desc0A.parseLoop s fuel skip out) False := by
  induction k generalizing skip fuel out with
  | zero =>
    obtain ⟨f, rfl⟩ : ∃ f, fuel = f + 1 := ⟨fuel - 1, by omega⟩
    rw [Desc0A.parseLoop, if_neg (by omega)]; exact .of_ok _
  | succ k ih =>
    obtain ⟨f, rfl⟩ : ∃ f, fuel = f + 1 := ⟨fuel - 1, by omega⟩
    rw [Desc0A.parseLoop, if_pos (by omega)]
    refine ((slice_outcome s skip (skip + 3) (by omega)).bind fun _ _ => (idx_outcome s (skip + 3)).bind fun _ _ =>
      ih (skip + 4) f _ (by omega) (by omega)).congr ?_
    simp only [or_false, iff_false]; omega

theorem d41_loop_outcome (s : List UInt8) (k skip fuel : Nat) (out : List Desc41i) (h : s.length = skip + 3 * k) (hf : k < fuel) :
    Outcome (Desc41.parseLoop s fuel skip out) False := by
  induction k generalizing skip fuel out with
  | zero =>
    obtain ⟨f, rfl⟩ : ∃ f, fuel = f + 1 := ⟨fuel - 1, by omega⟩
    rw [Desc41.parseLoop, if_neg (by omega)]; exact .of_ok _
  | succ k ih =>
    obtain ⟨f, rfl⟩ : ∃ f, fuel = f + 1 := ⟨fuel - 1, by omega⟩
    rw [Desc41.parseLoop, if_pos (by omega), get16 (by omega), ok_bind]
    refine ((idx_outcome s (skip + 2)).bind fun _ _ => ih (skip + 3) f _ (by omega) (by omega)).congr ?_
    simp only [or_false, iff_false]; omega

theorem d83_loop_outcome (s : List UInt8) (k skip fuel : Nat) (out : List Desc83i) (h : s.length = skip + 4 * k) (hf : k < fuel) :
    Outcome (Desc83.parseLoop s fuel skip out) False := by
  induction k generalizing skip fuel out with
  | zero =>
    obtain ⟨f, rfl⟩ : ∃ f, fuel = f + 1 := ⟨fuel - 1, by omega⟩
    rw [Desc83.parseLoop, if_neg (by omega)]; exact .of_ok _
  | succ k ih =>
    obtain ⟨f, rfl⟩ : ∃ f, fuel = f + 1 := ⟨fuel - 1, by omega⟩
    rw [Desc83.parseLoop, if_pos (by omega), get16 (by omega), ok_bind]
    refine ((idx_outcome s (skip + 2)).bind fun _ _ => ?_ : Outcome _ (s.length ≤ skip + 2 ∨ False)).congr ?_
    · rw [get16 (by omega), ok_bind]; exact ih (skip + 4) f _ (by omega) (by omega)
    · simp only [or_false, iff_false]; omega

/-! Local time offsets. -/

theorem addU64_outcome (p : Profile) (a b : UInt64) (h : p = .debug → a.toNat + b.toNat < 2 ^ 64) :
    Outcome (addU64 p a b) False := by
  refine ⟨False.elim, fun _ => ?_⟩
  unfold addU64
  split
  · exact ⟨_, rfl⟩
  · cases p with
    | debug => exfalso; have := h rfl; omega
    | release => exact ⟨_, rfl⟩

theorem fromMjd_debug (x : UInt16) (t : UInt64) (h : fromMjd .debug x = .ok t) : t.toNat < 2 ^ 33 := by
  by_cases hv : unixEpochMjd ≤ x.toNat
  · obtain ⟨w, hw, e⟩ := C22_from_mjd .debug x hv
    rw [h] at hw; obtain rfl := Except.ok.inj hw
    have := x.toNat_lt
    rw [e]; unfold unixEpochMjd; omega
  · rw [C22_from_mjd_early x (by omega)] at h; cases h

theorem d58_loop_outcome (s : List UInt8) (k skip fuel : Nat) (out : List Desc58i) (h : s.length = skip + 13 * k) (hf : k < fuel) :
    Outcome (Desc58.parseLoop p s fuel skip out) (p = .debug ∧ ∃ j, j < k ∧ BadEntry (s.drop (skip + 13 * j))) := by
  induction k generalizing skip fuel out with
  | zero =>
    obtain ⟨f, rfl⟩ : ∃ f, fuel = f + 1 := ⟨fuel - 1, by omega⟩
    rw [Desc58.parseLoop, if_neg (by omega)]; exact (Outcome.of_ok _).congr (by simp)
  | succ k ih =>
    obtain ⟨f, rfl⟩ : ∃ f, fuel = f + 1 := ⟨fuel - 1, by omega⟩
    rw [Desc58.parseLoop, if_pos (by omega)]
    have fd (off m : Nat) : field (s.drop skip) off m = field s (skip + off) m := by
      simp only [field, List.drop_drop]
    simp only [get16 (show skip + 4 + 2 ≤ s.length by omega), get16 (show skip + 6 + 2 ≤ s.length by omega),
      get24 (show skip + 8 + 3 ≤ s.length by omega), get16 (show skip + 11 + 2 ≤ s.length by omega),
      field_one s (skip + 3) (by omega), ok_bind]
    have ft := field_lt s (skip + 8) 3
    refine ((slice_outcome s skip (skip + 3) (by omega)).bind fun _ _ => (fromBcdTime16_outcome p _).bind fun _ _ =>
      (fromMjd_outcome p _).bind fun d hd => (fromBcdTime32_outcome p _ (by rw [u24_field]; omega)).bind fun t ht =>
      (addU64_outcome p d t.toUInt64 ?_).bind fun _ _ => (fromBcdTime16_outcome p _).bind fun _ _ =>
      ih (skip + 13) f _ (by omega) (by omega)).congr ?_
    · rintro rfl
      have := fromMjd_debug _ _ hd
      have := t.toNat_lt
      rw [UInt32.toNat_toUInt64]; omega
    · rw [u16_field, u16_field, u16_field, u24_field]
      have e0 : BadEntry (s.drop skip) ↔ ¬ GoodOffset (field s (skip + 4) 2) ∨ field s (skip + 6) 2 < unixEpochMjd ∨
          ¬ ValidBcd 6 (field s (skip + 8) 3) ∨ ¬ GoodOffset (field s (skip + 11) 2) := by
        unfold BadEntry; rw [fd, fd, fd, fd]
      have e1 : (∃ j, j < k + 1 ∧ BadEntry (s.drop (skip + 13 * j))) ↔
          BadEntry (s.drop skip) ∨ ∃ j, j < k ∧ BadEntry (s.drop (skip + 13 + 13 * j)) := by
        constructor
        · rintro ⟨j, hj, hb⟩
          cases j with
          | zero => exact .inl (by simpa using hb)
          | succ j => exact .inr ⟨j, by omega, by rw [show skip + 13 + 13 * j = skip + 13 * (j + 1) by omega]; exact hb⟩
        · rintro (hb | ⟨j, hj, hb⟩)
          · exact ⟨0, by omega, by simpa using hb⟩
          · exact ⟨j + 1, by omega, by rw [show skip + 13 * (j + 1) = skip + 13 + 13 * j by omega]; exact hb⟩
      rw [e1, e0]
      have l0 : ¬ s.length < skip + 3 := by omega
      simp only [l0, false_or]
      clear ih ft fd e0 e1 h hf l0
      generalize (∃ j, j < k ∧ BadEntry (s.drop (skip + 13 + 13 * j))) = T
      generalize GoodOffset (field s (skip + 4) 2) = A
      generalize (field s (skip + 6) 2 < unixEpochMjd) = B
      generalize ValidBcd 6 (field s (skip + 8) 3) = C
      generalize GoodOffset (field s (skip + 11) 2) = D
      cases p with
      | release => simp
      | debug => simp only [true_and, or_assoc]

/-! Extended event items. -/

theorem d4E_loop_outcome (s : List UInt8) (itemsE : Nat) (hE : itemsE < s.length) (fuel itemsS : Nat)
    (out : List (StringDVB × StringDVB)) (hS : itemsS ≤ s.length) (hf : s.length - itemsS < fuel) :
    Outcome (Desc4E.parseLoop s itemsE fuel itemsS out) (itemsOverrun (itemsE - itemsS) (s.drop itemsS)) := by
  induction fuel generalizing itemsS out with
  | zero => omega
  | succ f ih =>
    rw [Desc4E.parseLoop]
    by_cases hlt : itemsS < itemsE
    · have hl : itemsS < s.length := by omega
      rw [if_pos hlt, List.drop_eq_getElem_cons hl, itemsOverrun, idx_ok hl, ok_bind]
      generalize s[itemsS] = c
      have rl : (s.drop (itemsS + 1)).length = s.length - (itemsS + 1) := List.length_drop
      have fe : field (s.drop (itemsS + 1)) c.toNat 1 = field s (itemsS + 1 + c.toNat) 1 := by simp only [field, List.drop_drop]
      have pb : 0 < itemsE - itemsS := by omega
      rw [rl, fe]
      by_cases h1 : s.length - (itemsS + 1) ≤ c.toNat
      · rw [if_pos h1]
        simp only [idx_panic (show s.length ≤ itemsS + 1 + c.toNat by omega)]
        exact ⟨fun _ => rfl, fun n => (n ⟨pb, trivial⟩).elim⟩
      · rw [if_neg h1]
        simp only [field_one s (itemsS + 1 + c.toNat) (by omega), ok_bind, u8_field]
        generalize field s (itemsS + 1 + c.toNat) 1 = t
        by_cases h2 : s.length - (itemsS + 1) < c.toNat + 1 + t
        · rw [if_pos h2]
          refine ((slice_outcome s (itemsS + 1) (itemsS + 1 + c.toNat) (by omega)).bind fun _ _ =>
            (?_ : Outcome _ True)).congr ⟨fun _ => ⟨pb, trivial⟩, fun _ => .inr trivial⟩
          rw [(slice_outcome s (itemsS + 1 + c.toNat + 1) (itemsS + 1 + c.toNat + 1 + t) (by omega)).bad (by omega)]
          exact ⟨fun _ => rfl, fun n => (n trivial).elim⟩
        · rw [if_neg h2]
          refine ((slice_outcome s (itemsS + 1) (itemsS + 1 + c.toNat) (by omega)).bind fun _ _ =>
            (slice_outcome s (itemsS + 1 + c.toNat + 1) (itemsS + 1 + c.toNat + 1 + t) (by omega)).bind fun _ _ =>
            ih (itemsS + 1 + c.toNat + 1 + t) _ (by omega) (by omega)).congr ?_
          rw [List.drop_drop, show itemsE - itemsS - (2 + c.toNat + t) = itemsE - (itemsS + 1 + c.toNat + 1 + t) by omega,
            show itemsS + 1 + (c.toNat + 1 + t) = itemsS + 1 + c.toNat + 1 + t by omega]
          have n1 : ¬ s.length < itemsS + 1 + c.toNat := by omega
          have n2 : ¬ s.length < itemsS + 1 + c.toNat + 1 + t := by omega
          tauto
    · rw [if_neg hlt]
      refine (Outcome.of_ok _).congr ⟨False.elim, ?_⟩
      rw [show itemsE - itemsS = 0 by omega]
      cases s.drop itemsS with
      | nil => simp [itemsOverrun]
      | cons a b => rw [itemsOverrun]; intro h; omega

end

/-! ## The property -/

/-- C38, exactly: for every descriptor (tag, length byte, body) and both profiles, parsing panics if and only if `Panics`;
otherwise it returns a descriptor.  There is no other failure. -/
theorem C38_exact_partial (p : Profile) (t n : UInt8) (body : List UInt8) (hn : n.toNat = body.length) :
    (Panics p t body → Desc.parse p (t :: n :: body) = panic) ∧
    (¬ Panics p t body → ∃ d, Desc.parse p (t :: n :: body) = .ok d) := by
  suffices h : Outcome (Desc.parse p (t :: n :: body)) (Panics p t body) from ⟨h.bad, h.good⟩
  have raw := raw_outcome n body t hn
  have l : (t :: n :: body).length = body.length + 2 := by simp
  have l2 : body.length + 2 - 2 = body.length := by omega
  unfold Panics
  by_cases c43 : t = 0x43
  · subst c43; rw [if_pos rfl, parse_43]
    simp only [Desc43.check, pure_eq_ok, ok_bind, l, beq_iff_eq]
    by_cases hl : body.length = 11
    · rw [if_pos (by simp [hl])]
      exact (d43_outcome p n body hl).map _ |>.congr (by simp [hl])
    · rw [if_neg (by simp; omega)]; exact raw.congr (by simp [hl])
  rw [if_neg c43]
  by_cases c44 : t = 0x44
  · subst c44; rw [if_pos rfl, parse_44]
    simp only [Desc44.check, pure_eq_ok, ok_bind, l, beq_iff_eq]
    by_cases hl : body.length = 11
    · rw [if_pos (by simp [hl])]
      exact (d44_outcome p n body hl).map _ |>.congr (by simp [hl])
    · rw [if_neg (by simp; omega)]; exact raw.congr (by simp [hl])
  rw [if_neg c44]
  by_cases c48 : t = 0x48
  · subst c48; rw [if_pos rfl, parse_48]
    by_cases hl : body.length < 3
    · rw [Desc48.check, if_pos (by rw [l]; omega)]; exact raw.congr (by simp only [false_iff]; omega)
    have f3 : field body 1 1 = field (0x48 :: n :: body) 3 1 := (field_cons2 ..).symm
    rw [Desc48.check, if_neg (by rw [l]; omega), f3]
    generalize hs : (0x48 : UInt8) :: n :: body = s at *
    have i1 : idx s 1 = .ok n := by rw [← hs]; rfl
    have i3 := field_one s 3 (by omega)
    have v3 := u8_field s 3
    generalize field s 3 1 = a at *
    simp only [i3, ok_bind, v3]
    by_cases h2 : body.length ≤ 2 + a
    · simp only [idx_panic (show s.length ≤ 4 + a by omega)]
      exact ⟨fun _ => rfl, fun m => (m ⟨by omega, h2⟩).elim⟩
    · have ia := field_one s (4 + a) (by omega)
      have va := u8_field s (4 + a)
      generalize field s (4 + a) 1 = b at *
      simp only [ia, ok_bind, va, i1, pure_eq_ok, hn, beq_iff_eq]
      split
      · next e =>
        have e : body.length = 3 + a + b := e
        rw [Desc48.parse]
        have i2 := field_one s 2 (by omega)
        simp only [i3, ok_bind, v3, ia, va, i2]
        refine (((slice_outcome s 4 (4 + a) (by omega)).bind fun _ _ =>
          (slice_outcome s (4 + a + 1) (4 + a + 1 + b) (by omega)).bind fun _ _ => Outcome.of_ok _).map _).congr ?_
        simp only [or_false]; omega
      · exact raw.congr (by simp only [false_iff]; omega)
  rw [if_neg c48]
  by_cases c4D : t = 0x4D
  · subst c4D; rw [if_pos rfl, parse_4D]
    by_cases hl : body.length < 5
    · rw [Desc4D.check, if_pos (by rw [l]; omega)]; exact raw.congr (by simp only [false_iff]; omega)
    have f3 : field body 3 1 = field (0x4D :: n :: body) 5 1 := (field_cons2 ..).symm
    rw [Desc4D.check, if_neg (by rw [l]; omega), f3]
    generalize hs : (0x4D : UInt8) :: n :: body = s at *
    have i1 : idx s 1 = .ok n := by rw [← hs]; rfl
    have i5 := field_one s 5 (by omega)
    have v5 := u8_field s 5
    generalize field s 5 1 = a at *
    simp only [i5, ok_bind, v5]
    by_cases h2 : body.length ≤ 4 + a
    · simp only [idx_panic (show s.length ≤ 6 + a by omega)]
      exact ⟨fun _ => rfl, fun m => (m ⟨by omega, h2⟩).elim⟩
    · have ia := field_one s (6 + a) (by omega)
      have va := u8_field s (6 + a)
      generalize field s (6 + a) 1 = b at *
      simp only [ia, ok_bind, va, i1, pure_eq_ok, hn, beq_iff_eq]
      split
      · next e =>
        have e : body.length = 5 + a + b := e
        rw [Desc4D.parse]
        simp only [i5, ok_bind, v5, ia, va]
        refine (((slice_outcome s 2 5 (by omega)).bind fun _ _ => (slice_outcome s 6 (6 + a) (by omega)).bind fun _ _ =>
          (slice_outcome s (6 + a + 1) (6 + a + 1 + b) (by omega)).bind fun _ _ => Outcome.of_ok _).map _).congr ?_
        simp only [or_false]; omega
      · exact raw.congr (by simp only [false_iff]; omega)
  rw [if_neg c4D]
  by_cases c4E : t = 0x4E
  · subst c4E; rw [if_pos rfl, parse_4E]
    by_cases hl : body.length < 6
    · rw [Desc4E.check, if_pos (by rw [l]; omega)]; exact raw.congr (by simp only [false_iff]; omega)
    have f4 : field body 4 1 = field (0x4E :: n :: body) 6 1 := (field_cons2 ..).symm
    have f5 : field body (5 + field body 4 1) 1 = field (0x4E :: n :: body) (7 + field body 4 1) 1 := by
      rw [show 7 + field body 4 1 = 5 + field body 4 1 + 2 by omega]; exact (field_cons2 ..).symm
    have d5 : body.drop 5 = (0x4E :: n :: body).drop 7 := rfl
    rw [Desc4E.check, if_neg (by rw [l]; omega), f5, f4, d5]
    generalize hs : (0x4E : UInt8) :: n :: body = s at *
    have i1 : idx s 1 = .ok n := by rw [← hs]; rfl
    have i6 := field_one s 6 (by omega)
    have v6 := u8_field s 6
    clear f4 f5 d5
    generalize field s 6 1 = a at *
    simp only [i6, ok_bind, v6]
    by_cases h2 : body.length ≤ 5 + a
    · simp only [idx_panic (show s.length ≤ 7 + a by omega)]
      exact ⟨fun _ => rfl, fun m => (m ⟨by omega, .inl h2⟩).elim⟩
    · have ia := field_one s (7 + a) (by omega)
      have va := u8_field s (7 + a)
      generalize field s (7 + a) 1 = b at *
      simp only [ia, ok_bind, va, i1, pure_eq_ok, hn, beq_iff_eq]
      split
      · next e =>
        have e : body.length = 6 + a + b := e
        rw [Desc4E.parse]
        have i2 := field_one s 2 (by omega)
        have lo := d4E_loop_outcome s (7 + a) (by omega) (s.length + 1) 7 [] (by omega) (by omega)
        rw [show 7 + a - 7 = a by omega] at lo
        simp only [i6, ok_bind, v6, ia, va, i2]
        refine (((slice_outcome s 3 6 (by omega)).bind fun _ _ => lo.bind fun _ _ =>
          (slice_outcome s (7 + a + 1) (7 + a + 1 + b) (by omega)).bind fun _ _ => Outcome.of_ok _).map _).congr ?_
        have n1 : ¬ s.length < 6 := by omega
        have n2 : ¬ s.length < 7 + a + 1 + b := by omega
        have n3 : 6 ≤ body.length := by omega
        simp only [n1, n2, false_or, or_false]
        exact ⟨fun h => ⟨n3, .inr ⟨e, h⟩⟩, fun h => (h.2.resolve_left h2).2⟩
      · next e =>
        have e : ¬ body.length = 6 + a + b := e
        exact raw.congr (by simp only [h2, e, false_and, or_self, and_false])
  rw [if_neg c4E]
  by_cases c58 : t = 0x58
  · subst c58; rw [if_pos rfl, parse_58]
    simp only [Desc58.check, pure_eq_ok, ok_bind, l, l2]
    by_cases hl : 13 ∣ body.length
    · obtain ⟨k, hk⟩ := hl
      rw [if_pos (by simp; omega), Desc58.parse]
      refine ((d58_loop_outcome p (0x58 :: n :: body) k 2 ((0x58 :: n :: body).length + 1) [] (by rw [l]; omega)
        (by rw [l]; omega)).bind_map.map _).congr ?_
      have e (j : Nat) : ((0x58 : UInt8) :: n :: body).drop (2 + 13 * j) = body.drop (13 * j) := by
        rw [Nat.add_comm]; rfl
      simp only [e]
      constructor
      · rintro ⟨h1, j, h2, h3⟩; exact ⟨h1, ⟨k, hk⟩, j, by omega, h3⟩
      · rintro ⟨h1, -, j, h2, h3⟩; exact ⟨h1, j, by omega, h3⟩
    · rw [if_neg (by simp; omega)]; exact raw.congr (by simp [hl])
  rw [if_neg c58]
  by_cases c5A : t = 0x5A
  · subst c5A; rw [if_pos rfl, parse_5A]
    simp only [Desc5A.check, pure_eq_ok, ok_bind, l, beq_iff_eq]
    by_cases hl : body.length = 11
    · rw [if_pos (by simp [hl])]
      exact (d5A_outcome p n body hl).map _ |>.congr (by simp [hl])
    · rw [if_neg (by simp; omega)]; exact raw.congr (by simp [hl])
  rw [if_neg c5A]
  by_cases c09 : t = 0x09
  · subst c09; rw [parse_09]
    simp only [Desc09.check, pure_eq_ok, ok_bind, l]
    by_cases hl : 4 ≤ body.length
    · rw [if_pos (by simp; omega), Desc09.parse, get16 (by rw [l]; omega), ok_bind, get16 (by rw [l]; omega), ok_bind,
        sliceFrom_ok (by rw [l]; omega)]
      exact .of_ok _
    · rw [if_neg (by simp; omega)]; exact raw
  by_cases c0A : t = 0x0A
  · subst c0A; rw [parse_0A]
    simp only [Desc0A.check, pure_eq_ok, ok_bind, l, l2]
    by_cases hl : 4 ∣ body.length
    · obtain ⟨k, hk⟩ := hl
      rw [if_pos (by simp; omega), Desc0A.parse]
      exact (d0A_loop_outcome _ k 2 _ [] (by rw [l]; omega) (by rw [l]; omega)).bind_map.map _
    · rw [if_neg (by simp; omega)]; exact raw
  by_cases c0E : t = 0x0E
  · subst c0E; rw [parse_0E]
    simp only [Desc0E.check, pure_eq_ok, ok_bind, l]
    by_cases hl : body.length = 3
    · rw [if_pos (by simp; omega), Desc0E.parse, get24 (by rw [l]; omega)]
      exact .of_ok _
    · rw [if_neg (by simp; omega)]; exact raw
  by_cases c40 : t = 0x40
  · subst c40; rw [parse_40]
    simp only [Desc40.check, pure_eq_ok, ok_bind, l]
    rw [if_pos (by simp), Desc40.parse, sliceFrom_ok (by rw [l]; omega)]
    exact .of_ok _
  by_cases c41 : t = 0x41
  · subst c41; rw [parse_41]
    simp only [Desc41.check, pure_eq_ok, ok_bind, l, l2]
    by_cases hl : 3 ∣ body.length
    · obtain ⟨k, hk⟩ := hl
      rw [if_pos (by simp; omega), Desc41.parse]
      exact (d41_loop_outcome _ k 2 _ [] (by rw [l]; omega) (by rw [l]; omega)).bind_map.map _
    · rw [if_neg (by simp; omega)]; exact raw
  by_cases c52 : t = 0x52
  · subst c52; rw [parse_52]
    simp only [Desc52.check, pure_eq_ok, ok_bind, l]
    by_cases hl : body.length = 1
    · rw [if_pos (by simp; omega), Desc52.parse, field_one _ _ (by rw [l]; omega)]
      exact .of_ok _
    · rw [if_neg (by simp; omega)]; exact raw
  by_cases c83 : t = 0x83
  · subst c83; rw [parse_83]
    simp only [Desc83.check, pure_eq_ok, ok_bind, l, l2]
    by_cases hl : 4 ∣ body.length
    · obtain ⟨k, hk⟩ := hl
      rw [if_pos (by simp; omega), Desc83.parse]
      exact (d83_loop_outcome _ k 2 _ [] (by rw [l]; omega) (by rw [l]; omega)).bind_map.map _
    · rw [if_neg (by simp; omega)]; exact raw
  rw [parse_unknown]
  · exact raw
  · simp only [knownTags, List.mem_cons, List.not_mem_nil, or_false, not_or]
    exact ⟨c09, c0A, c0E, c40, c41, c43, c44, c48, c4D, c4E, c52, c58, c5A, c83⟩

/-- The property as stated ("never panics") holds for every descriptor in a release build whose tag is not service, short
event or extended event; and in every build when the tag is none of the seven kinds of `Panics`. -/
theorem C38_no_panic_partial (p : Profile) (t n : UInt8) (body : List UInt8) (hn : n.toNat = body.length)
    (h : t ∉ ([0x48, 0x4D, 0x4E] : List UInt8)) (hp : p = .release ∨ t ∉ ([0x43, 0x44, 0x58, 0x5A] : List UInt8)) :
    ∃ d, Desc.parse p (t :: n :: body) = .ok d := by
  refine (C38_exact_partial p t n body hn).2 ?_
  simp only [List.mem_cons, List.not_mem_nil, or_false, not_or] at h hp
  obtain ⟨h1, h2, h3⟩ := h
  unfold Panics
  rcases hp with rfl | ⟨g1, g2, g3, g4⟩
  · simp [h1, h2, h3]
  · simp [h1, h2, h3, g1, g2, g3, g4]

theorem mapM_ok {α β : Type} (f : α → R β) (l : List α) (h : ∀ a ∈ l, ∃ b, f a = .ok b) : ∃ r, l.mapM f = .ok r := by
  induction l with
  | nil => exact ⟨[], rfl⟩
  | cons a l ih =>
    obtain ⟨b, hb⟩ := h a List.mem_cons_self
    obtain ⟨r, hr⟩ := ih fun x hx => h x (List.mem_cons_of_mem _ hx)
    exact ⟨b :: r, by rw [List.mapM_cons, hb, ok_bind, hr]; rfl⟩

theorem mapM_panic {α β : Type} (f : α → R β) (l : List α) (h : ∀ a ∈ l, f a = panic ∨ ∃ b, f a = .ok b)
    (hb : ∃ a ∈ l, f a = panic) : l.mapM f = panic := by
  induction l with
  | nil => obtain ⟨a, ha, _⟩ := hb; cases ha
  | cons a l ih =>
    rw [List.mapM_cons]
    rcases h a List.mem_cons_self with ha | ⟨b, ha⟩
    · rw [ha]; rfl
    · rw [ha, ok_bind, ih (fun x hx => h x (List.mem_cons_of_mem _ hx))]
      · rfl
      · obtain ⟨x, hx, hp⟩ := hb
        rcases List.mem_cons.1 hx with rfl | hx
        · rw [ha] at hp; cases hp
        · exact ⟨x, hx, hp⟩

theorem frames_framed (s f : List UInt8) (h : f ∈ Descriptor.frames s) : ∃ t n body, f = t :: n :: body ∧ n.toNat = body.length := by
  match s with
  | [] => simp [Descriptor.frames] at h
  | [a] => simp [Descriptor.frames] at h
  | t :: n :: r =>
    rw [Descriptor.frames] at h
    split at h
    · next hle =>
      rcases List.mem_cons.1 h with rfl | h
      · exact ⟨t, n, _, rfl, by simp; omega⟩
      · exact frames_framed (r.drop n.toNat) f h
    · cases h
termination_by s.length
decreasing_by simp; omega

/-- C38 for descriptor loops: parsing an arbitrary byte string panics exactly if one of its complete descriptors is one of
`Panics`; otherwise it returns a list. -/
theorem C38_loop_partial (p : Profile) (ds : Descriptors) (s : List UInt8) :
    ((∃ t n body, t :: n :: body ∈ Descriptor.frames s ∧ Panics p t body) → Descriptors.parse p ds s = panic) ∧
    ((∀ t n body, t :: n :: body ∈ Descriptor.frames s → ¬ Panics p t body) → ∃ r, Descriptors.parse p ds s = .ok r) := by
  rw [C37_frames]
  constructor
  · rintro ⟨t, n, body, hm, hp⟩
    rw [mapM_panic]
    · rfl
    · intro f hf
      obtain ⟨t, n, body, rfl, hn⟩ := frames_framed s f hf
      by_cases h : Panics p t body
      · exact .inl ((C38_exact_partial p t n body hn).1 h)
      · exact .inr ((C38_exact_partial p t n body hn).2 h)
    · obtain ⟨t', n', b', e, hn⟩ := frames_framed s _ hm
      cases e
      exact ⟨_, hm, (C38_exact_partial p t n body hn).1 hp⟩
  · intro h
    obtain ⟨r, hr⟩ := mapM_ok (Desc.parse p) (Descriptor.frames s) (by
      intro f hf
      obtain ⟨t, n, body, rfl, hn⟩ := frames_framed s f hf
      exact (C38_exact_partial p t n body hn).2 (h t n body hf))
    exact ⟨ds ++ r, by rw [hr]; rfl⟩

/-- C38 fails, in every build: a service descriptor whose provider length reaches the end of the descriptor. -/
theorem C38_service_refuted (p : Profile) (kind len : UInt8) (rest : List UInt8) (h0 : rest ≠ []) (h1 : rest.length ≤ len.toNat)
    (h2 : rest.length ≤ 253) (ds : Descriptors) :
    Descriptors.parse p ds (Descriptor.descriptor 0x48 (kind :: len :: rest)) = panic := by
  have hp : 0 < rest.length := List.length_pos_iff.2 h0
  refine (C38_loop_partial p ds _).1 ⟨0x48, UInt8.ofNat (kind :: len :: rest).length, kind :: len :: rest, ?_, ?_⟩
  · have := frames_cons 0x48 (UInt8.ofNat (kind :: len :: rest).length) (kind :: len :: rest) []
      (u8_ofNat_toNat _ (by simp only [List.length_cons]; omega))
    rw [List.append_nil] at this
    exact this ▸ List.mem_cons_self
  · simp [Panics, field, beNat]; omega

/-- C38 fails, in every build: a short event descriptor whose name length reaches the end of the descriptor. -/
theorem C38_short_event_refuted (p : Profile) (a b c len : UInt8) (rest : List UInt8) (h0 : rest ≠ [])
    (h1 : rest.length ≤ len.toNat) (h2 : rest.length ≤ 251) (ds : Descriptors) :
    Descriptors.parse p ds (Descriptor.descriptor 0x4D (a :: b :: c :: len :: rest)) = panic := by
  have hp : 0 < rest.length := List.length_pos_iff.2 h0
  refine (C38_loop_partial p ds _).1
    ⟨0x4D, UInt8.ofNat (a :: b :: c :: len :: rest).length, a :: b :: c :: len :: rest, ?_, ?_⟩
  · have := frames_cons 0x4D (UInt8.ofNat (a :: b :: c :: len :: rest).length) (a :: b :: c :: len :: rest) []
      (u8_ofNat_toNat _ (by simp only [List.length_cons]; omega))
    rw [List.append_nil] at this
    exact this ▸ List.mem_cons_self
  · simp [Panics, field, beNat]; omega

/-! ### Concrete cases -/

example : Desc.parse .release [0x48, 3, 1, 5, 0x41] = panic := by decide +kernel
example : Desc.parse .release [0x4E, 7, 0, 0x65, 0x6E, 0x67, 1, 9, 0] = panic := by decide +kernel
example : ¬ Panics .debug 0x48 [1, 1, 0x41, 1, 0x42] := by simp [Panics, field, beNat]
example : Panics .debug 0x5A [0xFF, 0xFF, 0xFF, 0xFF, 0, 0, 0, 0xFF, 0xFF, 0xFF, 0xFF] := by simp [Panics, field, beNat]

end Mpegts
