import Verif.Spec.Sendable
import Verif.Lemmas.Bytes
import Verif.Lemmas.PsiDemuxWide

/-! # Computations that fail in a debug build only, and exactly when told -/

namespace Mpegts

/-- `x` panics if this is a debug build and `bad` holds; otherwise it has a value, with property `P`. -/
def Verdict {α : Type} (p : Profile) (bad : Prop) (x : R α) (P : α → Prop) : Prop :=
  (p = .debug ∧ bad ∧ x = panic) ∨ (¬ (p = .debug ∧ bad) ∧ ∃ v, x = .ok v ∧ P v)

namespace Verdict
variable {α β : Type} {p : Profile}

theorem ok {v : α} {P : α → Prop} (h : P v) : Verdict p False (.ok v) P := .inr ⟨fun h => h.2, v, rfl, h⟩

theorem congr {b b' : Prop} {x : R α} {P : α → Prop} (h : b ↔ b') (o : Verdict p b x P) : Verdict p b' x P := by
  rw [propext h] at o; exact o

theorem mono {b : Prop} {x : R α} {P Q : α → Prop} (o : Verdict p b x P) (h : ∀ v, P v → Q v) : Verdict p b x Q := by
  rcases o with o | ⟨o, v, e, hv⟩
  · exact .inl o
  · exact .inr ⟨o, v, e, h v hv⟩

theorem bind {b1 b2 : Prop} {x : R α} {f : α → R β} {P : α → Prop} {Q : β → Prop} (o : Verdict p b1 x P)
    (hf : ∀ v, P v → Verdict p b2 (f v) Q) : Verdict p (b1 ∨ b2) (x >>= f) Q := by
  rcases o with ⟨h1, h2, rfl⟩ | ⟨h, v, rfl, hv⟩
  · exact .inl ⟨h1, .inl h2, rfl⟩
  · rw [ok_bind]
    rcases hf v hv with ⟨h1, h2, e⟩ | ⟨h', w, e, hw⟩
    · exact .inl ⟨h1, .inr h2, e⟩
    · exact .inr ⟨fun hh => hh.2.elim (fun k => h ⟨hh.1, k⟩) (fun k => h' ⟨hh.1, k⟩), w, e, hw⟩

theorem seq {b : Prop} {x : R α} {f : α → R β} {P : α → Prop} {Q : β → Prop} (o : Verdict p False x P)
    (hf : ∀ v, P v → Verdict p b (f v) Q) : Verdict p b (x >>= f) Q :=
  congr (by simp) (bind o hf)

theorem last {b : Prop} {x : R α} {f : α → R β} {P : α → Prop} {Q : β → Prop} (o : Verdict p b x P)
    (hf : ∀ v, P v → Verdict p False (f v) Q) : Verdict p b (x >>= f) Q :=
  congr (by simp) (bind o hf)

theorem panic_iff {b : Prop} {x : R α} {P : α → Prop} (o : Verdict p b x P) : x = Mpegts.panic ↔ p = .debug ∧ b := by
  rcases o with ⟨h1, h2, e⟩ | ⟨h, v, rfl, -⟩
  · exact ⟨fun _ => ⟨h1, h2⟩, fun _ => e⟩
  · exact ⟨fun e => (nomatch e), fun e => absurd e h⟩

theorem release {b : Prop} {x : R α} {P : α → Prop} (o : Verdict .release b x P) : ∃ v, x = .ok v ∧ P v := by
  rcases o with ⟨h1, -⟩ | ⟨-, h⟩
  · cases h1
  · exact h

end Verdict

variable {p : Profile}

/-- `v` starts with `b` and has `n` bytes. -/
def Keeps (b : List UInt8) (n : Nat) (v : List UInt8) : Prop := b <+: v ∧ v.length = n
/-- `v` starts with `b` and has at least `n` more bytes. -/
def Grows (b : List UInt8) (n : Nat) (v : List UInt8) : Prop := b <+: v ∧ b.length + n ≤ v.length

theorem prefix_set {b l : List UInt8} (h : b <+: l) {i : Nat} (hi : b.length ≤ i) (v : UInt8) : b <+: l.set i v := by
  obtain ⟨t, rfl⟩ := h
  rw [List.set_append_right _ _ hi]
  exact List.prefix_append _ _

theorem out_setIdx {b l : List UInt8} {n i : Nat} (h : Keeps b n l) (h1 : b.length ≤ i) (h2 : i < n) (v : UInt8) :
    Verdict p False (setIdx l i v) (Keeps b n) := by
  obtain ⟨h, e⟩ := h
  rw [setIdx_ok v (by omega)]
  exact .ok ⟨prefix_set h h1 v, by rw [List.length_set, e]⟩

theorem prefix_at {b l : List UInt8} (h : b <+: l) {i : Nat} (hi : b.length ≤ i) (t : List UInt8) :
    b <+: l.take i ++ t := by
  obtain ⟨u, rfl⟩ := h
  rw [List.take_append, List.take_of_length_le hi, List.append_assoc]
  exact List.prefix_append _ _

theorem out_setU16At {b l : List UInt8} {n i : Nat} (h : Keeps b n l) (h1 : b.length ≤ i) (h2 : i + 2 ≤ n) (v : UInt16) :
    Verdict p False (setU16At l i v) (Keeps b n) := by
  obtain ⟨h, e⟩ := h
  obtain ⟨t, rfl⟩ := h
  obtain ⟨k, rfl⟩ := Nat.exists_eq_add_of_le h1
  rw [List.length_append] at e
  rw [setU16At_append, setU16At_ok v (by omega), map_ok]
  exact .ok ⟨List.prefix_append _ _, by
    simp only [List.length_append, List.length_take, List.length_drop, beBytes_length]; omega⟩

theorem out_setU24At {b l : List UInt8} {n i : Nat} (h : Keeps b n l) (h1 : b.length ≤ i) (h2 : i + 3 ≤ n) (v : UInt32) :
    Verdict p False (setU24At l i v) (Keeps b n) := by
  obtain ⟨h, e⟩ := h
  obtain ⟨t, rfl⟩ := h
  obtain ⟨k, rfl⟩ := Nat.exists_eq_add_of_le h1
  rw [List.length_append] at e
  rw [setU24At_append, setU24At_ok v (by omega), map_ok]
  exact .ok ⟨List.prefix_append _ _, by
    simp only [List.length_append, List.length_take, List.length_drop, beBytes_length]; omega⟩

theorem out_setU32At {b l : List UInt8} {n i : Nat} (h : Keeps b n l) (h1 : b.length ≤ i) (h2 : i + 4 ≤ n) (v : UInt32) :
    Verdict p False (setU32At l i v) (Keeps b n) := by
  obtain ⟨h, e⟩ := h
  obtain ⟨t, rfl⟩ := h
  obtain ⟨k, rfl⟩ := Nat.exists_eq_add_of_le h1
  rw [List.length_append] at e
  rw [setU32At_append, setU32At_ok v (by omega), map_ok]
  exact .ok ⟨List.prefix_append _ _, by
    simp only [List.length_append, List.length_take, List.length_drop, beBytes_length]; omega⟩

theorem keeps_resize (b : List UInt8) (n : Nat) : Keeps b (b.length + n) (resize b (b.length + n) 0) := by
  rw [resize_extend]
  exact ⟨List.prefix_append _ _, by simp⟩

theorem Keeps.grows {b v : List UInt8} {n m : Nat} (h : Keeps b n v) (hn : b.length + m ≤ n) : Grows b m v := ⟨h.1, by rw [h.2]; exact hn⟩

theorem Grows.trans {a b c : List UInt8} {n m k : Nat} (h : Grows a n b) (h' : Grows b m c) (hk : k ≤ n + m) : Grows a k c :=
  ⟨h.1.trans h'.1, by have := h.2; have := h'.2; omega⟩

theorem Grows.append (b t : List UInt8) {n : Nat} (h : n ≤ t.length) : Grows b n (b ++ t) :=
  ⟨List.prefix_append _ _, by simp; omega⟩

theorem Grows.refl (b : List UInt8) : Grows b 0 b := ⟨List.prefix_rfl, by omega⟩

theorem Grows.keeps {a b : List UInt8} {n : Nat} (h : Grows a n b) : Keeps a b.length b := ⟨h.1, rfl⟩

/-! ## Numbers -/

theorem out_toBcd8 (x : UInt8) : Verdict p (100 ≤ x.toNat) (toBcd8 p x) fun _ => True := by
  have h1 : (x / 10 * 6).toNat = x.toNat / 10 * 6 := by
    rw [UInt8.toNat_mul, UInt8.toNat_div]
    have := x.toNat_lt
    exact Nat.mod_eq_of_lt (by show x.toNat / 10 * 6 < 256; omega)
  have hlt : (decide (x < 100)) = decide (x.toNat < 100) := rfl
  unfold toBcd8
  rw [hlt]
  by_cases h : x.toNat < 100
  · rw [decide_eq_true h]
    refine .inr ⟨fun k => by omega, x + x / 10 * 6, ?_, trivial⟩
    rw [show debugAssert p true = .ok () by cases p <;> rfl, ok_bind, addU8, if_pos (by omega)]
  · rw [decide_eq_false h]
    cases p with
    | debug => exact .inl ⟨rfl, by omega, rfl⟩
    | release =>
      refine .inr ⟨fun k => (nomatch k.1), ?_⟩
      unfold addU8 debugAssert
      rw [ok_bind]
      split
      · exact ⟨_, rfl, trivial⟩
      · exact ⟨_, rfl, trivial⟩

theorem out_toBcd16 (x : UInt16) : Verdict p (refused4 x.toNat) (toBcd16 p x) fun _ => True := by
  unfold toBcd16
  refine .congr ?_ (.bind (out_toBcd8 _) fun _ _ => .bind (out_toBcd8 _) fun _ _ => .ok trivial)
  have h1 : (x / 100).toUInt8.toNat = x.toNat / 100 % 256 := by simp
  have h2 : (x % 100).toUInt8.toNat = x.toNat % 100 % 256 := by simp
  rw [h1, h2, refused4]
  simp only [or_false]
  omega

theorem out_toBcd32 (x : UInt32) : Verdict p (refused8 x.toNat) (toBcd32 p x) fun _ => True := by
  unfold toBcd32
  refine .congr ?_ (.bind (out_toBcd16 _) fun _ _ => .bind (out_toBcd16 _) fun _ _ => .ok trivial)
  have h1 : (x / 10000).toUInt16.toNat = x.toNat / 10000 % 65536 := by simp
  have h2 : (x % 10000).toUInt16.toNat = x.toNat % 10000 % 65536 := by simp
  rw [refused4, refused4, h1, h2, refused8]
  simp only [or_false]
  omega

theorem out_toBcdTime16 (x : UInt16) : Verdict p False (toBcdTime16 p x) fun _ => True := by
  unfold toBcdTime16
  refine .congr ?_ (.bind (out_toBcd8 _) fun _ _ => .bind (out_toBcd8 _) fun _ _ => .ok trivial)
  have h1 : (x / 60 % 24).toUInt8.toNat = x.toNat / 60 % 24 % 256 := by simp
  have h2 : (x % 60).toUInt8.toNat = x.toNat % 60 % 256 := by simp
  rw [h1, h2]
  simp only [or_false, iff_false]
  omega

theorem out_toBcdTime32 (x : UInt32) : Verdict p False (toBcdTime32 p x) fun _ => True := by
  unfold toBcdTime32
  refine .congr ?_ (.bind (out_toBcd8 _) fun _ _ => .bind (out_toBcd8 _) fun _ _ => .bind (out_toBcd8 _) fun _ _ => .ok trivial)
  have h1 : (x / 3600 % 24).toUInt8.toNat = x.toNat / 3600 % 24 % 256 := by simp
  have h2 : (x / 60 % 60).toUInt8.toNat = x.toNat / 60 % 60 % 256 := by simp
  have h3 : (x % 60).toUInt8.toNat = x.toNat % 60 % 256 := by simp
  rw [h1, h2, h3]
  simp only [or_false, iff_false]
  omega

/-! ## Texts -/

theorem grows_assemble (s : StringDVB) (b : List UInt8) : Grows b 0 (s.assemble b) := by
  unfold StringDVB.assemble
  dsimp only
  refine ⟨?_, ?_⟩
  · split
    · exact List.prefix_rfl
    · split
      · exact List.prefix_append _ _
      · split
        · rw [List.append_assoc, List.append_assoc, List.append_assoc]; exact List.prefix_append _ _
        · split
          · rw [List.append_assoc]; exact List.prefix_append _ _
          · rw [List.append_assoc]; exact List.prefix_append _ _
  · split
    · omega
    · split
      · simp
      · split
        · simp
        · split <;> simp

theorem out_assembleSized (s : StringDVB) (b : List UInt8) : Verdict p False (s.assembleSized b) (Grows b 1) := by
  unfold StringDVB.assembleSized
  have h := (Grows.append b [0] (Nat.le_refl 1)).trans (grows_assemble s (b ++ [0])) (Nat.le_refl _)
  exact (out_setIdx h.keeps (Nat.le_refl _) (by have := h.2; omega) _).mono fun v hv => hv.grows h.2

/-! ## Writing -/

/-! The writes, by width. -/

macro "w8" : tactic => `(tactic| refine Verdict.seq (out_setIdx (by assumption) (by first | omega | exact Nat.zero_le _) (by omega) _) fun _ _ => ?_)
macro "l8" : tactic => `(tactic| exact (out_setIdx (by assumption) (by first | omega | exact Nat.zero_le _) (by omega) _).mono fun _ h => h.grows (by omega))
macro "w16" : tactic => `(tactic| refine Verdict.seq (out_setU16At (by assumption) (by first | omega | exact Nat.zero_le _) (by omega) _) fun _ _ => ?_)
macro "l16" : tactic => `(tactic| exact (out_setU16At (by assumption) (by first | omega | exact Nat.zero_le _) (by omega) _).mono fun _ h => h.grows (by omega))
macro "w24" : tactic => `(tactic| refine Verdict.seq (out_setU24At (by assumption) (by first | omega | exact Nat.zero_le _) (by omega) _) fun _ _ => ?_)
macro "l24" : tactic => `(tactic| exact (out_setU24At (by assumption) (by first | omega | exact Nat.zero_le _) (by omega) _).mono fun _ h => h.grows (by omega))
macro "w32" : tactic => `(tactic| refine Verdict.seq (out_setU32At (by assumption) (by first | omega | exact Nat.zero_le _) (by omega) _) fun _ _ => ?_)
macro "l32" : tactic => `(tactic| exact (out_setU32At (by assumption) (by first | omega | exact Nat.zero_le _) (by omega) _).mono fun _ h => h.grows (by omega))

/-! ## Descriptors -/

theorem out_d09 (d : Desc09) (b : List UInt8) : Verdict p False (d.assemble b) (Grows b 0) := by
  unfold Desc09.assemble
  dsimp only
  have := keeps_resize b 6
  w8; w8; w16; w16
  rename_i h
  exact .ok ⟨h.1.trans (List.prefix_append _ _), by simp [h.2]; omega⟩

theorem grows_d0A (l : List Desc0Ai) (b : List UInt8) : Grows b 0 (Desc0A.assembleLoop l b) := by
  induction l generalizing b with
  | nil => exact .refl _
  | cons i r ih =>
    exact ((grows_assemble i.code b).trans (.append _ [i.audioType] (Nat.zero_le _)) (Nat.le_refl _)).trans (ih _) (Nat.le_refl _)

theorem out_d0A (d : Desc0A) (b : List UInt8) : Verdict p False (d.assemble b) (Grows b 0) := by
  unfold Desc0A.assemble
  refine .ok (Grows.trans (n := 0) ?_ (grows_d0A _ _) (Nat.le_refl _))
  rw [List.append_assoc]
  exact .append _ _ (Nat.zero_le _)

theorem out_d0E (d : Desc0E) (b : List UInt8) : Verdict p False (d.assemble b) (Grows b 0) := by
  unfold Desc0E.assemble Desc0E.size
  dsimp only
  have := keeps_resize b 5
  w8; w8; l24

theorem out_d40 (d : Desc40) (b : List UInt8) : Verdict p False (d.assemble b) (Grows b 0) :=
  (out_assembleSized _ _).mono fun _ h => (Grows.append b [0x40] (Nat.zero_le _)).trans h (Nat.zero_le _)

theorem out_d41Loop (b : List UInt8) (l : List Desc41i) (skip n : Nat) (v : List UInt8) (h : Keeps b n v)
    (h1 : b.length ≤ skip) (h2 : skip + 3 * l.length ≤ n) : Verdict p False (Desc41.assembleLoop l skip v) (Keeps b n) := by
  induction l generalizing skip v with
  | nil => exact .ok h
  | cons i r ih =>
    rw [List.length_cons] at h2
    unfold Desc41.assembleLoop
    w16; w8
    exact ih _ _ (by assumption) (by omega) (by omega)

theorem out_d41 (d : Desc41) (b : List UInt8) : Verdict p False (d.assemble b) (Grows b 0) := by
  unfold Desc41.assemble Desc41.size
  dsimp only
  have := keeps_resize b (2 + d.items.length * 3)
  w8; w8
  exact (out_d41Loop b _ _ _ _ (by assumption) (by omega) (by omega)).mono fun _ h => h.grows (by omega)

theorem out_d83Loop (b : List UInt8) (l : List Desc83i) (skip n : Nat) (v : List UInt8) (h : Keeps b n v)
    (h1 : b.length ≤ skip) (h2 : skip + 4 * l.length ≤ n) : Verdict p False (Desc83.assembleLoop l skip v) (Keeps b n) := by
  induction l generalizing skip v with
  | nil => exact .ok h
  | cons i r ih =>
    rw [List.length_cons] at h2
    unfold Desc83.assembleLoop
    w16; w16
    exact ih _ _ (by assumption) (by omega) (by omega)

theorem out_d83 (d : Desc83) (b : List UInt8) : Verdict p False (d.assemble b) (Grows b 0) := by
  unfold Desc83.assemble Desc83.size
  dsimp only
  have := keeps_resize b (2 + d.items.length * 4)
  w8; w8
  exact (out_d83Loop b _ _ _ _ (by assumption) (by omega) (by omega)).mono fun _ h => h.grows (by omega)

theorem out_d43 (d : Desc43) (b : List UInt8) : Verdict p (Desc.d43 d).Refused (d.assemble p b) (Grows b 0) := by
  unfold Desc43.assemble Desc43.size
  dsimp only
  have := keeps_resize b 13
  generalize resize b (b.length + 13) 0 = z at this ⊢
  w8; w8
  have e : (d.frequency / 10).toNat = d.frequency.toNat / 10 := by simp
  have e' : (d.orbitalPosition / 6).toNat = d.orbitalPosition.toNat / 6 := by simp
  with_reducible refine Verdict.congr (by rw [Desc.Refused, ← e, ← e']) (.bind (out_toBcd32 _) fun _ _ => ?_)
  w32
  with_reducible refine .bind (out_toBcd16 _) fun _ _ => ?_
  w16; w8
  with_reducible refine .last (out_toBcd32 _) fun _ _ => ?_
  w24; l8

theorem out_d44 (d : Desc44) (b : List UInt8) : Verdict p (Desc.d44 d).Refused (d.assemble p b) (Grows b 0) := by
  unfold Desc44.assemble Desc44.size
  dsimp only
  have := keeps_resize b 13
  generalize resize b (b.length + 13) 0 = z at this ⊢
  w8; w8
  have e : (d.frequency / 100).toNat = d.frequency.toNat / 100 := by simp
  with_reducible refine Verdict.congr (by rw [Desc.Refused, ← e]) (.bind (out_toBcd32 _) fun _ _ => ?_)
  w32; w8; w8; w8
  with_reducible refine .last (out_toBcd32 _) fun _ _ => ?_
  w24; l8

theorem out_d48 (d : Desc48) (b : List UInt8) : Verdict p False (d.assemble b) (Grows b 0) := by
  unfold Desc48.assemble
  dsimp only
  rw [List.append_assoc, List.append_assoc]
  refine .seq (out_assembleSized _ _) fun _ h => (out_assembleSized _ _).mono fun _ h' => ?_
  exact ((Grows.append b _ (Nat.zero_le _)).trans h (Nat.zero_le _)).trans h' (Nat.zero_le _)

theorem out_d4D (d : Desc4D) (b : List UInt8) : Verdict p False (d.assemble b) (Grows b 0) := by
  unfold Desc4D.assemble
  dsimp only
  rw [List.append_assoc]
  refine .seq (out_assembleSized _ _) fun _ h => (out_assembleSized _ _).mono fun _ h' => ?_
  exact (((Grows.append b _ (Nat.zero_le _)).trans (grows_assemble _ _) (Nat.zero_le _)).trans h (Nat.zero_le _)).trans h' (Nat.zero_le _)

theorem out_d4ELoop (l : List (StringDVB × StringDVB)) (b : List UInt8) :
    Verdict p False (Desc4E.assembleLoop l b) (Grows b 0) := by
  induction l generalizing b with
  | nil => exact .ok (.refl _)
  | cons i r ih =>
    obtain ⟨x, y⟩ := i
    unfold Desc4E.assembleLoop
    refine .seq (out_assembleSized _ _) fun _ h => .seq (out_assembleSized _ _) fun _ h' => (ih _).mono fun _ h'' => ?_
    exact (h.trans h' (Nat.zero_le _)).trans h'' (Nat.le_refl _)

theorem out_d4E (d : Desc4E) (b : List UInt8) : Verdict p False (d.assemble b) (Grows b 0) := by
  unfold Desc4E.assemble
  dsimp only
  split
  · exact .ok (.refl _)
  · rw [List.append_assoc, List.append_assoc]
    have h0 := (Grows.append b ([0x4E] ++ ([UInt8.ofNat (d.size - 2)] ++ [setBits8 8 [(d.number, 4), (d.lastNumber, 4)]]))
      (Nat.zero_le _)).trans (grows_assemble d.lang _) (Nat.zero_le _)
    refine .seq (out_d4ELoop _ _) fun v h => ?_
    have h1 := (Grows.append (d.lang.assemble (b ++ ([0x4E] ++ ([UInt8.ofNat (d.size - 2)] ++
      [setBits8 8 [(d.number, 4), (d.lastNumber, 4)]])))) [0x00] (Nat.le_refl 1)).trans h (Nat.le_refl _)
    refine .seq (out_setIdx h1.keeps (Nat.le_refl _) (by have := h1.2; omega) _) fun w hw => ?_
    exact (out_assembleSized _ _).mono fun _ h' => (h0.trans (hw.grows (m := 0) (by have := h1.2; omega)) (Nat.zero_le _)).trans h' (Nat.zero_le _)

theorem out_d52 (d : Desc52) (b : List UInt8) : Verdict p False (d.assemble b) (Grows b 0) := by
  unfold Desc52.assemble
  rw [List.append_assoc, List.append_assoc]
  exact .ok (.append _ _ (Nat.zero_le _))

theorem out_d58Loop (l : List Desc58i) (b : List UInt8) : Verdict p False (Desc58.assembleLoop p l b) (Grows b 0) := by
  induction l generalizing b with
  | nil => exact .ok (.refl _)
  | cons i r ih =>
    unfold Desc58.assembleLoop
    dsimp only
    have h0 := grows_assemble i.countryCode b
    generalize i.countryCode.assemble b = c at h0 ⊢
    have := keeps_resize c 10
    generalize resize c (c.length + 10) 0 = z at this ⊢
    w8
    with_reducible refine .seq (out_toBcdTime16 _) fun _ _ => ?_
    w16; w16
    with_reducible refine .seq (out_toBcdTime32 _) fun _ _ => ?_
    w24
    with_reducible refine .seq (out_toBcdTime16 _) fun _ _ => ?_
    w16
    rename_i h
    exact (ih _).mono fun _ h' => (h0.trans (h.grows (m := 0) (by omega)) (Nat.zero_le _)).trans h' (Nat.zero_le _)

theorem out_d58 (d : Desc58) (b : List UInt8) : Verdict p False (d.assemble p b) (Grows b 0) := by
  unfold Desc58.assemble
  rw [List.append_assoc]
  exact (out_d58Loop _ _).mono fun _ h => (Grows.append b _ (Nat.zero_le _)).trans h (Nat.zero_le _)

theorem out_d5A (d : Desc5A) (b : List UInt8) : Verdict p False (d.assemble b) (Grows b 0) := by
  unfold Desc5A.assemble
  dsimp only
  rw [List.append_assoc]
  have h0 := Grows.append b ([0x5A] ++ [UInt8.ofNat (13 - 2)]) (Nat.zero_le _)
  generalize b ++ ([0x5A] ++ [UInt8.ofNat (13 - 2)]) = c at h0 ⊢
  have := keeps_resize c 11
  generalize resize c (c.length + 11) 0 = z at this ⊢
  w32; w8; w8; w8
  refine (out_setU32At (by assumption) (by first | omega | exact Nat.zero_le _) (by omega) _).mono fun _ h => h0.trans (h.grows (m := 0) (by omega)) (Nat.zero_le _)

theorem out_raw (d : DescRaw) (b : List UInt8) : Verdict p False (d.assemble b) (Grows b 0) := by
  unfold DescRaw.assemble
  split
  · exact .ok (.refl _)
  · rw [List.append_assoc, List.append_assoc]; exact .ok (.append _ _ (Nat.zero_le _))

theorem out_desc (d : Desc) (b : List UInt8) : Verdict p d.Refused (d.assemble p b) (Grows b 0) := by
  cases d with
  | raw d => exact out_raw d b
  | d09 d => exact out_d09 d b
  | d0A d => exact out_d0A d b
  | d0E d => exact out_d0E d b
  | d40 d => exact out_d40 d b
  | d41 d => exact out_d41 d b
  | d43 d => exact out_d43 d b
  | d44 d => exact out_d44 d b
  | d48 d => exact out_d48 d b
  | d4D d => exact out_d4D d b
  | d4E d => exact out_d4E d b
  | d52 d => exact out_d52 d b
  | d58 d => exact out_d58 d b
  | d5A d => exact out_d5A d b
  | d83 d => exact out_d83 d b

theorem out_descsLoop (ds : Descriptors) (b : List UInt8) :
    Verdict p (∃ d ∈ ds, d.Refused) (Descriptors.assembleLoop p ds b) (Grows b 0) := by
  induction ds generalizing b with
  | nil => exact .congr (by simp) (.ok (.refl _))
  | cons d r ih =>
    unfold Descriptors.assembleLoop
    exact .congr (by simp) (.bind (out_desc d b) fun _ h => (ih _).mono fun _ h' => h.trans h' (Nat.zero_le _))

theorem out_descs (ds : Descriptors) (b : List UInt8) :
    Verdict p (∃ d ∈ ds, d.Refused) (Descriptors.assemble p ds b) fun x => x.2.length = b.length + x.1 ∧ b <+: x.2 := by
  unfold Descriptors.assemble
  refine .last (out_descsLoop _ _) fun v h => ?_
  have h2 := h.2
  rw [usizeSub, if_pos (by omega), ok_bind]
  exact .ok ⟨by dsimp only; omega, h.1⟩

end Mpegts
