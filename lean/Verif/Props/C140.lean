import Verif.Props.Sent
import Verif.Props.C16_C18

/-! # C140: whether comparing sections shows that a table has changed -/

namespace Mpegts
open Spec Spec.Table

/-! ## The CRC is linear -/

theorem crcBit_xor (r s : UInt32) (b c : Bool) : crcBit (r ^^^ s) (b ^^ c) = crcBit r b ^^^ crcBit s c := by
  have hs : (r ^^^ s) <<< 1 = (r <<< 1) ^^^ (s <<< 1) := by
    rw [← UInt32.toBitVec_inj]
    simp [BitVec.shiftLeft_xor_distrib]
  have e1 : ∀ x y g : UInt32, x ^^^ g ^^^ y = x ^^^ y ^^^ g := by
    intro a b c; rw [UInt32.xor_assoc, UInt32.xor_comm c, ← UInt32.xor_assoc]
  have e2 : ∀ x y g : UInt32, x ^^^ (y ^^^ g) = x ^^^ y ^^^ g := fun a b c => (UInt32.xor_assoc a b c).symm
  have e3 : ∀ x y g : UInt32, x ^^^ g ^^^ (y ^^^ g) = x ^^^ y := by
    intro x y g; rw [e2, e1 x y g, UInt32.xor_assoc, UInt32.xor_self, UInt32.xor_zero]
  unfold crcBit
  rw [UInt32.toNat_xor, Nat.testBit_xor, hs]
  generalize r <<< 1 = x
  generalize s <<< 1 = y
  generalize (0x04C11DB7 : UInt32) = g
  cases r.toNat.testBit 31 <;> cases s.toNat.testBit 31 <;> cases b <;> cases c <;>
    first | rfl | exact (e1 x y g).symm | exact (e2 x y g).symm | exact (e3 x y g).symm

theorem foldl_xor (w d : List Bool) (h : w.length = d.length) (r s : UInt32) :
    (List.zipWith xor w d).foldl crcBit (r ^^^ s) = w.foldl crcBit r ^^^ d.foldl crcBit s := by
  induction w generalizing d r s with
  | nil =>
    cases d with
    | nil => rfl
    | cons c d => cases h
  | cons b w ih =>
    cases d with
    | nil => cases h
    | cons c d =>
      rw [List.zipWith_cons_cons, List.foldl_cons, List.foldl_cons, List.foldl_cons, ← ih d (Nat.succ.inj h), crcBit_xor]

theorem byteBits_xor (a b : UInt8) : byteBits (a ^^^ b) = List.zipWith xor (byteBits a) (byteBits b) := by
  simp only [byteBits, UInt8.toNat_xor, Nat.testBit_xor, List.map_cons, List.map_nil, List.zipWith_cons_cons, List.zipWith_nil_left]

theorem bits_xor (w d : List UInt8) (h : w.length = d.length) : bits (List.zipWith (· ^^^ ·) w d) = List.zipWith xor (bits w) (bits d) := by
  induction w generalizing d with
  | nil => rfl
  | cons b w ih =>
    cases d with
    | nil => cases h
    | cons c d =>
      have h1 := ih d (Nat.succ.inj h)
      unfold bits at h1 ⊢
      rw [List.zipWith_cons_cons, List.flatMap_cons, List.flatMap_cons, List.flatMap_cons, h1, byteBits_xor, List.zipWith_append]
      rfl

/-- The change that the CRC does not show: the generator polynomial, 33 bits. -/
def unseen : List UInt8 := [0x01, 0x04, 0xC1, 0x1D, 0xB7]

theorem unseen_zero : (bits unseen).foldl crcBit 0 = 0 := by decide +kernel

theorem crc_unseen (pre w post : List UInt8) (h : w.length = 5) :
    crc32 (pre ++ List.zipWith (· ^^^ ·) w unseen ++ post) = crc32 (pre ++ w ++ post) := by
  unfold crc32
  have hb : ∀ a b : List UInt8, bits (a ++ b) = bits a ++ bits b := by intro a b; unfold bits; rw [List.flatMap_append]
  simp only [hb, List.foldl_append, bits_xor w unseen h]
  have := foldl_xor (bits w) (bits unseen) (by rw [bits_length, bits_length, h]; rfl) ((bits pre).foldl crcBit 0xFFFFFFFF) 0
  rw [UInt32.xor_zero, unseen_zero, UInt32.xor_zero] at this
  rw [this]

/-! ## Sections -/

/-- A section accepted by `check`: its bytes before the CRC, and its CRC. -/
theorem check_split (p : Profile) (s : Psi) (hs : s.check p = .ok true) : 7 < s.size ∧ s.size ≤ s.buffer.length ∧
    (s.buffer.take s.size).drop (s.size - 4) = beBytes 4 (crc32 (s.buffer.take (s.size - 4))).toNat := by
  obtain ⟨b, h1, h2⟩ := C50_check p s
  rw [hs] at h1
  cases h1
  exact h2.1 rfl

theorem beBytes_crc {a b : UInt32} (h : beBytes 4 a.toNat = beBytes 4 b.toNat) : a = b := by
  have h2 := congrArg beNat h
  rw [beNat_beBytes, beNat_beBytes] at h2
  have := a.toNat_lt
  have := b.toNat_lt
  exact UInt32.toNat_inj.1 (by omega)

/-- C140, exactly: two intact sections compare equal if and only if they are of the same size and the CRCs of their contents are the same. -/
theorem C140_intact_partial (p : Profile) (s t : Psi) (hs : s.check p = .ok true) (ht : t.check p = .ok true) :
    s.eq p t = .ok (decide (s.size = t.size ∧ crc32b (s.buffer.take (s.size - 4)) = crc32b (t.buffer.take (t.size - 4)))) := by
  obtain ⟨a1, a2, a3⟩ := check_split p s hs
  obtain ⟨b1, b2, b3⟩ := check_split p t ht
  rw [C51_eq p s t (by omega) a2 (by omega) b2, a3, b3, C16_crc, C16_crc]
  refine congrArg Except.ok ?_
  rw [decide_eq_decide]
  constructor
  · rintro ⟨h1, h2⟩; exact ⟨h1, by rw [beBytes_crc h2]⟩
  · rintro ⟨h1, h2⟩; exact ⟨h1, by rw [Except.ok.inj h2]⟩

/-- C140, what holds: the same section, received again, compares equal; and intact sections of the same size whose contents differ, but only within
32 consecutive bits, compare unequal. -/
theorem C140_change_partial (p : Profile) (s t : Psi) (hs : s.check p = .ok true) (ht : t.check p = .ok true) (hn : s.size = t.size) :
    (s.buffer.take s.size = t.buffer.take t.size → s.eq p t = .ok true) ∧
      ∀ pre w w' post : List Bool, bits (s.buffer.take (s.size - 4)) = pre ++ w ++ post → bits (t.buffer.take (t.size - 4)) = pre ++ w' ++ post →
        w.length = w'.length → w.length ≤ 32 → w ≠ w' → s.eq p t = .ok false := by
  rw [C140_intact_partial p s t hs ht]
  refine ⟨fun h => ?_, fun pre w w' post h1 h2 h3 h4 h5 => ?_⟩
  · have h2 := congrArg (List.take (s.size - 4)) h
    rw [List.take_take, List.take_take, Nat.min_eq_left (by omega), Nat.min_eq_left (by omega)] at h2
    rw [h2, hn]
    simp
  · have := C18_burst _ _ pre w w' post h1 h2 h3 h4 h5
    simp [this]

/-- C140 fails: of every intact section, five bytes anywhere before the CRC can be changed in such a way that it remains intact and compares equal to
what it was. -/
theorem C140_refuted (p : Profile) (s : Psi) (hs : s.check p = .ok true) (i : Nat) (hi : i + 5 ≤ s.size - 4) :
    let s' := { s with buffer := s.buffer.take i ++ List.zipWith (· ^^^ ·) ((s.buffer.drop i).take 5) unseen ++ s.buffer.drop (i + 5) }
    s'.buffer.take s'.size ≠ s.buffer.take s.size ∧ s'.check p = .ok true ∧ s.eq p s' = .ok true ∧ s'.eq p s = .ok true := by
  intro s'
  obtain ⟨a1, a2, a3⟩ := check_split p s hs
  have hw : ((s.buffer.drop i).take 5).length = 5 := by rw [List.length_take, List.length_drop]; omega
  have hz : (List.zipWith (· ^^^ ·) ((s.buffer.drop i).take 5) unseen).length = 5 := by rw [List.length_zipWith, hw]; rfl
  have hsplit : ∀ n, i + 5 ≤ n → s.buffer.take n = s.buffer.take i ++ (s.buffer.drop i).take 5 ++ (s.buffer.drop (i + 5)).take (n - (i + 5)) := by
    intro n hn
    have e1 : n = i + (5 + (n - (i + 5))) := by omega
    conv => lhs; rw [e1, List.take_add, List.take_add, List.drop_drop, ← List.append_assoc]
  have hl : ∀ n, i + 5 ≤ n → s'.buffer.take n = s.buffer.take i ++ List.zipWith (· ^^^ ·) ((s.buffer.drop i).take 5) unseen ++
      (s.buffer.drop (i + 5)).take (n - (i + 5)) := by
    intro n hn
    have e : (s.buffer.take i ++ List.zipWith (· ^^^ ·) ((s.buffer.drop i).take 5) unseen).length = i + 5 := by
      rw [List.length_append, hz, List.length_take]; omega
    show (s.buffer.take i ++ List.zipWith (· ^^^ ·) ((s.buffer.drop i).take 5) unseen ++ s.buffer.drop (i + 5)).take n = _
    rw [List.take_append, e, List.take_of_length_le (by omega)]
  have hne : List.zipWith (· ^^^ ·) ((s.buffer.drop i).take 5) unseen ≠ (s.buffer.drop i).take 5 := by
    match h : (s.buffer.drop i).take 5, hw with
    | a :: r, _ =>
      intro h1
      have h2 := (List.cons.inj h1).1
      revert h2
      have : ∀ a : UInt8, a ^^^ 1 ≠ a := by decide +kernel
      exact this a
  have hcrc : ∀ n, i + 5 ≤ n → crc32 (s'.buffer.take n) = crc32 (s.buffer.take n) := by
    intro n hn
    rw [hl n hn, hsplit n hn, crc_unseen _ _ _ hw]
  have hlen : s'.buffer.length = s.buffer.length := by
    show (s.buffer.take i ++ List.zipWith (· ^^^ ·) ((s.buffer.drop i).take 5) unseen ++ s.buffer.drop (i + 5)).length = _
    rw [List.length_append, List.length_append, hz, List.length_take, List.length_drop]
    omega
  have hc : s'.check p = .ok true := by
    rw [Psi.check_eq] at hs ⊢
    have hs' : 7 < s.size ∧ s.size ≤ s.buffer.length ∧ crc32 (s.buffer.take s.size) = 0 := by simpa using hs
    refine congrArg Except.ok (decide_eq_true ⟨hs'.1, by rw [hlen]; exact hs'.2.1, ?_⟩)
    show crc32 (s'.buffer.take s.size) = 0
    rw [hcrc s.size (by omega), hs'.2.2]
  refine ⟨fun h => hne ?_, hc, ?_, ?_⟩
  · rw [show s'.buffer.take s'.size = s'.buffer.take s.size from rfl, hl s.size (by omega), hsplit s.size (by omega)] at h
    exact List.append_cancel_left (List.append_cancel_right h)
  · rw [C140_intact_partial p s s' hs hc]
    refine congrArg Except.ok (decide_eq_true ⟨rfl, ?_⟩)
    rw [C16_crc, C16_crc]
    exact congrArg Except.ok (hcrc (s.size - 4) (by omega)).symm
  · rw [C140_intact_partial p s' s hc hs]
    refine congrArg Except.ok (decide_eq_true ⟨rfl, ?_⟩)
    rw [C16_crc, C16_crc]
    exact congrArg Except.ok (hcrc (s.size - 4) (by omega))

/-- C140: comparing is an equivalence on complete sections. -/
theorem C140_equivalence (p : Profile) (s t u : Psi) (hs : 4 ≤ s.size ∧ s.size ≤ s.buffer.length) (ht : 4 ≤ t.size ∧ t.size ≤ t.buffer.length)
    (hu : 4 ≤ u.size ∧ u.size ≤ u.buffer.length) : s.eq p s = .ok true ∧ s.eq p t = t.eq p s ∧
      (s.eq p t = .ok true → t.eq p u = .ok true → s.eq p u = .ok true) := by
  rw [C51_eq p s s hs.1 hs.2 hs.1 hs.2, C51_eq p s t hs.1 hs.2 ht.1 ht.2, C51_eq p t s ht.1 ht.2 hs.1 hs.2, C51_eq p t u ht.1 ht.2 hu.1 hu.2,
    C51_eq p s u hs.1 hs.2 hu.1 hu.2]
  refine ⟨by simp, ?_, ?_⟩
  · refine congrArg Except.ok (decide_eq_decide.2 ⟨fun h => ⟨h.1.symm, h.2.symm⟩, fun h => ⟨h.1.symm, h.2.symm⟩⟩)
  · intro h1 h2
    have h1 := of_decide_eq_true (Except.ok.inj h1)
    have h2 := of_decide_eq_true (Except.ok.inj h2)
    exact congrArg Except.ok (decide_eq_true ⟨h1.1.trans h2.1, h1.2.trans h2.2⟩)

/-! ## A change of a PAT that is not seen -/

theorem ofNat_xor (m n : Nat) : UInt8.ofNat (m ^^^ n) = UInt8.ofNat m ^^^ UInt8.ofNat n := by
  rw [← UInt8.toNat_inj, UInt8.toNat_xor, UInt8.toNat_ofNat', UInt8.toNat_ofNat', UInt8.toNat_ofNat']
  refine Nat.eq_of_testBit_eq fun i => ?_
  rw [Nat.testBit_xor, Nat.testBit_mod_two_pow, Nat.testBit_mod_two_pow, Nat.testBit_mod_two_pow, Nat.testBit_xor]
  cases decide (i < 8) <;> simp

theorem beBytes_xor (m n : Nat) : beBytes 2 (m ^^^ n) = List.zipWith (· ^^^ ·) (beBytes 2 m) (beBytes 2 n) := by
  have h : (m ^^^ n) / 256 = m / 256 ^^^ n / 256 := by
    rw [show 256 = 2 ^ 8 from rfl, ← Nat.shiftRight_eq_div_pow, ← Nat.shiftRight_eq_div_pow, ← Nat.shiftRight_eq_div_pow, Nat.shiftRight_xor_distrib]
  simp only [beBytes, List.zipWith_cons_cons, List.zipWith_nil_left, Nat.pow_zero, Nat.pow_one, Nat.div_one, ofNat_xor, h]

theorem pid_xor (x : UInt16) : (0xE000 ||| (x ^^^ 0x04C1) : UInt16) = (0xE000 ||| x) ^^^ 0x04C1 := by
  rw [← UInt16.toBitVec_inj]
  refine BitVec.eq_of_getLsbD_eq fun i hi => ?_
  simp only [UInt16.toBitVec_or, UInt16.toBitVec_xor, BitVec.getLsbD_or, BitVec.getLsbD_xor]
  have : i = 0 ∨ i = 1 ∨ i = 2 ∨ i = 3 ∨ i = 4 ∨ i = 5 ∨ i = 6 ∨ i = 7 ∨ i = 8 ∨ i = 9 ∨ i = 10 ∨ i = 11 ∨ i = 12 ∨ i = 13 ∨ i = 14 ∨ i = 15 := by omega
  rcases this with h | h | h | h | h | h | h | h | h | h | h | h | h | h | h | h <;> subst h <;> simp

/-- Completing sections that differ in the pattern: nothing else differs. -/
theorem complete_unseen (h w post : List UInt8) (hh : 3 ≤ h.length) (hw : w.length = 5) : ∃ h' c, h'.length = h.length ∧ c.length = 4 ∧
    complete (h ++ w ++ post) = h' ++ w ++ post ++ c ∧ complete (h ++ List.zipWith (· ^^^ ·) w unseen ++ post) =
      h' ++ List.zipWith (· ^^^ ·) w unseen ++ post ++ c := by
  match h, hh with
  | x :: y :: z :: r, _ =>
    have hz : (List.zipWith (· ^^^ ·) w unseen).length = 5 := by rw [List.length_zipWith, hw]; rfl
    refine ⟨x :: (beBytes 2 (y.toNat / 16 * 4096 + ((x :: y :: z :: r ++ w ++ post).length - 3 + 4)) ++ r), _, ?_, beBytes_length 4 _, rfl, ?_⟩
    · simp only [List.length_cons, List.length_append, beBytes_length]
      omega
    · have e : (x :: y :: z :: r ++ List.zipWith (· ^^^ ·) w unseen ++ post).length = (x :: y :: z :: r ++ w ++ post).length := by
        simp only [List.length_append, hz, hw]
      have h1 := crc_unseen (x :: (beBytes 2 (y.toNat / 16 * 4096 + ((x :: y :: z :: r ++ w ++ post).length - 3 + 4)) ++ r)) w post hw
      unfold complete
      rw [e]
      simp only [List.cons_append, List.take_succ_cons, List.take_zero, List.drop_succ_cons, List.drop_zero, List.getD_cons_succ, List.getD_cons_zero,
        List.nil_append, List.append_assoc] at h1 ⊢
      rw [h1]

theorem Pat.entries_unseen (a b : PatItem) : ∃ x w z, w.length = 5 ∧ x.length = 1 ∧ Pat.entry a ++ Pat.entry b = x ++ w ++ z ∧
    Pat.entry ⟨a.pnr ^^^ 1, a.pid ^^^ 0x04C1⟩ ++ Pat.entry ⟨b.pnr ^^^ 0x1DB7, b.pid⟩ = x ++ List.zipWith (· ^^^ ·) w unseen ++ z := by
  refine ⟨[UInt8.ofNat (a.pnr.toNat / 256)], [UInt8.ofNat a.pnr.toNat, UInt8.ofNat ((0xE000 ||| a.pid : UInt16).toNat / 256),
    UInt8.ofNat (0xE000 ||| a.pid : UInt16).toNat, UInt8.ofNat (b.pnr.toNat / 256), UInt8.ofNat b.pnr.toNat],
    beBytes 2 (0xE000 ||| b.pid : UInt16).toNat, rfl, rfl, ?_, ?_⟩
  · simp only [Pat.entry, patEntry, ← or_E000]
    simp [beBytes]
  · simp only [Pat.entry, patEntry, ← or_E000]
    rw [pid_xor, UInt16.toNat_xor, UInt16.toNat_xor, UInt16.toNat_xor, beBytes_xor, beBytes_xor, beBytes_xor]
    simp [beBytes, unseen]

/-- A section of a PAT that is held is intact. -/
theorem Pat.held (p : Profile) (t : Pat) (items : List PatItem) (s : Psi) (hb : s.buffer = t.wire items) (hn : s.size = (t.wire items).length) :
    s.check p = .ok true := by
  have h8 : 8 ≤ (Table.pat t.tsid.toNat (t.version.toNat % 32) 0 0 (items.flatMap entry)).length := by
    unfold Table.pat
    rw [List.length_append, header_length]
    omega
  have h := complete_intact _ (by omega) s hb hn 8 (by omega)
  rw [check_intact p s 8 (by omega) h.1, decide_eq_true h]

/-- C140 fails for tables: in every PAT two neighbouring programmes can be changed in such a way that a section is sent which is different, is intact,
and compares equal to the section sent before. -/
theorem Pat.C140_pat_refuted (p : Profile) (t : Pat) (l r : List PatItem) (a b : PatItem) (hi : t.items = l ++ a :: b :: r) (hl : l.length + 2 ≤ 253)
    (pid : UInt16) (cc : UInt8) (dst : List UInt8) (hp : pid.toNat < 8192) (hc : cc.toNat < 16) :
    let t' : Pat := { t with items := l ++ ⟨a.pnr ^^^ 1, a.pid ^^^ 0x04C1⟩ :: ⟨b.pnr ^^^ 0x1DB7, b.pid⟩ :: r }
    ∃ sec sec', Sends (t.demux p pid cc dst) pid cc dst [sec] ∧ Sends (t'.demux p pid cc dst) pid cc dst [sec'] ∧ sec ≠ sec' ∧
      ∀ s s' : Psi, s.buffer = sec → s.size = sec.length → s'.buffer = sec' → s'.size = sec'.length →
        s.check p = .ok true ∧ s'.check p = .ok true ∧ s.eq p s' = .ok true := by
  intro t'
  have s1 := Pat.sends p t pid cc dst hp hc
  have s2 := Pat.sends p t' pid cc dst hp hc
  obtain ⟨x, w, z, hw, hx, e1, e2⟩ := Pat.entries_unseen a b
  obtain ⟨k, hk⟩ : ∃ k, 253 - l.length = k + 1 + 1 := ⟨253 - l.length - 2, by omega⟩
  have hz : (List.zipWith (· ^^^ ·) w unseen).length = 5 := by rw [List.length_zipWith, hw]; rfl
  have f1 : (t.items.take 253).flatMap Pat.entry = l.flatMap Pat.entry ++ x ++ w ++ (z ++ (r.take k).flatMap Pat.entry) := by
    rw [hi, List.take_append, List.take_of_length_le (by omega), hk, List.take_succ_cons, List.take_succ_cons, List.flatMap_append, List.flatMap_cons,
      List.flatMap_cons, ← List.append_assoc (Pat.entry a), e1]
    simp only [List.append_assoc]
  have f2 : (t'.items.take 253).flatMap Pat.entry = l.flatMap Pat.entry ++ x ++ List.zipWith (· ^^^ ·) w unseen ++ (z ++ (r.take k).flatMap Pat.entry) := by
    rw [show t'.items = _ from rfl, List.take_append, List.take_of_length_le (by omega), hk, List.take_succ_cons, List.take_succ_cons,
      List.flatMap_append, List.flatMap_cons, List.flatMap_cons, ← List.append_assoc (Pat.entry ⟨a.pnr ^^^ 1, a.pid ^^^ 0x04C1⟩), e2]
    simp only [List.append_assoc]
  obtain ⟨h', c, c1, c2, c3, c4⟩ := complete_unseen (header 0x00 0b1011 t.tsid.toNat (t.version.toNat % 32) 0 0 ++ (l.flatMap Pat.entry ++ x)) w
    (z ++ (r.take k).flatMap Pat.entry) (by rw [List.length_append, header_length]; omega) hw
  have g1 : t.wire (t.items.take 253) = h' ++ w ++ (z ++ (r.take k).flatMap Pat.entry) ++ c := by
    rw [← c3]
    unfold Pat.wire Table.pat
    rw [f1]
    simp only [List.append_assoc]
  have g2 : t'.wire (t'.items.take 253) = h' ++ List.zipWith (· ^^^ ·) w unseen ++ (z ++ (r.take k).flatMap Pat.entry) ++ c := by
    rw [← c4]
    unfold Pat.wire Table.pat
    rw [f2]
    simp only [List.append_assoc]
    rfl
  refine ⟨_, _, s1, s2, ?_, ?_⟩
  · rw [g1, g2]
    intro h
    have h := List.append_cancel_left (List.append_cancel_right (List.append_cancel_right h))
    match w, hw, h with
    | a :: r, _, h =>
      have : ∀ a : UInt8, a ≠ a ^^^ 1 := by decide +kernel
      exact this a (List.cons.inj h).1
  · intro s s' b1 n1 b2 n2
    have k1 := held p t _ s b1 n1
    have k2 := held p t' _ s' b2 n2
    refine ⟨k1, k2, ?_⟩
    obtain ⟨a1, a2, a3⟩ := check_split p s k1
    obtain ⟨d1, d2, d3⟩ := check_split p s' k2
    rw [C51_eq p s s' (by omega) a2 (by omega) d2]
    have l1 : s.size = (h' ++ w ++ (z ++ (r.take k).flatMap Pat.entry)).length + 4 := by rw [n1, g1, List.length_append (bs := c), c2]
    have l2 : s'.size = (h' ++ List.zipWith (· ^^^ ·) w unseen ++ (z ++ (r.take k).flatMap Pat.entry)).length + 4 := by rw [n2, g2, List.length_append (bs := c), c2]
    refine congrArg Except.ok (decide_eq_true ⟨?_, ?_⟩)
    · rw [l1, l2]
      simp only [List.length_append, hw, hz]
    · rw [List.take_of_length_le (by rw [b1, n1]), List.take_of_length_le (by rw [b2, n2]), b1, b2, g1, g2, l1, l2, Nat.add_sub_cancel, Nat.add_sub_cancel,
        List.drop_left, List.drop_left]

/-- Completing sections of the same length that differ in a few bytes after the length. -/
theorem complete_differ (h w w' post : List UInt8) (hh : 3 ≤ h.length) (hw : w.length = w'.length) : ∃ h', h'.length = h.length ∧
    complete (h ++ w ++ post) = h' ++ w ++ post ++ beBytes 4 (crc32 (h' ++ w ++ post)).toNat ∧
      complete (h ++ w' ++ post) = h' ++ w' ++ post ++ beBytes 4 (crc32 (h' ++ w' ++ post)).toNat := by
  match h, hh with
  | x :: y :: z :: r, _ =>
    refine ⟨x :: (beBytes 2 (y.toNat / 16 * 4096 + ((x :: y :: z :: r ++ w ++ post).length - 3 + 4)) ++ r), ?_, ?_, ?_⟩
    · simp only [List.length_cons, List.length_append, beBytes_length]
      omega
    · unfold complete
      simp only [List.cons_append, List.take_succ_cons, List.take_zero, List.drop_succ_cons, List.drop_zero, List.getD_cons_succ, List.getD_cons_zero,
        List.nil_append, List.append_assoc]
    · have e : (x :: y :: z :: r ++ w' ++ post).length = (x :: y :: z :: r ++ w ++ post).length := by
        simp only [List.length_append, hw]
      unfold complete
      rw [e]
      simp only [List.cons_append, List.take_succ_cons, List.take_zero, List.drop_succ_cons, List.drop_zero, List.getD_cons_succ, List.getD_cons_zero,
        List.nil_append, List.append_assoc]

theorem bits_flat (a b : List UInt8) : bits (a ++ b) = bits a ++ bits b := by simp [bits]

/-- Sections that are held and differ in at most four consecutive bytes after the length compare unequal. -/
theorem complete_seen (p : Profile) (s s' : Psi) (h w w' post : List UInt8) (hh : 4 ≤ h.length) (hw : w.length = w'.length) (h4 : w.length ≤ 4)
    (hne : w ≠ w') (b1 : s.buffer = complete (h ++ w ++ post)) (n1 : s.size = s.buffer.length) (b2 : s'.buffer = complete (h ++ w' ++ post))
    (n2 : s'.size = s'.buffer.length) (k1 : s.check p = .ok true) (k2 : s'.check p = .ok true) : s.eq p s' = .ok false := by
  obtain ⟨h', e1, e2, e3⟩ := complete_differ h w w' post (by omega) hw
  have l1 : s.size = (h' ++ w ++ post).length + 4 := by rw [n1, b1, e2, List.length_append (bs := beBytes 4 _), beBytes_length]
  have l2 : s'.size = (h' ++ w' ++ post).length + 4 := by rw [n2, b2, e3, List.length_append (bs := beBytes 4 _), beBytes_length]
  have hsz : s.size = s'.size := by rw [l1, l2]; simp only [List.length_append, hw]
  refine (C140_change_partial p s s' k1 k2 hsz).2 (bits h') (bits w) (bits w') (bits post) ?_ ?_ ?_ ?_ ?_
  · rw [b1, l1, e2, Nat.add_sub_cancel, List.take_left, bits_flat, bits_flat]
  · rw [b2, l2, e3, Nat.add_sub_cancel, List.take_left, bits_flat, bits_flat]
  · rw [bits_length, bits_length, hw]
  · rw [bits_length]; omega
  · exact fun h => hne (bits_inj _ _ h)

/-- C140, what holds for a PAT: if one of the programmes sent is changed, or the version is, a section is sent that compares unequal. -/
theorem Pat.C140_pat_partial (p : Profile) (t : Pat) (pid : UInt16) (cc : UInt8) (dst : List UInt8) (hp : pid.toNat < 8192) (hc : cc.toNat < 16)
    (t' : Pat) (ht : (∃ l r a a', t.items = l ++ a :: r ∧ t' = { t with items := l ++ a' :: r } ∧ l.length < 253 ∧
        (a.pnr ≠ a'.pnr ∨ a.pid.toNat % 8192 ≠ a'.pid.toNat % 8192)) ∨ (∃ v, t' = { t with version := v } ∧ v.toNat % 32 ≠ t.version.toNat % 32)) :
    ∃ sec sec', Sends (t.demux p pid cc dst) pid cc dst [sec] ∧ Sends (t'.demux p pid cc dst) pid cc dst [sec'] ∧
      ∀ s s' : Psi, s.buffer = sec → s.size = sec.length → s'.buffer = sec' → s'.size = sec'.length →
        s.check p = .ok true ∧ s'.check p = .ok true ∧ s.eq p s' = .ok false := by
  refine ⟨_, _, Pat.sends p t pid cc dst hp hc, Pat.sends p t' pid cc dst hp hc, ?_⟩
  intro s s' b1 n1 b2 n2
  have k1 := held p t _ s b1 n1
  have k2 := held p t' _ s' b2 n2
  refine ⟨k1, k2, ?_⟩
  rcases ht with ⟨l, r, a, a', hi, rfl, hl, hne⟩ | ⟨v, rfl, hne⟩
  · obtain ⟨k, hk⟩ : ∃ k, 253 - l.length = k + 1 := ⟨253 - l.length - 1, by omega⟩
    have f : ∀ x, ((l ++ x :: r).take 253).flatMap Pat.entry = l.flatMap Pat.entry ++ Pat.entry x ++ (r.take k).flatMap Pat.entry := by
      intro x
      rw [List.take_append, List.take_of_length_le (by omega), hk, List.take_succ_cons, List.flatMap_append, List.flatMap_cons, List.append_assoc]
    refine complete_seen p s s' (header 0x00 0b1011 t.tsid.toNat (t.version.toNat % 32) 0 0 ++ l.flatMap Pat.entry) (Pat.entry a) (Pat.entry a')
      ((r.take k).flatMap Pat.entry) (by rw [List.length_append, header_length]; omega) (by rw [entry_length, entry_length]) (by rw [entry_length])
      ?_ ?_ (by rw [n1, b1]) ?_ (by rw [n2, b2]) k1 k2
    · intro h
      have c1 := chunk_entry a
      have c2 := chunk_entry a'
      rw [h] at c1
      rcases hne with h1 | h1
      · exact h1 (UInt16.toNat_inj.1 (c1.1.symm.trans c2.1))
      · exact h1 (c1.2.symm.trans c2.2)
    · rw [b1]
      unfold Pat.wire Table.pat
      rw [hi, f]
      simp only [List.append_assoc]
    · rw [b2]
      unfold Pat.wire Table.pat
      rw [f]
      simp only [List.append_assoc]
  · refine complete_seen p s s' (beBytes 1 0 ++ beBytes 2 (Descriptor.pack [(4, 0b1011), (12, 0)]) ++ beBytes 2 t.tsid.toNat)
      (beBytes 1 (Descriptor.pack [(2, 0b11), (5, t.version.toNat % 32), (1, 1)])) (beBytes 1 (Descriptor.pack [(2, 0b11), (5, v.toNat % 32), (1, 1)]))
      (beBytes 1 0 ++ beBytes 1 0 ++ (t.items.take 253).flatMap Pat.entry) (by simp) (by simp) (by simp) ?_ ?_ (by rw [n1, b1]) ?_ (by rw [n2, b2]) k1 k2
    · intro h
      have := congrArg beNat h
      rw [beNat_beBytes, beNat_beBytes] at this
      simp only [Descriptor.pack, List.foldl_cons, List.foldl_nil] at this
      omega
    · rw [b1]
      unfold Pat.wire Table.pat header
      simp only [List.append_assoc]
    · rw [b2]
      unfold Pat.wire Table.pat header
      simp only [List.append_assoc]

/-! ## Examples -/

/-- Three programmes. -/
def samplePat140 : Pat := ⟨3, 7, [⟨1, 0x100⟩, ⟨2, 0x200⟩, ⟨3, 0x300⟩]⟩

/-- The section of the PAT above, held. -/
def heldPat140 : Psi := { Psi.default with
  buffer := samplePat140.wire samplePat140.items
  size := (samplePat140.wire samplePat140.items).length }

/-- Programmes 1 and 2 become programmes 0 and 0x1DB5. -/
example := Pat.C140_pat_refuted .release samplePat140 [] [⟨3, 0x300⟩] ⟨1, 0x100⟩ ⟨2, 0x200⟩ rfl (by decide) 0 0 [] (by decide) (by decide)

/-- The last programme gets another PID. -/
example := Pat.C140_pat_partial .release samplePat140 0 0 [] (by decide) (by decide) _
  (.inl ⟨[⟨1, 0x100⟩, ⟨2, 0x200⟩], [], ⟨3, 0x300⟩, ⟨3, 0x301⟩, rfl, rfl, by decide, .inr (by decide)⟩)

/-- The version is changed. -/
example := Pat.C140_pat_partial .release samplePat140 0 0 [] (by decide) (by decide) _ (.inr ⟨4, rfl, by decide⟩)

theorem heldPat140_intact : heldPat140.check .release = .ok true := Pat.held .release samplePat140 _ heldPat140 rfl rfl

example := C140_refuted .release heldPat140 heldPat140_intact 9 (by decide +kernel)

example := C140_intact_partial .release heldPat140 heldPat140 heldPat140_intact heldPat140_intact

example := (C140_change_partial .release heldPat140 heldPat140 heldPat140_intact heldPat140_intact rfl).1 rfl

example := C140_equivalence .release heldPat140 heldPat140 heldPat140 (by decide +kernel) (by decide +kernel) (by decide +kernel)

end Mpegts
