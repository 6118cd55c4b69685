import Verif.Spec.Loss
import Verif.Lemmas.Tables
import Verif.Props.C78_C79

/-! # C83-C86: lost packets, repeated packets, other ways to cut a section into packets -/

namespace Mpegts
open Spec Spec.Table

/-! ## C83: lost packets -/

theorem sections_cons (p : Profile) (s : Psi) (pk : List UInt8) (r : List (List UInt8)) :
    sections p s (pk :: r) = (do
      let s ← s.mux p pk
      let ok ← s.check p
      let rest ← sections p s r
      pure (if ok then s.buffer.take s.size :: rest else rest)) := rfl

theorem received_append (keep : Nat → Bool) (n : Nat) (a b : List (List UInt8)) :
    received keep n (a ++ b) = received keep n a ++ received keep (n + a.length) b := by
  induction a generalizing n with
  | nil => rfl
  | cons x a ih =>
    rw [List.cons_append, received, received, ih, List.length_cons, show n + 1 + a.length = n + (a.length + 1) by omega]
    split <;> rfl

/-- Raw fields of the packets of a section. -/
theorem packetAt_fields (pid cc : Nat) (hp : pid < 8192) (sec : List UInt8) (i : Nat) :
    IsPacket (packetAt pid cc sec i) ∧ hasPayload (packetAt pid cc sec i) = true ∧
    pusiOf (packetAt pid cc sec i) = decide (i = 0) ∧ ccOf (packetAt pid cc sec i) = (cc + i) % 16 ∧
    offsetOf (packetAt pid cc sec i) = 4 := by
  generalize hB : ((0x00 :: sec).drop (184 * i)).take 184 = B
  have hBl : B.length ≤ 184 := by rw [← hB, List.length_take]; omega
  have he : packetAt pid cc sec i = (secHdr pid ((cc + i) % 16) (decide (i = 0))).encode ++
      (B ++ List.replicate (184 - B.length) 0xFF) := by
    rw [packetAt, hB, payloadPacket_eq]; simp
  have hv := secHdr_valid (pid := pid) (cc := (cc + i) % 16) (pusi := decide (i = 0)) hp (by omega)
  obtain ⟨f1, f2, f3, f4, -⟩ := raw_fields hv (B ++ List.replicate (184 - B.length) 0xFF)
  rw [← he] at f1 f2 f3 f4
  have f2' : hasAdaptation (packetAt pid cc sec i) = false := f2
  refine ⟨⟨?_, ?_⟩, f1, f3, f4, ?_⟩
  · rw [he, List.length_append, encode_length, List.length_append, List.length_replicate]; omega
  · rw [f2']; intro h; cases h
  · rw [offsetOf, f2']; rfl

/-- Where the receiver stands before position `b`: the packet at `L` was the last one it accepted, no section start arrived
since, and unless `L` is the previous position the packet behind it was lost. -/
def Before (keep start : Nat → Bool) (cc : Nat) (t : Psi) (b : Nat) : Prop :=
  ∃ L, L < b ∧ keep L = true ∧ t.cc.toNat = (cc + L) % 16 ∧ (∀ k, L < k → k < b → keep k = true → start k = false) ∧
    (L + 1 < b → keep (L + 1) = false)

/-- `sections` after some packets that produced the sections `rep`. -/
def Then (p : Profile) (t : Psi) (pks : List (List UInt8)) (rep : List (List UInt8)) (t' : Psi) : Prop :=
  ∀ tail, sections p t (pks ++ tail) = (sections p t' tail).map (rep ++ ·)

theorem then_nil (p : Profile) (t : Psi) : Then p t [] [] t := by
  intro tail
  cases h : sections p t tail <;> simp [h, Except.map]

theorem then_cons {p : Profile} {t u t' : Psi} {pk : List UInt8} {pks rep rep' : List (List UInt8)} {ok : Bool}
    (h1 : t.mux p pk = .ok u) (h2 : u.check p = .ok ok) (h3 : Then p u pks rep t')
    (h4 : rep' = if ok then u.buffer.take u.size :: rep else rep) : Then p t (pk :: pks) rep' t' := by
  intro tail
  rw [List.cons_append, sections_cons, h1, ok_bind, h2, ok_bind, h3 tail, h4]
  cases sections p t' tail with
  | error e => rfl
  | ok l => cases ok <;> rfl

/-- What a receiver that has lost the section it is in does with the rest of it. -/
theorem lost_rest (p : Profile) (pid cc : Nat) (hp : pid < 8192) (keep start : Nat → Bool) (sec : List UInt8) (b : Nat)
    (hst : ∀ i, 0 < i → i < packetCount sec.length → start (b + i) = false)
    (hz : ∀ i j, i + 1 < j → j < b + packetCount sec.length → keep i = true → keep (i + 1) = false → keep j = true → (j - i) % 16 = 1 →
      start j = false → ∃ k, i < k ∧ k < j ∧ keep k = true ∧ start k = true)
    (n i : Nat) (hi : 0 < i) (hn : i + n = packetCount sec.length) (t : Psi) (L : Nat) (hL : L + 1 < b + i)
    (hkL : keep L = true) (hcc : t.cc.toNat = (cc + L) % 16)
    (hs : ∀ k, L < k → k < b + i → keep k = true → start k = false) (hl : keep (L + 1) = false) :
    ∃ t', Then p t (received keep (b + i) ((List.range' i n).map (packetAt pid (cc + b) sec))) [] t' ∧
      Before keep start cc t' (b + packetCount sec.length) := by
  induction n generalizing i t with
  | zero =>
    refine ⟨t, then_nil p t, L, by omega, hkL, hcc, ?_, fun _ => hl⟩
    intro k h1 h2
    exact hs k h1 (by omega)
  | succ n ih =>
    have hsi := hst i hi (by omega)
    have hs' : ∀ k, L < k → k < b + (i + 1) → keep k = true → start k = false := by
      intro k h1 h2 h3
      by_cases hk : k = b + i
      · rw [hk]; exact hsi
      · exact hs k h1 (by omega) h3
    rw [List.range'_succ, List.map_cons, received]
    by_cases hk : keep (b + i) = true
    · rw [if_pos hk]
      obtain ⟨f1, f2, f3, f4, f5⟩ := packetAt_fields pid (cc + b) hp sec i
      have hmod : (b + i - L) % 16 ≠ 1 := by
        intro h
        obtain ⟨k, h1, h2, h3, h4⟩ := hz L (b + i) hL (by omega) hkL hl hk h hsi
        have := hs k h1 h2 h3
        rw [this] at h4; cases h4
      have hne : ccOf (packetAt pid (cc + b) sec i) ≠ (t.cc.toNat + 1) % 16 := by rw [f4, hcc]; omega
      have hmux := C44_discontinuity p t _ (by omega) f1 f2 (by rw [f3, decide_eq_false_iff_not]; omega) hne
      obtain ⟨t', h1, h2⟩ := ih (i + 1) (by omega) (by omega) { t with buffer := [], size := 0 } (by omega) hcc hs'
      exact ⟨t', then_cons hmux (ok := false) (by rw [Psi.check_eq]; rfl) h1 rfl, h2⟩
    · rw [if_neg hk]
      exact ih (i + 1) (by omega) (by omega) t (by omega) hcc hs'

/-- What a receiver that has all of the section so far does with the rest of it. -/
theorem intact_rest (p : Profile) (pid cc : Nat) (hp : pid < 8192) (keep start : Nat → Bool) (sec : List UInt8) (b : Nat)
    (hsec : IsSection sec)
    (hst : ∀ i, 0 < i → i < packetCount sec.length → start (b + i) = false)
    (hz : ∀ i j, i + 1 < j → j < b + packetCount sec.length → keep i = true → keep (i + 1) = false → keep j = true → (j - i) % 16 = 1 →
      start j = false → ∃ k, i < k ∧ k < j ∧ keep k = true ∧ start k = true)
    (n i : Nat) (hn : i + 1 + n = packetCount sec.length) (t : Psi) (hk : keep (b + i) = true)
    (hb : t.buffer = sec.take (184 * i + 183)) (hsz : t.size = sec.length)
    (hcc : t.cc = UInt8.ofNat ((cc + b + i) % 16)) :
    ∃ t', Then p t (received keep (b + (i + 1)) ((List.range' (i + 1) n).map (packetAt pid (cc + b) sec)))
        (if 0 < n ∧ (List.range' (i + 1) n).all (fun i => keep (b + i)) ∧ 7 < sec.length ∧ crc32 sec = 0 then [sec] else []) t' ∧
      Before keep start cc t' (b + packetCount sec.length) := by
  induction n generalizing i t with
  | zero =>
    refine ⟨t, by rw [if_neg (by omega)]; exact then_nil p t, b + i, by omega, hk, ?_, ?_, ?_⟩
    · rw [hcc, UInt8.toNat_ofNat']; omega
    · intro k h1 h2; omega
    · intro h; omega
  | succ n ih =>
    rw [List.range'_succ, List.map_cons, received, List.all_cons]
    by_cases hk1 : keep (b + (i + 1)) = true
    · rw [if_pos hk1]
      have hmux := Psi.mux_next p pid (cc + b) sec hsec hp t i hb hsz hcc
      obtain ⟨t', h1, h2⟩ := ih (i + 1) (by omega)
        { t with buffer := sec.take (184 * (i + 1) + 183), cc := UInt8.ofNat ((cc + b + (i + 1)) % 16) } hk1 rfl hsz rfl
      refine ⟨t', then_cons hmux (Psi.check_eq p _) h1 ?_, h2⟩
      simp only [hsz, hk1, Bool.true_and]
      cases n with
      | zero =>
        have hle : sec.length ≤ 184 * (i + 1) + 183 := by unfold packetCount at hn; omega
        rw [List.take_of_length_le hle, List.take_of_length_le (le_refl _)]
        simp
      | succ n =>
        have hlt : 184 * (i + 1) + 183 < sec.length := by unfold packetCount at hn; omega
        have : ¬ (sec.length ≤ (sec.take (184 * (i + 1) + 183)).length) := by rw [List.length_take]; omega
        simp only [this, false_and, and_false, decide_false, Bool.false_eq_true, if_false, Nat.zero_lt_succ, true_and]
    · rw [if_neg hk1]
      simp only [hk1, Bool.false_eq_true, Bool.false_and, false_and, and_false, if_false]
      obtain ⟨t', h1, h2⟩ := lost_rest p pid cc hp keep start sec b hst hz n (i + 2) (by omega) (by omega) t (b + i) (by omega)
        hk (by rw [hcc, UInt8.toNat_ofNat']; omega) (by
          intro k h1 h2
          have : k = b + (i + 1) := by omega
          rw [this]; intro h; exact absurd h hk1) (by rw [Nat.add_assoc]; simpa using hk1)
      exact ⟨t', h1, h2⟩

/-- One section. -/
theorem one_section (p : Profile) (pid cc : Nat) (hp : pid < 8192) (keep start : Nat → Bool) (sec : List UInt8) (b : Nat)
    (hsec : IsSection sec)
    (hst : ∀ i, 0 < i → i < packetCount sec.length → start (b + i) = false)
    (hz : ∀ i j, i + 1 < j → j < b + packetCount sec.length → keep i = true → keep (i + 1) = false → keep j = true → (j - i) % 16 = 1 →
      start j = false → ∃ k, i < k ∧ k < j ∧ keep k = true ∧ start k = true)
    (t : Psi) (ht : keep b = true ∨ Before keep start cc t b) :
    ∃ t', Then p t (received keep b (packets pid (cc + b) sec))
        (if (List.range (packetCount sec.length)).all (fun i => keep (b + i)) ∧ 7 < sec.length ∧ crc32 sec = 0 then [sec] else []) t' ∧
      Before keep start cc t' (b + packetCount sec.length) := by
  have h3 := hsec.1
  have hn : packetCount sec.length = (packetCount sec.length - 1) + 1 := by unfold packetCount; omega
  rw [packets, List.range_eq_range', hn, List.range'_succ, List.map_cons, received, List.all_cons, ← hn]
  simp only [Nat.add_zero]
  by_cases hk : keep b = true
  · rw [if_pos hk]
    have hmux := Psi.mux_first p pid (cc + b) sec hsec hp t
    obtain ⟨t', h1, h2⟩ := intact_rest p pid cc hp keep start sec b hsec hst hz (packetCount sec.length - 1) 0 (by omega)
      { t with buffer := sec.take 183, size := sec.length, cc := UInt8.ofNat ((cc + b) % 16) } hk rfl rfl rfl
    refine ⟨t', then_cons hmux (Psi.check_eq p _) h1 ?_, h2⟩
    simp only [hk, Bool.true_and]
    by_cases h1 : packetCount sec.length - 1 = 0
    · have hle : sec.length ≤ 183 := by unfold packetCount at h1; omega
      rw [h1, List.take_of_length_le hle, List.take_of_length_le (le_refl _)]
      simp
    · have hlt : 183 < sec.length := by unfold packetCount at h1; omega
      have : ¬ (sec.length ≤ (sec.take 183).length) := by rw [List.length_take]; omega
      have h1' : 0 < packetCount sec.length - 1 := by omega
      simp only [this, false_and, and_false, decide_false, Bool.false_eq_true, if_false, h1', true_and]
  · rw [if_neg hk]
    obtain ⟨L, hL, hkL, hcc, hs, hl⟩ := ht.resolve_left hk
    have hlL : keep (L + 1) = false := by
      by_cases h : L + 1 = b
      · rw [h]; simpa using hk
      · exact hl (by omega)
    have hs' : ∀ k, L < k → k < b + 1 → keep k = true → start k = false := by
      intro k h1 h2 h3
      by_cases hkb : k = b
      · rw [hkb] at h3; exact absurd h3 hk
      · exact hs k h1 (by omega) h3
    obtain ⟨t', h1, h2⟩ := lost_rest p pid cc hp keep start sec b hst hz (packetCount sec.length - 1) 1 (by omega) (by omega) t L
      (by omega) hkL hcc hs' hlL
    refine ⟨t', ?_, h2⟩
    simp only [hk, Bool.false_eq_true, Bool.false_and, false_and, if_false]
    exact h1

theorem packets_length (pid cc : Nat) (sec : List UInt8) : (packets pid cc sec).length = packetCount sec.length := by
  simp [packets]

theorem packets_pusi (pid cc : Nat) (hp : pid < 8192) (sec : List UInt8) (i : Nat) (hi : i < packetCount sec.length)
    (rest : List (List UInt8)) : pusiOf ((packets pid cc sec ++ rest).getD i []) = decide (i = 0) := by
  have hl := packets_length pid cc sec
  rw [List.getD_eq_getElem?_getD, List.getElem?_append_left (by omega)]
  simp only [packets, List.getElem?_map, List.getElem?_range hi, Option.map_some, Option.getD_some]
  exact (packetAt_fields pid cc hp sec i).2.2.1

/-- C83, whatever the CRCs of the sections are: the receiver gets exactly the sections all of whose packets arrive and that have more than 7
bytes and a right CRC, each once and in order. -/
theorem C83_any (p : Profile) (pid cc : Nat) (hp : pid < 8192) (keep : Nat → Bool) (secs : List (List UInt8))
    (hsec : ∀ sec ∈ secs, IsSection sec) (h0 : keep 0 = true)
    (hu : Unambiguous keep (stream pid cc secs)) (s : Psi) :
    sections p s (received keep 0 (stream pid cc secs)) = .ok ((intact keep 0 secs).filter fun sec => decide (7 < sec.length ∧ crc32 sec = 0)) := by
  have key : ∀ (secs : List (List UInt8)) (b : Nat) (t : Psi) (sent : List (List UInt8)),
      (∀ sec ∈ secs, IsSection sec) → Unambiguous keep sent →
      sent.drop b = stream pid (cc + b) secs →
      (b ≤ sent.length) →
      (keep b = true ∨ Before keep (fun k => pusiOf (sent.getD k [])) cc t b) →
      sections p t (received keep b (stream pid (cc + b) secs)) = .ok ((intact keep b secs).filter fun sec => decide (7 < sec.length ∧ crc32 sec = 0)) := by
    intro secs
    induction secs with
    | nil => intro b t sent _ _ _ _ _; rfl
    | cons sec secs ih =>
      intro b t sent hsec hu hd hbl ht
      have g1 := hsec sec List.mem_cons_self
      have hget : ∀ i, sent.getD (b + i) [] = (packets pid (cc + b) sec ++ stream pid (cc + b + packetCount sec.length) secs).getD i [] := by
        intro i
        rw [stream] at hd
        rw [← hd, List.getD_eq_getElem?_getD, List.getD_eq_getElem?_getD, List.getElem?_drop]
      have hlen : sent.length = b + (packetCount sec.length + (stream pid (cc + b + packetCount sec.length) secs).length) := by
        have := congrArg List.length hd
        rw [stream, List.length_drop, List.length_append, packets_length] at this
        omega
      have hpc : 0 < packetCount sec.length := by unfold packetCount; omega
      obtain ⟨t', h1, h2⟩ := one_section p pid cc hp keep (fun k => pusiOf (sent.getD k [])) sec b g1
        (by
          intro i hi hi2
          have := packets_pusi pid (cc + b) hp sec i hi2 (stream pid (cc + b + packetCount sec.length) secs)
          rw [← hget i] at this
          simp only [this, decide_eq_false_iff_not]; omega)
        (by
          intro i j h1 h2 h3 hl h4 h5 h6
          exact hu i j h1 (by omega) h3 hl h4 h5 h6) t ht
      rw [stream, received_append, h1, packets_length, Nat.add_assoc]
      rw [ih (b + packetCount sec.length) t' sent (fun x hx => hsec x (List.mem_cons_of_mem _ hx)) hu ?_ (by omega) (.inr h2)]
      · refine congrArg Except.ok ?_
        rw [intact]
        by_cases ha : (List.range (packetCount sec.length)).all (fun i => keep (b + i)) = true
        · rw [if_pos ha, List.filter_cons]
          by_cases hg : 7 < sec.length ∧ crc32 sec = 0
          · rw [if_pos ⟨ha, hg⟩, if_pos (decide_eq_true hg)]; rfl
          · rw [if_neg (fun h => hg h.2), if_neg (by rw [decide_eq_true_eq]; exact hg)]; rfl
        · rw [if_neg ha, if_neg (fun h => ha h.1)]; rfl
      · rw [← List.drop_drop, hd, stream, List.drop_append_of_le_length (by rw [packets_length]), ← packets_length pid (cc + b) sec,
          List.drop_length, List.nil_append, packets_length, Nat.add_assoc]
  have := key secs 0 s (stream pid cc secs) hsec hu (by rw [List.drop_zero]; rfl) (by omega) (.inl h0)
  exact this

/-- C83: sections are packetised one after the other, and any packets of the stream are lost (but not the very first
one).  As long as the losses leave the four-bit counter unambiguous, the receiver gets exactly the sections all of whose
packets arrive, each once and in order: a section that lost a packet is never reported, and the loss does no harm to any
other section. -/
theorem C83_loss_partial (p : Profile) (pid cc : Nat) (hp : pid < 8192) (keep : Nat → Bool) (secs : List (List UInt8))
    (hsec : ∀ sec ∈ secs, IsSection sec ∧ 7 < sec.length ∧ crc32 sec = 0) (h0 : keep 0 = true)
    (hu : Unambiguous keep (stream pid cc secs)) (s : Psi) :
    sections p s (received keep 0 (stream pid cc secs)) = .ok (intact keep 0 secs) := by
  rw [C83_any p pid cc hp keep secs (fun x hx => (hsec x hx).1) h0 hu s]
  have hm : ∀ n, ∀ x ∈ intact keep n secs, x ∈ secs := by
    clear hsec hu
    induction secs with
    | nil => intro n x h; exact h
    | cons y r ih =>
      intro n x h
      rw [intact] at h
      split at h
      · rcases List.mem_cons.1 h with rfl | h
        · exact List.mem_cons_self
        · exact List.mem_cons_of_mem _ (ih _ x h)
      · exact List.mem_cons_of_mem _ (ih _ x h)
  refine congrArg Except.ok (List.filter_eq_self.2 ?_)
  intro x hx
  exact decide_eq_true (hsec x (hm 0 x hx)).2

/-- Every continuation packet of a stream of sections of at most `m` packets is less than `m` positions behind a start. -/
theorem start_near (pid : Nat) (hp : pid < 8192) (m : Nat) (secs : List (List UInt8)) (cc : Nat)
    (hm : ∀ sec ∈ secs, packetCount sec.length ≤ m) (j : Nat) (hj : j < (stream pid cc secs).length)
    (hu : pusiOf ((stream pid cc secs).getD j []) = false) :
    ∃ k, k < j ∧ j < k + m ∧ pusiOf ((stream pid cc secs).getD k []) = true := by
  induction secs generalizing cc j with
  | nil => exact absurd hj (Nat.not_lt_zero _)
  | cons sec secs ih =>
    rw [stream] at hj hu ⊢
    have hpc : 0 < packetCount sec.length := by unfold packetCount; omega
    have hl := packets_length pid cc sec
    by_cases hlt : j < packetCount sec.length
    · rw [packets_pusi pid cc hp sec j hlt, decide_eq_false_iff_not] at hu
      refine ⟨0, by omega, ?_, by rw [packets_pusi pid cc hp sec 0 hpc]; rfl⟩
      have := hm sec List.mem_cons_self
      omega
    · have hg : ∀ i, (packets pid cc sec ++ stream pid (cc + packetCount sec.length) secs).getD (packetCount sec.length + i) [] =
          (stream pid (cc + packetCount sec.length) secs).getD i [] := by
        intro i
        rw [List.getD_eq_getElem?_getD, List.getD_eq_getElem?_getD, List.getElem?_append_right (by omega), hl]
        rw [show packetCount sec.length + i - packetCount sec.length = i by omega]
      rw [List.length_append, hl] at hj
      rw [show j = packetCount sec.length + (j - packetCount sec.length) by omega, hg] at hu
      obtain ⟨k, h1, h2, h3⟩ := ih (cc + packetCount sec.length) (fun x hx => hm x (List.mem_cons_of_mem _ hx)) _ (by omega) hu
      exact ⟨packetCount sec.length + k, by omega, by omega, by rw [hg]; exact h3⟩

/-- C83: a simple case of the condition of `C83_loss_partial`: sections of at most 16 packets (2943 bytes: every PAT, PMT,
NIT, SDT, TDT and TOT section) whose first packets arrive. -/
theorem C83_short_sections_partial (p : Profile) (pid cc : Nat) (hp : pid < 8192) (keep : Nat → Bool) (secs : List (List UInt8))
    (hsec : ∀ sec ∈ secs, IsSection sec ∧ 7 < sec.length ∧ sec.length ≤ 2943 ∧ crc32 sec = 0) (h0 : keep 0 = true)
    (hk : ∀ k, pusiOf ((stream pid cc secs).getD k []) = true → keep k = true) (s : Psi) :
    sections p s (received keep 0 (stream pid cc secs)) = .ok (intact keep 0 secs) := by
  refine C83_loss_partial p pid cc hp keep secs (fun x hx => ⟨(hsec x hx).1, (hsec x hx).2.1, (hsec x hx).2.2.2⟩) h0 ?_ s
  intro i j h1 h2 h3 _ h4 h5 h6
  obtain ⟨k, g1, g2, g3⟩ := start_near pid hp 16 secs cc (fun x hx => by
    have := (hsec x hx).2.2.1
    unfold packetCount; omega) j h2 h6
  exact ⟨k, by omega, g1, hk k g3, g3⟩

/-- C83 fails without the condition on the counter: of a section of 18 or more packets the second packet is lost.  The
receiver drops what it has, ignores the next fifteen packets, and then takes the payload of packet 17, bytes from the
middle of the section, for the start of a new section. -/
theorem C83_middle_refuted (p : Profile) (pid cc : Nat) (hp : pid < 8192) (sec : List UInt8) (hsec : IsSection sec)
    (hl : 17 < packetCount sec.length) (s : Psi) :
    ∃ s', feed p s (received (fun n => decide (n ≠ 1)) 0 ((packets pid cc sec).take 18)) = .ok s' ∧
      s'.buffer = upToEnd ((packetAt pid cc sec 17).drop 4) ∧ s'.size = declaredSize ((packetAt pid cc sec 17).drop 4) := by
  have hlist : received (fun n => decide (n ≠ 1)) 0 ((packets pid cc sec).take 18) =
      packetAt pid cc sec 0 :: ((List.range' 2 15).map (packetAt pid cc sec) ++ [packetAt pid cc sec 17]) := by
    have : (packets pid cc sec).take 18 = (List.range 18).map (packetAt pid cc sec) := by
      rw [packets, ← List.map_take, List.take_range, Nat.min_eq_left (by omega)]
    rw [this]
    simp only [List.range_eq_range', List.range'_succ, List.range'_zero, List.map_cons, List.map_nil, received]
    rfl
  rw [hlist, feed_cons, Psi.mux_first p pid cc sec hsec hp s, ok_bind, feed_append]
  have skip : ∀ (n i : Nat) (t : Psi), 2 ≤ i → i + n = 17 → 0 < n ∨ (t.buffer = [] ∧ t.size = 0) → t.cc = UInt8.ofNat (cc % 16) →
      feed p t ((List.range' i n).map (packetAt pid cc sec)) = .ok { t with buffer := [], size := 0 } := by
    intro n
    induction n with
    | zero =>
      intro i t _ _ h _
      obtain ⟨h1, h2⟩ := h.resolve_left (by omega)
      rw [List.range'_zero, List.map_nil, feed_nil]
      cases t; simp_all
    | succ n ih =>
      intro i t h2 hn h hc
      obtain ⟨f1, f2, f3, f4, f5⟩ := packetAt_fields pid cc hp sec i
      have hcc : t.cc.toNat = cc % 16 := by rw [hc, UInt8.toNat_ofNat']; omega
      rw [List.range'_succ, List.map_cons, feed_cons,
        C44_discontinuity p t _ (by omega) f1 f2 (by rw [f3, decide_eq_false_iff_not]; omega) (by rw [f4, hcc]; omega), ok_bind,
        ih (i + 1) { t with buffer := [], size := 0 } (by omega) (by omega) (.inr ⟨rfl, rfl⟩) hc]
  rw [skip 15 2 _ (by omega) (by omega) (.inl (by omega)) rfl, ok_bind, feed_cons]
  obtain ⟨f1, f2, f3, f4, f5⟩ := packetAt_fields pid cc hp sec 17
  have hcc : (UInt8.ofNat (cc % 16)).toNat = cc % 16 := by rw [UInt8.toNat_ofNat']; omega
  obtain ⟨s', h1, h2, h3⟩ := C79_orphan_refuted p { s with buffer := [], size := 0, cc := UInt8.ofNat (cc % 16) }
    (packetAt pid cc sec 17) rfl rfl (by simp only [hcc]; omega) f1 f2 (by rw [f3]; rfl) (by simp only [f4, hcc]; omega) (by omega)
  rw [f5] at h2 h3
  exact ⟨s', by rw [h1, ok_bind, feed_nil], h2, h3⟩

/-- A section of 200 bytes (two packets) with a valid CRC. -/
def validSection (b : UInt8) : List UInt8 := complete ([b, 0xB0, 0] ++ List.replicate 193 b)

theorem validSection_ok (b : UInt8) : IsSection (validSection b) ∧ (validSection b).length = 200 ∧ crc32 (validSection b) = 0 := by
  have hl : ([b, 0xB0, 0] ++ List.replicate 193 b).length = 196 := by rw [List.length_append, List.length_replicate]; rfl
  exact ⟨complete_isSection (by rw [hl]; decide) (by rw [hl]; decide), by rw [validSection, complete_length (by rw [hl]; decide), hl],
    crc32_append_self _⟩

/-- Non-vacuity: three sections of two packets each, the second packet of the second section is lost; the receiver gets the
first and the third section. -/
theorem C83_example (p : Profile) (s : Psi) :
    sections p s (received (fun n => decide (n ≠ 3)) 0 (stream 17 14 [validSection 1, validSection 2, validSection 3])) =
      .ok [validSection 1, validSection 3] := by
  have hpc : ∀ b, packetCount (validSection b).length = 2 := fun b => by rw [(validSection_ok b).2.1]; rfl
  rw [C83_short_sections_partial p 17 14 (by decide) _ _ ?_ rfl ?_ s]
  · simp only [intact, hpc]; rfl
  · intro sec h
    have : ∃ b, sec = validSection b := by
      simp only [List.mem_cons, List.not_mem_nil, or_false] at h
      rcases h with h | h | h <;> exact ⟨_, h⟩
    obtain ⟨b, rfl⟩ := this
    obtain ⟨h1, h2, h3⟩ := validSection_ok b
    exact ⟨h1, by omega, by omega, h3⟩
  · intro k hk
    rw [decide_eq_true_iff]
    rintro rfl
    simp only [stream, hpc] at hk
    rw [List.getD_eq_getElem?_getD, List.getElem?_append_right (by rw [packets_length, hpc]; decide), packets_length, hpc,
      ← List.getD_eq_getElem?_getD, packets_pusi _ _ (by decide) _ _ (by rw [hpc]; decide)] at hk
    cases hk

/-! ## C84: repeated packets -/

/-- C84, the part that holds: the first packet of a section may be repeated, any number of times.  (Full property: any
packet may be sent twice in a row, as ISO/IEC 13818-1 2.4.3.3 allows; false, see `C84_repeat_refuted`.) -/
theorem C84_repeat_first_partial (p : Profile) (s : Psi) (pid cc n : Nat) (sec : List UInt8) (hs : IsSection sec) (hp : pid < 8192) :
    ∃ s', feed p s (List.replicate n (packetAt pid cc sec 0) ++ packets pid cc sec) = .ok s' ∧
      s'.buffer = sec ∧ s'.size = sec.length := by
  have : ∃ t, feed p s (List.replicate n (packetAt pid cc sec 0)) = .ok t := by
    induction n generalizing s with
    | zero => exact ⟨s, rfl⟩
    | succ n ih =>
      rw [List.replicate_succ, feed_cons, Psi.mux_first p pid cc sec hs hp s, ok_bind]
      exact ih _
  obtain ⟨t, ht⟩ := this
  rw [feed_append, ht, ok_bind]
  exact ⟨_, C41_reassemble p t pid cc sec hs hp, rfl, rfl⟩

/-- C84 fails: when any other packet of a section is repeated, everything collected is dropped, and if another packet
follows, its payload (bytes from the middle of the section) is taken for the start of a section. -/
theorem C84_repeat_refuted (p : Profile) (s : Psi) (pid cc i : Nat) (sec : List UInt8) (hs : IsSection sec) (hp : pid < 8192)
    (hi : 0 < i) (hn : i < packetCount sec.length) :
    (∃ s', feed p s ((packets pid cc sec).take (i + 1) ++ [packetAt pid cc sec i]) = .ok s' ∧ s'.buffer = [] ∧ s'.size = 0) ∧
    (∃ s', feed p s ((packets pid cc sec).take (i + 1) ++ [packetAt pid cc sec i, packetAt pid cc sec (i + 1)]) = .ok s' ∧
        s'.buffer = upToEnd ((packetAt pid cc sec (i + 1)).drop 4) ∧
        s'.size = declaredSize ((packetAt pid cc sec (i + 1)).drop 4)) := by
  have hpre : ∀ i, i < packetCount sec.length → feed p s ((packets pid cc sec).take (i + 1)) = .ok
      { s with buffer := sec.take (184 * i + 183), size := sec.length, cc := UInt8.ofNat ((cc + i) % 16) } := by
    intro i
    induction i with
    | zero =>
      intro h
      have : (packets pid cc sec).take (0 + 1) = [packetAt pid cc sec 0] := by
        rw [packets, ← List.map_take, List.take_range, Nat.min_eq_left (by omega)]; rfl
      rw [this, feed_cons, Psi.mux_first p pid cc sec hs hp s, ok_bind]; rfl
    | succ i ih =>
      intro h
      have : (packets pid cc sec).take (i + 1 + 1) = (packets pid cc sec).take (i + 1) ++ [packetAt pid cc sec (i + 1)] := by
        rw [packets, ← List.map_take, ← List.map_take, List.take_range, List.take_range, Nat.min_eq_left (by omega),
          Nat.min_eq_left (by omega), List.range_succ, List.map_append]
        rfl
      rw [this, feed_append, ih (by omega), ok_bind, feed_cons, Psi.mux_next p pid cc sec hs hp _ i rfl rfl rfl, ok_bind]
      rfl
  obtain ⟨f1, f2, f3, f4, f5⟩ := packetAt_fields pid cc hp sec i
  have hcc : (UInt8.ofNat ((cc + i) % 16)).toNat = (cc + i) % 16 := by rw [UInt8.toNat_ofNat']; omega
  have hclear := C44_discontinuity p { s with
      buffer := sec.take (184 * i + 183)
      size := sec.length
      cc := UInt8.ofNat ((cc + i) % 16) } (packetAt pid cc sec i)
    (by simp only [hcc]; omega) f1 f2 (by rw [f3, decide_eq_false_iff_not]; omega) (by rw [f4]; simp only [hcc]; omega)
  refine ⟨⟨_, by rw [feed_append, hpre i hn, ok_bind, feed_cons, hclear, ok_bind, feed_nil], rfl, rfl⟩, ?_⟩
  obtain ⟨e1, e2, e3, e4, e5⟩ := packetAt_fields pid cc hp sec (i + 1)
  obtain ⟨s', h1, h2, h3⟩ := C79_orphan_refuted p { s with buffer := [], size := 0, cc := UInt8.ofNat ((cc + i) % 16) }
    (packetAt pid cc sec (i + 1)) rfl rfl (by simp only [hcc]; omega) e1 e2 (by rw [e3, decide_eq_false_iff_not]; omega)
    (by rw [e4]; simp only [hcc]; omega) (by omega)
  rw [e5] at h2 h3
  exact ⟨s', by rw [feed_append, hpre i hn, ok_bind, feed_cons, hclear, ok_bind, feed_cons, h1, ok_bind, feed_nil], h2, h3⟩

/-- Non-vacuity: a section of two packets, the second one repeated. -/
example : IsSection (validSection 1) ∧ 1 < packetCount (validSection 1).length :=
  ⟨(validSection_ok 1).1, by rw [(validSection_ok 1).2.1]; decide⟩

/-! ## C85: any way to cut a section into packets -/

theorem declaredSize_pos {l : List UInt8} (h : 3 ≤ l.length) : declaredSize l ≠ 0 := by
  simp [declaredSize, h]

/-- C85, the part that holds: a section may be cut into packets in any way.  The first packet is a PUSI packet (its
pointer_field may point anywhere in it, if nothing is being collected or the counter jumps); the others continue with
consecutive counters.  Each may have an adaptation field of any length, i.e. carry any positive number of bytes (the first
any number), as long as the first two carry at least three.  What is left in the reassembler is the section, whatever
follows it.  (Full property: without the last condition; false, see `C85_tiny_refuted`.) -/
theorem C85_any_split_partial (p : Profile) (s : Psi) (hs : s.Ok) (first : List UInt8) (rest : List (List UInt8))
    (sec tail : List UInt8) (hsec : IsSection sec) (h1 : IsPacket first) (hp1 : hasPayload first = true)
    (hu1 : pusiOf first = true) (hpf : pointerOf first < 183) (hfit : offsetOf first + 1 + pointerOf first ≤ 188)
    (hr : pointerOf first = 0 ∨ ccOf first ≠ (s.cc.toNat + 1) % 16 ∨ s.buffer = [])
    (hrest : ∀ ts ∈ rest, IsPacket ts ∧ hasPayload ts = true ∧ pusiOf ts = false ∧ offsetOf ts < 188)
    (hc : Consecutive (first :: rest))
    (hdata : first.drop (offsetOf first + 1 + pointerOf first) ++ (rest.map sectionBytes).flatten = sec ++ tail)
    (h3 : ∀ second ∈ rest.head?, 3 ≤ (first.drop (offsetOf first + 1 + pointerOf first) ++ sectionBytes second).length) :
    ∃ s', feed p s (first :: rest) = .ok s' ∧ s'.buffer = sec ∧ s'.size = sec.length := by
  have key : ∀ (rest : List (List UInt8)) (prev got : List UInt8) (t : Psi),
      (∀ ts ∈ rest, IsPacket ts ∧ hasPayload ts = true ∧ pusiOf ts = false ∧ offsetOf ts < 188) →
      Consecutive (prev :: rest) → t.cc = UInt8.ofNat (ccOf prev) → t.buffer = upToEnd got → t.size = declaredSize got →
      (∀ second ∈ rest.head?, 3 ≤ (got ++ sectionBytes second).length) →
      ∃ s', feed p t rest = .ok s' ∧ s'.buffer = upToEnd (got ++ (rest.map sectionBytes).flatten) ∧
        s'.size = declaredSize (got ++ (rest.map sectionBytes).flatten) := by
    intro rest
    induction rest with
    | nil => intro prev got t _ _ _ hb hz _; exact ⟨t, rfl, by simpa using hb, by simpa using hz⟩
    | cons ts rest ih =>
      intro prev got t hrest hc hcc hb hz h3
      obtain ⟨g1, g2, g3, g4⟩ := hrest ts List.mem_cons_self
      have hcn : ccOf ts = (ccOf prev + 1) % 16 := hc 0 prev ts rfl rfl
      have hcc' : t.cc.toNat = ccOf prev := by rw [hcc, ofNat_ccOf]
      have hsb : sectionBytes ts = ts.drop (offsetOf ts) := by rw [sectionBytes, g3]; rfl
      have h3' := h3 ts rfl
      rw [hsb] at h3'
      have hlt := ccOf_lt prev
      have hmux := Psi.mux_raw_cont (p := p) t g1 g2 g4 g3 (by omega) (by rw [hcn, hcc'])
      generalize hD : ts.drop (offsetOf ts) = D at *
      have hsz : (t.pushed D).size = declaredSize (got ++ D) := by
        simp only [Psi.pushed, hz, hb]
        by_cases h : 3 ≤ got.length
        · rw [if_neg (declaredSize_pos h), Psi.declaredSize_append _ _ h]
        · rw [if_pos (by simp [declaredSize, h])]
          simp only [upToEnd, h, if_false]
      have hbuf : (t.buffer ++ D).take (t.pushed D).size = upToEnd (got ++ D) := by
        rw [hsz, hb, upToEnd, upToEnd, if_pos h3']
        by_cases h : 3 ≤ got.length
        · rw [if_pos h, Psi.declaredSize_append _ _ h, List.take_append, List.take_append, List.take_take, Nat.min_self,
            List.length_take]
          congr 2
          omega
        · rw [if_neg h]
      rw [feed_cons, hmux, ok_bind, List.map_cons, List.flatten_cons, hsb, ← List.append_assoc]
      refine ih ts (got ++ D) _ (fun x hx => hrest x (List.mem_cons_of_mem _ hx)) ?_ rfl hbuf hsz ?_
      · intro i a b ha hb
        exact hc (i + 1) a b ha hb
      · intro x _
        rw [List.length_append]; omega
  obtain ⟨t, e1, e2, e3, e4, -⟩ := C47_section_start p s hs first h1 hp1 hu1 hpf hfit hr
  have e4' : t.cc = UInt8.ofNat (ccOf first) := by rw [← UInt8.toNat_inj, ofNat_ccOf, e4]
  obtain ⟨s', g1, g2, g3⟩ := key rest first _ t hrest hc e4' e2 e3 h3
  have hl := hsec.1
  refine ⟨s', by rw [feed_cons, e1, ok_bind, g1], ?_, ?_⟩
  · rw [g2, hdata, upToEnd, if_pos (by rw [List.length_append]; omega), Psi.declaredSize_append _ _ hl, Psi.declaredSize_section hsec,
      List.take_left]
  · rw [g3, hdata, Psi.declaredSize_append _ _ hl, Psi.declaredSize_section hsec]

/-- C85 fails when the first two packets carry fewer than three bytes together: these bytes are dropped, and the third
packet's payload is taken for the start of the section. -/
theorem C85_tiny_refuted (p : Profile) (s : Psi) (hs : s.Ok) (first second : List UInt8) (h1 : IsPacket first)
    (hp1 : hasPayload first = true) (hu1 : pusiOf first = true) (hpf : pointerOf first < 183)
    (hfit : offsetOf first + 1 + pointerOf first ≤ 188)
    (hr : pointerOf first = 0 ∨ ccOf first ≠ (s.cc.toNat + 1) % 16 ∨ s.buffer = [])
    (h2 : IsPacket second) (hp2 : hasPayload second = true) (hu2 : pusiOf second = false) (ho2 : offsetOf second < 188)
    (hc : ccOf second = (ccOf first + 1) % 16)
    (h3 : (first.drop (offsetOf first + 1 + pointerOf first) ++ sectionBytes second).length < 3) :
    (∃ s', feed p s [first, second] = .ok s' ∧ s'.buffer = [] ∧ s'.size = 0) ∧
    (∀ third, IsPacket third → hasPayload third = true → pusiOf third = false → offsetOf third + 3 ≤ 188 →
      ccOf third = (ccOf second + 1) % 16 →
      ∃ s', feed p s [first, second, third] = .ok s' ∧ s'.buffer = upToEnd (sectionBytes third) ∧
        s'.size = declaredSize (sectionBytes third)) := by
  obtain ⟨t, e1, e2, e3, e4, -⟩ := C47_section_start p s hs first h1 hp1 hu1 hpf hfit hr
  have hlt := ccOf_lt first
  have hsb : sectionBytes second = second.drop (offsetOf second) := by rw [sectionBytes, hu2]; rfl
  rw [hsb] at h3
  have hmux := Psi.mux_raw_cont (p := p) t h2 hp2 ho2 hu2 (by omega) (by rw [hc, e4])
  generalize first.drop (offsetOf first + 1 + pointerOf first) = A at *
  generalize second.drop (offsetOf second) = D at *
  have hA : ¬ 3 ≤ A.length := by rw [List.length_append] at h3; omega
  have hsz : (t.pushed D).size = 0 := by
    simp only [Psi.pushed, e3, e2]
    rw [if_pos (by simp [declaredSize, hA]), upToEnd, if_neg hA, declaredSize, if_neg (by omega)]
  have hbuf : (t.buffer ++ D).take (t.pushed D).size = [] := by rw [hsz]; rfl
  refine ⟨⟨{ t.pushed D with buffer := (t.buffer ++ D).take (t.pushed D).size, cc := UInt8.ofNat (ccOf second) },
    by rw [feed_cons, e1, ok_bind, feed_cons, hmux, ok_bind, feed_nil], hbuf, hsz⟩, ?_⟩
  intro third i1 i2 i3 i4 i5
  have hsb3 : sectionBytes third = third.drop (offsetOf third) := by rw [sectionBytes, i3]; rfl
  obtain ⟨s', k1, k2, k3⟩ := C79_orphan_refuted p { t.pushed D with
      buffer := (t.buffer ++ D).take (t.pushed D).size
      cc := UInt8.ofNat (ccOf second) } third hbuf hsz (by
    simp only [ofNat_ccOf]; exact ccOf_lt second) i1 i2 i3 (by simp only [ofNat_ccOf]; exact i5) i4
  rw [← hsb3] at k2 k3
  exact ⟨s', by rw [feed_cons, e1, ok_bind, feed_cons, hmux, ok_bind, feed_cons, k1, ok_bind, feed_nil], k2, k3⟩

/-- A packet with an adaptation field that leaves room for exactly `body`. -/
def stuffedPacket (pid cc : Nat) (pusi : Bool) (body : List UInt8) : List UInt8 :=
  (Header.mk 0x47 false pusi false pid 0 true true cc).encode ++
    UInt8.ofNat (183 - body.length) :: (0x00 :: List.replicate (182 - body.length) 0xFF ++ body)

/-- Non-vacuity of C85: the eight bytes `70 70 05 DC B7 23 59 59` cut into packets of 1, 3 and 4 bytes. -/
theorem C85_example :
    let first := stuffedPacket 20 15 true [0, 0x70]
    let rest := [stuffedPacket 20 0 false [0x70, 0x05, 0xDC], stuffedPacket 20 1 false [0xB7, 0x23, 0x59, 0x59]]
    IsPacket first ∧ hasPayload first = true ∧ pusiOf first = true ∧ pointerOf first = 0 ∧ offsetOf first = 186 ∧
    (∀ ts ∈ rest, IsPacket ts ∧ hasPayload ts = true ∧ pusiOf ts = false ∧ offsetOf ts < 188) ∧
    ([first] ++ rest).map ccOf = [15, 0, 1] ∧
    first.drop (offsetOf first + 1 + pointerOf first) ++ (rest.map sectionBytes).flatten =
      [0x70, 0x70, 0x05, 0xDC, 0xB7, 0x23, 0x59, 0x59] := by
  decide +kernel

/-! ## C86: several sections in one packet -/

/-- C86, the part that holds: of several sections in one packet the first one is received.  (Full property: all of
them; false, see `C86_second_refuted`.) -/
theorem C86_first_partial (p : Profile) (s : Psi) (hs : s.Ok) (ts sec rest : List UInt8) (hsec : IsSection sec) (h : IsPacket ts)
    (hp : hasPayload ts = true) (hu : pusiOf ts = true) (hpf : pointerOf ts < 183)
    (hr : pointerOf ts = 0 ∨ ccOf ts ≠ (s.cc.toNat + 1) % 16 ∨ s.buffer = [])
    (hd : ts.drop (offsetOf ts + 1 + pointerOf ts) = sec ++ rest) :
    ∃ s', s.mux p ts = .ok s' ∧ s'.buffer = sec ∧ s'.size = sec.length := by
  have h3 := hsec.1
  have hfit : offsetOf ts + 1 + pointerOf ts ≤ 188 := by
    have := congrArg List.length hd
    rw [List.length_drop, h.1, List.length_append] at this
    omega
  obtain ⟨s', e1, e2, e3, -⟩ := C47_section_start p s hs ts h hp hu hpf hfit hr
  refine ⟨s', e1, ?_, ?_⟩
  · rw [e2, hd, upToEnd, if_pos (by rw [List.length_append]; omega), Psi.declaredSize_append _ _ h3, Psi.declaredSize_section hsec,
      List.take_left]
  · rw [e3, hd, Psi.declaredSize_append _ _ h3, Psi.declaredSize_section hsec]

/-- C86 fails: what follows the first section in its packet leaves no trace in the reassembler, so a second section there
(complete or not) is never received. -/
theorem C86_second_refuted (p : Profile) (s : Psi) (hs : s.Ok) (ts ts' sec a b : List UInt8) (hsec : IsSection sec) (h : IsPacket ts)
    (hp : hasPayload ts = true) (hu : pusiOf ts = true) (hpf : pointerOf ts < 183)
    (hr : pointerOf ts = 0 ∨ ccOf ts ≠ (s.cc.toNat + 1) % 16 ∨ s.buffer = [])
    (hd : ts.drop (offsetOf ts + 1 + pointerOf ts) = sec ++ a)
    (h' : IsPacket ts') (hh : ts'.take (offsetOf ts + 1 + pointerOf ts) = ts.take (offsetOf ts + 1 + pointerOf ts))
    (hd' : ts'.drop (offsetOf ts + 1 + pointerOf ts) = sec ++ b) : s.mux p ts = s.mux p ts' := by
  have h3 := hsec.1
  have hfit : offsetOf ts + 1 + pointerOf ts + 3 ≤ 188 := by
    have := congrArg List.length hd
    rw [List.length_drop, h.1, List.length_append] at this
    omega
  have hcc := hs.cc
  have ho4 : 4 ≤ offsetOf ts ∧ (hasAdaptation ts = true → 5 ≤ offsetOf ts) := by
    unfold offsetOf
    by_cases ha : hasAdaptation ts = true
    · rw [if_pos ha]; omega
    · rw [if_neg ha]; exact ⟨Nat.le_refl _, fun h => absurd h ha⟩
  have hg : ∀ i, i < offsetOf ts + 1 + pointerOf ts → ts'.getD i 0 = ts.getD i 0 := by
    intro i hi
    have := congrArg (fun l => l[i]?) hh
    simp only [List.getElem?_take, hi, if_true] at this
    rw [List.getD_eq_getElem?_getD, List.getD_eq_getElem?_getD, this]
  have q1 : hasPayload ts' = true := by rw [hasPayload, hg 3 (by omega)]; exact hp
  have q2 : pusiOf ts' = true := by rw [pusiOf, hg 1 (by omega)]; exact hu
  have q3 : ccOf ts' = ccOf ts := by rw [ccOf, hg 3 (by omega)]; rfl
  have q4 : hasAdaptation ts' = hasAdaptation ts := by rw [hasAdaptation, hg 3 (by omega)]; rfl
  have q5 : offsetOf ts' = offsetOf ts := by
    rw [offsetOf, offsetOf, q4]
    split
    · rw [hg 4 (by omega)]
    · rfl
  have q6 : pointerOf ts' = pointerOf ts := by rw [pointerOf, pointerOf, q5, hg _ (by omega)]
  have hr2 : pointerOf ts = 0 ∨ ccOf ts ≠ (s.cc.toNat + 1) % 16 ∨ (s.buffer = [] ∧ s.size = 0) := by
    rcases hr with h | h | h
    · exact .inl h
    · exact .inr (.inl h)
    · exact .inr (.inr ⟨h, hs.empty h⟩)
  rw [Psi.mux_raw_start s h hp (by omega) hu (fun _ => by omega) hpf hr2, if_pos (by omega),
    Psi.mux_raw_start s h' q1 (by omega) q2 (fun _ => by omega) (by omega) (by rw [q6, q3]; exact hr2), if_pos (by omega), q3, q5, q6,
    hd, hd']
  have : ∀ r, upToEnd (sec ++ r) = sec ∧ declaredSize (sec ++ r) = sec.length := by
    intro r
    refine ⟨?_, by rw [Psi.declaredSize_append _ _ h3, Psi.declaredSize_section hsec]⟩
    rw [upToEnd, if_pos (by rw [List.length_append]; omega), Psi.declaredSize_append _ _ h3, Psi.declaredSize_section hsec,
      List.take_left]
  rw [Psi.started, Psi.started, (this a).1, (this a).2, (this b).1, (this b).2]

/-- Non-vacuity: two sections of eight bytes in one packet. -/
example : let sec : List UInt8 := [0x70, 0x70, 0x05, 0xDC, 0xB7, 0x23, 0x59, 0x59]
    let ts := payloadPacket 20 1 true (0 :: (sec ++ sec))
    IsPacket ts ∧ hasPayload ts = true ∧ pusiOf ts = true ∧ pointerOf ts = 0 ∧ IsSection sec ∧
    ts.drop (offsetOf ts + 1 + pointerOf ts) = sec ++ (sec ++ List.replicate 167 0xFF) := by decide +kernel

end Mpegts
