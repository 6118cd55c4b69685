import Verif.Props.C27_C28
import Verif.Spec.Utf8

/-! # C80: texts in UTF-8, also ill-formed ones -/

namespace Mpegts
open Spec

theorem ofNat_val {n : Nat} (h : n.isValidChar) : (Char.ofNat n).val.toNat = n := by
  rw [Char.ofNat, dif_pos h]
  rfl

/-- The bytes the two-byte branch accepts are the encoding of the character it gives. -/
theorem encode2 (b0 b1 : UInt8) (h0 : 0xC2 ≤ b0.toNat ∧ b0.toNat ≤ 0xDF) (h1 : StringDVB.isCont b1 = true) :
    String.utf8EncodeChar (Char.ofNat ((b0.toNat % 32) * 64 + b1.toNat % 64)) = [b0, b1] := by
  rw [isCont_iff] at h1
  have hv : Nat.isValidChar ((b0.toNat % 32) * 64 + b1.toNat % 64) := Or.inl (by omega)
  have e : (Char.ofNat ((b0.toNat % 32) * 64 + b1.toNat % 64)).val.toNat = (b0.toNat % 32) * 64 + b1.toNat % 64 :=
    ofNat_val hv
  rw [String.utf8EncodeChar.eq_1, e, if_neg (by omega), if_pos (by omega)]
  congr 1
  · rw [← UInt8.toNat_inj, u8n _ (by omega)]; omega
  · congr 1
    rw [← UInt8.toNat_inj, u8n _ (by omega)]; omega

theorem encode3 (b0 b1 b2 : UInt8) (h1 : StringDVB.second3 b0 b1 = true) (h2 : StringDVB.isCont b2 = true) :
    String.utf8EncodeChar (Char.ofNat ((b0.toNat % 16) * 4096 + (b1.toNat % 64) * 64 + b2.toNat % 64)) = [b0, b1, b2] := by
  rw [isCont_iff] at h2
  rw [second3_iff] at h1
  have hv : Nat.isValidChar ((b0.toNat % 16) * 4096 + (b1.toNat % 64) * 64 + b2.toNat % 64) := by
    unfold Nat.isValidChar; omega
  have e : (Char.ofNat ((b0.toNat % 16) * 4096 + (b1.toNat % 64) * 64 + b2.toNat % 64)).val.toNat =
      (b0.toNat % 16) * 4096 + (b1.toNat % 64) * 64 + b2.toNat % 64 := ofNat_val hv
  rw [String.utf8EncodeChar.eq_1, e, if_neg (by omega), if_neg (by omega), if_pos (by omega)]
  congr 1
  · rw [← UInt8.toNat_inj, u8n _ (by omega)]; omega
  · congr 1
    · rw [← UInt8.toNat_inj, u8n _ (by omega)]; omega
    · congr 1
      rw [← UInt8.toNat_inj, u8n _ (by omega)]; omega

theorem encode4 (b0 b1 b2 b3 : UInt8) (h1 : StringDVB.second4 b0 b1 = true) (h2 : StringDVB.isCont b2 = true)
    (h3 : StringDVB.isCont b3 = true) :
    String.utf8EncodeChar (Char.ofNat ((b0.toNat % 8) * 262144 + (b1.toNat % 64) * 4096 + (b2.toNat % 64) * 64
      + b3.toNat % 64)) = [b0, b1, b2, b3] := by
  rw [isCont_iff] at h2 h3
  rw [second4_iff] at h1
  have hv : Nat.isValidChar ((b0.toNat % 8) * 262144 + (b1.toNat % 64) * 4096 + (b2.toNat % 64) * 64 + b3.toNat % 64) := by
    unfold Nat.isValidChar; omega
  have e : (Char.ofNat ((b0.toNat % 8) * 262144 + (b1.toNat % 64) * 4096 + (b2.toNat % 64) * 64 + b3.toNat % 64)).val.toNat =
      (b0.toNat % 8) * 262144 + (b1.toNat % 64) * 4096 + (b2.toNat % 64) * 64 + b3.toNat % 64 := ofNat_val hv
  rw [String.utf8EncodeChar.eq_1, e, if_neg (by omega), if_neg (by omega), if_neg (by omega)]
  congr 1
  · rw [← UInt8.toNat_inj, u8n _ (by omega)]; omega
  · congr 1
    · rw [← UInt8.toNat_inj, u8n _ (by omega)]; omega
    · congr 1
      · rw [← UInt8.toNat_inj, u8n _ (by omega)]; omega
      · congr 1
        rw [← UInt8.toNat_inj, u8n _ (by omega)]; omega

theorem begins3 (b0 b1 : UInt8) (h1 : StringDVB.second3 b0 b1 = true) : Utf8.Begins [b0, b1] :=
  ⟨_, by rw [encode3 b0 b1 0x80 h1 (by decide)]; exact ⟨[0x80], rfl⟩⟩

theorem begins4 (b0 b1 : UInt8) (h1 : StringDVB.second4 b0 b1 = true) : Utf8.Begins [b0, b1] :=
  ⟨_, by rw [encode4 b0 b1 0x80 0x80 h1 (by decide) (by decide)]; exact ⟨[0x80, 0x80], rfl⟩⟩

theorem begins4' (b0 b1 b2 : UInt8) (h1 : StringDVB.second4 b0 b1 = true) (h2 : StringDVB.isCont b2 = true) :
    Utf8.Begins [b0, b1, b2] :=
  ⟨_, by rw [encode4 b0 b1 b2 0x80 h1 h2 (by decide)]; exact ⟨[0x80], rfl⟩⟩

/-- What one step of the decoder does: it reads a character that is there, or it replaces a piece. -/
theorem lossyStep_cases (b0 : UInt8) (rest : List UInt8) :
    (∃ c bs more, String.utf8EncodeChar c = b0 :: bs ∧ rest = bs ++ more ∧
      StringDVB.lossyStep b0 rest = (c, bs.length + 1)) ∨
    (∃ k, StringDVB.lossyStep b0 rest = ('�', k + 1) ∧ k ≤ rest.length ∧ (k = 2 → b0 ≠ 0xEF) ∧
      (k = 0 ∨ Utf8.Begins (b0 :: rest.take k)) ∧
      ∀ rest', rest'.take (k + 1) = rest.take (k + 1) → StringDVB.lossyStep b0 rest' = ('�', k + 1)) := by
  by_cases h1 : b0 < 0x80
  · left
    rw [UInt8.lt_iff_toNat_lt] at h1
    simp only [UInt8.reduceToNat] at h1
    refine ⟨Char.ofNat b0.toNat, [], rest, ?_, rfl, ?_⟩
    · rw [String.utf8EncodeChar.eq_1, ofNat_val (Or.inl (by omega)), if_pos (by omega)]
      simp
    · rw [StringDVB.lossyStep.eq_def, if_pos (by rw [UInt8.lt_iff_toNat_lt]; simpa using h1)]; rfl
  by_cases h2 : 0xC2 ≤ b0 ∧ b0 ≤ 0xDF
  · have n2 : 0xC2 ≤ b0.toNat ∧ b0.toNat ≤ 0xDF := by
      simpa only [UInt8.le_iff_toNat_le, UInt8.reduceToNat] using h2
    have d : ∀ r, StringDVB.lossyStep b0 r = match r with
        | b1 :: _ => if StringDVB.isCont b1 then (Char.ofNat ((b0.toNat % 32) * 64 + b1.toNat % 64), 2)
          else (StringDVB.replacement, 1)
        | [] => (StringDVB.replacement, 1) := by
      intro r
      rw [StringDVB.lossyStep.eq_def, if_neg h1, if_pos h2]
      rfl
    simp only [d]
    match rest with
    | [] =>
      right
      refine ⟨0, rfl, Nat.le_refl _, (fun h => absurd h (by decide)), Or.inl rfl, ?_⟩
      intro r hr
      match r with
      | [] => rfl
    | b1 :: r1 =>
      by_cases c1 : StringDVB.isCont b1 = true
      · left
        exact ⟨_, [b1], r1, encode2 b0 b1 n2 c1, rfl, by simp only [c1, if_true]; rfl⟩
      · right
        refine ⟨0, by simp only [c1]; rfl, Nat.zero_le _, (fun h => absurd h (by decide)), Or.inl rfl, ?_⟩
        intro r hr
        match r with
        | b1' :: r' =>
          simp only [List.take_succ_cons, List.take_zero, List.cons.injEq, and_true] at hr
          simp only [hr, c1]; rfl
  by_cases h3 : 0xE0 ≤ b0 ∧ b0 ≤ 0xEF
  · have d : ∀ r, StringDVB.lossyStep b0 r = match r with
        | b1 :: rest1 =>
          if StringDVB.second3 b0 b1 then
            match rest1 with
            | b2 :: _ =>
              if StringDVB.isCont b2 then
                (Char.ofNat ((b0.toNat % 16) * 4096 + (b1.toNat % 64) * 64 + b2.toNat % 64), 3)
              else (StringDVB.replacement, 2)
            | [] => (StringDVB.replacement, 2)
          else (StringDVB.replacement, 1)
        | [] => (StringDVB.replacement, 1) := by
      intro r
      rw [StringDVB.lossyStep.eq_def, if_neg h1, if_neg h2, if_pos h3]
      rfl
    simp only [d]
    match rest with
    | [] =>
      right
      refine ⟨0, rfl, Nat.le_refl _, (fun h => absurd h (by decide)), Or.inl rfl, ?_⟩
      intro r hr
      match r with
      | [] => rfl
    | b1 :: r1 =>
      by_cases c1 : StringDVB.second3 b0 b1 = true
      · match r1 with
        | [] =>
          right
          refine ⟨1, by simp only [c1, if_true]; rfl, Nat.le_refl _, (fun h => absurd h (by decide)), Or.inr ?_, ?_⟩
          · exact begins3 b0 b1 c1
          · intro r hr
            match r with
            | [b1'] =>
              simp only [List.take_succ_cons, List.take_nil, List.cons.injEq, and_true] at hr
              simp only [hr, c1, if_true]; rfl
            | b1' :: b2' :: r' => simp at hr
        | b2 :: r2 =>
          by_cases c2 : StringDVB.isCont b2 = true
          · left
            exact ⟨_, [b1, b2], r2, encode3 b0 b1 b2 c1 c2, rfl, by simp only [c1, c2, if_true]; rfl⟩
          · right
            refine ⟨1, by simp only [c1, c2, if_true]; rfl, by simp, (fun h => absurd h (by decide)), Or.inr ?_, ?_⟩
            · exact begins3 b0 b1 c1
            · intro r hr
              match r with
              | [b1'] => simp at hr
              | b1' :: b2' :: r' =>
                simp only [List.take_succ_cons, List.take_zero, List.cons.injEq, and_true] at hr
                simp only [hr.1, hr.2, c1, c2, if_true]; rfl
      · right
        refine ⟨0, by simp only [c1]; rfl, Nat.zero_le _, (fun h => absurd h (by decide)), Or.inl rfl, ?_⟩
        intro r hr
        match r with
        | b1' :: r' =>
          simp only [List.take_succ_cons, List.take_zero, List.cons.injEq, and_true] at hr
          simp only [hr, c1]; rfl
  by_cases h4 : 0xF0 ≤ b0 ∧ b0 ≤ 0xF4
  · have nef : b0 ≠ 0xEF := by
      intro e
      rw [e] at h4
      revert h4; decide
    have d : ∀ r, StringDVB.lossyStep b0 r = match r with
        | b1 :: rest1 =>
          if StringDVB.second4 b0 b1 then
            match rest1 with
            | b2 :: rest2 =>
              if StringDVB.isCont b2 then
                match rest2 with
                | b3 :: _ =>
                  if StringDVB.isCont b3 then
                    (Char.ofNat ((b0.toNat % 8) * 262144 + (b1.toNat % 64) * 4096 + (b2.toNat % 64) * 64
                      + b3.toNat % 64), 4)
                  else (StringDVB.replacement, 3)
                | [] => (StringDVB.replacement, 3)
              else (StringDVB.replacement, 2)
            | [] => (StringDVB.replacement, 2)
          else (StringDVB.replacement, 1)
        | [] => (StringDVB.replacement, 1) := by
      intro r
      rw [StringDVB.lossyStep.eq_def, if_neg h1, if_neg h2, if_neg h3, if_pos h4]
      rfl
    simp only [d]
    match rest with
    | [] =>
      right
      refine ⟨0, rfl, Nat.le_refl _, (fun h => absurd h (by decide)), Or.inl rfl, ?_⟩
      intro r hr
      match r with
      | [] => rfl
    | b1 :: r1 =>
      by_cases c1 : StringDVB.second4 b0 b1 = true
      · match r1 with
        | [] =>
          right
          refine ⟨1, by simp only [c1, if_true]; rfl, Nat.le_refl _, (fun h => absurd h (by decide)), Or.inr ?_, ?_⟩
          · exact begins4 b0 b1 c1
          · intro r hr
            match r with
            | [b1'] =>
              simp only [List.take_succ_cons, List.take_nil, List.cons.injEq, and_true] at hr
              simp only [hr, c1, if_true]; rfl
            | b1' :: b2' :: r' => simp at hr
        | b2 :: r2 =>
          by_cases c2 : StringDVB.isCont b2 = true
          · match r2 with
            | [] =>
              right
              refine ⟨2, by simp only [c1, c2, if_true]; rfl, by simp, fun _ => nef, Or.inr ?_, ?_⟩
              · exact begins4' b0 b1 b2 c1 c2
              · intro r hr
                match r with
                | [b1'] => simp at hr
                | [b1', b2'] =>
                  simp only [List.take_succ_cons, List.take_nil, List.cons.injEq, and_true] at hr
                  simp only [hr.1, hr.2, c1, c2, if_true]; rfl
                | b1' :: b2' :: b3' :: r' => simp at hr
            | b3 :: r3 =>
              by_cases c3 : StringDVB.isCont b3 = true
              · left
                exact ⟨_, [b1, b2, b3], r3, encode4 b0 b1 b2 b3 c1 c2 c3, rfl, by simp only [c1, c2, c3, if_true]; rfl⟩
              · right
                refine ⟨2, by simp only [c1, c2, c3, if_true]; rfl, by simp, fun _ => nef, Or.inr ?_, ?_⟩
                · exact begins4' b0 b1 b2 c1 c2
                · intro r hr
                  match r with
                  | [b1'] => simp at hr
                  | [b1', b2'] => simp at hr
                  | b1' :: b2' :: b3' :: r' =>
                    simp only [List.take_succ_cons, List.take_zero, List.cons.injEq, and_true] at hr
                    simp only [hr.1, hr.2.1, hr.2.2, c1, c2, c3, if_true]; rfl
          · right
            refine ⟨1, by simp only [c1, c2, if_true]; rfl, by simp, (fun h => absurd h (by decide)), Or.inr ?_, ?_⟩
            · exact begins4 b0 b1 c1
            · intro r hr
              match r with
              | [b1'] => simp at hr
              | b1' :: b2' :: r' =>
                simp only [List.take_succ_cons, List.take_zero, List.cons.injEq, and_true] at hr
                simp only [hr.1, hr.2, c1, c2, if_true]; rfl
      · right
        refine ⟨0, by simp only [c1]; rfl, Nat.zero_le _, (fun h => absurd h (by decide)), Or.inl rfl, ?_⟩
        intro r hr
        match r with
        | b1' :: r' =>
          simp only [List.take_succ_cons, List.take_zero, List.cons.injEq, and_true] at hr
          simp only [hr, c1]; rfl
  · right
    have d : ∀ r, StringDVB.lossyStep b0 r = (StringDVB.replacement, 1) := by
      intro r
      rw [StringDVB.lossyStep.eq_def, if_neg h1, if_neg h2, if_neg h3, if_neg h4]
    exact ⟨0, d rest, Nat.zero_le _, (fun h => absurd h (by decide)), Or.inl rfl, fun r _ => d r⟩

theorem lossy_cons (b0 : UInt8) (rest : List UInt8) (c : Char) (k : Nat) (h : StringDVB.lossyStep b0 rest = (c, k + 1))
    (hk : k ≤ rest.length) : StringDVB.fromUtf8Lossy (b0 :: rest) = c :: StringDVB.fromUtf8Lossy (rest.drop k) := by
  rw [StringDVB.fromUtf8Lossy, StringDVB.lossyLoop.eq_def]
  simp only [h, Nat.add_sub_cancel]
  have e : rest = rest.take k ++ rest.drop k := (List.take_append_drop k rest).symm
  have el : (rest.take k).length = k := by rw [List.length_take]; omega
  have := lossyLoop_skip (rest.take k) (rest.drop k)
  rw [el, ← e] at this
  rw [this]
  rfl

theorem begins_prefix {a b : List UInt8} (h : Utf8.Begins b) (hp : a <+: b) : Utf8.Begins a := by
  obtain ⟨c, hc⟩ := h
  exact ⟨c, hp.trans hc⟩

/-- Where the decoder replaces `k + 1` bytes, these are a maximal ill-formed piece. -/
theorem lossyStep_bad (b0 : UInt8) (rest : List UInt8) (k : Nat) (e : StringDVB.lossyStep b0 rest = ('�', k + 1))
    (hef : k = 2 → b0 ≠ 0xEF)
    (stable : ∀ rest', rest'.take (k + 1) = rest.take (k + 1) → StringDVB.lossyStep b0 rest' = ('�', k + 1)) :
    (∀ b, (rest.drop k).head? = some b → ¬ Utf8.Begins (b0 :: rest.take k ++ [b])) ∧
    (∀ c, ¬ String.utf8EncodeChar c <+: b0 :: rest) := by
  constructor
  · rintro b hb ⟨c, hc⟩
    obtain ⟨b', bs, e1, e2⟩ := lossyStep_encode c []
    rw [List.append_nil] at e2
    rw [e1, List.cons_append, List.cons_prefix_cons] at hc
    obtain ⟨e0, hc⟩ := hc
    subst e0
    have hlt : k < rest.length := by
      rcases Nat.lt_or_ge k rest.length with h | h
      · exact h
      · rw [List.drop_eq_nil_of_le h] at hb; cases hb
    have et : rest.take (k + 1) = rest.take k ++ [b] := by
      rw [List.take_succ_eq_append_getElem hlt]
      rw [List.head?_drop, List.getElem?_eq_getElem hlt] at hb
      rw [Option.some.inj hb]
    rw [← et] at hc
    have hl : (rest.take (k + 1)).length = k + 1 := by rw [List.length_take]; omega
    have := stable bs (by
      have := List.prefix_iff_eq_take.1 hc
      rw [hl] at this
      exact this.symm)
    rw [e2, Prod.mk.injEq] at this
    have h2 := hc.length_le
    omega
  · rintro c ⟨r, hr⟩
    obtain ⟨b', bs, e1, e2⟩ := lossyStep_encode c r
    rw [e1, List.cons_append, List.cons.injEq] at hr
    rw [← hr.1, ← hr.2, e2, Prod.mk.injEq] at e
    have hb : b' :: bs = [0xEF, 0xBF, 0xBD] := by
      rw [← e1, e.1]; decide
    rw [List.cons.injEq] at hb
    refine hef ?_ (by rw [← hr.1, hb.1])
    have := congrArg List.length hb.2
    simp only [List.length_cons, List.length_nil] at this
    omega

theorem reading_lossy (data : List UInt8) : Utf8.Reading data (StringDVB.fromUtf8Lossy data) := by
  induction hn : data.length using Nat.strongRecOn generalizing data with
  | _ n ih =>
    match data with
    | [] => exact .nil
    | b0 :: rest =>
      rcases lossyStep_cases b0 rest with ⟨c, bs, more, e1, e2, e3⟩ | ⟨k, e, hk, hef, hp, stable⟩
      · subst e2
        rw [lossy_cons _ _ _ _ e3 (by simp), List.drop_left, ← List.cons_append, ← e1]
        exact .char c more _ (ih more.length (by
          simp only [List.length_cons, List.length_append] at hn; omega) more rfl)
      · obtain ⟨mx, ill⟩ := lossyStep_bad b0 rest k e hef stable
        rw [lossy_cons _ _ _ _ e hk]
        have er : b0 :: rest = (b0 :: rest.take k) ++ rest.drop k := by
          rw [List.cons_append, List.take_append_drop]
        refine er ▸ .bad _ _ _ (by simp) ?_ mx ?_ (ih (rest.drop k).length (by
          simp only [List.length_cons, List.length_drop] at hn ⊢; omega) _ rfl)
        · rcases hp with h | h
          · exact Or.inl (by simp [h])
          · exact Or.inr h
        · rw [← er]; exact ill

theorem reading_unique (data : List UInt8) (text : List Char) (h : Utf8.Reading data text) :
    text = StringDVB.fromUtf8Lossy data := by
  induction h with
  | nil => rfl
  | char c rest text _ ih => rw [lossy_char, ih]
  | bad bs rest text hne hp mx ill _ ih =>
    match bs with
    | [] => exact absurd rfl hne
    | b0 :: bs =>
      rcases lossyStep_cases b0 (bs ++ rest) with ⟨c, bs', more, e1, e2, e3⟩ | ⟨k, e, hk, hef, hp', stable⟩
      · refine absurd ?_ (ill c)
        rw [e1, List.cons_append, e2]
        exact ⟨more, rfl⟩
      · obtain ⟨mx', -⟩ := lossyStep_bad b0 (bs ++ rest) k e hef stable
        have hk' : k = bs.length := by
          rcases Nat.lt_trichotomy k bs.length with hlt | heq | hgt
          · exfalso
            have hb : Utf8.Begins (b0 :: bs) := by
              rcases hp with h | h
              · simp only [List.length_cons] at h; omega
              · exact h
            refine mx' bs[k] ?_ (begins_prefix hb ?_)
            · rw [List.head?_drop, List.getElem?_append_left hlt, List.getElem?_eq_getElem hlt]
            · rw [List.take_append_of_le_length (by omega), List.cons_append, List.cons_prefix_cons]
              refine ⟨rfl, ?_⟩
              rw [← List.take_succ_eq_append_getElem hlt]
              exact List.take_prefix _ _
          · exact heq
          · exfalso
            have hb : Utf8.Begins (b0 :: (bs ++ rest).take k) := by
              rcases hp' with h | h
              · omega
              · exact h
            rw [List.length_append] at hk
            match rest with
            | [] => simp only [List.length_nil] at hk; omega
            | b :: more =>
              refine mx b rfl (begins_prefix hb ?_)
              rw [List.cons_append, List.cons_prefix_cons]
              refine ⟨rfl, ?_⟩
              have : bs ++ b :: more = (bs ++ [b]) ++ more := by simp
              rw [this, List.take_append]
              have : (bs ++ [b]).take k = bs ++ [b] := List.take_of_length_le (by simp; omega)
              rw [this]
              exact ⟨_, rfl⟩
        rw [List.cons_append, lossy_cons _ _ _ _ e hk, hk', List.drop_left, ih]

/-- C80: a text in UTF-8 displays as its bytes are read by the standard's rules: characters as themselves, every maximal
ill-formed piece as one replacement character. -/
theorem C80_utf8 (data : List UInt8) (text : List Char) :
    (⟨21, data⟩ : StringDVB).toStringR = .ok text ↔ Utf8.Reading data text := by
  rw [C80_display]
  have e : (if data = [] then .ok [] else .ok (StringDVB.fromUtf8Lossy data) : R (List Char)) =
      .ok (StringDVB.fromUtf8Lossy data) := by
    split
    · rename_i h; rw [h]; rfl
    · rfl
  show (if data = [] then (.ok [] : R (List Char)) else if (21 : UInt8).toNat = 21 then .ok (StringDVB.fromUtf8Lossy data) else _) = _ ↔ _
  rw [show (21 : UInt8).toNat = 21 from rfl, if_pos rfl, e]
  constructor
  · intro h
    rw [← Except.ok.inj h]
    exact reading_lossy data
  · intro h
    rw [reading_unique data text h]

/-- A truncated character, a lone continuation byte, a surrogate and a good character. -/
example : Utf8.Reading [0xE2, 0x82, 0x41, 0x80, 0xED, 0xA0, 0x80, 0xC3, 0xA9] ['�', 'A', '�', '�', '�', '�', 'é'] :=
  (C80_utf8 _ _).1 (by decide +kernel)

end Mpegts
