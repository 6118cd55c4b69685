import Verif.Props.AnyDesc
import Verif.Props.C124
import Verif.Props.C27_C28
import Verif.Spec.Codes

/-! # C131: language and country codes that do not take three bytes -/

namespace Mpegts
open Spec Spec.Codes
open Spec.AnyValue (overlay stating)

namespace Codes

/-- A text of which the first three bytes are read as the text itself. -/
theorem three (c : StringDVB) (hc : c.data ≠ []) (y : List UInt8) (hy : 3 ≤ (text c ++ y).length) (h : StringDVB.ofBytes ((text c ++ y).take 3) = c) :
    (text c).length = 3 := by
  obtain ⟨cp, data⟩ := c
  obtain ⟨b, l, rfl⟩ : ∃ b l, data = b :: l := List.exists_cons_of_ne_nil hc
  have hcp : cp.toNat < 256 := cp.toNat_lt
  -- what three bytes are read as
  have read3 : ∀ (b : UInt8) (t : List UInt8), t.length = 2 → StringDVB.ofBytes (b :: t) =
      if b.toNat = 21 then ⟨21, t⟩ else if 32 ≤ b.toNat then ⟨0, b :: t⟩ else if b.toNat < 16 then ⟨b + 4, t⟩
      else if b.toNat = 16 then ⟨t.getD 1 0, []⟩ else ⟨0, [0x3F]⟩ := by
    intro b t ht
    have e1 : (b = UTF8) ↔ b.toNat = 21 := by rw [← UInt8.toNat_inj]; rfl
    have e2 : (b ≥ 0x20) ↔ 32 ≤ b.toNat := by rw [ge_iff_le, UInt8.le_iff_toNat_le]; rfl
    have e3 : (b < 0x10) ↔ b.toNat < 16 := by rw [UInt8.lt_iff_toNat_lt]; rfl
    have e4 : (b = 0x10) ↔ b.toNat = 16 := by rw [← UInt8.toNat_inj]; rfl
    have hd : t.drop 2 = [] := List.drop_eq_nil_of_le (by omega)
    simp only [StringDVB.ofBytes, e1, e2, e3, e4, List.length_cons, ht, List.getD_cons_succ, List.drop_succ_cons, hd]
    split_ifs <;> first | rfl | omega
  simp only [text, Text.encoding] at h hy ⊢
  by_cases h0 : cp.toNat = 0
  · simp only [Text.selector, h0, if_true, List.nil_append, List.cons_append, List.take_succ_cons] at h hy ⊢
    have two : ((l ++ y).take 2).length = 2 := by simp at hy ⊢; omega
    rw [read3 _ _ two] at h
    split_ifs at h with c1 c2 c3 c4
    · have := congrArg (fun s => s.codepage.toNat) h; simp [h0] at this
    · have hd := congrArg StringDVB.data h
      simp only [List.cons.injEq, true_and] at hd
      rw [← hd, List.length_cons, two]
    · have := congrArg (fun s => s.codepage.toNat) h
      simp only [UInt8.toNat_add, h0] at this
      have : (4 : UInt8).toNat = 4 := rfl
      omega
    · have hd := congrArg StringDVB.data h; simp at hd
    · have hd := congrArg StringDVB.data h
      simp only [List.cons.injEq] at hd
      rw [← hd.1] at c2
      exact absurd c2 (by decide)
  · by_cases h4 : cp.toNat ≤ 4
    · simp only [Text.selector, h0, h4, if_true, if_false, List.cons_append, List.nil_append, List.take_succ_cons, List.take_zero] at h
      rw [read3 _ _ rfl] at h
      have hd := congrArg StringDVB.data h
      simp at hd
    · have sel : ∃ a : UInt8, Text.selector cp.toNat = [a] ∧ (cp.toNat ≤ 15 → a.toNat = cp.toNat - 4) ∧ (15 < cp.toNat → a.toNat = cp.toNat) := by
        by_cases h15 : cp.toNat ≤ 15
        · refine ⟨UInt8.ofNat (cp.toNat - 4), by simp [Text.selector, h0, h4, h15], fun _ => ?_, fun h => absurd h (by omega)⟩
          rw [UInt8.toNat_ofNat']; omega
        · refine ⟨UInt8.ofNat cp.toNat, by simp [Text.selector, h0, h4, h15], fun h => absurd h (by omega), fun _ => ?_⟩
          rw [UInt8.toNat_ofNat']; omega
      obtain ⟨a, hs, ha, ha'⟩ := sel
      have tk : (([a] ++ b :: l) ++ y).take 3 = a :: (((b :: l) ++ y).take 2) := rfl
      rw [hs] at hy
      have two : ((b :: l ++ y).take 2).length = 2 := by simp at hy ⊢; omega
      rw [hs, tk, read3 _ _ two] at h
      rw [hs]
      have key : (((b :: l) ++ y).take 2) = b :: l → ([a] ++ b :: l).length = 3 := by
        intro e
        rw [e] at two
        simpa using two
      have hcpn := congrArg (fun s => s.codepage.toNat) h
      have hd := congrArg StringDVB.data h
      split_ifs at h hcpn hd with c1 c2 c3 c4
      · exact key hd
      · exact absurd hcpn.symm h0
      · exact key hd
      · exact absurd hcpn.symm h0

/-- The descriptors that carry codes are written as a tag, a length that counts three bytes for each code, and a body. -/
theorem emitted_eq (d : Desc) (hc : codes d ≠ []) (ni : ¬ d.HasItems) (hl : d.size ≤ 257) :
    d.emitted = d.tag :: UInt8.ofNat (d.size - 2) :: d.emitted.drop 2 ∧
      (d.emitted.drop 2).length + 3 * (codes d).length = d.size - 2 + ((codes d).map fun c => (text c).length).sum := by
  rw [desc_counted] at hl ⊢
  cases d with
  | d0A d =>
    simp only [Desc.emitted, AnyValue.language, stating, Desc.counted, List.length_map, List.drop_succ_cons, List.drop_zero, codes]
    refine ⟨by simp [Desc.tag], ?_⟩
    induction d.items with
    | nil => rfl
    | cons i l ih => simp at ih ⊢; omega
  | d4D d =>
    simp only [Desc.emitted, AnyValue.shortEvent, stating, Desc.counted, List.drop_succ_cons, List.drop_zero, codes]
    refine ⟨by rw [show 7 + (text d.name).length + (text d.text).length - 2 = 5 + (text d.name).length + (text d.text).length by omega]; rfl, ?_⟩
    simp [Descriptor.sized]; omega
  | d4E d =>
    have hi : d.items = [] := by simpa [Desc.HasItems] using ni
    simp only [Desc.counted, hi, List.map_nil, List.sum_nil] at hl
    simp only [Desc.emitted, AnyValue.extendedEvent, stating, Desc.counted, hi, List.map_nil, List.sum_nil, codes]
    rw [if_pos (by omega)]
    refine ⟨by simp [Desc.tag, Nat.add_comm], ?_⟩
    simp [Descriptor.sized]; omega
  | d58 d =>
    simp only [Desc.emitted, AnyValue.localTimeOffset, stating, Desc.counted, List.length_map, List.drop_succ_cons, List.drop_zero, codes]
    refine ⟨by simp [Desc.tag], ?_⟩
    induction d.items with
    | nil => rfl
    | cons i l ih => simp [AnyValue.utc] at ih ⊢; omega
  | _ => exact absurd rfl hc

/-- What such a descriptor is sent as. -/
theorem sent (p : Profile) (d : Desc) (hc : codes d ≠ []) (buf : List UInt8) : d.assemble p buf = .ok (buf ++ d.emitted) := by
  rw [desc_any, if_neg]
  rintro ⟨-, h⟩
  cases d <;> first | exact hc rfl | exact h.elim

/-- A descriptor that states more bytes than there are is not read. -/
theorem frames_short (t n : UInt8) (body : List UInt8) (h : body.length < n.toNat) : Descriptor.frames (t :: n :: body) = [] := by
  rw [Descriptor.frames, if_neg (by omega)]

theorem sum_lt (l : List StringDVB) (h : ∀ c ∈ l, (text c).length ≤ 3) (hs : ∃ c ∈ l, (text c).length < 3) :
    (l.map fun c => (text c).length).sum < 3 * l.length := by
  induction l with
  | nil => obtain ⟨c, hc, -⟩ := hs; cases hc
  | cons a l ih =>
    have ha := h a (by simp)
    have hle : (l.map fun c => (text c).length).sum ≤ 3 * l.length := by
      clear ih hs
      induction l with
      | nil => simp
      | cons b l ih =>
        have := ih fun c hc => h c (by simp at hc ⊢; tauto)
        have := h b (by simp)
        simp; omega
    simp only [List.map_cons, List.sum_cons, List.length_cons]
    obtain ⟨c, hc, hlt⟩ := hs
    rcases List.mem_cons.1 hc with rfl | hc
    · omega
    · have := ih (fun c hc => h c (by simp [hc])) ⟨c, hc, hlt⟩
      omega

/-- Entries of a fixed length that begin with a code, read from bytes in which the codes may have other lengths. -/
theorem entries {α : Type} (k : Nat) (code : α → StringDVB) (tail : α → List UInt8) (ht : ∀ a, (tail a).length = k) (items : List α)
    (hd : ∀ a ∈ items, (code a).data ≠ []) (body : List UInt8) (m : Nat) (hb : body = (items.flatMap fun a => text (code a) ++ tail a).take m)
    (h : (Table.chunks (3 + k) body).map (fun i => StringDVB.ofBytes (i.take 3)) = items.map code) :
    ∀ a ∈ items, (text (code a)).length = 3 := by
  induction items generalizing body m with
  | nil => simp
  | cons a l ih =>
    rw [Table.chunks] at h
    by_cases hlen : 0 < 3 + k ∧ 3 + k ≤ body.length
    · rw [dif_pos hlen] at h
      simp only [List.map_cons, List.cons.injEq, List.take_take] at h
      obtain ⟨h1, h2⟩ := h
      have hm : 3 + k ≤ m := by have := congrArg List.length hb; simp only [List.length_take] at this; omega
      have e3 : body.take (min 3 (3 + k)) = (text (code a) ++ (tail a ++ l.flatMap fun a => text (code a) ++ tail a)).take 3 := by
        rw [hb, List.take_take, List.flatMap_cons, List.append_assoc]
        congr 1; omega
      rw [e3] at h1
      have ha := three (code a) (hd a (by simp)) _ (by have := congrArg List.length hb; simp only [List.length_take, List.flatMap_cons, List.append_assoc] at this; omega) h1
      intro b hbm
      rcases List.mem_cons.1 hbm with rfl | hbm
      · exact ha
      · refine ih (fun c hc => hd c (by simp [hc])) (body.drop (3 + k)) (m - (3 + k)) ?_ h2 b hbm
        rw [hb, List.drop_take, List.flatMap_cons, List.drop_append_of_le_length (by simp [ht, ha])]
        rw [List.drop_eq_nil_of_le (by simp [ht, ha]), List.nil_append]
    · rw [dif_neg hlen] at h
      simp at h

/-- A descriptor of which some code does not take three bytes is not what its bytes say. -/
theorem decode_ne (d : Desc) (hc : codes d ≠ []) (ni : ¬ d.HasItems) (hl : d.size ≤ 257) (hd : ∀ c ∈ codes d, c.data ≠ [])
    (hn : d.size - 2 ≤ (d.emitted.drop 2).length) (h : Reading.decode d.tag ((d.emitted.drop 2).take (d.size - 2)) = d) :
    ∀ c ∈ codes d, (text c).length = 3 := by
  rw [desc_counted] at *
  cases d with
  | d0A d =>
    generalize hb : ((Desc.d0A d).emitted.drop 2).take ((Desc.d0A d).counted - 2) = body at h
    have ht : (Desc.d0A d).tag = 0x0A := rfl
    rw [ht] at h
    simp only [Reading.decode, show ((0x0A : UInt8) = 0x09) = False by decide, if_false, if_true] at h
    split_ifs at h with h4
    simp only [Desc.d0A.injEq] at h
    have hi := congrArg (fun x => x.items.map (·.code)) h
    simp only [List.map_map] at hi
    intro c hcm
    obtain ⟨a, ha, rfl⟩ := List.mem_map.1 hcm
    refine entries 1 (fun i : Desc0Ai => i.code) (fun i => beBytes 1 i.audioType.toNat) (fun _ => by simp) d.items
      (fun a ha => hd _ (List.mem_map_of_mem ha)) body ((Desc.d0A d).counted - 2) ?_ hi a ha
    rw [← hb]
    simp only [Desc.emitted, AnyValue.language, stating, List.drop_succ_cons, List.drop_zero, List.flatMap_map]
  | d4D d =>
    have ht : (Desc.d4D d).tag = 0x4D := rfl
    generalize hb : ((Desc.d4D d).emitted.drop 2).take ((Desc.d4D d).counted - 2) = body at h
    rw [ht, Reading.decode] at h
    simp only [show ((0x4D : UInt8) = 0x09) = False by decide, show ((0x4D : UInt8) = 0x0A) = False by decide,
      show ((0x4D : UInt8) = 0x0E) = False by decide, show ((0x4D : UInt8) = 0x40) = False by decide,
      show ((0x4D : UInt8) = 0x41) = False by decide, show ((0x4D : UInt8) = 0x43) = False by decide,
      show ((0x4D : UInt8) = 0x44) = False by decide, show ((0x4D : UInt8) = 0x48) = False by decide, if_false, if_true] at h
    split_ifs at h with h4
    simp only [Desc.d4D.injEq] at h
    have hi := congrArg (·.lang) h
    simp only [Reading.text] at hi
    intro c hcm
    obtain rfl : c = d.lang := by simpa [codes] using hcm
    have e3 : body.take 3 = (text d.lang ++ (Descriptor.sized (text d.name) ++ Descriptor.sized (text d.text))).take 3 := by
      rw [← hb, List.take_take]
      simp only [Desc.emitted, AnyValue.shortEvent, stating, List.drop_succ_cons, List.drop_zero, Desc.counted, List.append_assoc]
      congr 1; omega
    rw [e3] at hi
    refine three d.lang (hd _ (by simp [codes])) _ ?_ hi
    have := congrArg List.length hb
    simp only [Desc.emitted, AnyValue.shortEvent, stating, List.drop_succ_cons, List.drop_zero, Desc.counted, List.append_assoc,
      List.length_take] at this
    omega
  | d4E d =>
    have hit : d.items = [] := by simpa [Desc.HasItems] using ni
    have ht : (Desc.d4E d).tag = 0x4E := rfl
    have hem : (Desc.d4E d).emitted.drop 2 = beBytes 1 (overlay [(4, d.number.toNat), (4, d.lastNumber.toNat)]) ++ (text d.lang ++
        (Descriptor.sized [] ++ Descriptor.sized (text d.text))) := by
      simp only [Desc.counted, hit, List.map_nil, List.sum_nil] at hl
      simp only [Desc.emitted, AnyValue.extendedEvent, stating, hit, List.map_nil, List.sum_nil]
      rw [if_pos (by omega)]
      simp
    generalize hb : ((Desc.d4E d).emitted.drop 2).take ((Desc.d4E d).counted - 2) = body at h
    rw [ht, Reading.decode] at h
    simp only [show ((0x4E : UInt8) = 0x09) = False by decide, show ((0x4E : UInt8) = 0x0A) = False by decide,
      show ((0x4E : UInt8) = 0x0E) = False by decide, show ((0x4E : UInt8) = 0x40) = False by decide,
      show ((0x4E : UInt8) = 0x41) = False by decide, show ((0x4E : UInt8) = 0x43) = False by decide,
      show ((0x4E : UInt8) = 0x44) = False by decide, show ((0x4E : UInt8) = 0x48) = False by decide,
      show ((0x4E : UInt8) = 0x4D) = False by decide, if_false, if_true] at h
    split_ifs at h with h4
    simp only [Desc.d4E.injEq] at h
    have hi := congrArg (·.lang) h
    simp only [Reading.text] at hi
    intro c hcm
    obtain rfl : c = d.lang := by simpa [codes] using hcm
    have hlen := congrArg List.length hb
    simp only [hem, List.length_take, List.length_append, beBytes_length] at hlen
    have e3 : (body.drop 1).take 3 = (text d.lang ++ (Descriptor.sized [] ++ Descriptor.sized (text d.text))).take 3 := by
      rw [← hb, hem, List.drop_take, List.take_take]
      have : (beBytes 1 (overlay [(4, d.number.toNat), (4, d.lastNumber.toNat)])).length = 1 := by simp
      rw [List.drop_append_of_le_length (by omega), List.drop_eq_nil_of_le (by omega), List.nil_append]
      congr 1
      simp only [Desc.counted]; omega
    rw [e3] at hi
    refine three d.lang (hd _ (by simp [codes])) _ ?_ hi
    simp only [List.length_append]; omega
  | d58 d =>
    generalize hb : ((Desc.d58 d).emitted.drop 2).take ((Desc.d58 d).counted - 2) = body at h
    have ht : (Desc.d58 d).tag = 0x58 := rfl
    rw [ht, Reading.decode] at h
    simp only [show ((0x58 : UInt8) = 0x09) = False by decide, show ((0x58 : UInt8) = 0x0A) = False by decide,
      show ((0x58 : UInt8) = 0x0E) = False by decide, show ((0x58 : UInt8) = 0x40) = False by decide,
      show ((0x58 : UInt8) = 0x41) = False by decide, show ((0x58 : UInt8) = 0x43) = False by decide,
      show ((0x58 : UInt8) = 0x44) = False by decide, show ((0x58 : UInt8) = 0x48) = False by decide,
      show ((0x58 : UInt8) = 0x4D) = False by decide, show ((0x58 : UInt8) = 0x4E) = False by decide,
      show ((0x58 : UInt8) = 0x52) = False by decide, if_false, if_true] at h
    split_ifs at h with h4
    simp only [Desc.d58.injEq] at h
    have hi := congrArg (fun x => x.items.map (·.countryCode)) h
    simp only [List.map_map] at hi
    intro c hcm
    obtain ⟨a, ha, rfl⟩ := List.mem_map.1 hcm
    refine entries 10 (fun i : Desc58i => i.countryCode) (fun i => beBytes 1 (overlay [(6, i.regionId.toNat), (1, 1), (1, i.offsetPolarity.toNat)]) ++
      beBytes 2 (Descriptor.hhmm (i.offset.toNat % 1440)) ++ AnyValue.utc i.timeOfChange.toNat ++
      beBytes 2 (Descriptor.hhmm (i.nextOffset.toNat % 1440))) (fun _ => by simp [AnyValue.utc]) d.items
      (fun a ha => hd _ (List.mem_map_of_mem ha)) body ((Desc.d58 d).counted - 2) ?_ hi a ha
    rw [← hb]
    simp only [Desc.emitted, AnyValue.localTimeOffset, stating, List.drop_succ_cons, List.drop_zero, List.flatMap_map, List.append_assoc]
  | _ => exact absurd rfl hc

end Codes

/-- C131 fails, the length counts three bytes for each code whatever it takes: if no code of a descriptor takes more and one takes less,
a receiver of the descriptor gets nothing at all. -/
theorem C131_lost_refuted (p : Profile) (d : Desc) (h : ∀ c ∈ codes d, (text c).length ≤ 3) (hs : ∃ c ∈ codes d, (text c).length < 3)
    (ni : ¬ d.HasItems) (hl : d.size ≤ 257) (buf : List UInt8) (self : Descriptors) :
    ∃ out, d.assemble p buf = .ok (buf ++ out) ∧ Descriptors.parse p self out = .ok self := by
  have hc : codes d ≠ [] := by obtain ⟨c, hc, -⟩ := hs; exact List.ne_nil_of_mem hc
  refine ⟨_, Codes.sent p d hc buf, ?_⟩
  obtain ⟨e, hlen⟩ := Codes.emitted_eq d hc ni hl
  have hsum := Codes.sum_lt _ h hs
  rw [C37_frames, e, Codes.frames_short]
  · simp [pure_eq_ok]
  · rw [UInt8.toNat_ofNat', Nat.mod_eq_of_lt (by omega)]; omega

/-- C131 fails for every descriptor with a code that does not take three bytes: it is not received as it was sent. -/
theorem C131_codes_refuted (p : Profile) (d : Desc) (hd : ∀ c ∈ codes d, c.data ≠ []) (hs : ∃ c ∈ codes d, (text c).length ≠ 3)
    (ni : ¬ d.HasItems) (hl : d.size ≤ 257) (buf : List UInt8) (self : Descriptors) :
    ∃ out, d.assemble p buf = .ok (buf ++ out) ∧ Descriptors.parse p self out ≠ .ok (self ++ [d]) := by
  have hc : codes d ≠ [] := by obtain ⟨c, hc, -⟩ := hs; exact List.ne_nil_of_mem hc
  refine ⟨_, Codes.sent p d hc buf, ?_⟩
  obtain ⟨e, hlen⟩ := Codes.emitted_eq d hc ni hl
  intro h
  by_cases hp : ∃ t n body, t :: n :: body ∈ Descriptor.frames d.emitted ∧ Panics p t body
  · rw [(C124_loop p self d.emitted).1 hp] at h; cases h
  · rw [(C124_loop p self d.emitted).2 fun t n body hm hh => hp ⟨t, n, body, hm, hh⟩] at h
    simp only [Except.ok.injEq, List.append_cancel_left_eq] at h
    have hn : (UInt8.ofNat (d.size - 2)).toNat = d.size - 2 := by rw [UInt8.toNat_ofNat', Nat.mod_eq_of_lt (by omega)]
    rw [e, Reading.descriptors, hn] at h
    split_ifs at h with hle
    simp only [List.cons.injEq] at h
    obtain ⟨c, hcm, hne⟩ := hs
    exact hne (Codes.decode_ne d hc ni hl hd hle h.1 c hcm)

/-- Characters of ASCII are one byte each in every table. -/
theorem Codes.ascii (cp : UInt8) (s : List Char) (hs : ∀ c ∈ s, 0x20 ≤ c.val.toNat ∧ c.val.toNat < 0x80) :
    StringDVB.fromStr s cp = ⟨if (CodePage.upper cp.toNat).isSome then cp else 21, s.map fun c => UInt8.ofNat c.val.toNat⟩ := by
  have fm : ∀ f : Char → List UInt8, (∀ c ∈ s, f c = [UInt8.ofNat c.val.toNat]) → s.flatMap f = s.map fun c => UInt8.ofNat c.val.toNat := by
    intro f hf
    clear hs
    induction s with
    | nil => rfl
    | cons a l ih => simp [hf a (by simp), ih fun c hc => hf c (by simp [hc])]
  have hu : Text.utf8 s = s.map fun c => UInt8.ofNat c.val.toNat := by
    refine fm _ fun c hc => ?_
    have := (hs c hc).2
    rw [String.utf8EncodeChar, if_pos (by omega)]
  cases hp : CodePage.upper cp.toNat with
  | none =>
    rw [C27_unknown_codepage s cp hp, (C27_utf8 s).1, hu]; rfl
  | some t =>
    have h21 : cp ≠ UTF8 := by rintro rfl; cases hp
    simp only [StringDVB.fromStr, if_neg h21, map_eq, hp, Option.map_some, Option.isSome_some, if_true]
    rw [fm _ fun c hc => encodeChar_ascii _ c (hs c hc).2]

/-- C131, the part that holds: codes of three letters made with `from_str` for the default table take three bytes and come back, in every
descriptor that is otherwise as C36 requires. -/
theorem C131_default_partial (p : Profile) (d : Desc) (h : ∀ c ∈ codes d, ∃ s : List Char, s.length = 3 ∧
    (∀ x ∈ s, 0x20 ≤ x.val.toNat ∧ x.val.toNat < 0x80) ∧ c = StringDVB.fromStr s 0) :
    (∀ c ∈ codes d, (text c).length = 3 ∧ roundTrips c) ∧
    (d.InRange → d.Exact → ¬ d.HasItems → ∀ (buf : List UInt8) (self : Descriptors),
      ∃ out, d.assemble p buf = .ok (buf ++ out) ∧ Descriptors.parse p self out = .ok (self ++ [d])) := by
  refine ⟨?_, ?_⟩
  · intro c hc
    obtain ⟨s, h3, hs, rfl⟩ := h c hc
    rw [Codes.ascii 0 s hs]
    obtain ⟨a, b, c, rfl⟩ : ∃ a b c, s = [a, b, c] := by
      match s, h3 with
      | [a, b, c], _ => exact ⟨a, b, c, rfl⟩
    have ha := hs a (by simp)
    refine ⟨rfl, .inr ⟨by simp, .inl ⟨rfl, ?_⟩⟩⟩
    simp only [List.map_cons, List.headD_cons, UInt8.toNat_ofNat']
    omega
  · intro hr he ni buf self
    refine ⟨d.wire, C32_wire_format_partial p d buf hr ni, ?_⟩
    have := C36_parse_wire p self [d] (by simpa using ⟨hr, he⟩)
    simpa using this

/-- C131 fails for codes of three letters made with `from_str` for any other table: they take four or six bytes, and the descriptor is not
received as it was sent. -/
theorem C131_table_refuted (p : Profile) (cp : UInt8) (hcp : cp ≠ 0) (s : List Char) (h3 : s.length = 3)
    (hs : ∀ c ∈ s, 0x20 ≤ c.val.toNat ∧ c.val.toNat < 0x80) :
    (text (StringDVB.fromStr s cp)).length = (if cp.toNat ≤ 4 then 6 else 4) ∧
    ∀ d : Desc, (∀ c ∈ codes d, c.data ≠ []) → StringDVB.fromStr s cp ∈ codes d → ¬ d.HasItems → d.size ≤ 257 →
      ∀ (buf : List UInt8) (self : Descriptors),
        ∃ out, d.assemble p buf = .ok (buf ++ out) ∧ Descriptors.parse p self out ≠ .ok (self ++ [d]) := by
  have hl : (text (StringDVB.fromStr s cp)).length = (if cp.toNat ≤ 4 then 6 else 4) := by
    rw [Codes.ascii cp s hs]
    obtain ⟨a, b, c, rfl⟩ : ∃ a b c, s = [a, b, c] := by
      match s, h3 with
      | [a, b, c], _ => exact ⟨a, b, c, rfl⟩
    have h0 : cp.toNat ≠ 0 := fun h => hcp (UInt8.toNat_inj.1 h)
    simp only [text, List.map_cons, List.map_nil, Text.encoding, List.length_append, Text.selector]
    by_cases h4 : cp.toNat ≤ 4
    · have : (CodePage.upper cp.toNat).isSome := by
        have : cp.toNat = 1 ∨ cp.toNat = 2 ∨ cp.toNat = 3 ∨ cp.toNat = 4 := by omega
        rcases this with h | h | h | h <;> rw [h] <;> rfl
      simp [this, h0, h4]
    · have h4' : ¬ (if (CodePage.upper cp.toNat).isSome then cp else 21 : UInt8).toNat ≤ 4 := by split_ifs <;> first | exact h4 | decide
      generalize (if (CodePage.upper cp.toNat).isSome then cp else 21 : UInt8) = k at *
      rw [if_neg (by omega), if_neg h4', if_neg h4]
      split_ifs <;> rfl
  refine ⟨hl, fun d hd hm ni hz buf self => C131_codes_refuted p d hd ⟨_, hm, ?_⟩ ni hz buf self⟩
  rw [hl]
  split_ifs <;> omega

/-- C131 fails worse than that for the tables 5 and up: the third letter of the language is taken for the length of the name, and when
name and text together are shorter than that (97 to 122 for a small letter) receiving the descriptor panics. -/
theorem C131_panic_refuted (p : Profile) (cp : UInt8) (hcp : 5 ≤ cp.toNat) (a b c : Char)
    (hs : ∀ x ∈ [a, b, c], 0x20 ≤ x.val.toNat ∧ x.val.toNat < 0x80) (name txt : StringDVB) (hl : name.size + txt.size < c.val.toNat)
    (buf : List UInt8) (self : Descriptors) :
    ∃ out, (Desc.d4D ⟨StringDVB.fromStr [a, b, c] cp, name, txt⟩).assemble p buf = .ok (buf ++ out) ∧ Descriptors.parse p self out = panic := by
  have hc := (hs c (by simp)).2
  have ht : ∀ s : StringDVB, s.size = (text s).length := fun s => C23_size_encoding _
  rw [ht, ht] at hl
  refine ⟨_, Codes.sent p _ (by simp [codes]) buf, ?_⟩
  have sel : ∃ k : UInt8, text (StringDVB.fromStr [a, b, c] cp) = [k, .ofNat a.val.toNat, .ofNat b.val.toNat, .ofNat c.val.toNat] := by
    rw [Codes.ascii cp _ hs]
    have h4' : ¬ (if (CodePage.upper cp.toNat).isSome then cp else 21 : UInt8).toNat ≤ 4 := by split_ifs <;> first | omega | decide
    generalize (if (CodePage.upper cp.toNat).isSome then cp else 21 : UInt8) = k at *
    simp only [text, Text.encoding, List.map_cons, List.map_nil, Text.selector]
    rw [if_neg (by omega), if_neg h4']
    split_ifs <;> exact ⟨_, rfl⟩
  obtain ⟨k, hk⟩ := sel
  have hn : (UInt8.ofNat (5 + (text name).length + (text txt).length)).toNat = 5 + (text name).length + (text txt).length := by
    rw [UInt8.toNat_ofNat', Nat.mod_eq_of_lt (by omega)]
  refine (C124_loop p self _).1 ⟨0x4D, UInt8.ofNat (5 + (text name).length + (text txt).length),
    (k :: UInt8.ofNat a.val.toNat :: UInt8.ofNat b.val.toNat :: UInt8.ofNat c.val.toNat ::
      (Descriptor.sized (text name) ++ Descriptor.sized (text txt))).take (5 + (text name).length + (text txt).length), ?_, ?_⟩
  · simp only [Desc.emitted, AnyValue.shortEvent, stating, hk, List.cons_append, List.nil_append]
    rw [Descriptor.frames, hn, if_pos (by simp [Descriptor.sized]; omega)]
    exact List.mem_cons_self
  · simp only [Panics, show ((0x4D : UInt8) = 0x43) = False by decide, show ((0x4D : UInt8) = 0x44) = False by decide,
      show ((0x4D : UInt8) = 0x48) = False by decide, if_false, if_true]
    have hf : field ((k :: UInt8.ofNat a.val.toNat :: UInt8.ofNat b.val.toNat :: UInt8.ofNat c.val.toNat ::
      (Descriptor.sized (text name) ++ Descriptor.sized (text txt))).take (5 + (text name).length + (text txt).length)) 3 1 = c.val.toNat := by
      rw [show 5 + (text name).length + (text txt).length = ((text name).length + (text txt).length + 1) + 1 + 1 + 1 + 1 by omega]
      simp only [field, List.take_succ_cons, List.drop_succ_cons, List.drop_zero, List.take_zero]
      have e : c.toNat = c.val.toNat := rfl
      simp [beNat]; omega
    rw [hf]
    rw [List.length_take, Nat.min_eq_left (by simp [Descriptor.sized]; omega)]
    omega

/-- The language of a short event, given in Latin/Cyrillic. -/
example : (∀ x ∈ ['r', 'u', 's'], 0x20 ≤ x.val.toNat ∧ x.val.toNat < 0x80) ∧
    (Desc.d4D ⟨StringDVB.fromStr ['r', 'u', 's'] 5, ⟨0, [0x41]⟩, ⟨0, [0x42]⟩⟩).assemble .debug [] =
      .ok [0x4D, 7, 1, 0x72, 0x75, 0x73, 1, 0x41, 1, 0x42] ∧
    Descriptors.parse .debug [] [0x4D, 7, 1, 0x72, 0x75, 0x73, 1, 0x41, 1, 0x42] = panic := by decide +kernel

/-- The same with the first of the tables, which panics as well, and with a longer text, which is received as bytes. -/
example (p : Profile) (buf self) := C131_table_refuted p 5 (by decide) "rus".toList rfl (by decide)
  |>.2 (.d0A ⟨[⟨StringDVB.fromStr "rus".toList 5, 0⟩]⟩) (by decide +kernel) (by decide +kernel) (by simp [Desc.HasItems]) (by decide +kernel) buf self
example (p : Profile) (buf self) := C131_panic_refuted p 5 (by decide) 'r' 'u' 's' (by decide) ⟨0, [0x41]⟩ ⟨0, [0x42]⟩ (by decide +kernel) buf self
example (p : Profile) (buf self) := C131_codes_refuted p (.d0A ⟨[⟨⟨0, [0x65, 0x6E]⟩, 0⟩]⟩) (by decide +kernel) (by decide +kernel)
  (by simp [Desc.HasItems]) (by decide +kernel) buf self

/-- A language left out: the descriptor states three bytes more than it has. -/
example (p : Profile) (buf self) := C131_lost_refuted p (.d4D ⟨StringDVB.default, ⟨0, [0x41]⟩, ⟨0, [0x42]⟩⟩) (by decide +kernel) (by decide +kernel)
  (by simp [Desc.HasItems]) (by decide +kernel) buf self
example : (Desc.d4D ⟨StringDVB.default, ⟨0, [0x41]⟩, ⟨0, [0x42]⟩⟩).assemble .debug [] = .ok [0x4D, 7, 1, 0x41, 1, 0x42] ∧
    Descriptors.parse .debug [] [0x4D, 7, 1, 0x41, 1, 0x42] = .ok [] := by decide +kernel

/-- English in the default table. -/
example (p : Profile) (buf self) := (C131_default_partial p (.d4D ⟨StringDVB.fromStr "eng".toList 0, ⟨0, [0x41]⟩, ⟨0, [0x42]⟩⟩)
  (by intro c hc; obtain rfl : c = _ := by simpa [codes] using hc
      exact ⟨"eng".toList, rfl, by decide, rfl⟩)).2 (by simp only [Desc.InRange]; decide +kernel) (by simp only [Desc.Exact, roundTrips]; decide +kernel)
        (by simp [Desc.HasItems]) buf self

end Mpegts
