import Verif.Props.C97

/-! # C36: lists of descriptors, and what becomes of a list with an extended event with items -/

namespace Mpegts
open Spec

/-- C36: what a list is read back as is decided descriptor by descriptor: parsing the assembled list appends what each descriptor on
its own is read back as, and panics if one of them does. -/
theorem C36_each (p : Profile) (self ds : Descriptors) (buf : List UInt8) (h : ∀ d ∈ ds, d.InRange ∧ ¬ d.HasItems) :
    ∃ out, Descriptors.assemble p ds buf = .ok (out.length, buf ++ out) ∧
      Descriptors.parse p self out = (fun x => self ++ x) <$> ds.mapM (fun d => (do Desc.parse p (← d.assemble p []))) := by
  refine ⟨ds.flatMap Desc.wire, (C33_list_partial p ds buf h).1, ?_⟩
  have hf := frames_wire ds (fun d hd => (h d hd).1) []
  rw [List.append_nil, frames_truncated [] (.inl (by simp)), List.append_nil] at hf
  rw [C37_frames, hf]
  refine congrArg _ ?_
  clear hf
  induction ds with
  | nil => rfl
  | cons d r ih =>
    obtain ⟨h1, h2⟩ := h d List.mem_cons_self
    rw [List.map_cons, List.mapM_cons, List.mapM_cons, C32_wire_format_partial p d [] h1 h2, ok_bind, List.nil_append,
      ih fun x hx => h x (List.mem_cons_of_mem _ hx)]

theorem assembleLoop_append (p : Profile) (a b : List Desc) (buf : List UInt8) :
    Descriptors.assembleLoop p (a ++ b) buf = (do Descriptors.assembleLoop p b (← Descriptors.assembleLoop p a buf)) := by
  induction a generalizing buf with
  | nil => rfl
  | cons d r ih =>
    simp only [List.cons_append, Descriptors.assembleLoop]
    cases d.assemble p buf with
    | error e => rfl
    | ok b' => simp only [ok_bind]; exact ih _

/-- The bytes of an extended event: everything before the text, then the text, with a length byte short of two per item. -/
theorem extended_shape (e : Desc4E) (h : (Desc.d4E e).InRange) :
    ∃ n x F, (Desc.d4E e).wire.set 1 (UInt8.ofNat ((Desc.d4E e).wire.length - 2 - 2 * e.items.length)) =
        0x4E :: n :: (x ++ UInt8.ofNat F.length :: (F ++ UInt8.ofNat (text e.text).length :: text e.text)) ∧
      (Desc.d4E e).wire.drop 2 = x ++ UInt8.ofNat F.length :: (F ++ UInt8.ofNat (text e.text).length :: text e.text) ∧
      x.length = 4 ∧ 2 * e.items.length ≤ F.length ∧ F.length + (text e.text).length ≤ 249 ∧
      n.toNat = 6 + F.length + (text e.text).length - 2 * e.items.length := by
  obtain ⟨h1, h2, hl, h4⟩ := h
  have hs : 2 * e.items.length ≤ (e.items.map fun i => 2 + (text i.1).length + (text i.2).length).sum := by
    have := d4E_itemsSize e.items 0; omega
  have hlen := d4E_items_length e.items
  simp only [Desc.wire]
  generalize (e.items.map fun i => (text i.1, text i.2)) = items at *
  generalize (e.items.map fun i => 2 + (text i.1).length + (text i.2).length).sum = S at *
  generalize text e.text = txt at *
  generalize text e.lang = lang at *
  generalize e.number.toNat = number at *
  generalize e.lastNumber.toNat = last at *
  generalize e.items.length = k at *
  generalize hF : (items.flatMap fun i => Descriptor.sized i.1 ++ Descriptor.sized i.2) = F at *
  generalize hB : UInt8.ofNat (Descriptor.pack [(4, number), (4, last)]) = B
  have ew : Descriptor.extendedEvent number last lang items txt = 0x4E :: UInt8.ofNat (6 + F.length + txt.length) :: ((B :: lang) ++
      UInt8.ofNat F.length :: (F ++ UInt8.ofNat txt.length :: txt)) := by
    rw [Descriptor.extendedEvent, hF]
    simp only [Descriptor.descriptor, Descriptor.sized, List.length_append, List.length_cons, hl, beBytes_length]
    rw [show 1 + 3 + (F.length + 1) + (txt.length + 1) = 6 + F.length + txt.length by omega, ← hB]
    simp [beBytes]
  rw [ew]
  refine ⟨_, B :: lang, F, rfl, rfl, by simp [hl], by omega, by omega, ?_⟩
  simp only [List.length_cons, List.length_append, hl]
  rw [u8_ofNat_toNat _ (by omega)]
  omega

/-- What is assembled for a descriptor within its ranges: its encoding, with the length of an extended event two short for each of its
items. -/
def Desc.sent : Desc → List UInt8
  | .d4E e => (Desc.d4E e).wire.set 1 (UInt8.ofNat ((Desc.d4E e).wire.length - 2 - 2 * e.items.length))
  | d => d.wire

theorem sent_length (d : Desc) : d.sent.length = d.wire.length := by
  cases d <;> simp [Desc.sent]

theorem sent_wire (d : Desc) (h : d.InRange) (hn : ¬ d.HasItems) : d.sent = d.wire := by
  cases d with
  | d4E e =>
    have h1 := C32_wire_format_partial .debug _ [] h hn
    rw [(C32_wire_format_refuted .debug e [] h).1] at h1
    exact List.append_cancel_left (Except.ok.inj h1)
  | _ => rfl

theorem assembleLoop_sent (p : Profile) (ds : List Desc) (buf : List UInt8) (h : ∀ d ∈ ds, d.InRange) :
    Descriptors.assembleLoop p ds buf = .ok (buf ++ ds.flatMap Desc.sent) := by
  induction ds generalizing buf with
  | nil => simp [Descriptors.assembleLoop]
  | cons d r ih =>
    have h1 := h d List.mem_cons_self
    have e : d.assemble p buf = .ok (buf ++ d.sent) := by
      cases d with
      | d4E e => exact (C32_wire_format_refuted p e buf h1).1
      | _ => exact C32_wire_format_partial p _ buf h1 (by simp [Desc.HasItems])
    rw [Descriptors.assembleLoop, e, ok_bind, ih _ fun x hx => h x (List.mem_cons_of_mem _ hx), List.flatMap_cons, List.append_assoc]

theorem assemble_sent (p : Profile) (ds : Descriptors) (buf : List UInt8) (h : ∀ d ∈ ds, d.InRange) :
    Descriptors.assemble p ds buf = .ok ((ds.flatMap Desc.sent).length, buf ++ ds.flatMap Desc.sent) := by
  simp only [Descriptors.assemble, assembleLoop_sent p ds buf h, ok_bind]
  rw [usizeSub_ok p (by simp), List.length_append, Nat.add_sub_cancel_left]
  simp

/-- C36 fails for extended events with items, exactly: the list is assembled, but with the length byte of the extended event two short
for each of its items.  If its text has fewer bytes than that, parsing the assembled list panics in every build.  Otherwise the
extended event is read back as an uninterpreted descriptor without the last bytes of its text, and what follows is read starting at
these bytes.  The list is never given back. -/
theorem C36_extended_event_refuted (p : Profile) (self a b : Descriptors) (e : Desc4E) (buf : List UInt8)
    (ha : ∀ d ∈ a, d.InRange ∧ d.Exact ∧ ¬ d.HasItems) (he : (Desc.d4E e).InRange) (hi : e.items ≠ [])
    (hb : ∀ d ∈ b, d.InRange ∧ ¬ d.HasItems) :
    ∃ out, Descriptors.assemble p (a ++ .d4E e :: b) buf = .ok (out.length, buf ++ out) ∧
      out = a.flatMap Desc.wire ++ (Desc.d4E e).wire.set 1 (UInt8.ofNat ((Desc.d4E e).wire.length - 2 - 2 * e.items.length)) ++
        b.flatMap Desc.wire ∧
      ((text e.text).length < 2 * e.items.length → Descriptors.parse p self out = panic) ∧
      (2 * e.items.length ≤ (text e.text).length → Descriptors.parse p self out = (fun x => self ++ (a ++ .raw
          { tag := 0x4E, data := ((Desc.d4E e).wire.drop 2).take ((Desc.d4E e).wire.length - 2 - 2 * e.items.length) } :: x)) <$>
        (Descriptor.frames ((text e.text).drop ((text e.text).length - 2 * e.items.length) ++ b.flatMap Desc.wire)).mapM (Desc.parse p)) ∧
      Descriptors.parse p self out ≠ .ok (self ++ (a ++ .d4E e :: b)) := by
  refine ⟨_, ?_, rfl, ?_⟩
  · simp only [Descriptors.assemble]
    rw [assembleLoop_append, assembleLoop_wire p a buf fun d hd => ⟨(ha d hd).1, (ha d hd).2.2⟩, ok_bind, Descriptors.assembleLoop,
      (C32_wire_format_refuted p e _ he).1, ok_bind, assembleLoop_wire p b _ hb, ok_bind, usizeSub_ok p (by simp)]
    simp only [ok_bind, pure_eq_ok, List.append_assoc, List.length_append]
    refine congrArg Except.ok (Prod.ext ?_ rfl)
    simp only []
    omega
  obtain ⟨n, x, F, hw, hd, hx, hF, hT, hn⟩ := extended_shape e he
  have hwl : (Desc.d4E e).wire.length - 2 - 2 * e.items.length = n.toNat := by
    have := congrArg List.length hd
    simp only [List.length_drop, List.length_append, List.length_cons, hx] at this
    omega
  have hp : 0 < e.items.length := List.length_pos_iff.2 hi
  rw [hw, hd, hwl]
  generalize hT' : text e.text = T at *
  generalize e.items.length = k at *
  generalize hB : x ++ UInt8.ofNat F.length :: (F ++ UInt8.ofNat T.length :: T) = body
  have hbl : body.length = 6 + F.length + T.length := by rw [← hB]; simp [hx]; omega
  have hfr : Descriptor.frames (a.flatMap Desc.wire ++ 0x4E :: n :: body ++ b.flatMap Desc.wire) =
      a.map Desc.wire ++ (0x4E :: n :: body.take n.toNat) :: Descriptor.frames (body.drop n.toNat ++ b.flatMap Desc.wire) := by
    rw [List.append_assoc, frames_wire a fun d hd => (ha d hd).1]
    refine congrArg _ ?_
    have := frames_cons 0x4E n (body.take n.toNat) (body.drop n.toNat ++ b.flatMap Desc.wire) (by rw [List.length_take]; omega)
    rw [← this, ← List.append_assoc, List.take_append_drop]; rfl
  have hma := mapM_wire p a fun d hd => ⟨(ha d hd).1, (ha d hd).2.1⟩
  have hparse : Descriptors.parse p self (a.flatMap Desc.wire ++ 0x4E :: n :: body ++ b.flatMap Desc.wire) = (do
      let d ← Desc.parse p (0x4E :: n :: body.take n.toNat)
      (fun x => self ++ (a ++ d :: x)) <$>
        (Descriptor.frames (body.drop n.toNat ++ b.flatMap Desc.wire)).mapM (Desc.parse p)) := by
    rw [C37_frames, hfr, List.mapM_append, hma, ok_bind, List.mapM_cons]
    cases Desc.parse p (0x4E :: n :: body.take n.toNat) with
    | error e => rfl
    | ok d =>
      simp only [ok_bind]
      cases (Descriptor.frames (body.drop n.toNat ++ b.flatMap Desc.wire)).mapM (Desc.parse p) <;> rfl
  rw [hparse]
  clear hparse hfr hma
  generalize hs : (0x4E : UInt8) :: n :: body.take n.toNat = s
  have hsl : s.length = 2 + n.toNat := by rw [← hs]; simp; omega
  have es : s = (0x4E :: n :: (x ++ UInt8.ofNat F.length :: (F ++ UInt8.ofNat T.length :: T))).take (2 + n.toNat) := by
    rw [hB, ← hs, Nat.add_comm 2]; rfl
  have i6 : idx s 6 = .ok (UInt8.ofNat F.length) := by
    have := idx_at' ([0x4E, n] ++ x) (UInt8.ofNat F.length) (F ++ UInt8.ofNat T.length :: T) 6 (by simp [hx])
    rw [es]
    unfold idx at this ⊢
    rw [List.getElem?_take_of_lt (by omega)]
    simpa using this
  have t1 := u8_ofNat_toNat F.length (by omega)
  have t2 := u8_ofNat_toNat T.length (by omega)
  have hpan : T.length < 2 * k → Desc.parse p s = panic := by
    intro hlt
    have hc : Desc4E.check s = panic := by
      rw [Desc4E.check, if_neg (by omega)]
      simp only [i6, ok_bind, t1]
      rw [idx_panic (by omega)]; rfl
    rw [← hs] at hc ⊢
    rw [parse_4E, hc]; rfl
  have hraw : 2 * k ≤ T.length → Desc.parse p s = .ok (.raw { tag := 0x4E, data := body.take n.toNat }) := by
    intro hge
    have i7 : idx s (7 + F.length) = .ok (UInt8.ofNat T.length) := by
      have := idx_at' ([0x4E, n] ++ x ++ [UInt8.ofNat F.length] ++ F) (UInt8.ofNat T.length) T (7 + F.length) (by simp [hx]; omega)
      rw [es]
      unfold idx at this ⊢
      rw [List.getElem?_take_of_lt (by omega)]
      simpa using this
    have i1 : idx s 1 = .ok n := by rw [← hs]; rfl
    have hc : Desc4E.check s = .ok false := by
      rw [Desc4E.check, if_neg (by omega)]
      simp only [i6, ok_bind, t1, i7, t2, i1, pure_eq_ok]
      refine congrArg _ ?_
      rw [beq_eq_false_iff_ne]; omega
    have := parseRaw_ok 0x4E n (body.take n.toNat) [] (by rw [List.length_take]; omega)
    rw [List.append_nil] at this
    rw [← this, ← hs]
    rw [← hs] at hc
    rw [parse_4E, hc]; rfl
  have hdrop : 2 * k ≤ T.length → body.drop n.toNat = T.drop (T.length - 2 * k) := by
    intro hge
    rw [← hB, show x ++ UInt8.ofNat F.length :: (F ++ UInt8.ofNat T.length :: T) =
      (x ++ UInt8.ofNat F.length :: F ++ [UInt8.ofNat T.length]) ++ T by simp, List.drop_append,
      List.drop_eq_nil_of_le (by simp [hx]; omega), List.nil_append]
    refine congrArg (T.drop ·) ?_
    simp [hx]; omega
  refine ⟨fun hlt => by rw [hpan hlt]; rfl, fun hge => by rw [hraw hge, ok_bind, hdrop hge], fun hc => ?_⟩
  by_cases hlt : T.length < 2 * k
  · rw [hpan hlt] at hc; cases hc
  · rw [hraw (by omega), ok_bind] at hc
    cases hm : (Descriptor.frames (body.drop n.toNat ++ b.flatMap Desc.wire)).mapM (Desc.parse p) with
    | error e => rw [hm] at hc; cases hc
    | ok l =>
      rw [hm, map_ok] at hc
      have := List.append_cancel_left (List.append_cancel_left (Except.ok.inj hc))
      cases this

/-! ## Concrete cases -/

/-- An extended event with one item and a text of one byte, and one with a text of eight bytes. -/
def shortExtended : Desc4E := ⟨0, 0, ⟨0, [0x65, 0x6E, 0x67]⟩, [(⟨0, [0x41]⟩, ⟨0, [0x42]⟩)], ⟨0, [0x43]⟩⟩
def longExtended : Desc4E := ⟨0, 0, ⟨0, [0x65, 0x6E, 0x67]⟩, [(⟨0, [0x41]⟩, ⟨0, [0x42]⟩)], ⟨0, [0x43, 0x43, 0x43, 0x43, 0x43, 0x43, 1, 2]⟩⟩

example : (Desc.d4E shortExtended).InRange ∧ shortExtended.items ≠ [] ∧ (text shortExtended.text).length < 2 * shortExtended.items.length := by
  decide +kernel
example : (Desc.d4E longExtended).InRange ∧ longExtended.items ≠ [] ∧ 2 * longExtended.items.length ≤ (text longExtended.text).length := by
  decide +kernel
/-- The bytes that are assembled, and the panic. -/
example : Descriptors.assemble .release [.d52 ⟨7⟩, .d4E shortExtended] [] =
      .ok (16, [0x52, 1, 7, 0x4E, 9, 0, 0x65, 0x6E, 0x67, 4, 1, 0x41, 1, 0x42, 1, 0x43]) ∧
    Descriptors.parse .release [] [0x52, 1, 7, 0x4E, 9, 0, 0x65, 0x6E, 0x67, 4, 1, 0x41, 1, 0x42, 1, 0x43] = panic := by decide +kernel
/-- The last two bytes of the text are taken for the start of a descriptor that swallows the next one. -/
example : Descriptors.assemble .release [.d4E longExtended, .d52 ⟨7⟩] [] =
      .ok (23, [0x4E, 16, 0, 0x65, 0x6E, 0x67, 4, 1, 0x41, 1, 0x42, 8, 0x43, 0x43, 0x43, 0x43, 0x43, 0x43, 1, 2, 0x52, 1, 7]) ∧
    Descriptors.parse .release [] [0x4E, 16, 0, 0x65, 0x6E, 0x67, 4, 1, 0x41, 1, 0x42, 8, 0x43, 0x43, 0x43, 0x43, 0x43, 0x43, 1, 2, 0x52, 1, 7] =
      .ok [.raw ⟨0x4E, [0, 0x65, 0x6E, 0x67, 4, 1, 0x41, 1, 0x42, 8, 0x43, 0x43, 0x43, 0x43, 0x43, 0x43]⟩, .raw ⟨1, [0x52, 1]⟩] := by
  decide +kernel

end Mpegts
