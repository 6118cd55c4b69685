import Verif.Props.C129Any
import Verif.Props.C34_C39
import Verif.Props.C98
import Verif.Props.C106

/-! # C129: what arrives, what is copied, and what a wrong size does -/

namespace Mpegts
open Spec Spec.Table

/-! ## What arrives -/

/-- C129: the packets of an SDT with descriptors of the user's are received as the table with uninterpreted descriptors in their place (or
with the crate's own, should the user's have the tag and the form of one). -/
theorem C129_sdt_received (p : Profile) (as) (t : Own.Sdt) (h : ∀ i ∈ t.items, AllWrite as i.descriptors) (ht : (plainSdt as t).Fits)
    (pid : UInt16) (cc : UInt8) (dst : List UInt8) (hp : pid.toNat < 8192) (hc : cc.toNat < 16) (s : Psi) :
    ∃ cc' pks s', t.demux p pid cc dst = .ok (cc', dst ++ pks.flatten) ∧ (∀ pk ∈ pks, IsTsPacket pid.toNat pk) ∧
      receive (Sdt.parse p) p Sdt.default s pks = .ok (plainSdt as t, s') := by
  rw [C129_sdt p as t h]
  exact Sdt.round_trip_fits p _ ht pid cc dst s hp hc

/-- C129, for a NIT. -/
theorem C129_nit_received (p : Profile) (as) (t : Own.Nit) (hn : AllWrite as t.descriptors) (h : ∀ i ∈ t.items, AllWrite as i.descriptors)
    (ht : (plainNit as t).Fits) (pid : UInt16) (cc : UInt8) (dst : List UInt8) (hp : pid.toNat < 8192) (hc : cc.toNat < 16) (s : Psi) :
    ∃ cc' pks s', t.demux p pid cc dst = .ok (cc', dst ++ pks.flatten) ∧ (∀ pk ∈ pks, IsTsPacket pid.toNat pk) ∧
      receive (Nit.parse p) p Nit.default s pks = .ok (plainNit as t, s') := by
  rw [C129_nit p as t hn h]
  exact Nit.round_trip_fits p _ ht pid cc dst s hp hc

/-! ## Copies and casts -/

/-- C129: a list without descriptors of the user's is cloned as before (C39). -/
theorem C129_clone_partial (ds : Descriptors) (h : ∀ d ∈ ds, ∀ r, d = .raw r → r.tag ∉ knownTags) :
    Boxes.clone (ds.map .ours) = .ok (ds.map .ours) := by
  unfold Boxes.clone
  induction ds with
  | nil => rfl
  | cons d l ih =>
    rw [List.map_cons, List.mapM_cons, Boxed.clone, C39_clone_partial d (h d List.mem_cons_self), map_ok, ok_bind,
      ih fun x hx => h x (List.mem_cons_of_mem _ hx)]
    rfl

theorem Boxed.clone_cases (b : Boxed) : b.clone = .ok b ∨ b.clone = panic := by
  cases b with
  | own o => exact .inr rfl
  | ours d =>
    rw [Boxed.clone]
    by_cases hd : ∀ r, d = .raw r → r.tag ∉ knownTags
    · rw [C39_clone_partial d hd]; exact .inl rfl
    · simp only [not_forall, not_not] at hd
      obtain ⟨r', rfl, hr'⟩ := hd
      rw [C39_clone_refuted r' hr']; exact .inr rfl

/-- C129 fails: `Descriptor` is `Clone`, but a list with a descriptor of the user's anywhere in it panics when it is cloned. -/
theorem C129_clone_refuted (bs : Boxes) (o : OwnDesc) (h : Boxed.own o ∈ bs) : Boxes.clone bs = panic := by
  unfold Boxes.clone
  induction bs with
  | nil => cases h
  | cons b l ih =>
    rw [List.mapM_cons]
    rcases List.mem_cons.1 h with rfl | h
    · rfl
    · rcases b.clone_cases with e | e
      · rw [e, ok_bind, ih h]; rfl
      · rw [e]; rfl

/-- C129: and so does an event that has one. -/
theorem C129_clone_event_refuted (i : Own.EitItem) (o : OwnDesc) (h : Boxed.own o ∈ i.descriptors) : i.clone = panic := by
  unfold Own.EitItem.clone
  rw [C129_clone_refuted _ o h]
  rfl

/-- C129: an event without is cloned with all its fields. -/
theorem C129_clone_event_partial (i : Own.EitItem) (ds : Descriptors) (e : i.descriptors = ds.map .ours)
    (h : ∀ d ∈ ds, ∀ r, d = .raw r → r.tag ∉ knownTags) : i.clone = .ok i := by
  unfold Own.EitItem.clone
  rw [e, C129_clone_partial ds h, ok_bind, ← e]
  rfl

/-- C129: what was put into a list is got back with a cast to its type; a cast to any other type, the crate's or the user's, panics. -/
theorem C129_downcast (bs : Boxes) (o : OwnDesc) (d : Desc) :
    (bs.push (.own o))[bs.length]? = some (.own o) ∧ (bs.push (.own o)).take bs.length = bs ∧
    (∀ n, (Boxed.own o).downcastOwn n = if n = o.typeId then .ok o else panic) ∧
    (∀ k, (Boxed.own o).downcast k = panic) ∧
    (∀ n, (Boxed.ours d).downcastOwn n = panic) ∧
    (∀ k, (Boxed.ours d).downcast k = if k = d.kind then .ok d else panic) := by
  refine ⟨by simp [Boxes.push], by simp [Boxes.push], fun n => ?_, fun _ => rfl, fun _ => rfl, fun k => ?_⟩
  · rw [Boxed.downcastOwn]
    by_cases h : n = o.typeId
    · rw [if_pos h, if_pos h.symm]
    · rw [if_neg h, if_neg (Ne.symm h)]
  · rw [Boxed.downcast, Desc.downcast]
    by_cases h : k = d.kind
    · rw [if_pos h, if_pos h.symm]
    · rw [if_neg h, if_neg (Ne.symm h)]

/-- C129: for the type of an elementary stream only the tags of its descriptors count, whoever's they are. -/
theorem C129_stream_type (i : Own.PmtItem) (j : PmtItem) (ht : i.streamType = j.streamType)
    (h : i.descriptors.map tagOf = j.descriptors.map Desc.tag) : i.getStreamType = j.getStreamType := by
  have e : tagOf = Boxed.tag := by funext b; cases b <;> rfl
  rw [e] at h
  obtain ⟨st, pid, bs⟩ := i
  obtain ⟨st', pid', ds⟩ := j
  simp only at ht h
  subst ht
  have h5 : ∀ (bs : Boxes) (ds : Descriptors), bs.map Boxed.tag = ds.map Desc.tag → Own.PmtItem.streamType05 bs = PmtItem.streamType05 ds := by
    intro bs
    induction bs with
    | nil => intro ds e; cases ds with
      | nil => rfl
      | cons => simp at e
    | cons b r ih =>
      intro ds e
      cases ds with
      | nil => simp at e
      | cons d r' =>
        simp only [List.map_cons, List.cons.injEq] at e
        rw [Own.PmtItem.streamType05, PmtItem.streamType05, e.1, ih r' e.2]
  have h6 : ∀ (bs : Boxes) (ds : Descriptors), bs.map Boxed.tag = ds.map Desc.tag → Own.PmtItem.streamType06 bs = PmtItem.streamType06 ds := by
    intro bs
    induction bs with
    | nil => intro ds e; cases ds with
      | nil => rfl
      | cons => simp at e
    | cons b r ih =>
      intro ds e
      cases ds with
      | nil => simp at e
      | cons d r' =>
        simp only [List.map_cons, List.cons.injEq] at e
        rw [Own.PmtItem.streamType06, PmtItem.streamType06, e.1, ih r' e.2]
  unfold Own.PmtItem.getStreamType PmtItem.getStreamType
  simp only [h5 _ _ h, h6 _ _ h]
  rfl

/-! ## Wrong sizes -/

/-- C129 fails for descriptors that state fewer bytes than they append: two services go into one section whenever they fit as they are
counted, whatever its size then is. -/
theorem C129_understated_refuted (p : Profile) (as : OwnDesc → List UInt8) (t : Own.Sdt) (i j : Own.SdtItem) (e : t.items = [i, j])
    (ha : ∀ i ∈ t.items, ∀ d ∈ i.descriptors, d.Appends p as)
    (hi : 16 + (i.descriptors.map Boxed.counted).sum ≤ 1020)
    (hj : 16 + (Own.Sdt.anyEntry as i).length + (j.descriptors.map Boxed.counted).sum ≤ 1020)
    (pid : UInt16) (cc : UInt8) (dst : List UInt8) (hp : pid.toNat < 8192) (hc : cc.toNat < 16) :
    ∃ cc' sec, t.demux p pid cc dst = .ok (cc', dst ++ (stream pid.toNat cc.toNat [sec]).flatten) ∧
      sec.length = 25 + (i.descriptors.flatMap (Boxed.emitted as)).length + (j.descriptors.flatMap (Boxed.emitted as)).length := by
  have he : ∀ x : Own.SdtItem, (Own.Sdt.anyEntry as x).length = 5 + (x.descriptors.flatMap (Boxed.emitted as)).length := by
    intro x
    simp only [Own.Sdt.anyEntry, AnyValue.sdtEntry, List.length_append, beBytes_length, List.length_cons, List.length_nil, Spill.sized_length]
    omega
  have hg : Own.Sdt.anyGroups as t = [[i, j]] := by
    rw [Own.Sdt.anyGroups, e, AnyValue.distribute, if_pos (by omega), AnyValue.distribute, if_pos (by omega), AnyValue.distribute]
    rfl
  have h := Own.Sdt.C129_sdt_any p as t ha pid cc dst hp hc
  rw [Own.Sdt.anySections, hg] at h
  refine ⟨_, _, h, ?_⟩
  · rw [Spill.complete_length (by simp [Table.sdt]; omega)]
    simp only [Table.sdt, List.length_append, header_length, beBytes_length, List.length_cons, List.length_nil, List.flatMap_cons, List.flatMap_nil,
      List.append_nil, he]
    omega

/-- C129: a descriptor that removes bytes which were there before makes the number of bytes appended negative: with overflow checks this
panics, without them 2^64 is added. -/
theorem C129_shrinking (p : Profile) (bs : Boxes) (buf out : List UInt8) (h : Boxes.assembleLoop p bs buf = .ok out) :
    Boxes.assemble p bs buf = if buf.length ≤ out.length then .ok (out.length - buf.length, out) else
      match p with | .debug => panic | .release => .ok (out.length + 2 ^ 64 - buf.length, out) := by
  unfold Boxes.assemble
  simp only [h, ok_bind]
  unfold usizeSub
  by_cases hl : buf.length ≤ out.length
  · rw [if_pos hl, if_pos hl]; rfl
  · rw [if_neg hl, if_neg hl]; cases p <;> rfl

/-! ## Concrete cases -/

/-- A descriptor of tag 0x56 (teletext), which the crate has no type for. -/
def teletext : OwnDesc := ⟨7, 0x56, 7, fun b => .ok (b ++ [0x56, 5, 0x65, 0x6E, 0x67, 0x09, 0x00])⟩
def teletextAs : OwnDesc → List (UInt8 × List UInt8) := fun _ => [(0x56, [0x65, 0x6E, 0x67, 0x09, 0x00])]
theorem teletext_writes : Writes teletext (teletextAs teletext) := ⟨by decide, rfl, fun _ => rfl⟩

def teletextList : Boxes := [.ours (.d52 ⟨3⟩), .own teletext, .ours (.raw ⟨0x99, [1, 2]⟩)]
theorem teletextList_writes : AllWrite teletextAs teletextList := by
  intro o ho
  simp only [teletextList, List.mem_cons, reduceCtorEq, Boxed.own.injEq, List.not_mem_nil, or_false, false_or] at ho
  subst ho
  exact teletext_writes

def teletextSdt : Own.Sdt := ⟨0x42, 3, 1, 2, [⟨5, 0, 1, 4, 0, teletextList⟩]⟩
def teletextNit : Own.Nit := ⟨0x40, 3, 1, teletextList, [⟨5, 6, teletextList⟩]⟩
def teletextPmt : Own.Pmt := ⟨3, 1, 0x100, teletextList, [⟨6, 0x101, teletextList⟩]⟩
def teletextEit : Own.Eit := ⟨0x50, 3, 1, 2, 3, [⟨6, 1700000000, 3600, 4, 0, teletextList⟩]⟩
def teletextTot : Own.Tot := ⟨1700000000, teletextList⟩

example (p : Profile) (pid : UInt16) (cc : UInt8) (dst : List UInt8) :
    teletextSdt.demux p pid cc dst = (plainSdt teletextAs teletextSdt).demux p pid cc dst ∧
    teletextNit.demux p pid cc dst = (plainNit teletextAs teletextNit).demux p pid cc dst ∧
    teletextPmt.demux p pid cc dst = (plainPmt teletextAs teletextPmt).demux p pid cc dst ∧
    teletextEit.demux p pid cc dst = (plainEit teletextAs teletextEit).demux p pid cc dst ∧
    teletextTot.demux p pid cc dst = (plainTot teletextAs teletextTot).demux p pid cc dst := by
  have h := teletextList_writes
  refine ⟨C129_sdt p _ _ ?_ _ _ _, C129_nit p _ _ h ?_ _ _ _, C129_pmt p _ _ h ?_ _ _ _, C129_eit p _ _ ?_ _ _ _, C129_tot p _ _ h _ _ _⟩ <;>
  · intro i hi
    simp only [teletextSdt, teletextNit, teletextPmt, teletextEit, List.mem_singleton] at hi
    subst hi
    exact h

example : plain teletextAs teletextList = [.d52 ⟨3⟩, .raw ⟨0x56, [0x65, 0x6E, 0x67, 0x09, 0x00]⟩, .raw ⟨0x99, [1, 2]⟩] := rfl

example (p : Profile) : ∃ cc' pks s', teletextSdt.demux p 0x11 3 [] = .ok (cc', [] ++ pks.flatten) ∧
    (∀ pk ∈ pks, IsTsPacket 0x11 pk) ∧ receive (Sdt.parse p) p Sdt.default Psi.default pks = .ok (plainSdt teletextAs teletextSdt, s') := by
  refine C129_sdt_received p teletextAs teletextSdt ?_ ?_ 0x11 3 [] (by decide) (by decide) Psi.default
  · intro i hi
    simp only [teletextSdt, List.mem_singleton] at hi
    subst hi
    exact teletextList_writes
  · exact ⟨by decide, by decide, by decide +kernel⟩

example : Boxes.clone teletextList = panic := C129_clone_refuted _ teletext (by simp [teletextList])
example : (⟨6, 1700000000, 3600, 4, 0, teletextList⟩ : Own.EitItem).clone = panic := C129_clone_event_refuted _ teletext (by simp [teletextList])
example : (⟨6, 1700000000, 3600, 4, 0, [.ours (.d52 ⟨3⟩)]⟩ : Own.EitItem).clone = .ok ⟨6, 1700000000, 3600, 4, 0, [.ours (.d52 ⟨3⟩)]⟩ :=
  C129_clone_event_partial _ [.d52 ⟨3⟩] rfl (by simp)

/-- The teletext descriptor makes the stream a teletext stream. -/
example : (⟨6, 0x101, teletextList⟩ : Own.PmtItem).getStreamType = .TTX :=
  (C129_stream_type _ ⟨6, 0x101, plain teletextAs teletextList⟩ rfl rfl).trans (by decide)

/-- A descriptor of 602 bytes (three of 200) that says it needs none. -/
def modest : OwnDesc := ⟨8, 0x80, 0, fun b => .ok (b ++ (List.replicate 3 ([0x80, 198] ++ List.replicate 198 7)).flatten)⟩
def modestAs : OwnDesc → List UInt8 := fun _ => (List.replicate 3 ([0x80, 198] ++ List.replicate 198 7)).flatten
def modestSdt : Own.Sdt := ⟨0x42, 3, 1, 2, [⟨5, 0, 1, 4, 0, [.own modest]⟩, ⟨6, 0, 1, 4, 0, [.own modest]⟩]⟩

example (p : Profile) (dst : List UInt8) : ∃ cc' sec, modestSdt.demux p 0x11 3 dst = .ok (cc', dst ++ (stream 0x11 3 [sec]).flatten) ∧
    sec.length = 1225 := by
  have l : (modestAs modest).length = 600 := by decide +kernel
  obtain ⟨cc', sec, h1, h2⟩ := C129_understated_refuted p modestAs modestSdt _ _ rfl (by
    intro i hi d hd
    simp only [modestSdt, List.mem_cons, List.not_mem_nil, or_false] at hi
    rcases hi with rfl | rfl <;>
    · simp only [List.mem_singleton] at hd
      subst hd
      exact fun _ => rfl) (by decide) (by
      simp only [Own.Sdt.anyEntry, AnyValue.sdtEntry, List.length_append, beBytes_length, List.length_nil, Spill.sized_length,
        List.flatMap_cons, List.flatMap_nil, Boxed.emitted, l]
      decide) 0x11 3 dst (by decide) (by decide)
  refine ⟨cc', sec, h1, h2.trans ?_⟩
  simp only [List.flatMap_cons, List.flatMap_nil, List.append_nil, Boxed.emitted, l]

theorem modest_appends (p : Profile) : ∀ d ∈ ([.own modest, .ours (.d52 ⟨3⟩)] : Boxes), d.Appends p modestAs := by
  intro d hd
  simp only [List.mem_cons, List.not_mem_nil, or_false] at hd
  rcases hd with rfl | rfl
  · exact fun _ => rfl
  · rintro ⟨-, h⟩
    exact absurd h (by decide)

example (p : Profile) (pid : UInt16) (cc : UInt8) (dst : List UInt8) (hp : pid.toNat < 8192) (hc : cc.toNat < 16) :
    let pmt : Own.Pmt := ⟨3, 1, 0x100, [.own modest, .ours (.d52 ⟨3⟩)], [⟨6, 0x101, [.own modest, .ours (.d52 ⟨3⟩)]⟩]⟩
    let nit : Own.Nit := ⟨0x40, 3, 1, [.own modest, .ours (.d52 ⟨3⟩)], [⟨5, 6, [.own modest, .ours (.d52 ⟨3⟩)]⟩]⟩
    let tot : Own.Tot := ⟨1700000000, [.own modest, .ours (.d52 ⟨3⟩)]⟩
    pmt.demux p pid cc dst = .ok (UInt8.ofNat ((cc.toNat + streamCount (Own.Pmt.anySections modestAs pmt)) % 16),
      dst ++ (stream pid.toNat cc.toNat (Own.Pmt.anySections modestAs pmt)).flatten) ∧
    nit.demux p pid cc dst = .ok (UInt8.ofNat ((cc.toNat + streamCount (Own.Nit.anySections modestAs nit)) % 16),
      dst ++ (stream pid.toNat cc.toNat (Own.Nit.anySections modestAs nit)).flatten) ∧
    tot.demux p pid cc dst = .ok (UInt8.ofNat ((cc.toNat + packetCount (Own.Tot.anySection modestAs tot).length) % 16),
      dst ++ (packets pid.toNat cc.toNat (Own.Tot.anySection modestAs tot)).flatten) := by
  have h := modest_appends p
  refine ⟨Own.Pmt.C129_pmt_any p modestAs _ h ?_ pid cc dst hp hc,
    Own.Nit.C129_nit_any p modestAs _ h ?_ pid cc dst hp hc, Own.Tot.C129_tot_any p modestAs _ h pid cc dst hp hc⟩ <;>
  · intro i hi
    simp only [List.mem_singleton] at hi
    subst hi
    exact h

example (p : Profile) : ∃ cc' pks s', teletextNit.demux p 0x10 3 [] = .ok (cc', [] ++ pks.flatten) ∧
    (∀ pk ∈ pks, IsTsPacket 0x10 pk) ∧ receive (Nit.parse p) p Nit.default Psi.default pks = .ok (plainNit teletextAs teletextNit, s') := by
  refine C129_nit_received p teletextAs teletextNit teletextList_writes ?_ ?_ 0x10 3 [] (by decide) (by decide) Psi.default
  · intro i hi
    simp only [teletextNit, List.mem_singleton] at hi
    subst hi
    exact teletextList_writes
  · exact ⟨by decide, by decide, by decide +kernel, by decide +kernel⟩

/-- A descriptor that empties the buffer. -/
example : Boxes.assemble .debug [.own ⟨9, 1, 0, fun _ => .ok []⟩] [1, 2] = panic ∧
    Boxes.assemble .release [.own ⟨9, 1, 0, fun _ => .ok []⟩] [1, 2] = .ok (2 ^ 64 - 2, []) :=
  ⟨C129_shrinking .debug _ _ [] rfl, C129_shrinking .release _ _ [] rfl⟩

/-- An SDT whose services have descriptors of the user's own. -/
example (p : Profile) (pid : UInt16) (cc : UInt8) (dst : List UInt8) (hp : pid.toNat < 8192) (hc : cc.toNat < 16) :=
  Own.Sdt.C129_sdt_any p modestAs ⟨0x42, 5, 1, 2, [⟨7, 1, 1, 4, 0, [.own modest, .ours (.d52 ⟨3⟩)]⟩, ⟨8, 0, 1, 4, 1, []⟩]⟩ (by
    intro i hi
    simp only [List.mem_cons, List.not_mem_nil, or_false] at hi
    rcases hi with rfl | rfl
    · exact modest_appends p
    · intro d hd
      cases hd) pid cc dst hp hc

example := C129_clone_partial [.d52 ⟨3⟩, .raw ⟨0x80, [1, 2]⟩] (by
  intro d hd r e
  subst e
  simp only [List.mem_cons, reduceCtorEq, false_or, List.not_mem_nil, or_false, Desc.raw.injEq] at hd
  subst hd
  decide)

end Mpegts
