import Verif.Spec.Names
import Verif.Props.C76
import Verif.Props.C131
import Verif.Props.C134

/-! # C152: the names of services, networks and events, from text to text -/

namespace Mpegts
open Spec Spec.Table

namespace Names

/-- An empty string is sent as nothing, whatever its code page, and is received in the default one. -/
def blank (s : StringDVB) : StringDVB := if s.data = [] then ⟨0, []⟩ else s

/-- The same in the descriptors with names. -/
def blankDesc : Desc → Desc
  | .d40 d => .d40 ⟨blank d.name⟩
  | .d48 d => .d48 ⟨d.serviceType, blank d.provider, blank d.name⟩
  | .d4D d => .d4D ⟨d.lang, blank d.name, blank d.text⟩
  | d => d

theorem blank_text (s : StringDVB) : text (blank s) = text s := by
  unfold blank; split
  · rename_i h; simp [text, h, Text.encoding]
  · rfl

theorem blank_assemble (s : StringDVB) (b : List UInt8) : (blank s).assemble b = s.assemble b := by
  rw [C24_assemble, C24_assemble]
  exact congrArg (b ++ ·) (blank_text s)

theorem blank_size (s : StringDVB) : (blank s).size = s.size := by
  unfold blank; split
  · rename_i h; simp [StringDVB.size, h]
  · rfl

theorem blank_sized (s : StringDVB) (b : List UInt8) : (blank s).assembleSized b = s.assembleSized b := by
  unfold StringDVB.assembleSized
  simp only [blank_assemble]

theorem blank_shown (s : StringDVB) : (blank s).toStringR = s.toStringR := by
  unfold blank; split
  · rename_i h; rw [C80_display, C80_display, if_pos rfl, if_pos h]
  · rfl

theorem desc_size (d : Desc) : (blankDesc d).size = d.size := by
  cases d <;> simp [blankDesc, Desc.size, Desc40.size, Desc48.size, Desc4D.size, blank_size]

theorem desc_assemble (p : Profile) (d : Desc) (b : List UInt8) : (blankDesc d).assemble p b = d.assemble p b := by
  cases d <;> simp [blankDesc, Desc.assemble, Desc40.assemble, Desc48.assemble, Desc4D.assemble, blank_size, blank_sized, blank_assemble,
    Desc48.size, Desc4D.size]

theorem list_size (ds : Descriptors) : Descriptors.size (ds.map blankDesc) = Descriptors.size ds := by
  simp only [Descriptors.size, List.foldl_map, desc_size]

theorem list_assemble (p : Profile) (ds : Descriptors) (b : List UInt8) : Descriptors.assemble p (ds.map blankDesc) b = Descriptors.assemble p ds b := by
  have : ∀ b, Descriptors.assembleLoop p (ds.map blankDesc) b = Descriptors.assembleLoop p ds b := by
    induction ds with
    | nil => intro b; rfl
    | cons d r ih => intro b; simp only [List.map_cons, Descriptors.assembleLoop, desc_assemble, ih]
  unfold Descriptors.assemble
  rw [this]

def service (i : SdtItem) : SdtItem := { i with descriptors := i.descriptors.map blankDesc }
def event (i : EitItem) : EitItem := { i with descriptors := i.descriptors.map blankDesc }

theorem sdt_demux (p : Profile) (t : Sdt) (pid : UInt16) (cc : UInt8) (dst : List UInt8) :
    Sdt.demux p { t with items := t.items.map service } pid cc dst = t.demux p pid cc dst := by
  have h : ∀ (l : List SdtItem) (t t' : Sdt) (ht : t.psiInit p = t'.psiInit p) (done : List Psi) (psi : Psi),
      Sdt.assembleLoop p t (l.map service) done psi = Sdt.assembleLoop p t' l done psi := by
    intro l t t' ht
    induction l with
    | nil => intro done psi; rfl
    | cons i l ih =>
      intro done psi
      have e1 : (service i).size = i.size := by simp [SdtItem.size, service, list_size]
      have e2 : ∀ b, (service i).assemble p b = i.assemble p b := by intro b; simp [SdtItem.assemble, service, list_assemble]
      simp only [List.map_cons, Sdt.assembleLoop, e1, e2, ih, ht]
  unfold Sdt.demux Sdt.psiListAssemble
  have e : Sdt.psiInit p { t with items := t.items.map service } = t.psiInit p := rfl
  rw [e]
  congr 1
  congr 1
  funext psi
  exact h t.items _ _ e _ _

theorem nit_demux (p : Profile) (t : Nit) (pid : UInt16) (cc : UInt8) (dst : List UInt8) :
    Nit.demux p { t with descriptors := t.descriptors.map blankDesc } pid cc dst = t.demux p pid cc dst := by
  have e : ∀ f, Nit.psiInit p { t with descriptors := t.descriptors.map blankDesc } f = t.psiInit p f := by
    intro f; simp only [Nit.psiInit, list_assemble]
  have h : ∀ (l : List NitItem) (t t' : Nit) (ht : ∀ f, t.psiInit p f = t'.psiInit p f) (done : List Psi) (psi : Psi),
      Nit.assembleLoop p t l done psi = Nit.assembleLoop p t' l done psi := by
    intro l t t' ht
    induction l with
    | nil => intro done psi; rfl
    | cons i l ih => intro done psi; simp only [Nit.assembleLoop, ih, ht]
  unfold Nit.demux Nit.psiListAssemble
  simp only [e, h t.items _ _ e]

theorem eit_demux (p : Profile) (t : Eit) (ht : t.tableId = 0x4E ∨ t.tableId = 0x4F) (pid : UInt16) (cc : UInt8) (dst : List UInt8) :
    Eit.demux p { t with items := t.items.map event } pid cc dst = t.demux p pid cc dst := by
  have h : ∀ (l : List EitItem) (t t' : Eit) (ht : t.psiInit p = t'.psiInit p) (hid : t.tableId = t'.tableId) (last : UInt8) (n : Nat),
      Eit.pfLoop p t last n (l.map event) = Eit.pfLoop p t' last n l := by
    intro l t t' ht hid last
    induction l with
    | nil => intro n; rfl
    | cons i l ih =>
      intro n
      have e2 : ∀ b, (event i).assemble p b = i.assemble p b := by intro b; simp [EitItem.assemble, event, list_assemble]
      simp only [List.map_cons, Eit.pfLoop, e2, ih, ht, hid]
  have e : Eit.psiListAssemble p { t with items := t.items.map event } = t.psiListAssemble p := by
    unfold Eit.psiListAssemble
    cases hi : t.items with
    | nil => rfl
    | cons i l =>
      simp only [List.map_cons, List.head?_cons, List.getLast?_cons, if_pos ht, List.length_cons, List.length_map]
      rw [← List.map_cons]
      exact h (i :: l) { t with items := List.map event (i :: l) } t rfl rfl _ _
  unfold Eit.demux
  rw [e]

/-- What is received for a text that can be written. -/
theorem received (s : List Char) (cp : UInt8) (h : Writable s cp) :
    roundTrips (blank (StringDVB.fromStr s cp)) ∧ (blank (StringDVB.fromStr s cp)).toStringR = .ok s := by
  rw [blank_shown]
  rcases h with h | ⟨t, ht, hin, h0⟩
  · rw [C27_unknown_codepage s cp h]
    refine ⟨?_, (C27_utf8 s).2⟩
    rw [(C27_utf8 s).1, blank]
    split
    · exact .inl ⟨rfl, rfl⟩
    · rename_i hd; exact .inr ⟨hd, .inr (.inr rfl)⟩
  · obtain ⟨e1, e2, e3⟩ := C27_round_trip cp t ht s hin
    refine ⟨?_, e1⟩
    have h15 := Pieces.table_le cp (by rw [ht]; exact fun h => by cases h)
    unfold blank
    split
    · exact .inl ⟨rfl, rfl⟩
    · rename_i hd
      refine .inr ⟨hd, ?_⟩
      rw [e2]
      by_cases h : cp = 0
      · refine .inl ⟨h, ?_⟩
        obtain ⟨b, l, e⟩ := List.exists_cons_of_ne_nil hd
        rw [e] at e3 ⊢
        cases s with
        | nil => cases e3
        | cons c s =>
          have h20 := h0 h c rfl
          simp only [List.map_cons, List.cons.injEq] at e3
          rw [List.headD_cons]
          by_cases hb : b.toNat < 0x20
          · have hcb := e3.1
            rw [Text.charOf, if_pos (by omega)] at hcb
            cases hcb
            rw [char_toNat_ofNat (by omega)] at h20
            exact h20
          · omega
      · have : cp.toNat ≠ 0 := fun e => h (UInt8.toNat_inj.1 (by rw [e]; rfl))
        exact .inr (.inl ⟨by omega, h15⟩)

/-- Exact descriptors have nothing to blank. -/
theorem blank_exact (s : StringDVB) (h : roundTrips s) : blank s = s := by
  unfold blank; split
  · rename_i hd
    rcases h with h | h
    · cases s; simp_all
    · exact absurd hd h.1
  · rfl

theorem desc_exact (d : Desc) (h : d.Exact) : blankDesc d = d := by
  cases d with
  | d40 d => simp [blankDesc, blank_exact _ h]
  | d48 d => simp [blankDesc, blank_exact _ h.1, blank_exact _ h.2]
  | d4D d => simp [blankDesc, blank_exact _ h.2.1, blank_exact _ h.2.2]
  | _ => rfl

theorem desc_wire (d : Desc) : (blankDesc d).wire = d.wire := by
  cases d <;> simp [blankDesc, Desc.wire, blank_text]

theorem desc_good (d : Desc) (h : d.InRange ∧ ¬ d.HasItems) : (blankDesc d).InRange ∧ ¬ (blankDesc d).HasItems := by
  cases d <;> simpa [blankDesc, Desc.InRange, Desc.HasItems, blank_text] using h

theorem list_wire (ds : Descriptors) : (ds.map blankDesc).flatMap Desc.wire = ds.flatMap Desc.wire := by
  simp only [List.flatMap_map, desc_wire]

theorem list_good (ds : Descriptors) (h : Good ds) : Good (ds.map blankDesc) := by
  intro d hd
  obtain ⟨e, he, rfl⟩ := List.mem_map.1 hd
  exact desc_good e (h e he)

end Names

/-- C152: the services of an SDT, their names given as texts that can be written with the code pages chosen, are listed with these names by
whoever receives the packets, on any stream that carries them. -/
theorem C152_services (p : Profile) (t : Sdt) (ss : List NamedService) (hid : t.tableId = 0x42 ∨ t.tableId = 0x46) (hv : t.version.toNat < 32)
    (ht : t.items = ss.map NamedService.entry) (hr : ∀ x ∈ ss, Sdt.ItemInRange x.entry)
    (hd : ∀ x ∈ ss, ∀ d ∈ x.item.descriptors, d.Exact ∧ ∀ e, d ≠ .d48 e)
    (hw : ∀ x ∈ ss, Writable x.provider x.providerTable ∧ Writable x.name x.nameTable)
    (pid : UInt16) (cc : UInt8) (s : Psi) (hp : pid.toNat < 8192) (hc : cc.toNat < 16) :
    ∃ cc' pks, t.demux p pid cc [] = .ok (cc', pks.flatten) ∧ (∀ pk ∈ pks, IsTsPacket pid.toNat pk) ∧
      ∀ src : Source, Steady src → Carries pid.toNat src.data pks → ∀ buf : List UInt8, 188 ≤ buf.length → ∀ fuel, src.data.length < fuel →
        listServices p pid.toNat s fuel src buf = .ok (ss.map fun x => (x.item.pnr, [(x.type, x.provider, x.name)])) := by
  obtain ⟨cc', pks, s', h1, h2, h3⟩ := C76_sdt p { t with items := t.items.map Names.service } ⟨hid, hv, by
    intro i hi
    simp only [ht, List.map_map] at hi
    obtain ⟨x, hx, rfl⟩ := List.mem_map.1 hi
    obtain ⟨a1, a2, a3, a4, a5, a6⟩ := hr x hx
    refine ⟨⟨a1, a2, a3, a4, Names.list_good _ a5, ?_⟩, ?_⟩
    · rw [Sdt.entry_length] at a6 ⊢
      simp only [Function.comp_apply, Names.service, Names.list_wire]
      exact a6
    · intro d hd'
      simp only [Function.comp_apply, Names.service, NamedService.entry, List.map_cons] at hd'
      rcases List.mem_cons.1 hd' with rfl | hd'
      · exact ⟨(Names.received _ _ (hw x hx).1).1, (Names.received _ _ (hw x hx).2).1⟩
      · obtain ⟨e, he, rfl⟩ := List.mem_map.1 hd'
        rw [Names.desc_exact e (hd x hx e he).1]
        exact (hd x hx e he).1⟩ pid cc s hp hc
  rw [Names.sdt_demux] at h1
  refine ⟨cc', pks, h1, h2, fun src hs hcar buf hb fuel hf => ?_⟩
  rw [listServices, h3 src hs hcar buf hb fuel hf, ok_bind]
  simp only [ht, List.map_map, List.mapM_map]
  refine Pieces.mapM_ok _ _ _ fun x hx => ?_
  have hn : (List.map Names.blankDesc x.item.descriptors).filterMap asService = [] := by
    rw [List.filterMap_eq_nil_iff]
    intro d hd'
    obtain ⟨e, he, rfl⟩ := List.mem_map.1 hd'
    rw [Names.desc_exact e (hd x hx e he).1]
    have := (hd x hx e he).2
    cases e <;> first | rfl | exact absurd rfl (this _)
  simp only [Function.comp_apply, Names.service, NamedService.entry, List.map_cons, Names.blankDesc, serviceNames, List.filterMap_cons, hn, asService]
  simp only [List.mapM_cons, List.mapM_nil, (Names.received _ _ (hw x hx).1).2, (Names.received _ _ (hw x hx).2).2, ok_bind, pure_eq_ok]

/-- C152 for the name of a network. -/
theorem C152_network (p : Profile) (t : Nit) (name : List Char) (cp : UInt8) (ds : Descriptors) (hw : Writable name cp)
    (ht : Nit.InRange { t with descriptors := ds }) (hd : ∀ d ∈ ds, ∀ e, d ≠ .d40 e)
    (hn : Nit.NetworkInRange { t with descriptors := .d40 ⟨StringDVB.fromStr name cp⟩ :: ds })
    (pid : UInt16) (cc : UInt8) (s : Psi) (hp : pid.toNat < 8192) (hc : cc.toNat < 16) :
    ∃ cc' pks, Nit.demux p { t with descriptors := .d40 ⟨StringDVB.fromStr name cp⟩ :: ds } pid cc [] = .ok (cc', pks.flatten) ∧
      (∀ pk ∈ pks, IsTsPacket pid.toNat pk) ∧
      ∀ src : Source, Steady src → Carries pid.toNat src.data pks → ∀ buf : List UInt8, 188 ≤ buf.length → ∀ fuel, src.data.length < fuel →
        nameNetwork p pid.toNat s fuel src buf = .ok [name] := by
  have hx : ∀ d ∈ ds, Names.blankDesc d = d := fun d h => Names.desc_exact d (ht.network.2 d h)
  have hm : ds.map Names.blankDesc = ds := by
    conv_rhs => rw [← List.map_id ds]
    exact List.map_congr_left hx
  obtain ⟨cc', pks, s', h1, h2, h3⟩ := C76_nit p { t with descriptors := (.d40 ⟨StringDVB.fromStr name cp⟩ :: ds).map Names.blankDesc }
    ⟨ht.id, ht.version, ⟨⟨Names.list_good _ hn.1, by
        show _ + ((List.map Names.blankDesc (Desc.d40 ⟨StringDVB.fromStr name cp⟩ :: ds)).flatMap Desc.wire).length ≤ _
        rw [Names.list_wire]; exact hn.2⟩, by
      intro d hd'
      simp only [List.map_cons, hm] at hd'
      rcases List.mem_cons.1 hd' with rfl | hd'
      · exact (Names.received _ _ hw).1
      · exact ht.network.2 d hd'⟩, ht.items⟩ pid cc s hp hc
  have e := Names.nit_demux p { t with descriptors := .d40 ⟨StringDVB.fromStr name cp⟩ :: ds } pid cc []
  rw [← e]
  refine ⟨cc', pks, h1, h2, fun src hs hcar buf hb fuel hf => ?_⟩
  rw [nameNetwork, h3 src hs hcar buf hb fuel hf, ok_bind]
  have hz : ds.filterMap asNetwork = [] := by
    rw [List.filterMap_eq_nil_iff]
    intro d hd'
    have := hd d hd'
    cases d <;> first | rfl | exact absurd rfl (this _)
  simp only [networkNames, List.map_cons, hm, Names.blankDesc, List.filterMap_cons, hz, asNetwork, List.mapM_cons, List.mapM_nil,
    (Names.received _ _ hw).2, ok_bind, pure_eq_ok]

/-- C152 for the present and the following event: language (three letters), name and text. -/
theorem C152_events (p : Profile) (t : Eit) (es : List NamedEvent) (hid : t.tableId = 0x4E ∨ t.tableId = 0x4F) (hv : t.version.toNat < 32)
    (ht : t.items = es.map NamedEvent.entry) (hne : es ≠ []) (hr : ∀ x ∈ es, Eit.ItemInRange x.entry)
    (hd : ∀ x ∈ es, ∀ d ∈ x.item.descriptors, d.Exact ∧ ∀ e, d ≠ .d4D e)
    (hl : ∀ x ∈ es, x.lang.length = 3 ∧ ∀ c ∈ x.lang, 0x20 ≤ c.val.toNat ∧ c.val.toNat < 0x80)
    (hw : ∀ x ∈ es, Writable x.name x.nameTable ∧ Writable x.text x.textTable)
    (pid : UInt16) (cc : UInt8) (s : Psi) (hp : pid.toNat < 8192) (hc : cc.toNat < 16) :
    ∃ cc' pks, t.demux p pid cc [] = .ok (cc', pks.flatten) ∧ (∀ pk ∈ pks, IsTsPacket pid.toNat pk) ∧
      ∀ src : Source, Steady src → Carries pid.toNat src.data pks → ∀ buf : List UInt8, 188 ≤ buf.length → ∀ fuel, src.data.length < fuel →
        listEvents p pid.toNat s fuel src buf = .ok (es.map fun x => (x.item.eventId, x.item.start, [(x.lang, x.name, x.text)])) := by
  have hlang : ∀ x ∈ es, roundTrips (StringDVB.fromStr x.lang 0) ∧ (StringDVB.fromStr x.lang 0).toStringR = .ok x.lang := by
    intro x hx
    have := Names.received x.lang 0 (.inr ⟨_, rfl, by
      intro c hc
      have := (hl x hx).2 c hc
      refine ⟨UInt8.ofNat c.val.toNat, ?_⟩
      rw [Text.charOf, if_pos (by rw [UInt8.toNat_ofNat']; omega), UInt8.toNat_ofNat', Nat.mod_eq_of_lt (by omega), char_ofNat c _ rfl],
      fun _ c hc => ((hl x hx).2 c (List.mem_of_mem_head? hc)).1⟩)
    rw [Names.blank_shown] at this
    refine ⟨?_, this.2⟩
    have h1 := this.1
    rwa [Names.blank, if_neg] at h1
    intro e
    have := Codes.ascii 0 x.lang (hl x hx).2
    rw [this] at e
    have := congrArg List.length e
    simp [(hl x hx).1] at this
  obtain ⟨cc', pks, s', h1, h2, h3⟩ := Eit.C58_round_trip_partial p { t with items := t.items.map Names.event } hid ⟨hv, by
    intro i hi
    simp only [ht, List.map_map] at hi
    obtain ⟨x, hx, rfl⟩ := List.mem_map.1 hi
    obtain ⟨a1, a2, a3, a4, a5, a6⟩ := hr x hx
    refine ⟨⟨a1, a2, a3, a4, Names.list_good _ a5, ?_⟩, ?_⟩
    · rw [Eit.entry_length] at a6 ⊢
      simp only [Function.comp_apply, Names.event, Names.list_wire]
      exact a6
    · intro d hd'
      simp only [Function.comp_apply, Names.event, NamedEvent.entry, List.map_cons] at hd'
      rcases List.mem_cons.1 hd' with rfl | hd'
      · exact ⟨(hlang x hx).1, (Names.received _ _ (hw x hx).1).1, (Names.received _ _ (hw x hx).2).1⟩
      · obtain ⟨e, he, rfl⟩ := List.mem_map.1 hd'
        rw [Names.desc_exact e (hd x hx e he).1]
        exact (hd x hx e he).1⟩ (by simpa [ht] using hne) pid cc [] s hp hc
  rw [Names.eit_demux p t hid, List.nil_append] at h1
  refine ⟨cc', pks, h1, h2, fun src hs hcar buf hb fuel hf => ?_⟩
  rw [listEvents, C76_listen _ p _ _ s src hs pks hcar buf hb fuel hf, h3, ok_bind]
  simp only [ht, List.map_map, List.mapM_map]
  refine Pieces.mapM_ok _ _ _ fun x hx => ?_
  have hn : (List.map Names.blankDesc x.item.descriptors).filterMap asEvent = [] := by
    rw [List.filterMap_eq_nil_iff]
    intro d hd'
    obtain ⟨e, he, rfl⟩ := List.mem_map.1 hd'
    rw [Names.desc_exact e (hd x hx e he).1]
    have := (hd x hx e he).2
    cases e <;> first | rfl | exact absurd rfl (this _)
  simp only [Function.comp_apply, Names.event, NamedEvent.entry, List.map_cons, Names.blankDesc, eventNames, List.filterMap_cons, hn, asEvent]
  simp only [List.mapM_cons, List.mapM_nil, (hlang x hx).2, (Names.received _ _ (hw x hx).1).2, (Names.received _ _ (hw x hx).2).2, ok_bind, pure_eq_ok]

/-! ## A concrete case: a service with a Cyrillic name and no provider, one in UTF-8, a network and an event -/

instance (t : List Nat) (c : Char) : Decidable (Text.InTable t c) :=
  decidable_of_iff (∃ n : Fin 256, Text.charOf t (UInt8.ofNat n) = some c)
    ⟨fun ⟨n, h⟩ => ⟨_, h⟩, fun ⟨b, h⟩ => ⟨⟨b.toNat, b.toNat_lt⟩, by rw [UInt8.ofNat_toNat]; exact h⟩⟩

def namedServices : List NamedService :=
  [⟨⟨0x101, 0, 1, 4, 0, [.d52 ⟨7⟩]⟩, 1, [], 9, "Первый".toList, 5⟩, ⟨⟨0x102, 1, 1, 4, 1, []⟩, 2, "Čtyři".toList, 2, "日本 €".toList, 21⟩]

def namedSdt : Sdt := ⟨0x42, 3, 1, 2, namedServices.map NamedService.entry⟩

theorem named_writable : ∀ x ∈ namedServices, Writable x.provider x.providerTable ∧ Writable x.name x.nameTable := by
  intro x hx
  simp only [namedServices, List.mem_cons, List.not_mem_nil, or_false] at hx
  rcases hx with rfl | rfl
  · exact ⟨.inr ⟨_, rfl, by simp, by simp⟩, .inr ⟨_, rfl, by decide +kernel, by simp⟩⟩
  · exact ⟨.inr ⟨_, rfl, by decide +kernel, by simp⟩, .inl rfl⟩

theorem named_range : ∀ x ∈ namedServices, Sdt.ItemInRange x.entry ∧ ∀ d ∈ x.item.descriptors, d.Exact ∧ ∀ e, d ≠ .d48 e := by
  intro x hx
  simp only [namedServices, List.mem_cons, List.not_mem_nil, or_false] at hx
  rcases hx with rfl | rfl
  · refine ⟨⟨by decide, by decide, by decide, by decide, ?_, by decide +kernel⟩, ?_⟩
    · intro d hd
      simp only [NamedService.entry, List.mem_cons, List.not_mem_nil, or_false] at hd
      rcases hd with rfl | rfl
      · exact ⟨by simp only [Desc.InRange]; decide +kernel, by simp [Desc.HasItems]⟩
      · exact ⟨trivial, by simp [Desc.HasItems]⟩
    · intro d hd
      simp only [List.mem_cons, List.not_mem_nil, or_false] at hd
      subst hd
      exact ⟨trivial, by simp⟩
  · refine ⟨⟨by decide, by decide, by decide, by decide, ?_, by decide +kernel⟩, by simp⟩
    intro d hd
    simp only [NamedService.entry, List.mem_cons, List.not_mem_nil, or_false] at hd
    subst hd
    exact ⟨by simp only [Desc.InRange]; decide +kernel, by simp [Desc.HasItems]⟩

/-- The hypotheses of C152 are met by this SDT, whatever the reassembler held. -/
example (p : Profile) (s : Psi) : ∃ cc' pks, namedSdt.demux p 0x11 3 [] = .ok (cc', pks.flatten) ∧ (∀ pk ∈ pks, IsTsPacket 0x11 pk) ∧
    ∀ src : Source, Steady src → Carries 0x11 src.data pks → ∀ buf : List UInt8, 188 ≤ buf.length → ∀ fuel, src.data.length < fuel →
      listServices p 0x11 s fuel src buf =
        .ok [(0x101, [(1, [], "Первый".toList)]), (0x102, [(2, "Čtyři".toList, "日本 €".toList)])] :=
  C152_services p namedSdt namedServices (by decide) (by decide) rfl (fun x hx => (named_range x hx).1) (fun x hx => (named_range x hx).2)
    named_writable 0x11 3 s (by decide) (by decide)

/-- And of the theorem for networks by this NIT. -/
example (p : Profile) (s : Psi) : ∃ cc' pks, Nit.demux p ⟨0x40, 1, 9, [.d40 ⟨StringDVB.fromStr "Ελλάδα".toList 7⟩], [⟨1, 2, []⟩]⟩ 0x10 0 [] = .ok (cc', pks.flatten) ∧
    (∀ pk ∈ pks, IsTsPacket 0x10 pk) ∧
    ∀ src : Source, Steady src → Carries 0x10 src.data pks → ∀ buf : List UInt8, 188 ≤ buf.length → ∀ fuel, src.data.length < fuel →
      nameNetwork p 0x10 s fuel src buf = .ok ["Ελλάδα".toList] :=
  C152_network p ⟨0x40, 1, 9, [], [⟨1, 2, []⟩]⟩ "Ελλάδα".toList 7 [] (.inr ⟨_, rfl, by decide +kernel, by simp⟩)
    ⟨by decide, by decide, ⟨⟨by simp [Good], by decide +kernel⟩, by simp⟩, by
      intro i hi
      simp only [List.mem_cons, List.not_mem_nil, or_false] at hi
      subst hi
      exact ⟨⟨by simp [Good], by decide +kernel⟩, by simp⟩⟩ (by simp)
    ⟨by
      intro d hd
      simp only [List.mem_cons, List.not_mem_nil, or_false] at hd
      subst hd
      exact ⟨by simp only [Desc.InRange]; decide +kernel, by simp [Desc.HasItems]⟩, by decide +kernel⟩ 0x10 0 s (by decide) (by decide)

def namedEvents : List NamedEvent := [⟨⟨7, 1700000000, 3600, 4, 0, []⟩, "deu".toList, "Nachrichten".toList, 0, "für alle".toList, 15⟩]

/-- And of the theorem for events by this one. -/
example (p : Profile) (s : Psi) : ∃ cc' pks, Eit.demux p ⟨0x4E, 1, 9, 1, 2, namedEvents.map NamedEvent.entry⟩ 0x12 0 [] = .ok (cc', pks.flatten) ∧
    (∀ pk ∈ pks, IsTsPacket 0x12 pk) ∧
    ∀ src : Source, Steady src → Carries 0x12 src.data pks → ∀ buf : List UInt8, 188 ≤ buf.length → ∀ fuel, src.data.length < fuel →
      listEvents p 0x12 s fuel src buf = .ok [(7, 1700000000, [("deu".toList, "Nachrichten".toList, "für alle".toList)])] :=
  C152_events p ⟨0x4E, 1, 9, 1, 2, namedEvents.map NamedEvent.entry⟩ namedEvents (by decide) (by decide) rfl (by simp [namedEvents])
    (by
      intro x hx
      simp only [namedEvents, List.mem_cons, List.not_mem_nil, or_false] at hx
      subst hx
      refine ⟨by unfold TimeInRange; decide +kernel, by decide +kernel, by decide, by decide, ?_, by decide +kernel⟩
      intro d hd
      simp only [NamedEvent.entry, List.mem_cons, List.not_mem_nil, or_false] at hd
      subst hd
      exact ⟨by simp only [Desc.InRange]; decide +kernel, by simp [Desc.HasItems]⟩)
    (by intro x hx; simp only [namedEvents, List.mem_cons, List.not_mem_nil, or_false] at hx; subst hx; simp)
    (by intro x hx; simp only [namedEvents, List.mem_cons, List.not_mem_nil, or_false] at hx; subst hx; exact ⟨rfl, by decide⟩)
    (by
      intro x hx
      simp only [namedEvents, List.mem_cons, List.not_mem_nil, or_false] at hx
      subst hx
      exact ⟨.inr ⟨_, rfl, by decide +kernel, by intro _ c hc; cases hc; decide⟩, .inr ⟨_, rfl, by decide +kernel, by simp⟩⟩) 0x12 0 s (by decide) (by decide)

end Mpegts
