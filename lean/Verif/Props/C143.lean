import Verif.Props.C142

/-! # C143: tables over a channel that loses packets and damages bits -/

namespace Mpegts
open Spec Spec.Table Spec.Schedule

/-- Where sections start in a stream depends on the lengths of the sections only. -/
theorem stream_starts (pid : Nat) (hp : pid < 8192) (secs : List (List UInt8)) (cc : Nat) :
    (stream pid cc secs).map pusiOf = secs.flatMap fun sec => (List.range (packetCount sec.length)).map fun i => decide (i = 0) := by
  induction secs generalizing cc with
  | nil => rfl
  | cons sec r ih =>
    have h : (packets pid cc sec).map pusiOf = (List.range (packetCount sec.length)).map fun i => decide (i = 0) := by
      unfold packets
      rw [List.map_map]
      refine List.map_congr_left fun i _ => ?_
      rw [Function.comp_apply]
      exact (packetAt_fields pid cc hp sec i).2.2.1
    rw [stream, List.map_append, ih, List.flatMap_cons, h]

theorem starts_congr (pid : Nat) (hp : pid < 8192) {a b : List (List UInt8)} (h : List.Forall₂ (fun x y => y.length = x.length) a b) (cc : Nat) :
    (stream pid cc b).map pusiOf = (stream pid cc a).map pusiOf := by
  rw [stream_starts pid hp, stream_starts pid hp]
  induction h with
  | nil => rfl
  | cons h _ ih => rw [List.flatMap_cons, List.flatMap_cons, ih, h]

theorem unambiguous_congr {keep : Nat → Bool} {a b : List (List UInt8)} (h : b.map pusiOf = a.map pusiOf) (hu : Unambiguous keep a) :
    Unambiguous keep b := by
  have hl : b.length = a.length := by simpa using congrArg List.length h
  have hg : ∀ j, j < a.length → pusiOf (b.getD j []) = pusiOf (a.getD j []) := by
    intro j hj
    have h1 := congrArg (·[j]?) h
    simp only [List.getElem?_map, List.getElem?_eq_getElem hj, List.getElem?_eq_getElem (hl ▸ hj : j < b.length), Option.map_some] at h1
    rw [List.getD_eq_getElem?_getD, List.getD_eq_getElem?_getD, List.getElem?_eq_getElem hj, List.getElem?_eq_getElem (hl ▸ hj : j < b.length)]
    exact Option.some.inj h1
  intro i j h1 h2 h3 h4 h5 h6 h7
  rw [hl] at h2
  obtain ⟨k, k1, k2, k3, k4⟩ := hu i j h1 h2 h3 h4 h5 h6 (by rw [← hg j h2]; exact h7)
  exact ⟨k, k1, k2, k3, by rw [hg k (by omega)]; exact k4⟩

theorem disturbed_length {a b : List UInt8} (h : Disturbed a b) : b.length = a.length := by
  rcases h with rfl | h
  · rfl
  · exact h.1

/-- A table whose sections are sent one after the other over a channel that loses packets and damages bits. -/
theorem Sent.rough {α β : Type} {p : Profile} {parse : α → Psi → R α} {l : List β} {f : β → List UInt8} {step : α → β → α}
    (H : Sent p parse l f step) (pid : Nat) (hp : pid < 8192) (got : List (List UInt8)) (hg : List.Forall₂ Disturbed (l.map f) got)
    (keep : Nat → Bool) (h0 : keep 0 = true) (t : α) (s : Psi) (hok : s.Ok) (cc : Nat)
    (hu : Unambiguous keep (stream pid cc (l.map f))) :
    ∃ s', receive parse p t s (received keep 0 (stream pid cc got)) = .ok ((arriving keep l (l.map f) got).foldl step t, s') := by
  have hlen : l.length = got.length := by simpa using hg.length_eq
  have hz : ∀ x ∈ l.zip got, x.1 ∈ l ∧ Disturbed (f x.1) x.2 := by
    intro x hx
    refine ⟨(List.of_mem_zip hx).1, ?_⟩
    exact forall2_zip hg (f x.1, x.2) (by rw [List.zip_map_left]; exact List.mem_map.2 ⟨x, hx, rfl⟩)
  have e1 : (l.zip got).map (·.2) = got := List.map_snd_zip (by omega)
  have hsec : ∀ sec ∈ got, IsSection sec := by
    intro sec hs
    rw [← e1] at hs
    obtain ⟨x, hx, rfl⟩ := List.mem_map.1 hs
    rcases (hz x hx).2 with e | e
    · rw [e]; exact (H.sec x.1 (hz x hx).1).1
    · exact e.2.1
  have h83 := C83_any p pid cc hp keep got hsec h0
    (unambiguous_congr (starts_congr pid hp (hg.imp fun _ _ => disturbed_length) cc) hu) s
  have e2 : (intact keep 0 got).filter (fun sec => decide (7 < sec.length ∧ crc32 sec = 0)) =
      ((survivors (·.2) keep 0 (l.zip got)).filter fun x => f x.1 == x.2).map (·.2) := by
    conv_lhs => rw [← e1]
    rw [intact_map, List.filter_map]
    refine congrArg _ (List.filter_congr ?_)
    intro x hx
    obtain ⟨hx1, hx2⟩ := hz x (survivors_mem _ _ _ _ x hx)
    obtain ⟨g1, g2, g3⟩ := H.sec x.1 hx1
    simp only [Function.comp_apply]
    by_cases e : x.2 = f x.1
    · rw [e, decide_eq_true ⟨g2, g3⟩, beq_self_eq_true]
    · have hr := disturbed_rejected p ⟨x.2, x.2.length, 0, 0⟩ (f x.1) x.2 g1 g2 g3 hx2 e rfl rfl
      rw [Psi.check_eq, List.take_length] at hr
      have hr := of_decide_eq_false (Except.ok.inj hr)
      rw [beq_eq_false_iff_ne.2 (Ne.symm e)]
      refine decide_eq_false fun h => hr ⟨h.1, Nat.le_refl _, h.2⟩
  rw [e2] at h83
  have hmem : ∀ x ∈ (survivors (·.2) keep 0 (l.zip got)).filter (fun x => f x.1 == x.2), x.1 ∈ l ∧ x.2 = f x.1 := by
    intro x hx
    obtain ⟨h1, h2⟩ := List.mem_filter.1 hx
    exact ⟨(hz x (survivors_mem _ _ _ _ x h1)).1, (beq_iff_eq.1 h2).symm⟩
  obtain ⟨s', h⟩ := receive_sections parse (fun t sec => parse t ⟨sec, sec.length, 0, 0⟩) p H.rej _
    (fun pk hpk => stream_plain pid hp _ cc pk (received_mem _ _ _ pk hpk)) t s hok _ (by
      intro t sec hsec psi h1 h2
      obtain ⟨x, hx, rfl⟩ := List.mem_map.1 hsec
      obtain ⟨m1, m2⟩ := hmem x hx
      rw [H.par t x.1 m1 psi (by rw [h1, m2]) (by rw [h2, m2]), H.par t x.1 m1 _ m2 (by rw [← m2])]) h83
  refine ⟨s', ?_⟩
  rw [h]
  have hf : ∀ (m : List (β × List UInt8)), (∀ x ∈ m, x.1 ∈ l ∧ x.2 = f x.1) → ∀ t,
      (m.map (·.2)).foldlM (fun t sec => parse t ⟨sec, sec.length, 0, 0⟩) t = .ok ((m.map (·.1)).foldl step t) := by
    intro m
    induction m with
    | nil => intro _ t; rfl
    | cons x m ih =>
      intro hm t
      obtain ⟨m1, m2⟩ := hm x List.mem_cons_self
      rw [List.map_cons, List.foldlM_cons, H.par t x.1 m1 _ m2 (by rw [← m2]), ok_bind, ih (fun y hy => hm y (List.mem_cons_of_mem _ hy))]
      rfl
  rw [hf _ hmem, map_ok]
  refine congrArg (fun x => Except.ok (List.foldl step t x, s')) ?_
  unfold arriving
  have e3 : l.zip ((l.map f).zip got) = (l.zip got).map fun x => (x.1, f x.1, x.2) := by
    clear hg hz e1 hsec h83 e2 hmem h hu H hf
    induction l generalizing got with
    | nil => rfl
    | cons x r ih =>
      cases got with
      | nil => rfl
      | cons g got => simp only [List.map_cons, List.zip_cons_cons, ih got (Nat.succ.inj hlen)]
  rw [e3, survivors_map, List.filter_map, List.map_map,
    survivors_congr_length (f := fun x : β × List UInt8 => f x.1) (g := fun x => x.2) keep 0 (l.zip got)
      fun x hx => (disturbed_length (hz x hx).2).symm]
  rfl

/-! ## The tables -/

/-- C143: an SDT is sent; packets are lost (but not the first one, and the counter stays unambiguous), and bits of its sections are damaged (up
to three in each or any number in a window of 32 bits of each, and not in its length).  The receiver has exactly the services of the
sections all of whose packets arrive and are undamaged, in order, and the head of the table if there is such a section. -/
theorem C143_sdt (p : Profile) (t : Sdt) (ht : t.InRange) (pid : UInt16) (cc : UInt8) (dst : List UInt8) (hp : pid.toNat < 8192) (hc : cc.toNat < 16) :
    ∃ gs, Packed (fun i => (Sdt.entry i).length) 1020 11 11 t.items gs ∧
      t.demux p pid cc dst = .ok (UInt8.ofNat ((cc.toNat + streamCount (t.wire gs)) % 16), dst ++ (stream pid.toNat cc.toNat (t.wire gs)).flatten) ∧
      ∀ (got : List (List UInt8)) (keep : Nat → Bool) (s : Psi), List.Forall₂ Disturbed (t.wire gs) got → s.Ok → keep 0 = true →
        Unambiguous keep (stream pid.toNat cc.toNat (t.wire gs)) →
        let arrived := arriving keep gs.zipIdx (t.wire gs) got
        ∃ s', receive (Sdt.parse p) p Sdt.default s (received keep 0 (stream pid.toNat cc.toNat got)) =
          .ok (if arrived = [] then Sdt.default else { t with items := arrived.flatMap (·.1) }, s') := by
  obtain ⟨gs, P, hw⟩ := Sdt.C57_wire p t (fun i hi => (ht.items i hi).1) pid cc dst hp hc
  refine ⟨gs, P, hw, ?_⟩
  intro got keep s hg hs h0 hu
  obtain ⟨s', h⟩ := (Sdt.sent p t ht gs P).rough pid.toNat hp got hg keep h0 Sdt.default s hs cc.toNat hu
  refine ⟨s', ?_⟩
  rw [h, foldl_items _ (fun x => { t with items := x }) Sdt.items (fun x : List SdtItem × Nat => x.1) (fun _ => rfl)]
  rfl

/-- C143 for the NIT: moreover the network descriptors arrive with section 0. -/
theorem C143_nit (p : Profile) (t : Nit) (ht : t.InRange) (pid : UInt16) (cc : UInt8) (dst : List UInt8) (hp : pid.toNat < 8192) (hc : cc.toNat < 16) :
    ∃ gs, Packed (fun i => (Nit.entry i).length) 1020 (12 + (t.descriptors.flatMap Desc.wire).length) 12 t.items gs ∧
      t.demux p pid cc dst = .ok (UInt8.ofNat ((cc.toNat + streamCount (t.wire gs)) % 16), dst ++ (stream pid.toNat cc.toNat (t.wire gs)).flatten) ∧
      ∀ (got : List (List UInt8)) (keep : Nat → Bool) (s : Psi), List.Forall₂ Disturbed (t.wire gs) got → s.Ok → keep 0 = true →
        Unambiguous keep (stream pid.toNat cc.toNat (t.wire gs)) →
        let arrived := arriving keep gs.zipIdx (t.wire gs) got
        ∃ s', receive (Nit.parse p) p Nit.default s (received keep 0 (stream pid.toNat cc.toNat got)) =
          .ok (if arrived = [] then Nit.default else
            { t with descriptors := arrived.flatMap (fun x => if x.2 = 0 then t.descriptors else []), items := arrived.flatMap (·.1) }, s') := by
  obtain ⟨gs, P, hw⟩ := Nit.C56_wire p t ht.network.1 (fun i hi => (ht.items i hi).1) pid cc dst hp hc
  refine ⟨gs, P, hw, ?_⟩
  intro got keep s hg hs h0 hu
  obtain ⟨s', h⟩ := (Nit.sent p t ht gs P).rough pid.toNat hp got hg keep h0 Nit.default s hs cc.toNat hu
  refine ⟨s', ?_⟩
  rw [h, Nit.foldl_sent]
  rfl

/-- C143 for the PMT; `ds` is what the parser makes of the program descriptors (C55). -/
theorem C143_pmt (p : Profile) (t : Pmt) (ht : t.InRange) (ds : Descriptors) (hds : Pmt.misread p t = .ok ds)
    (pid : UInt16) (cc : UInt8) (dst : List UInt8) (hp : pid.toNat < 8192) (hc : cc.toNat < 16) :
    ∃ gs, Packed (fun i => (Pmt.entry i).length) 1020 (12 + (t.descriptors.flatMap Desc.wire).length) 12 t.items gs ∧
      t.demux p pid cc dst = .ok (UInt8.ofNat ((cc.toNat + streamCount (t.wire gs)) % 16), dst ++ (stream pid.toNat cc.toNat (t.wire gs)).flatten) ∧
      ∀ (got : List (List UInt8)) (keep : Nat → Bool) (s : Psi), List.Forall₂ Disturbed (t.wire gs) got → s.Ok → keep 0 = true →
        Unambiguous keep (stream pid.toNat cc.toNat (t.wire gs)) →
        let arrived := arriving keep gs.zipIdx (t.wire gs) got
        ∃ s', receive (Pmt.parse p) p Pmt.default s (received keep 0 (stream pid.toNat cc.toNat got)) =
          .ok (if arrived = [] then Pmt.default else
            { t with descriptors := arrived.flatMap (fun x => if x.2 = 0 then ds else []), items := arrived.flatMap (·.1) }, s') := by
  obtain ⟨gs, P, hw⟩ := Pmt.C55_wire p t ht.program (fun i hi => (ht.items i hi).1) pid cc dst hp hc
  refine ⟨gs, P, hw, ?_⟩
  intro got keep s hg hs h0 hu
  obtain ⟨s', h⟩ := (Pmt.sent p t ht ds hds gs P).rough pid.toNat hp got hg keep h0 Pmt.default s hs cc.toNat hu
  refine ⟨s', ?_⟩
  rw [h, Pmt.foldl_sent]
  rfl

/-- C143 for a present/following EIT: every event is a section of its own. -/
theorem C143_eit_pf (p : Profile) (t : Eit) (hid : t.tableId = 0x4E ∨ t.tableId = 0x4F) (ht : t.InRange) (pid : UInt16) (cc : UInt8)
    (dst : List UInt8) (hp : pid.toNat < 8192) (hc : cc.toNat < 16) :
    t.demux p pid cc dst = .ok (UInt8.ofNat ((cc.toNat + streamCount t.wirePf) % 16), dst ++ (stream pid.toNat cc.toNat t.wirePf).flatten) ∧
      ∀ (got : List (List UInt8)) (keep : Nat → Bool) (s : Psi), List.Forall₂ Disturbed t.wirePf got → s.Ok → keep 0 = true →
        Unambiguous keep (stream pid.toNat cc.toNat t.wirePf) →
        let arrived := arriving keep t.items.zipIdx t.wirePf got
        ∃ s', receive (Eit.parse p) p Eit.default s (received keep 0 (stream pid.toNat cc.toNat got)) =
          .ok (if arrived = [] then Eit.default else { t with items := arrived.map (·.1) }, s') := by
  refine ⟨Eit.C58_wire p t hid (fun i hi => (ht.items i hi).1) pid cc dst hp hc, ?_⟩
  intro got keep s hg hs h0 hu
  obtain ⟨s', h⟩ := (Eit.sent_pf p t hid ht).rough pid.toNat hp got hg keep h0 Eit.default s hs cc.toNat hu
  refine ⟨s', ?_⟩
  rw [h, foldl_items _ (fun x => { t with items := x }) Eit.items (fun x : EitItem × Nat => [x.1]) (fun _ => rfl), flatMap_fst]
  rfl

/-- C143 for a schedule: the events of the sections that arrive undamaged; the table id is that of the last one. -/
theorem C143_eit_schedule (p : Profile) (t : Eit) (hs : t.Schedulable) (ht : t.InRange) (pid : UInt16) (cc : UInt8)
    (dst : List UInt8) (hp : pid.toNat < 8192) (hc : cc.toNat < 16) :
    t.demux p pid cc dst = .ok (UInt8.ofNat ((cc.toNat + streamCount t.wireSchedule) % 16),
        dst ++ (stream pid.toNat cc.toNat t.wireSchedule).flatten) ∧
      ∀ (got : List (List UInt8)) (keep : Nat → Bool) (s : Psi), List.Forall₂ Disturbed t.wireSchedule got → s.Ok → keep 0 = true →
        Unambiguous keep (stream pid.toNat cc.toNat t.wireSchedule) →
        let arrived := arriving keep (withLast t.slots) t.wireSchedule got
        ∃ s', receive (Eit.parse p) p Eit.default s (received keep 0 (stream pid.toNat cc.toNat got)) =
          .ok (match arrived.getLast? with
            | none => Eit.default
            | some x => { t with tableId := UInt8.ofNat x.1.table, items := arrived.flatMap (·.1.events) }, s') := by
  refine ⟨Eit.C60_wire_partial p t hs pid cc dst hp hc, ?_⟩
  intro got keep s hg hok h0 hu
  obtain ⟨s', h⟩ := (Eit.sent_schedule p t hs ht).rough pid.toNat hp got hg keep h0 Eit.default s hok cc.toNat hu
  refine ⟨s', ?_⟩
  rw [h, Eit.foldl_sent]
  rfl

/-- C143 for the PAT, which is one section: all or nothing. -/
theorem C143_pat (p : Profile) (t : Pat) (hv : t.version.toNat < 32) (hn : t.items.length ≤ 253) (hi : ∀ i ∈ t.items, i.pid.toNat < 8192)
    (pid : UInt16) (cc : UInt8) (dst : List UInt8) (hp : pid.toNat < 8192) (hc : cc.toNat < 16) :
    t.demux p pid cc dst = .ok (UInt8.ofNat ((cc.toNat + packetCount (t.wire t.items).length) % 16),
        dst ++ (packets pid.toNat cc.toNat (t.wire t.items)).flatten) ∧
      ∀ (got : List UInt8) (keep : Nat → Bool) (s : Psi), Disturbed (t.wire t.items) got → s.Ok → keep 0 = true →
        ∃ s', receive (Pat.parse p) p Pat.default s (received keep 0 (packets pid.toNat cc.toNat got)) =
          .ok (if got = t.wire t.items ∧ ∀ i < packetCount (t.wire t.items).length, keep i = true then t else Pat.default, s') := by
  refine ⟨(C91_pat p t hv hn hi pid cc dst hp hc).1, ?_⟩
  intro got keep s hg hs h0
  have hst : ∀ w, stream pid.toNat cc.toNat [w] = packets pid.toNat cc.toNat w := by intro w; simp [stream]
  have hlen := (Pat.wire_le t).1
  rw [List.take_of_length_le hn] at hlen
  obtain ⟨s', h⟩ := (Pat.sent p t hv hn hi).rough pid.toNat hp [got] (.cons hg .nil) keep h0 Pat.default s hs cc.toNat (by
    intro i j h1 h2 _ _ _ h5 _
    rw [List.map_cons, List.map_nil, hst, packets_length] at h2
    unfold packetCount at h2
    omega)
  refine ⟨s', ?_⟩
  rw [hst] at h
  rw [h]
  refine congrArg (fun x => Except.ok (x, s')) ?_
  simp only [arriving, List.map_cons, List.map_nil, List.zip_cons_cons, List.zip_nil_left, survivors, Nat.zero_add, List.all_eq_true,
    List.mem_range]
  by_cases hk : ∀ i < packetCount (t.wire t.items).length, keep i = true
  · by_cases e : got = t.wire t.items
    · subst e; rw [if_pos hk, if_pos ⟨rfl, hk⟩]; simp [Pat.default]
    · rw [if_pos hk, if_neg (fun h => e h.1)]; simp [Ne.symm e]
  · rw [if_neg hk, if_neg (fun h => hk h.2)]; rfl

/-- C143 for the TOT, which is one section: all or nothing. -/
theorem C143_tot (p : Profile) (t u : Tot) (h : t.InRange) (he : ∀ d ∈ t.descriptors, d.Exact)
    (pid : UInt16) (cc : UInt8) (dst : List UInt8) (hp : pid.toNat < 8192) (hc : cc.toNat < 16) :
    t.demux p pid cc dst = .ok (UInt8.ofNat ((cc.toNat + packetCount t.wire.length) % 16), dst ++ (packets pid.toNat cc.toNat t.wire).flatten) ∧
      ∀ (got : List UInt8) (keep : Nat → Bool) (s : Psi), Disturbed t.wire got → s.Ok → keep 0 = true →
        Unambiguous keep (packets pid.toNat cc.toNat t.wire) →
        ∃ s', receive (Tot.parse p) p u s (received keep 0 (packets pid.toNat cc.toNat got)) =
          .ok (if got = t.wire ∧ ∀ i < packetCount t.wire.length, keep i = true then
            { t with descriptors := u.descriptors ++ t.descriptors } else u, s') := by
  refine ⟨Tot.C62_wire p t h pid cc dst hp hc, ?_⟩
  intro got keep s hg hs h0 hu
  have hst : ∀ w, stream pid.toNat cc.toNat [w] = packets pid.toNat cc.toNat w := by intro w; simp [stream]
  obtain ⟨s', h⟩ := (Tot.sent p t h he).rough pid.toNat hp [got] (.cons hg .nil) keep h0 u s hs cc.toNat (by
    rw [List.map_cons, List.map_nil, hst]; exact hu)
  refine ⟨s', ?_⟩
  rw [hst] at h
  rw [h]
  refine congrArg (fun x => Except.ok (x, s')) ?_
  simp only [arriving, List.map_cons, List.map_nil, List.zip_cons_cons, List.zip_nil_left, survivors, Nat.zero_add, List.all_eq_true,
    List.mem_range]
  by_cases hk : ∀ i < packetCount t.wire.length, keep i = true
  · by_cases e : got = t.wire
    · subst e; rw [if_pos hk, if_pos ⟨rfl, hk⟩]; simp
    · rw [if_pos hk, if_neg (fun h => e h.1)]; simp [Ne.symm e]
  · rw [if_neg hk, if_neg (fun h => hk h.2)]; rfl

/-! ## Cases -/

/-- The SDT of five sections: bits of the first section are damaged, and a packet of the fourth is lost.  Exactly the services of the other
three arrive. -/
theorem C143_example (p : Profile) (s : Psi) (hs : s.Ok) :
    ∃ cc' w0 w1 w2 w3 w4 s', bigSdt.demux p 17 14 [] = .ok (cc', (stream 17 14 [w0, w1, w2, w3, w4]).flatten) ∧
      receive (Sdt.parse p) p Sdt.default s (received (fun n => decide (n ≠ 20)) 0 (stream 17 14 [flipLast w0, w1, w2, w3, w4])) =
        .ok ({ bigSdt with items := (bigSdt.items.drop 9).take 18 ++ bigSdt.items.drop 36 }, s') := by
  obtain ⟨gs, P, hd, h⟩ := C143_sdt p bigSdt bigSdt_inRange 17 14 [] (by decide) (by decide)
  have hg : gs = (List.range 5).map fun i => (bigSdt.items.drop (9 * i)).take 9 := by
    refine P.unique ?_
    have := packed_fill (fun i => (Sdt.entry i).length) 1020 11 bigSdt.items (fun i hi => (bigSdt_inRange.items i hi).1.2.2.2.2.2) 11 (by omega)
    have e : fill (fun i => (Sdt.entry i).length) 1020 11 11 bigSdt.items = (List.range 5).map fun i => (bigSdt.items.drop (9 * i)).take 9 := by
      decide +kernel
    rw [e] at this
    exact this
  have H := Sdt.sent p bigSdt bigSdt_inRange gs P
  have hsec : ∀ w ∈ bigSdt.wire gs, IsSection w ∧ 7 < w.length ∧ crc32 w = 0 := by
    intro w hw
    obtain ⟨x, hx, rfl⟩ := List.mem_map.1 hw
    exact H.sec x hx
  have hl : (bigSdt.wire gs).map (fun w => packetCount w.length) = [6, 6, 6, 6, 3] := by
    rw [hg]; decide +kernel
  have hz : gs.zipIdx = [(bigSdt.items.take 9, 0), ((bigSdt.items.drop 9).take 9, 1), ((bigSdt.items.drop 18).take 9, 2),
      ((bigSdt.items.drop 27).take 9, 3), ((bigSdt.items.drop 36).take 9, 4)] := by rw [hg]; rfl
  obtain ⟨w0, w1, w2, w3, w4, hW⟩ : ∃ w0 w1 w2 w3 w4, bigSdt.wire gs = [w0, w1, w2, w3, w4] := by
    have := congrArg List.length hl
    rw [List.length_map] at this
    match bigSdt.wire gs, this with
    | [w0, w1, w2, w3, w4], _ => exact ⟨w0, w1, w2, w3, w4, rfl⟩
  rw [hW] at hl h hd hsec
  simp only [List.map_cons, List.map_nil, List.cons.injEq, and_true] at hl
  obtain ⟨c0, c1, c2, c3, c4⟩ := hl
  obtain ⟨f1, f2⟩ := flipLast_disturbed w0 (hsec w0 List.mem_cons_self).1 (by have := (hsec w0 List.mem_cons_self).2.1; omega)
  have hlen : ∀ cc, (stream 17 cc [w0, w1, w2, w3, w4]).length = 27 := by
    intro cc
    simp only [stream, List.length_append, packets_length, c0, c1, c2, c3, c4, List.length_nil]
  obtain ⟨s', h⟩ := h [flipLast w0, w1, w2, w3, w4] (fun n => decide (n ≠ 20)) s (.cons f1 (List.forall₂_same.2 fun _ _ => .inl rfl)) hs (by decide) (by
    intro i j h1 h2 h3 h4 h5 h6 _
    have h2 : j < 27 := by rw [← hlen]; exact h2
    have h4 : i + 1 = 20 := by simpa using h4
    omega)
  refine ⟨_, w0, w1, w2, w3, w4, s', hd, ?_⟩
  show receive (Sdt.parse p) p Sdt.default s (received _ 0 (stream (17 : UInt16).toNat (14 : UInt8).toNat [flipLast w0, w1, w2, w3, w4])) = _
  rw [h]
  refine congrArg (fun x => Except.ok (x, s')) ?_
  have ha : arriving (fun n => decide (n ≠ 20)) gs.zipIdx [w0, w1, w2, w3, w4] [flipLast w0, w1, w2, w3, w4] =
      [((bigSdt.items.drop 9).take 9, 1), ((bigSdt.items.drop 18).take 9, 2), ((bigSdt.items.drop 36).take 9, 4)] := by
    rw [hz]
    generalize bigSdt.items = L
    simp only [arriving, List.zip_cons_cons, List.zip_nil_left, survivors, c0, c1, c2, c3, c4]
    rw [if_pos (by decide), if_pos (by decide), if_pos (by decide), if_neg (by decide), if_pos (by decide),
      List.filter_cons_of_neg (by simpa using Ne.symm f2), List.filter_cons_of_pos (by exact beq_self_eq_true _),
      List.filter_cons_of_pos (by exact beq_self_eq_true _), List.filter_cons_of_pos (by exact beq_self_eq_true _)]
    rfl
  rw [ha, if_neg (List.cons_ne_nil _ _)]
  refine congrArg (fun x => { bigSdt with items := x }) ?_
  decide +kernel

example := (C143_pat .release samplePat140 (by decide) (by decide) (by decide) 0 3 [] (by decide) (by decide)).2
  (flipLast (samplePat140.wire samplePat140.items)) (fun _ => true) Psi.default (by
    have h := (Pat.sent .release samplePat140 (by decide) (by decide) (by decide)).sec () (by decide)
    exact (flipLast_disturbed _ h.1 (by omega)).1) Psi.default_ok rfl

example := (C143_tot .release sampleTot sampleTot tot142_inRange tot142_exact 20 3 [] (by decide) (by decide)).2
  (flipLast sampleTot.wire) (fun _ => true) Psi.default (by
    have h := (Tot.sent .release sampleTot tot142_inRange tot142_exact).sec () (by decide)
    exact (flipLast_disturbed _ h.1 (by omega)).1) Psi.default_ok rfl (by intro i j _ _ _ h; cases h)

example := (C143_eit_pf .release sampleEit (by decide) sampleEit_inRange 18 3 [] (by decide) (by decide)).2 _ (fun _ => true) Psi.default
  (flipLast_all (Eit.sent_pf .release sampleEit (by decide) sampleEit_inRange)) Psi.default_ok rfl (by intro i j _ _ _ h; cases h)

example := (C143_eit_schedule .release sampleSchedule sampleSchedule_ok sampleSchedule_inRange 18 3 [] (by decide) (by decide)).2 _ (fun _ => true)
  Psi.default (flipLast_all (Eit.sent_schedule .release sampleSchedule sampleSchedule_ok sampleSchedule_inRange)) Psi.default_ok rfl
  (by intro i j _ _ _ h; cases h)

example : True := by
  obtain ⟨gs, P, -, h⟩ := C143_nit .release sampleNit sampleNit_inRange 16 3 [] (by decide) (by decide)
  have := h _ (fun n => decide (n ≠ 1)) Psi.default (flipLast_all (Nit.sent .release sampleNit sampleNit_inRange gs P)) Psi.default_ok rfl
  trivial

example : True := by
  obtain ⟨gs, P, -, h⟩ := C143_pmt .release samplePmt samplePmt_inRange [] (by decide +kernel) 256 3 [] (by decide) (by decide)
  have := h _ (fun n => decide (n ≠ 1)) Psi.default (flipLast_all (Pmt.sent .release samplePmt samplePmt_inRange [] (by decide +kernel) gs P))
    Psi.default_ok rfl
  trivial

end Mpegts
