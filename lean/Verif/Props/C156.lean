import Verif.Spec.Guide
import Verif.Props.C109

/-! # C156: what is on now -/

namespace Mpegts
open Spec Spec.Table Spec.Schedule

namespace Guide

/-- The event a receiver sees: hours are sent modulo 24. -/
def seenEvent (i : EitItem) : EitItem := { i with duration := i.duration % 86400 }

/-- The table a receiver sees. -/
def seen (t : Eit) : Eit := { t with items := t.items.map seenEvent }

theorem duration_mod (p : Profile) (d : UInt32) : toBcdTime32 p (d % 86400) = toBcdTime32 p d := by
  have hd := d.toNat_lt
  have h1 : d % 86400 / 3600 % 24 = d / 3600 % 24 := by
    apply UInt32.toNat_inj.1
    simp only [UInt32.toNat_mod, UInt32.toNat_div, UInt32.reduceToNat]
    omega
  have h2 : d % 86400 / 60 % 60 = d / 60 % 60 := by
    apply UInt32.toNat_inj.1
    simp only [UInt32.toNat_mod, UInt32.toNat_div, UInt32.reduceToNat]
    omega
  have h3 : d % 86400 % 60 = d % 60 := by
    apply UInt32.toNat_inj.1
    simp only [UInt32.toNat_mod, UInt32.reduceToNat]
    omega
  rw [toBcdTime32, h1, h2, h3, toBcdTime32]

theorem assemble_seen (p : Profile) (i : EitItem) (b : List UInt8) : (seenEvent i).assemble p b = i.assemble p b := by
  unfold EitItem.assemble
  simp only [seenEvent, duration_mod]

theorem pfLoop_seen (p : Profile) (t : Eit) (last : UInt8) (n : Nat) (l : List EitItem) :
    (seen t).pfLoop p last n (l.map seenEvent) = t.pfLoop p last n l := by
  induction l generalizing n with
  | nil => rfl
  | cons i l ih =>
    rw [List.map_cons, Eit.pfLoop, Eit.pfLoop]
    simp only [assemble_seen, ih]
    rfl

theorem newSection_seen (p : Profile) (t : Eit) (a b : UInt8) (i : EitItem) : (seen t).newSection p a b (seenEvent i) = t.newSection p a b i := by
  unfold Eit.newSection
  simp only [assemble_seen]
  rfl

theorem eventLoop_seen (p : Profile) (t : Eit) (l : List EitItem) (done : List Psi) (psi : Psi) (m : UInt64) (a b : UInt8) :
    (seen t).eventLoop p (l.map seenEvent) done psi m a b = t.eventLoop p l done psi m a b := by
  induction l generalizing done psi m a b with
  | nil => rfl
  | cons i l ih =>
    rw [List.map_cons, Eit.eventLoop, Eit.eventLoop]
    simp only [newSection_seen, assemble_seen, ih]
    rfl

theorem demux_seen (p : Profile) (t : Eit) : (seen t).demux p = t.demux p := by
  funext pid cc dst
  unfold Eit.demux Eit.psiListAssemble
  have h1 : (seen t).items.head? = t.items.head?.map seenEvent := by rw [seen, List.head?_map]
  have h2 : (seen t).items.getLast? = t.items.getLast?.map seenEvent := by rw [seen, List.getLast?_map]
  rw [h1, h2]
  cases t.items.head? with
  | none => rfl
  | some a =>
    cases t.items.getLast? with
    | none => rfl
    | some b =>
      simp only [Option.map_some]
      have e1 : (seen t).pfLoop p (UInt8.ofNat ((seen t).items.length - 1)) 0 (seen t).items =
          t.pfLoop p (UInt8.ofNat (t.items.length - 1)) 0 t.items := by
        rw [show (seen t).items = t.items.map seenEvent from rfl, List.length_map]
        exact pfLoop_seen p t _ 0 t.items
      have e2 : (seen t).scheduleAssemble p (seenEvent a) (seenEvent b) = t.scheduleAssemble p a b := by
        unfold Eit.scheduleAssemble
        rw [show (seen t).items = t.items.map seenEvent from rfl]
        simp only [eventLoop_seen]
        rfl
      rw [e1, e2]
      rfl

/-- What a user who keeps to one service collects from one more table. -/
def keep (n : UInt16) (u : Eit) (t : Eit) : Eit := if t.pnr = n then collectEit u (.eit t) else u

/-- The sections of a table name its service. -/
theorem named (t : Eit) (tid n l sl lt : Nat) (g : List EitItem) :
    (((t.section' tid n l sl lt g).drop 3).take 2) = beBytes 2 t.pnr.toNat := by
  rw [Eit.section_eq]
  obtain ⟨l1, l2, k1, k2, k3, k4, h⟩ := complete_header tid 0b1111 t.pnr.toNat (t.version.toNat % 32) n l (t.rest sl lt g)
  rw [h]
  simp [beBytes]

/-- Sections of a service reach a user of that service, and no other. -/
theorem sent_keep {β : Type} {p : Profile} {l : List β} {f : β → List UInt8} {step : Eit → β → Eit} (H : Sent p (Eit.parse p) l f step) (m n : UInt16)
    (hf : ∀ x ∈ l, ((f x).drop 3).take 2 = beBytes 2 m.toNat) :
    Sent p (collectService p n) l f (fun u x => if m = n then step u x else u) := by
  have hb : ∀ a b : UInt16, beBytes 2 a.toNat = beBytes 2 b.toNat → a = b := by
    intro a b h
    have := congrArg beNat h
    apply UInt16.toNat_inj.1
    have ha := a.toNat_lt
    have hb := b.toNat_lt
    simp only [beBytes, beNat, List.length_cons, List.length_nil, UInt8.toNat_ofNat'] at this
    omega
  refine ⟨H.sec, ?_, ?_⟩
  · intro u x hx psi h1 h2
    rw [collectService, h1, hf x hx]
    by_cases h : m = n
    · rw [if_pos (by rw [h]), if_pos h]
      exact H.par u x hx psi h1 h2
    · rw [if_neg (fun e => h (hb _ _ e)), if_neg h]
  · intro u psi hc hne
    rw [collectService]
    split
    · exact H.rej u psi hc hne
    · rfl

theorem foldl_if {β : Type} (c : Prop) [Decidable c] (l : List β) (step : Eit → β → Eit) (u : Eit) :
    l.foldl (fun u x => if c then step u x else u) u = if c then l.foldl step u else u := by
  by_cases h : c
  · simp [h]
  · simp only [if_neg h]
    induction l with
    | nil => rfl
    | cons x l ih => exact ih

/-- What is sent for a table, and what each user collects from it. -/
structure Told (p : Profile) (t : Eit) (secs : List (List UInt8)) : Prop where
  send : ∀ (pid : UInt16) (cc : UInt8) (dst : List UInt8), pid.toNat < 8192 → cc.toNat < 16 →
    t.demux p pid cc dst = .ok (UInt8.ofNat ((cc.toNat + streamCount secs) % 16), dst ++ (stream pid.toNat cc.toNat secs).flatten)
  any : ∀ (pid : Nat), pid < 8192 → ∀ (u : Eit) (s : Psi) (cc : Nat), ∃ s',
    Spec.receive (Eit.parse p) p u s (stream pid cc secs) = .ok (collectEit u (.eit t), s')
  one : ∀ (n : UInt16) (pid : Nat), pid < 8192 → ∀ (u : Eit) (s : Psi) (cc : Nat), ∃ s',
    Spec.receive (collectService p n) p u s (stream pid cc secs) = .ok (keep n u t, s')

theorem told_of {β : Type} {p : Profile} {t : Eit} {l : List β} {f : β → List UInt8} {step : Eit → β → Eit} (H : Sent p (Eit.parse p) l f step)
    (hf : ∀ x ∈ l, ((f x).drop 3).take 2 = beBytes 2 t.pnr.toNat)
    (send : ∀ (pid : UInt16) (cc : UInt8) (dst : List UInt8), pid.toNat < 8192 → cc.toNat < 16 →
      t.demux p pid cc dst = .ok (UInt8.ofNat ((cc.toNat + streamCount (l.map f)) % 16), dst ++ (stream pid.toNat cc.toNat (l.map f)).flatten))
    (hfold : ∀ u, l.foldl step u = collectEit u (.eit t)) : Told p t (l.map f) := by
  refine ⟨send, ?_, ?_⟩
  · intro pid hp u s cc
    obtain ⟨s', h⟩ := H.all pid hp u s cc
    exact ⟨s', by rw [h, hfold]⟩
  · intro n pid hp u s cc
    obtain ⟨s', h⟩ := (sent_keep H t.pnr n hf).all pid hp u s cc
    exact ⟨s', by rw [h, foldl_if, hfold]; rfl⟩

theorem told (p : Profile) (t : Eit) (h : TableOk (.eit t)) : ∃ secs, Told p t secs := by
  obtain ⟨ht, hid⟩ := h
  rw [← or_assoc] at hid
  rcases hid with hid | hsch
  · have hr : ∀ i ∈ t.items, Eit.ItemInRange i := fun i hi => (ht.items i hi).1
    refine ⟨_, told_of (Eit.sent_pf p t hid ht) (fun x _ => named _ _ _ _ _ _ _) (fun pid cc dst hp hc => Eit.C58_wire p t hid hr pid cc dst hp hc) ?_⟩
    intro u
    have hl : t.lastId = t.tableId := by
      rw [Eit.lastId, if_neg]
      rcases hid with h | h <;> rw [h] <;> decide
    rw [foldl_items _ (fun x => { t with items := x }) Eit.items (fun x : EitItem × Nat => [x.1]) (fun _ => rfl),
      flatMap_fst, List.zipIdx_map_fst, collectEit, hl]
    by_cases he : t.items = []
    · rw [if_pos (by simpa using he), if_pos he]
    · rw [if_neg (by simpa using he), if_neg he]
  · refine ⟨_, told_of (Eit.sent_schedule p t hsch ht) (fun x _ => named _ _ _ _ _ _ _)
      (fun pid cc dst hp hc => Eit.C60_wire_partial p t hsch pid cc dst hp hc) ?_⟩
    intro u
    have hs : t.slots ≠ [] := by rw [Eit.slots]; simp
    have hw : withLast t.slots ≠ [] := by
      intro e
      apply hs
      rw [← Eit.withLast_fst t.slots, e]; rfl
    have hg : ((withLast t.slots).getLast hw).1 = t.slots.getLast hs := by
      have e : ((withLast t.slots).map (·.1)).getLast (by simpa using hw) = ((withLast t.slots).getLast hw).1 := by rw [List.getLast_map]
      rw [← e]
      simp only [Eit.withLast_fst]
    have hev : (withLast t.slots).flatMap (fun x => x.1.events) = t.items := by
      have := Eit.slots_events t
      rw [← Eit.withLast_fst t.slots, List.flatMap_map] at this
      exact this
    rw [Eit.foldl_sent, List.getLast?_eq_some_getLast hw]
    simp only []
    rw [hev, hg, collectEit, if_neg hsch.nonempty, Eit.lastId, if_pos hsch.table.1, List.getLast?_eq_some_getLast hs]

/-- Tables sent one after the other. -/
theorem sent_all (p : Profile) (pid : UInt16) (hp : pid.toNat < 8192) (ts : List Eit) (h : ∀ t ∈ ts, TableOk (.eit (seen t))) (cc : UInt8) (hc : cc.toNat < 16)
    (dst : List UInt8) :
    ∃ cc' pks, sendEits p pid ts cc dst = .ok (cc', dst ++ pks.flatten) ∧ (∀ pk ∈ pks, IsTsPacket pid.toNat pk) ∧
      ∀ (u : Eit) (s : Psi), (∃ s', Spec.receive (Eit.parse p) p u s pks = .ok ((ts.map seen).foldl (fun u t => collectEit u (.eit t)) u, s')) ∧
        ∀ n, ∃ s', Spec.receive (collectService p n) p u s pks = .ok ((ts.map seen).foldl (keep n) u, s') := by
  induction ts generalizing cc dst with
  | nil => exact ⟨cc, [], by simp [sendEits], by simp, fun u s => ⟨⟨s, rfl⟩, fun n => ⟨s, rfl⟩⟩⟩
  | cons t ts ih =>
    obtain ⟨secs, H⟩ := told p (seen t) (h t List.mem_cons_self)
    obtain ⟨cc', pks, h1, h2, h3⟩ := ih (fun x hx => h x (List.mem_cons_of_mem _ hx)) (UInt8.ofNat ((cc.toNat + streamCount secs) % 16))
      (by rw [UInt8.toNat_ofNat']; omega) (dst ++ (stream pid.toNat cc.toNat secs).flatten)
    refine ⟨cc', stream pid.toNat cc.toNat secs ++ pks, ?_, ?_, ?_⟩
    · rw [sendEits, ← demux_seen, H.send pid cc dst hp hc, ok_bind]
      simp only []
      rw [h1, List.flatten_append, List.append_assoc]
    · intro pk hm
      rcases List.mem_append.1 hm with hm | hm
      · exact stream_packets _ _ hp _ _ hm
      · exact h2 pk hm
    · intro u s
      constructor
      · obtain ⟨s1, g1⟩ := H.any pid.toNat hp u s cc.toNat
        obtain ⟨⟨s2, g2⟩, -⟩ := h3 (collectEit u (.eit (seen t))) s1
        exact ⟨s2, by rw [receive_append, g1, ok_bind, List.map_cons, List.foldl_cons]; exact g2⟩
      · intro n
        obtain ⟨s1, g1⟩ := H.one n pid.toNat hp u s cc.toNat
        obtain ⟨s2, g2⟩ := (h3 (keep n u (seen t)) s1).2 n
        exact ⟨s2, by rw [receive_append, g1, ok_bind, List.map_cons, List.foldl_cons]; exact g2⟩

theorem collect_items (u t : Eit) : (collectEit u (.eit t)).items = u.items ++ t.items := by
  rw [collectEit]
  split
  · next h => rw [h, List.append_nil]
  · rfl

theorem keep_items (n : UInt16) (ts : List Eit) (u : Eit) : (ts.foldl (keep n) u).items = u.items ++ eventsOf n ts := by
  induction ts generalizing u with
  | nil => simp [eventsOf]
  | cons t ts ih =>
    rw [List.foldl_cons, ih, keep, eventsOf, eventsOf]
    by_cases h : t.pnr = n
    · rw [if_pos h, collect_items, List.filter_cons_of_pos (by simpa using h), List.flatMap_cons, List.append_assoc]
    · rw [if_neg h, List.filter_cons_of_neg (by simpa using h)]

theorem events_seen (n : UInt16) (ts : List Eit) : eventsOf n (ts.map seen) = (eventsOf n ts).map seenEvent := by
  induction ts with
  | nil => rfl
  | cons t ts ih =>
    simp only [eventsOf] at ih ⊢
    rw [List.map_cons]
    by_cases h : t.pnr = n
    · have h' : (seen t).pnr = n := h
      rw [List.filter_cons_of_pos (by simpa using h'), List.filter_cons_of_pos (by simpa using h), List.flatMap_cons,
        List.flatMap_cons, List.map_append, ih]
      rfl
    · have h' : ¬ (seen t).pnr = n := h
      rw [List.filter_cons_of_neg (by simpa using h'), List.filter_cons_of_neg (by simpa using h), ih]

theorem seen_short (t : Eit) (h : t.InRange) : seen t = t := by
  have : t.items.map seenEvent = t.items := by
    refine (List.map_congr_left ?_).trans (List.map_id _)
    intro i hi
    have : i.duration % 86400 = i.duration := by
      apply UInt32.toNat_inj.1
      rw [UInt32.toNat_mod]
      exact Nat.mod_eq_of_lt (h.items i hi).1.2.1
    rw [seenEvent, this]; rfl
  rw [seen, this]

theorem any_items (ts : List Eit) (u : Eit) : (ts.foldl (fun u t => collectEit u (.eit t)) u).items = u.items ++ ts.flatMap (·.items) := by
  induction ts generalizing u with
  | nil => simp
  | cons t ts ih => rw [List.foldl_cons, ih, collect_items, List.flatMap_cons, List.append_assoc]

theorem any_pnr (ts : List Eit) (h : ∀ t ∈ ts, t.items ≠ []) (u : Eit) :
    (ts.foldl (fun u t => collectEit u (.eit t)) u).pnr = (ts.getLast?.map (·.pnr)).getD u.pnr := by
  induction ts generalizing u with
  | nil => rfl
  | cons t ts ih =>
    rw [List.foldl_cons, ih (fun x hx => h x (List.mem_cons_of_mem _ hx)), collectEit, if_neg (h t List.mem_cons_self), List.getLast?_cons]
    cases ts.getLast? <;> rfl

end Guide

open Guide

/-- C156, for every duration: event tables of any services, present/following or schedules, sent one after the other on one PID.  A viewer who
asks a guide what is on a service at a time is shown, of that service's events, in the order in which they were sent, those that have begun and
whose duration modulo 24 hours is not over.  Of other services they are shown nothing. -/
theorem C156_shown (p : Profile) (pid : UInt16) (hp : pid.toNat < 8192) (ts : List Eit) (h : ∀ t ∈ ts, TableOk (.eit (seen t))) (cc : UInt8)
    (hc : cc.toNat < 16) :
    ∃ cc' pks, sendEits p pid ts cc [] = .ok (cc', pks.flatten) ∧ (∀ pk ∈ pks, IsTsPacket pid.toNat pk) ∧
      ∀ src : Source, Steady src → Carries pid.toNat src.data pks → ∀ buf : List UInt8, 188 ≤ buf.length → ∀ fuel, src.data.length < fuel →
        ∀ (service : UInt16) (time : Nat) (s : Psi),
          whatIsOn p pid.toNat service time s fuel src buf = .ok (onAir time ((eventsOf service ts).map seenEvent)) := by
  obtain ⟨cc', pks, h1, h2, h3⟩ := sent_all p pid hp ts h cc hc []
  refine ⟨cc', pks, h1, h2, ?_⟩
  intro src hs hcar buf hb fuel hf service time s
  obtain ⟨s', g⟩ := (h3 Eit.default s).2 service
  rw [whatIsOn, C76_listen _ p _ _ s src hs pks hcar buf hb fuel hf, g, ok_bind]
  simp only []
  rw [keep_items, events_seen]
  rfl

/-- C156: if no event lasts 24 hours or more, the guide shows exactly what is on. -/
theorem C156_guide_partial (p : Profile) (pid : UInt16) (hp : pid.toNat < 8192) (ts : List Eit) (h : ∀ t ∈ ts, TableOk (.eit t)) (cc : UInt8)
    (hc : cc.toNat < 16) :
    ∃ cc' pks, sendEits p pid ts cc [] = .ok (cc', pks.flatten) ∧ (∀ pk ∈ pks, IsTsPacket pid.toNat pk) ∧
      ∀ src : Source, Steady src → Carries pid.toNat src.data pks → ∀ buf : List UInt8, 188 ≤ buf.length → ∀ fuel, src.data.length < fuel →
        ∀ (service : UInt16) (time : Nat) (s : Psi),
          whatIsOn p pid.toNat service time s fuel src buf = .ok (onAir time (eventsOf service ts)) := by
  have hs : ∀ t ∈ ts, seen t = t := fun t ht => seen_short t (h t ht).1
  obtain ⟨cc', pks, h1, h2, h3⟩ := C156_shown p pid hp ts (fun t ht => by rw [hs t ht]; exact h t ht) cc hc
  refine ⟨cc', pks, h1, h2, ?_⟩
  intro src hst hcar buf hb fuel hf service time s
  rw [h3 src hst hcar buf hb fuel hf service time s]
  have : (eventsOf service ts).map seenEvent = eventsOf service ts := by
    rw [← events_seen, (List.map_congr_left (g := id) hs), List.map_id]
  rw [this]

/-- C156: an event of 24 hours or more that is on air is not shown once its duration modulo 24 hours is over. -/
theorem C156_long_refuted (p : Profile) (pid : UInt16) (hp : pid.toNat < 8192) (t : Eit) (i : EitItem) (hi : t.items = [i]) (h : TableOk (.eit (seen t)))
    (cc : UInt8) (hc : cc.toNat < 16) (time : Nat) (h1 : i.start.toNat + i.duration.toNat % 86400 ≤ time) (h2 : time < i.start.toNat + i.duration.toNat) :
    onAir time (eventsOf t.pnr [t]) = [i] ∧
    ∃ cc' pks, sendEits p pid [t] cc [] = .ok (cc', pks.flatten) ∧ (∀ pk ∈ pks, IsTsPacket pid.toNat pk) ∧
      ∀ src : Source, Steady src → Carries pid.toNat src.data pks → ∀ buf : List UInt8, 188 ≤ buf.length → ∀ fuel, src.data.length < fuel →
        ∀ s : Psi, whatIsOn p pid.toNat t.pnr time s fuel src buf = .ok [] := by
  have he : eventsOf t.pnr [t] = [i] := by simp [eventsOf, hi]
  refine ⟨?_, ?_⟩
  · rw [he, onAir, List.filter_cons_of_pos (by simp only [decide_eq_true_eq]; omega)]
    rfl
  · obtain ⟨cc', pks, g1, g2, g3⟩ := C156_shown p pid hp [t] (by simpa using h) cc hc
    refine ⟨cc', pks, g1, g2, ?_⟩
    intro src hst hcar buf hb fuel hf s
    rw [g3 src hst hcar buf hb fuel hf t.pnr time s, he, List.map_cons, onAir, List.filter_cons_of_neg]
    · rfl
    · simp only [decide_eq_true_eq, seenEvent, UInt32.toNat_mod, UInt32.reduceToNat]
      omega

/-- C156: a user who gives every section to the table, as with other tables, is shown what is on all services, under the program number of the
last of them. -/
theorem C156_mixed_refuted (p : Profile) (pid : UInt16) (hp : pid.toNat < 8192) (ts : List Eit) (h : ∀ t ∈ ts, TableOk (.eit t)) (hne : ∀ t ∈ ts, t.items ≠ [])
    (last : Eit) (hl : ts.getLast? = some last) (cc : UInt8) (hc : cc.toNat < 16) :
    ∃ cc' pks, sendEits p pid ts cc [] = .ok (cc', pks.flatten) ∧ (∀ pk ∈ pks, IsTsPacket pid.toNat pk) ∧
      ∀ src : Source, Steady src → Carries pid.toNat src.data pks → ∀ buf : List UInt8, 188 ≤ buf.length → ∀ fuel, src.data.length < fuel →
        ∀ (time : Nat) (s : Psi), whatIsOnUnsorted p pid.toNat time s fuel src buf = .ok (last.pnr, onAir time (ts.flatMap (·.items))) := by
  have hs : ∀ t ∈ ts, seen t = t := fun t ht => seen_short t (h t ht).1
  have hm : ts.map seen = ts := by rw [List.map_congr_left (g := id) hs, List.map_id]
  obtain ⟨cc', pks, h1, h2, h3⟩ := sent_all p pid hp ts (fun t ht => by rw [hs t ht]; exact h t ht) cc hc []
  refine ⟨cc', pks, h1, h2, ?_⟩
  intro src hst hcar buf hb fuel hf time s
  obtain ⟨⟨s', g⟩, -⟩ := h3 Eit.default s
  rw [whatIsOnUnsorted, C76_listen _ p _ _ s src hst pks hcar buf hb fuel hf, g, ok_bind]
  simp only []
  rw [hm, any_items, any_pnr ts hne, hl]
  rfl

/-- Two services on PID 0x12: the present and following events of service 7, the schedule of the same service, and the present event of service 9. -/
def otherService : Eit := { tableId := 0x4E, version := 3, pnr := 9, tsid := 0x1234, onid := 0xABCD, items := [⟨77, 1700000000, 7200, 4, 0, []⟩] }

theorem otherService_ok : TableOk (.eit otherService) := ⟨⟨by decide, by decide +kernel⟩, .inl rfl⟩
theorem twoServices_ok : ∀ t ∈ [sampleEit, otherService, sampleSchedule], TableOk (.eit t) := by
  intro t ht
  rcases List.mem_cons.1 ht with rfl | ht
  · exact ⟨sampleEit_inRange, .inl rfl⟩
  rcases List.mem_cons.1 ht with rfl | ht
  · exact otherService_ok
  rw [List.mem_singleton.1 ht]
  exact ⟨sampleSchedule_inRange, .inr (.inr sampleSchedule_ok)⟩

example : ∃ cc' pks, sendEits .debug 0x12 [sampleEit, otherService, sampleSchedule] 3 [] = .ok (cc', pks.flatten) ∧ (∀ pk ∈ pks, IsTsPacket 0x12 pk) ∧
    ∀ src : Source, Steady src → Carries 0x12 src.data pks → ∀ buf : List UInt8, 188 ≤ buf.length → ∀ fuel, src.data.length < fuel →
      ∀ (service : UInt16) (time : Nat) (s : Psi),
        whatIsOn .debug 0x12 service time s fuel src buf = .ok (onAir time (eventsOf service [sampleEit, otherService, sampleSchedule])) :=
  C156_guide_partial .debug 0x12 (by decide) _ twoServices_ok 3 (by decide)
example : (onAir 1700003599 (eventsOf 7 [sampleEit, otherService, sampleSchedule])).map (·.eventId) = [1, 1] := by decide +kernel
example : (onAir 1700003600 (eventsOf 7 [sampleEit, otherService, sampleSchedule])).map (·.eventId) = [0xFFFF, 2] := by decide +kernel
example : (onAir 1700003600 (eventsOf 9 [sampleEit, otherService, sampleSchedule])).map (·.eventId) = [77] := by decide +kernel

/-- A viewer of service 7 who does not sort the sections is shown event 77 of service 9, too. -/
example : ∃ cc' pks, sendEits .debug 0x12 [otherService, sampleEit] 3 [] = .ok (cc', pks.flatten) ∧ (∀ pk ∈ pks, IsTsPacket 0x12 pk) ∧
    ∀ src : Source, Steady src → Carries 0x12 src.data pks → ∀ buf : List UInt8, 188 ≤ buf.length → ∀ fuel, src.data.length < fuel →
      ∀ (time : Nat) (s : Psi), whatIsOnUnsorted .debug 0x12 time s fuel src buf = .ok (7, onAir time (otherService.items ++ sampleEit.items)) :=
  C156_mixed_refuted .debug 0x12 (by decide) [otherService, sampleEit] (by
    intro t ht
    exact twoServices_ok t (by simp at ht ⊢; tauto)) (by decide +kernel) sampleEit rfl 3 (by decide)
example : (onAir 1700000000 (otherService.items ++ sampleEit.items)).map (·.eventId) = [77, 1] := by decide +kernel

/-- A telethon of 30 hours: after six hours the guide says it is over. -/
def telethon : Eit := { tableId := 0x4E, version := 3, pnr := 9, tsid := 0x1234, onid := 0xABCD, items := [⟨78, 1700000000, 108000, 4, 0, []⟩] }

example : onAir 1700021600 (eventsOf 9 [telethon]) = telethon.items ∧
    ∃ cc' pks, sendEits .release 0x12 [telethon] 3 [] = .ok (cc', pks.flatten) ∧ (∀ pk ∈ pks, IsTsPacket 0x12 pk) ∧
      ∀ src : Source, Steady src → Carries 0x12 src.data pks → ∀ buf : List UInt8, 188 ≤ buf.length → ∀ fuel, src.data.length < fuel →
        ∀ s : Psi, whatIsOn .release 0x12 9 1700021600 s fuel src buf = .ok [] :=
  C156_long_refuted .release 0x12 (by decide) telethon _ rfl ⟨⟨by decide, by decide +kernel⟩, .inl rfl⟩ 3 (by decide) 1700021600 (by decide) (by decide)

end Mpegts
