import Verif.Props.C122
import Verif.Props.C156

/-! # C156 for any sender -/

namespace Mpegts
open Spec Spec.Table Spec.Descriptor

namespace Guide

/-- What a section makes of the table of a user who keeps to one service. -/
def takeService (p : Profile) (n : UInt16) (t : Eit) (s : Foreign.Eit) : R Eit := if s.head.ext = n.toNat then Eit.take p t s else .ok t

theorem named_foreign (s : Foreign.Eit) (h : s.Ok) (n : UInt16) (more : List UInt8) :
    (((complete s.body ++ more).drop 3).take 2 = beBytes 2 n.toNat) ↔ s.head.ext = n.toNat := by
  have h3 : 3 ≤ s.body.length := by simp [Foreign.Eit.body, head_length]; omega
  have he := h.head.ext
  have hn := n.toNat_lt
  have e : ((complete s.body ++ more).drop 3).take 2 = beBytes 2 s.head.ext := by
    simp [complete, Foreign.Eit.body, Foreign.Head.bytes, beBytes, Descriptor.pack]
  rw [e]
  constructor
  · intro h
    have := congrArg beNat h
    simp only [beBytes, beNat, List.length_cons, List.length_nil, UInt8.toNat_ofNat'] at this
    omega
  · intro h; rw [h]

theorem packed_service (p : Profile) (n : UInt16) (t : Eit) (ss : List Foreign.Eit) (h : ∀ s ∈ ss, s.Ok) (s0 : Psi) (cc : Nat) (pks : List (List UInt8))
    (hp : Packing [] [] cc pks (ss.map fun s => complete s.body)) :
    ∃ s', receivePacked (collectService p n) p t s0 pks = (fun u => (u, s')) <$> ss.foldlM (takeService p n) t := by
  have h3 : ∀ s : Foreign.Eit, 3 ≤ s.body.length := by intro s; simp [Foreign.Eit.body, head_length]; omega
  have hne : ∀ s : Foreign.Eit, complete s.body ≠ [] := fun s e => by
    have := complete_length (h3 s); rw [e] at this; simp at this
  refine (receive_packing (collectService p n) p (fun s : Foreign.Eit => complete s.body) (takeService p n) Foreign.Eit.Ok
    (fun s hs => complete_isSection (h3 s) (by have := hs.fits; omega)) (fun t s hs psi more hb hz => ?_) (fun t s hs psi rest hb hr he hz => ?_)
    hp ss h rfl t s0).1 rfl
  · rw [collectService, hb, takeService]
    by_cases hx : s.head.ext = n.toNat
    · rw [if_pos ((named_foreign s hs n more).2 hx), if_pos hx, Eit.parse_more p t psi _ more hb hz (hne s)]
      exact Eit.parse_foreign p t s hs _ rfl hz
    · rw [if_neg (mt (named_foreign s hs n more).1 hx), if_neg hx]
  · rw [collectService]
    split
    · refine Eit.C65_eit p t psi (.inr hb) ?_
      rintro ⟨-, h1, h2, -⟩
      have hlen : (complete s.body).length = psi.buffer.length + rest.length := by rw [show complete s.body = _ from he, List.length_append]
      have := List.length_pos_iff.2 hr
      split at hz <;> omega
    · rfl

theorem take_items (p : Profile) (n : UInt16) (ss : List Foreign.Eit) (t : Eit) :
    (fun u => u.items) <$> ss.foldlM (takeService p n) t = (fun l => t.items ++ l) <$> (eventsIn n ss).mapM (Eit.readEvent p) := by
  induction ss generalizing t with
  | nil => simp [eventsIn]
  | cons s ss ih =>
    rw [List.foldlM_cons, takeService, eventsIn]
    by_cases h : s.head.ext = n.toNat
    · rw [if_pos h, List.filter_cons_of_pos (by simpa using h), List.flatMap_cons, List.mapM_append, Eit.take]
      cases hm : s.events.mapM (Eit.readEvent p) with
      | error e => rfl
      | ok items =>
        rw [map_ok, ok_bind, ih, ok_bind]
        simp only [eventsIn]
        cases ((ss.filter (·.head.ext = n.toNat)).flatMap (·.events)).mapM (Eit.readEvent p) with
        | error e => rfl
        | ok l => simp
    · rw [if_neg h, List.filter_cons_of_neg (by simpa using h), ok_bind, ih]
      rfl

theorem read_events (p : Profile) (time : Nat) (l : List Foreign.Event) (hl : ∀ x ∈ l, x.Ok) (items : List EitItem)
    (h : l.mapM (Eit.readEvent p) = .ok items) :
    (onAir time items).map (fun i => (i.eventId.toNat, i.start.toNat, i.duration.toNat)) =
      (onAirIn time l).map (fun x => (x.eventId, x.start, x.duration)) := by
  induction l generalizing items with
  | nil => cases h; rfl
  | cons x l ih =>
    have hx := hl x List.mem_cons_self
    rw [List.mapM_cons, Eit.readEvent] at h
    cases hr : readLoop p x.descs with
    | error e => rw [hr] at h; cases h
    | ok ds =>
      rw [hr, map_ok, ok_bind] at h
      cases hm : l.mapM (Eit.readEvent p) with
      | error e => rw [hm] at h; cases h
      | ok r =>
        rw [hm, ok_bind] at h
        cases h
        have ih := ih (fun y hy => hl y (List.mem_cons_of_mem _ hy)) r hm
        have e1 : (UInt16.ofNat x.eventId).toNat = x.eventId := by rw [UInt16.toNat_ofNat']; exact Nat.mod_eq_of_lt hx.eventId
        have e2 : (UInt64.ofNat x.start).toNat = x.start := by
          rw [UInt64.toNat_ofNat']
          have := hx.start
          unfold unixEpochMjd at this
          exact Nat.mod_eq_of_lt (by omega)
        have e3 : (UInt32.ofNat x.duration).toNat = x.duration := by
          rw [UInt32.toNat_ofNat']
          have := hx.duration
          exact Nat.mod_eq_of_lt (by omega)
        rw [onAir, onAirIn] at *
        rw [List.filter_cons, List.filter_cons]
        simp only [e2, e3]
        split
        · rw [List.map_cons, List.map_cons, ih]
          simp only [e1, e2, e3]
        · exact ih

/-- What a viewer is shown, in terms of the events read from the sections of the service. -/
theorem whatIsOn_read (p : Profile) (ss : List Foreign.Eit) (h : ∀ s ∈ ss, s.Ok) (pid : Nat) (src : Source) (hs : Steady src)
    (hc : CarriesSections pid src.data (ss.map fun s => complete s.body)) (service : UInt16) (time : Nat) (s0 : Psi) (buf : List UInt8)
    (hb : 188 ≤ buf.length) (fuel : Nat) (hf : src.data.length < fuel) :
    whatIsOnPacked p pid service time s0 fuel src buf = (onAir time) <$> (eventsIn service ss).mapM (Eit.readEvent p) := by
  obtain ⟨cc, pks, hc, hp⟩ := hc
  obtain ⟨s', g⟩ := packed_service p service Eit.default ss h s0 cc pks hp
  have hi := take_items p service ss Eit.default
  rw [whatIsOnPacked, C122_listen _ p pid _ s0 src hs pks hc buf hb fuel hf, g]
  cases hx : ss.foldlM (takeService p service) Eit.default with
  | error e =>
    rw [hx] at hi
    cases hm : (eventsIn service ss).mapM (Eit.readEvent p) with
    | error e' => rw [hm] at hi; cases hi; rfl
    | ok l => rw [hm] at hi; cases hi
  | ok t =>
    rw [hx] at hi
    cases hm : (eventsIn service ss).mapM (Eit.readEvent p) with
    | error e' => rw [hm] at hi; cases hi
    | ok l =>
      rw [hm] at hi
      have : t.items = l := by
        have := Except.ok.inj hi
        simpa [Eit.default] using this
      rw [map_ok, ok_bind, map_ok, ← this]
      rfl

end Guide

open Guide

/-- C156 for any sender: event sections of any services, with any values in the free bits and durations of up to 100 hours, laid out in packets in
any way in which at most one section begins in a packet (C121).  If no descriptor of the service's events makes the parser panic, a viewer who
asks what is on is shown exactly the events of the service that have begun and not ended; else the user's program fails. -/
theorem C156_foreign_partial (p : Profile) (ss : List Foreign.Eit) (h : ∀ s ∈ ss, s.Ok) (pid : Nat) (src : Source) (hs : Steady src)
    (hc : CarriesSections pid src.data (ss.map fun s => complete s.body)) (service : UInt16) (time : Nat) (s0 : Psi) (buf : List UInt8)
    (hb : 188 ≤ buf.length) (fuel : Nat) (hf : src.data.length < fuel) :
    ((∀ x ∈ eventsIn service ss, ∃ ds, readLoop p x.descs = .ok ds) → ∃ events, whatIsOnPacked p pid service time s0 fuel src buf = .ok events ∧
      events.map (fun i => (i.eventId.toNat, i.start.toNat, i.duration.toNat)) =
        (onAirIn time (eventsIn service ss)).map (fun x => (x.eventId, x.start, x.duration))) ∧
    ∀ x ∈ eventsIn service ss, ∀ e, readLoop p x.descs = .error e → ∃ e, whatIsOnPacked p pid service time s0 fuel src buf = .error e := by
  have hw := whatIsOn_read p ss h pid src hs hc service time s0 buf hb fuel hf
  rw [hw]
  have hok : ∀ x ∈ eventsIn service ss, x.Ok := by
    intro x hx
    obtain ⟨s, hs', hx⟩ := List.mem_flatMap.1 hx
    exact (h s (List.mem_filter.1 hs').1).events x hx
  refine ⟨fun hr => ?_, fun x hx e he => ?_⟩
  · have : ∃ items, (eventsIn service ss).mapM (Eit.readEvent p) = .ok items := by
      generalize eventsIn service ss = l at hr
      induction l with
      | nil => exact ⟨[], rfl⟩
      | cons x l ih =>
        obtain ⟨r, hr'⟩ := ih fun y hy => hr y (List.mem_cons_of_mem _ hy)
        obtain ⟨ds, hd⟩ := hr x List.mem_cons_self
        have hx : ∃ i, Eit.readEvent p x = .ok i := by rw [Eit.readEvent, hd, map_ok]; exact ⟨_, rfl⟩
        obtain ⟨i, hx⟩ := hx
        exact ⟨i :: r, by rw [List.mapM_cons, hx, ok_bind, hr', ok_bind]; rfl⟩
    obtain ⟨items, hm⟩ := this
    refine ⟨onAir time items, by rw [hm, map_ok], read_events p time _ hok items hm⟩
  · generalize eventsIn service ss = l at hx
    have : ∃ e, l.mapM (Eit.readEvent p) = .error e := by
      induction l with
      | nil => cases hx
      | cons y l ih =>
        rw [List.mapM_cons]
        rcases List.mem_cons.1 hx with rfl | hx
        · exact ⟨e, by rw [Eit.readEvent, he]; rfl⟩
        · obtain ⟨e', h'⟩ := ih hx
          cases hy : Eit.readEvent p y with
          | error e2 => exact ⟨e2, rfl⟩
          | ok v => exact ⟨e', by rw [ok_bind, h']; rfl⟩
    obtain ⟨e', h'⟩ := this
    exact ⟨e', by rw [h']; rfl⟩

end Mpegts
