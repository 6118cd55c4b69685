import Verif.Spec.Now
import Verif.Props.C156
import Verif.Props.Sent

/-! # C158: what is on now, by the clock of the stream -/

namespace Mpegts
open Spec Spec.Table Spec.Schedule

namespace Now
open Guide

/-- The sections sent for an event table, received by a user of one service. -/
theorem kept (p : Profile) (t : Eit) (h : TableOk (.eit t)) (secs : List (List UInt8)) (hS : Shared p (.eit t) secs) (n : UInt16) (pid : Nat) (hp : pid < 8192)
    (u : Eit) (s : Psi) (cc : Nat) : ∃ s', Spec.receive (collectService p n) p u s (stream pid cc secs) = .ok (keep n u t, s') := by
  obtain ⟨secs', H⟩ := told p t h
  have e1 : (UInt16.ofNat pid).toNat = pid := by rw [UInt16.toNat_ofNat']; omega
  have e2 : (UInt8.ofNat (cc % 16)).toNat = cc % 16 := by rw [UInt8.toNat_ofNat']; omega
  have h1 := H.send (UInt16.ofNat pid) (UInt8.ofNat (cc % 16)) [] (by omega) (by omega)
  have h2 := hS.sent.send (UInt16.ofNat pid) (UInt8.ofNat (cc % 16)) [] (by omega) (by omega)
  have h3 : (stream pid (cc % 16) secs).flatten = (stream pid (cc % 16) secs').flatten := by
    have := h2.symm.trans h1
    have := (Prod.mk.inj (Except.ok.inj this)).2
    rwa [e1, e2] at this
  have h4 := flatten_inj (fun x hx => (stream_packets _ _ hp _ x hx).1) (fun x hx => (stream_packets _ _ hp _ x hx).1) h3
  rw [stream_cc, stream_cc] at h4
  rw [h4]
  exact H.one n pid hp u s cc

/-- What a user of one service collects from a table of any kind on the PID of event tables. -/
def keepAny (n : UInt16) (u : Eit) : AnyTable → Eit
  | .eit t => keep n u t
  | _ => u

theorem keepAny_items (n : UInt16) (l : List AnyTable) (u : Eit) : (l.foldl (keepAny n) u).items = u.items ++ eventsOf n (l.filterMap asEit) := by
  have : ∀ u, l.foldl (keepAny n) u = (l.filterMap asEit).foldl (keep n) u := by
    induction l with
    | nil => intro u; rfl
    | cons x l ih => intro u; cases x <;> simp [keepAny, asEit, ih, List.filterMap_cons]
  rw [this, keep_items]

theorem lastTime (l : List AnyTable) (u : Tdt) : (l.foldl collectTdt u).time.toNat = (l.filterMap asTime).getLast?.getD u.time.toNat := by
  induction l generalizing u with
  | nil => rfl
  | cons x l ih =>
    rw [List.foldl_cons, ih]
    cases x <;> simp only [collectTdt, asTime, List.filterMap_cons, List.getLast?_cons, Option.getD_some]

end Now

/-- C158: a stream of tables of any kinds, each on its PID, in any order, mixed in any way on their way.  A viewer who asks what is on a service
now is shown those of the events sent for that service that are on air at the time of the last TDT, in the order in which they were sent. -/
theorem C158_now_partial (p : Profile) (l : List (UInt16 × AnyTable)) (h : ∀ x ∈ l, TableOk x.2 ∧ x.2.home x.1) (cc : UInt16 → UInt8)
    (hc : ∀ q, (cc q).toNat < 16) :
    ∃ pks : List (List UInt8), multiplex p l cc [] = .ok pks.flatten ∧
      ∀ src : Source, (∀ pid, CarriesPid pid src.data pks) → Steady src →
        ∀ buf : List UInt8, 188 ≤ buf.length → ∀ fuel, src.data.length < fuel → ∀ service,
          whatIsOnNow p service fuel src buf =
            .ok (onAir (((l.map (·.2)).filterMap asTime).getLast?.getD 0) (eventsOf service ((l.map (·.2)).filterMap asEit))) := by
  have hpid : ∀ x ∈ l, TableOk x.2 ∧ x.1.toNat < 8192 := by
    intro x hx
    obtain ⟨h1, h2⟩ := h x hx
    refine ⟨h1, ?_⟩
    obtain ⟨q, x⟩ := x
    show q.toNat < 8192
    cases x <;> simp only [AnyTable.home] at h2 <;> first | (rw [h2]; decide) | omega
  obtain ⟨pks, h1, h2, h3⟩ := multiplex_sent p l hpid cc hc []
  refine ⟨pks, h1, ?_⟩
  intro src hcar hs buf hb fuel hf service
  have hl : ∀ {α : Type} (parse : α → Psi → R α) (after : α → AnyTable → α) (pid : UInt16) (hp : pid.toNat < 8192)
      (_ : ∀ (x : UInt16 × AnyTable) (secs : List (List UInt8)), x ∈ l → x.1 = pid → Shared p x.2 secs → ∀ (u : α) (s : Psi) (cc : Nat),
        ∃ s', Spec.receive parse p u s (stream pid.toNat cc secs) = .ok (after u x.2, s')) (u : α) (s : Psi),
      ∃ s', listen parse p pid.toNat u s fuel src buf = .ok ((onPid pid l).foldl after u, s') := by
    intro α parse after pid hp ha u s
    obtain ⟨W, hW, hfil⟩ := h3 pid hp
    have hcar := hcar pid
    rw [CarriesPid, hfil] at hcar
    have hW' : List.Forall₂ (fun x secs => ∀ (u : α) (s : Psi) (cc : Nat),
        ∃ s', Spec.receive parse p u s (stream pid.toNat cc secs) = .ok (after u x, s')) (onPid pid l) W := by
      have hmem : ∀ x ∈ onPid pid l, ∃ y ∈ l, y.1 = pid ∧ y.2 = x := by
        intro x hx
        obtain ⟨y, hy, rfl⟩ := List.mem_map.1 hx
        have := List.mem_filter.1 hy
        exact ⟨y, this.1, by simpa using this.2, rfl⟩
      clear hfil hcar
      generalize onPid pid l = tables at hW hmem
      induction hW with
      | nil => exact .nil
      | cons hx _ ih =>
        refine .cons ?_ (ih fun z hz => hmem z (List.mem_cons_of_mem _ hz))
        obtain ⟨y, hy, e, rfl⟩ := hmem _ List.mem_cons_self
        exact ha y _ hy e hx
    obtain ⟨s', h'⟩ := receiveAll parse (fun u x => .ok (after u x)) p pid.toNat (onPid pid l) W hW' u s (cc pid).toNat
    exact ⟨s', by rw [C76_listen parse p pid.toNat u s src hs _ hcar buf hb fuel hf, h', foldlM_ok, map_ok]⟩
  have e : ∀ {α : Type} (after : α → AnyTable → α) (pid : UInt16), (∀ (q : UInt16) (x : AnyTable), x.home q → q ≠ pid → ∀ u, after u x = u) → ∀ u,
      (onPid pid l).foldl after u = (l.map (·.2)).foldl after u :=
    fun after pid ha u => foldl_onPid after pid l (fun x hx hne u => ha x.1 x.2 (h x hx).2 hne u) u
  obtain ⟨s1, g1⟩ := hl (Tdt.parse p) collectTdt 0x14 (by decide) (fun x secs _ _ hS u s cc => hS.tdt _ (by decide) u s cc) Tdt.default Psi.default
  obtain ⟨s2, g2⟩ := hl (collectService p service) (Now.keepAny service) 0x12 (by decide) (fun x secs hx he hS u s cc => by
    obtain ⟨q, x⟩ := x
    have hh := h _ hx
    cases x with
    | eit t => exact Now.kept p t hh.1 secs hS service _ (by decide) u s cc
    | _ => exact absurd hh.2 (by simp only [AnyTable.home]; subst he; decide)) Eit.default Psi.default
  rw [e collectTdt 0x0014 (by intro q x hx hne u; cases x <;> first | rfl | exact absurd hx hne)] at g1
  rw [e (Now.keepAny service) 0x0012 (by intro q x hx hne u; cases x <;> first | rfl | exact absurd hx hne)] at g2
  rw [show (0x14 : UInt16).toNat = 0x14 from rfl] at g1
  rw [show (0x12 : UInt16).toNat = 0x12 from rfl] at g2
  rw [whatIsOnNow, g1, ok_bind]
  simp only [whatIsOn, g2, ok_bind]
  rw [Now.keepAny_items, Now.lastTime]
  rfl

/-! ## Events of any duration -/

namespace Now

/-- The table that is sent: durations of events modulo 24 hours (C156). -/
def seenAny : AnyTable → AnyTable
  | .eit t => .eit (Guide.seen t)
  | x => x

theorem multiplex_seen (p : Profile) (l : List (UInt16 × AnyTable)) (cc : UInt16 → UInt8) (dst : List UInt8) :
    multiplex p (l.map fun x => (x.1, seenAny x.2)) cc dst = multiplex p l cc dst := by
  induction l generalizing cc dst with
  | nil => rfl
  | cons x l ih =>
    obtain ⟨q, x⟩ := x
    have e : (seenAny x).demux p q = x.demux p q := by
      cases x with
      | eit t => exact congrFun (Guide.demux_seen p t) q
      | _ => rfl
    simp only [List.map_cons, multiplex, e, ih]

theorem times_seen (l : List AnyTable) : (l.map seenAny).filterMap asTime = l.filterMap asTime := by
  rw [List.filterMap_map]
  exact congrArg (fun f => l.filterMap f) (funext fun x => by cases x <;> rfl)

theorem events_seen (l : List AnyTable) : (l.map seenAny).filterMap asEit = (l.filterMap asEit).map Guide.seen := by
  rw [List.filterMap_map, List.map_filterMap]
  exact congrArg (fun f => l.filterMap f) (funext fun x => by cases x <;> rfl)

end Now

/-- C158, for every duration: the viewer is shown those of the events sent for that service that have begun by the time of the last TDT and whose
duration modulo 24 hours is not over. -/
theorem C158_shown (p : Profile) (l : List (UInt16 × AnyTable)) (h : ∀ x ∈ l, TableOk (Now.seenAny x.2) ∧ x.2.home x.1) (cc : UInt16 → UInt8)
    (hc : ∀ q, (cc q).toNat < 16) :
    ∃ pks : List (List UInt8), multiplex p l cc [] = .ok pks.flatten ∧
      ∀ src : Source, (∀ pid, CarriesPid pid src.data pks) → Steady src →
        ∀ buf : List UInt8, 188 ≤ buf.length → ∀ fuel, src.data.length < fuel → ∀ service,
          whatIsOnNow p service fuel src buf = .ok (onAir (((l.map (·.2)).filterMap asTime).getLast?.getD 0)
            ((eventsOf service ((l.map (·.2)).filterMap asEit)).map fun i => { i with duration := i.duration % 86400 })) := by
  obtain ⟨pks, h1, h2⟩ := C158_now_partial p (l.map fun x => (x.1, Now.seenAny x.2)) (by
    intro y hy
    obtain ⟨⟨q, x⟩, hx, rfl⟩ := List.mem_map.1 hy
    have := h _ hx
    exact ⟨this.1, by cases x <;> exact this.2⟩) cc hc
  refine ⟨pks, (Now.multiplex_seen p l cc []).symm.trans h1, fun src hcar hs buf hb fuel hf service => ?_⟩
  rw [h2 src hcar hs buf hb fuel hf service]
  have e : (l.map fun x => (x.1, Now.seenAny x.2)).map (·.2) = (l.map (·.2)).map Now.seenAny := by
    rw [List.map_map, List.map_map]; rfl
  rw [e, Now.times_seen, Now.events_seen, Guide.events_seen]
  rfl

/-- C158: an event of 24 hours or more that is on now is not shown once its duration modulo 24 hours is over. -/
theorem C158_long_refuted (p : Profile) (t : Eit) (i : EitItem) (hi : t.items = [i]) (h : TableOk (.eit (Guide.seen t))) (clock : Tdt)
    (hclock : TableOk (.tdt clock)) (cc : UInt16 → UInt8) (hc : ∀ q, (cc q).toNat < 16)
    (h1 : i.start.toNat + i.duration.toNat % 86400 ≤ clock.time.toNat) (h2 : clock.time.toNat < i.start.toNat + i.duration.toNat) :
    onAir clock.time.toNat (eventsOf t.pnr [t]) = [i] ∧
    ∃ pks : List (List UInt8), multiplex p [(EIT_PID, .eit t), (TDT_PID, .tdt clock)] cc [] = .ok pks.flatten ∧
      ∀ src : Source, (∀ pid, CarriesPid pid src.data pks) → Steady src →
        ∀ buf : List UInt8, 188 ≤ buf.length → ∀ fuel, src.data.length < fuel → whatIsOnNow p t.pnr fuel src buf = .ok [] := by
  constructor
  · have : i.start.toNat ≤ clock.time.toNat := by omega
    simp [eventsOf, onAir, hi, this, h2]
  obtain ⟨pks, g1, g2⟩ := C158_shown p [(EIT_PID, .eit t), (TDT_PID, .tdt clock)] (by
    intro x hx
    simp only [List.mem_cons, List.not_mem_nil, or_false] at hx
    rcases hx with rfl | rfl
    · exact ⟨h, rfl⟩
    · exact ⟨hclock, rfl⟩) cc hc
  refine ⟨pks, g1, fun src hcar hs buf hb fuel hf => ?_⟩
  rw [g2 src hcar hs buf hb fuel hf t.pnr]
  simp only [asTime, asEit, eventsOf, onAir, hi, List.map_cons, List.map_nil, List.filterMap_cons, List.filterMap_nil, List.getLast?_singleton,
    Option.getD_some, List.filter_cons, decide_true, if_true, List.filter_nil, List.flatMap_cons, List.flatMap_nil, List.append_nil]
  rw [if_neg (by simp [UInt32.toNat_mod]; omega)]

/-! ## A concrete case -/

/-- Two services and the time, sent twice: two hours into the first event of service 9, the second one has begun. -/
def nowTables : List (UInt16 × AnyTable) :=
  [(TDT_PID, .tdt ⟨1700000100⟩), (EIT_PID, .eit ⟨0x4E, 1, 9, 1, 2, [⟨7, 1700000000, 3600, 4, 0, []⟩, ⟨8, 1700003600, 7200, 1, 0, []⟩]⟩),
   (EIT_PID, .eit ⟨0x4E, 1, 10, 1, 2, [⟨3, 1700000000, 36000, 4, 0, []⟩]⟩), (TDT_PID, .tdt ⟨1700007200⟩)]

theorem nowTables_ok : ∀ x ∈ nowTables, TableOk x.2 ∧ x.2.home x.1 := by
  intro x hx
  simp only [nowTables, List.mem_cons, List.not_mem_nil, or_false] at hx
  rcases hx with rfl | rfl | rfl | rfl
  · exact ⟨by unfold TableOk TimeInRange unixEpochMjd; decide, rfl⟩
  · refine ⟨⟨⟨by decide, ?_⟩, .inl rfl⟩, rfl⟩
    intro i hi
    simp only [List.mem_cons, List.not_mem_nil, or_false] at hi
    rcases hi with rfl | rfl <;>
      exact ⟨⟨by unfold TimeInRange unixEpochMjd; decide, by decide, by decide, by decide, by simp [Good], by decide +kernel⟩, by simp⟩
  · refine ⟨⟨⟨by decide, ?_⟩, .inl rfl⟩, rfl⟩
    intro i hi
    simp only [List.mem_cons, List.not_mem_nil, or_false] at hi
    rcases hi with rfl
    exact ⟨⟨by unfold TimeInRange unixEpochMjd; decide, by decide, by decide, by decide, by simp [Good], by decide +kernel⟩, by simp⟩
  · exact ⟨by unfold TableOk TimeInRange unixEpochMjd; decide, rfl⟩

/-- On service 9 the second event is shown, on service 10 its event, on service 11 nothing. -/
example (p : Profile) : ∃ pks : List (List UInt8), multiplex p nowTables (fun _ => 3) [] = .ok pks.flatten ∧
    ∀ src : Source, (∀ pid, CarriesPid pid src.data pks) → Steady src → ∀ buf : List UInt8, 188 ≤ buf.length → ∀ fuel, src.data.length < fuel →
      whatIsOnNow p 9 fuel src buf = .ok [⟨8, 1700003600, 7200, 1, 0, []⟩] ∧ whatIsOnNow p 10 fuel src buf = .ok [⟨3, 1700000000, 36000, 4, 0, []⟩] ∧
      whatIsOnNow p 11 fuel src buf = .ok [] := by
  obtain ⟨pks, h1, h2⟩ := C158_now_partial p nowTables nowTables_ok (fun _ => 3) (fun _ => by decide)
  refine ⟨pks, h1, fun src hc hs buf hb fuel hf => ⟨?_, ?_, ?_⟩⟩
  · exact h2 src hc hs buf hb fuel hf 9
  · exact h2 src hc hs buf hb fuel hf 10
  · exact h2 src hc hs buf hb fuel hf 11

/-- A telethon of 30 hours, at its tenth hour: nothing is shown. -/
example (p : Profile) : ∃ pks : List (List UInt8), multiplex p [(EIT_PID, .eit telethon), (TDT_PID, .tdt ⟨1700036000⟩)] (fun _ => 0) [] = .ok pks.flatten ∧
    ∀ src : Source, (∀ pid, CarriesPid pid src.data pks) → Steady src →
      ∀ buf : List UInt8, 188 ≤ buf.length → ∀ fuel, src.data.length < fuel → whatIsOnNow p 9 fuel src buf = .ok [] :=
  (C158_long_refuted p telethon _ rfl ⟨⟨by decide, by decide +kernel⟩, .inl rfl⟩ ⟨1700036000⟩
    (by unfold TableOk TimeInRange unixEpochMjd; decide) (fun _ => 0) (fun _ => by decide) (by decide) (by decide)).2

end Mpegts
