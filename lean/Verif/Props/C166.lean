import Verif.Spec.ForeignNow
import Verif.Props.C163

/-! # C166: what is on now, from any sender -/

namespace Mpegts
open Spec

namespace Said

/-- What a TOT takes from a section on its PID. -/
def takeClock (p : Profile) (t : Tot) : ClockSection → R Tot
  | .tot s => Tot.take p t s
  | .other _ => .ok t

theorem clock_section {x : ClockSection} (h : x.Ok) : IsSection x.bytes := by
  cases x with
  | tot s =>
    have h3 : 3 ≤ s.body.length := by simp [Foreign.Tot.body]
    exact complete_isSection h3 (by have := Foreign.Tot.Ok.fits h; omega)
  | other b => exact h.1

theorem clock_heard (p : Profile) (t : Tot) (l : List ClockSection) (h : ∀ x ∈ l, x.Ok) (pid : Nat) (src : Source) (hs : Steady src)
    (hc : CarriesSections pid src.data (l.map ClockSection.bytes)) (s0 : Psi) (buf : List UInt8) (hb : 188 ≤ buf.length) (fuel : Nat)
    (hf : src.data.length < fuel) :
    ∃ s', listenPacked (Tot.parse p) p pid t s0 fuel src buf = (fun u => (u, s')) <$> l.foldlM (takeClock p) t := by
  obtain ⟨cc, pks, hc, hp⟩ := hc
  rw [C122_listen _ p pid t s0 src hs pks hc buf hb fuel hf]
  have hne : ∀ x : ClockSection, x.Ok → x.bytes ≠ [] := fun x hx e => by
    have := (clock_section hx).1; rw [e] at this; simp at this
  refine (receive_packing (Tot.parse p) p ClockSection.bytes (takeClock p) ClockSection.Ok (fun x hx => clock_section hx)
    (fun t x hx psi more hb hz => ?_) (fun t x hx psi rest hb hr he hz => ?_) hp l h rfl t s0).1 rfl
  · cases x with
    | tot s =>
      rw [Tot.parse_more p t psi _ more hb hz (hne _ hx) (Tot.foreign_loop s hx)]
      exact Tot.parse_foreign p t s hx _ rfl hz
    | other b =>
      have hb' : b ≠ [] := hne _ hx
      refine Tot.C65_tot p t psi (.inr (by rw [hb]; simp [ClockSection.bytes, hb'])) fun c => hx.2 ?_
      rw [← c.1, hb]
      cases b with
      | nil => exact absurd rfl hb'
      | cons y b => rfl
  · refine Tot.C65_tot p t psi (.inr hb) ?_
    rintro ⟨-, h1, h2, -⟩
    have hlen : x.bytes.length = psi.buffer.length + rest.length := by rw [he, List.length_append]
    have := List.length_pos_iff.2 hr
    split at hz <;> omega

theorem clock_time (p : Profile) (l : List ClockSection) (h : ∀ x ∈ l, x.Ok) (hr : ClockReadable p l) (t : Tot) :
    ∃ u, l.foldlM (takeClock p) t = .ok u ∧
      u.time.toNat = (l.filterMap fun x => match x with | .tot s => some s.time | .other _ => none).getLast?.getD t.time.toNat := by
  induction l generalizing t with
  | nil => exact ⟨t, rfl, rfl⟩
  | cons x l ih =>
    have ih := ih (fun x hx => h x (List.mem_cons_of_mem _ hx)) (fun x hx => hr x (List.mem_cons_of_mem _ hx))
    cases x with
    | other b =>
      obtain ⟨u, h1, h2⟩ := ih t
      exact ⟨u, by rw [List.foldlM_cons, takeClock, ok_bind, h1], h2⟩
    | tot s =>
      obtain ⟨ds, hd⟩ := hr _ (List.mem_cons_self ..)
      have hok : s.Ok := h _ (List.mem_cons_self ..)
      obtain ⟨u, h1, h2⟩ := ih { time := UInt64.ofNat s.time, descriptors := t.descriptors ++ ds }
      refine ⟨u, ?_, ?_⟩
      · rw [List.foldlM_cons, takeClock, Tot.take, show readLoop p s.descs = .ok ds from hd, map_ok, ok_bind, h1]
      · rw [h2]
        have ht : (UInt64.ofNat s.time).toNat = s.time := by
          have := hok.time
          have e : unixEpochMjd = 40587 := rfl
          rw [UInt64.toNat_ofNat']; omega
        simp only [ht, List.filterMap_cons]
        cases hl : (l.filterMap fun x => match x with | .tot s => some s.time | .other _ => none) with
        | nil => rfl
        | cons y ys => rw [List.getLast?_cons_cons, List.getLast?_cons]; rfl

end Said

/-- C166: from a stream of any sender a user who asks what is on a service now is told exactly the events of that service that have begun and not
ended at the time of the last TOT received, in the words of the sender; there may be TDTs and other sections on the PID of the TOT. -/
theorem C166_now (p : Profile) (clock : List ClockSection) (hclock : ∀ x ∈ clock, x.Ok) (hread : ClockReadable p clock) (ss : List Foreign.Eit)
    (hss : ∀ s ∈ ss, s.Ok) (service : UInt16) (said : Foreign.Event → List (List Char × List Char × List Char))
    (hd : ∀ x ∈ eventsIn service ss, SaysEvents p x.descs (said x)) (src : Source) (hs : Steady src)
    (hc14 : CarriesSections 0x14 src.data (clock.map ClockSection.bytes)) (hc12 : CarriesSections 0x12 src.data (ss.map fun s => complete s.body))
    (s0 : Psi) (buf : List UInt8) (hb : 188 ≤ buf.length) (fuel : Nat) (hf : src.data.length < fuel) :
    tellWhatIsOnNow p service s0 fuel src buf =
      .ok ((onAirIn (clockTime clock) (eventsIn service ss)).map fun x => (UInt16.ofNat x.eventId, said x)) := by
  obtain ⟨s', h1⟩ := Said.clock_heard p ⟨0, []⟩ clock hclock 0x14 src hs hc14 s0 buf hb fuel hf
  obtain ⟨u, h2, h3⟩ := Said.clock_time p clock hclock hread ⟨0, []⟩
  rw [tellWhatIsOnNow, h1, h2, map_ok, ok_bind]
  simp only []
  rw [h3]
  exact C163_told p ss hss service said hd 0x12 src hs hc12 _ s0 buf hb fuel hf

/-- C166: a TOT whose descriptors cannot be read makes the user's program panic, whatever else is sent. -/
theorem C166_unreadable (p : Profile) (clock : List ClockSection) (hclock : ∀ x ∈ clock, x.Ok) (hread : ¬ ClockReadable p clock) (service : UInt16)
    (src : Source) (hs : Steady src) (hc14 : CarriesSections 0x14 src.data (clock.map ClockSection.bytes)) (s0 : Psi) (buf : List UInt8)
    (hb : 188 ≤ buf.length) (fuel : Nat) (hf : src.data.length < fuel) : ∃ e, tellWhatIsOnNow p service s0 fuel src buf = .error e := by
  obtain ⟨s', h1⟩ := Said.clock_heard p ⟨0, []⟩ clock hclock 0x14 src hs hc14 s0 buf hb fuel hf
  have key : ∀ (l : List ClockSection) (t : Tot), ¬ ClockReadable p l → ∃ e, l.foldlM (Said.takeClock p) t = .error e := by
    intro l
    induction l with
    | nil => intro t h; exact absurd (fun x hx => by simp at hx) h
    | cons x l ih =>
      intro t h
      rw [List.foldlM_cons]
      cases hx : Said.takeClock p t x with
      | error e => exact ⟨e, rfl⟩
      | ok u =>
        refine ih u fun hl => h fun y hy => ?_
        rcases List.mem_cons.1 hy with rfl | hy
        · cases y with
          | other b => trivial
          | tot s =>
            rw [Said.takeClock, Tot.take] at hx
            cases hr : readLoop p s.descs with
            | error e => rw [hr] at hx; cases hx
            | ok ds => exact ⟨ds, hr⟩
        · exact hl y hy
  obtain ⟨e, he⟩ := key clock ⟨0, []⟩ hread
  exact ⟨e, by rw [tellWhatIsOnNow, h1, he]; rfl⟩

/-! ## The hypotheses are met -/

/-- A TOT, a TDT, and a later TOT with a time offset. -/
def saidClock : List ClockSection :=
  [.tot ⟨7, 1700000000, 15, []⟩, .other [0x70, 0x70, 0x05, 0xE7, 0xD1, 0x12, 0x34, 0x56],
   .tot ⟨7, 1700003700, 15, [0x58, 13, 0x44, 0x45, 0x55, 2, 0x01, 0x00, 0xE7, 0xD1, 0x01, 0x00, 0x00, 0x02, 0x00]⟩]

example : (∀ x ∈ saidClock, x.Ok) ∧ ClockReadable .debug saidClock ∧ clockTime saidClock = 1700003700 ∧
    (onAirIn (clockTime saidClock) (eventsIn 2 saidSample)).map (·.eventId) = [8] := by
  refine ⟨?_, ?_, rfl, by decide +kernel⟩
  · simp only [saidClock, List.forall_mem_cons]
    refine ⟨⟨by decide, by decide, by decide, by decide +kernel⟩, ⟨by decide +kernel, by decide⟩, ⟨by decide, by decide, by decide, by decide +kernel⟩, by simp⟩
  · intro x hx
    simp only [saidClock, List.mem_cons, List.not_mem_nil, or_false] at hx
    have key : ∀ l : List UInt8, ((Descriptor.frames l).mapM (Desc.parse .debug)).toOption.isSome = true → ∃ ds, (Descriptor.frames l).mapM (Desc.parse .debug) = .ok ds := by
      intro l hl
      cases h : (Descriptor.frames l).mapM (Desc.parse .debug) with
      | error e => rw [h] at hl; cases hl
      | ok ds => exact ⟨ds, rfl⟩
    rcases hx with rfl | rfl | rfl
    · exact key _ (by decide +kernel)
    · trivial
    · exact key _ (by decide +kernel)

end Mpegts
