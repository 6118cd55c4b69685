import Verif.Props.C112

/-! # C114: events without a start time -/

namespace Spec.Foreign
open Spec.Descriptor (pack hhmmss)
open Spec.Table (sized12)

/-- EN 300 468, 5.2.4: "If the start time is undefined (e.g. for an event in a NVOD reference service) all bits of the field are set to '1'".
An event entry like `Event.bytes`, without a start time; the field `start` is not used. -/
def Event.timeless (x : Event) : List UInt8 :=
  beBytes 2 x.eventId ++ [0xFF, 0xFF, 0xFF, 0xFF, 0xFF] ++ beBytes 3 (hhmmss x.duration) ++ sized12 (pack [(3, x.status), (1, x.caMode)]) x.descs

/-- A section with events without a start time. -/
def Eit.timeless (s : Eit) : List UInt8 :=
  s.head.bytes ++ beBytes 2 s.tsid ++ beBytes 2 s.onid ++ beBytes 1 s.segmentLast ++ beBytes 1 s.lastTableId ++ s.events.flatMap Event.timeless

end Spec.Foreign

namespace Mpegts
open Spec Spec.Table
open Spec.Descriptor (hhmmss)

namespace Eit

theorem timeless_length (s : Foreign.Eit) : s.timeless.length = s.body.length := by
  have e : ∀ x : Foreign.Event, x.timeless.length = x.bytes.length := fun x => by
    simp [Foreign.Event.timeless, Foreign.Event.bytes]; omega
  simp [Foreign.Eit.timeless, Foreign.Eit.body, List.length_flatMap, e]

theorem timeless_fields (x : Foreign.Event) (h : x.Ok) (hl : x.descs.length < 4096) : field x.timeless 0 2 = x.eventId ∧
    field x.timeless 2 2 = 65535 ∧ field x.timeless 4 3 = 16777215 ∧ field x.timeless 7 3 = hhmmss x.duration ∧
    field x.timeless 10 2 = (x.status * 2 + x.caMode) * 4096 + x.descs.length ∧
    field x.timeless 10 1 / 16 = x.status * 2 + x.caMode ∧ x.timeless.drop 12 = x.descs ∧ x.timeless.length = 12 + x.descs.length := by
  obtain ⟨h1, h2, h3, h4, h5⟩ := h
  have b2 := hhmmss_lt x.duration
  simp only [Foreign.Event.timeless, sized12, beBytes, List.cons_append, List.nil_append, field, List.drop_succ_cons, List.drop_zero,
    List.take_succ_cons, List.take_zero, beNat_two, beNat, List.length_nil, List.length_cons, UInt8.toNat_ofNat', Descriptor.pack, List.foldl_cons, List.foldl_nil]
  generalize hhmmss x.duration = w2 at *
  refine ⟨by omega, by decide, by decide, by omega, by omega, by omega, trivial, by omega⟩

theorem timeless_entry {s : Foreign.Eit} (h : s.Ok) : ∀ x ∈ s.events, 12 ≤ x.timeless.length ∧ x.timeless.length = 12 + field x.timeless 10 2 % 4096 := by
  intro x hx
  have hb := events_bound h x hx
  obtain ⟨-, -, -, -, f3, -, -, f6⟩ := timeless_fields x (h.events x hx) hb
  rw [f3, f6]
  refine ⟨by omega, ?_⟩
  rw [show ∀ a b, (a * 4096 + b) % 4096 = b % 4096 from fun a b => by omega, Nat.mod_eq_of_lt (by omega)]

theorem receive_timeless (p : Profile) (t : Eit) (s : Foreign.Eit) (h : s.Ok) (g : Foreign.Event → R EitItem)
    (hg : ∀ x ∈ s.events, readItem p x.timeless = g x) (pid cc : Nat) (hp : pid < 8192) (s0 : Psi) :
    ∃ s', receive (Eit.parse p) p t s0 (stream pid cc [complete s.timeless]) = (fun items =>
      ({ tableId := UInt8.ofNat s.head.tableId, version := UInt8.ofNat s.head.version, pnr := UInt16.ofNat s.head.ext,
         tsid := UInt16.ofNat s.tsid, onid := UInt16.ofNat s.onid, items := t.items ++ items }, s')) <$> s.events.mapM g := by
  have h3 : 3 ≤ s.timeless.length := by simp [Foreign.Eit.timeless, head_length]; omega
  obtain ⟨s', hr⟩ := receive_streamM (Eit.parse p) p pid hp [s] (fun s => complete s.timeless)
    (fun s' hs => by
      rw [List.mem_singleton] at hs; subst hs
      exact complete_isSection h3 (by have := h.fits; rw [timeless_length]; omega))
    (fun t s => (fun items =>
      { tableId := UInt8.ofNat s.head.tableId, version := UInt8.ofNat s.head.version, pnr := UInt16.ofNat s.head.ext,
        tsid := UInt16.ofNat s.tsid, onid := UInt16.ofNat s.onid, items := t.items ++ items }) <$> s.events.mapM g)
    (fun t s' hs psi hb hz => by
      rw [List.mem_singleton] at hs; subst hs
      exact parse_events Foreign.Event.timeless g s'.events p t s'.head h.head h.id s'.tsid s'.onid s'.segmentLast s'.lastTableId h.tsid h.onid
        (timeless_entry h) hg psi hb hz) (fun u psi hx hlt h183 => by
      refine C65_eit p u psi (.inr (by intro e; rw [e] at h183; simp at h183)) ?_
      rintro ⟨-, -, h, -⟩
      omega) t s0 cc
  refine ⟨s', ?_⟩
  rw [List.map_singleton, foldlM_one] at hr
  rw [hr]
  cases s.events.mapM g <;> rfl

/-- C114 fails: in the debug profile every section with an event without a start time makes the parser panic. -/
theorem C114_debug_refuted (t : Eit) (s : Foreign.Eit) (h : s.Ok) (hne : s.events ≠ []) (pid cc : Nat) (hp : pid < 8192) (s0 : Psi) :
    receive (Eit.parse .debug) .debug t s0 (stream pid cc [complete s.timeless]) = panic := by
  obtain ⟨s', hr⟩ := receive_timeless .debug t s h (fun _ => panic) (fun x hx => by
    obtain ⟨f0, f2, f4, f7, -, f10, f12, -⟩ := timeless_fields x (h.events x hx) (events_bound h x hx)
    unfold readItem
    rw [f2, f4, show readUtc .debug (UInt16.ofNat 65535) (UInt32.ofNat 16777215) = panic by decide +kernel]
    rfl) pid cc hp s0
  rw [hr]
  obtain ⟨x, r, e⟩ := List.exists_cons_of_ne_nil hne
  rw [e, List.mapM_cons]
  rfl

/-- C114 fails: in the release profile every such event is taken to start at 2038-04-28 23:47:45 UTC. -/
theorem C114_release_refuted (t : Eit) (s : Foreign.Eit) (h : s.Ok) (pid cc : Nat) (hp : pid < 8192) (s0 : Psi) :
    ∃ s', receive (Eit.parse .release) .release t s0 (stream pid cc [complete s.timeless]) =
      (fun u => (u, s')) <$> take .release t { s with events := s.events.map fun x => { x with start := 2156111265 } } := by
  obtain ⟨s', hr⟩ := receive_timeless .release t s h (fun x => readEvent .release { x with start := 2156111265 }) (fun x hx => by
    obtain ⟨f0, f2, f4, f7, -, f10, f12, -⟩ := timeless_fields x (h.events x hx) (events_bound h x hx)
    obtain ⟨h1, h2, h3, h4, h5⟩ := h.events x hx
    unfold readItem readEvent readLoop
    rw [f0, f2, f4, f7, f12, show readUtc .release (UInt16.ofNat 65535) (UInt32.ofNat 16777215) = .ok (UInt64.ofNat 2156111265) by decide +kernel, ok_bind,
      read_duration .release _ h3, ok_bind, f10, show field x.timeless 10 1 / 32 = field x.timeless 10 1 / 16 / 2 by omega, f10,
      show (x.status * 2 + x.caMode) / 2 = x.status by omega, show (x.status * 2 + x.caMode) % 2 = x.caMode by omega]
    cases (Descriptor.frames x.descs).mapM (Desc.parse .release) <;> rfl) pid cc hp s0
  refine ⟨s', hr.trans ?_⟩
  have e : (s.events.map fun x => { x with start := 2156111265 }).mapM (readEvent .release) =
      s.events.mapM fun x => readEvent .release { x with start := 2156111265 } :=
    mapM_map_congr _ _ _ _ fun _ _ => rfl
  unfold take
  simp only [e]
  cases s.events.mapM (fun x => readEvent .release { x with start := 2156111265 }) <;> rfl

/-- The hypotheses are met. -/
example (s0 : Psi) : receive (Eit.parse .debug) .debug Eit.default s0 (stream 0x12 0 [complete foreignEit.timeless]) = panic :=
  C114_debug_refuted _ _ foreignEit_ok (by decide) 0x12 0 (by decide) s0
example : instant (mjd 2038 4 28) 0x234745 = 2156111265 := by decide +kernel

end Eit
end Mpegts
