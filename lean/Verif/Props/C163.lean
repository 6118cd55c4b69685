import Verif.Props.C156Foreign
import Verif.Props.C162

/-! # C163: what is on, and the name of the network, in the words of any sender -/

namespace Mpegts
open Spec

namespace Said

theorem loop_cons (p : Profile) (tag : UInt8) (payload descs : List UInt8) (d : Desc) (ds : Descriptors) (hl : payload.length ≤ 255)
    (hd : Desc.parse p (Descriptor.descriptor tag.toNat payload) = .ok d) (h : readLoop p descs = .ok ds) :
    readLoop p (Descriptor.descriptor tag.toNat payload ++ descs) = .ok (d :: ds) ∧ d.tag = tag := by
  rw [Descriptor.descriptor] at hd
  refine ⟨?_, by have := C35_tag p _ _ d hd; rwa [UInt8.ofNat_toNat] at this⟩
  rw [readLoop, Descriptor.descriptor, List.cons_append, List.cons_append, frames_cons _ _ _ _ (by rw [UInt8.toNat_ofNat']; omega), List.mapM_cons,
    hd, ok_bind]
  rw [readLoop] at h
  rw [h]; rfl

theorem events_read (p : Profile) (descs : List UInt8) (l : List (List Char × List Char × List Char)) (h : SaysEvents p descs l) :
    ∃ ds, readLoop p descs = .ok ds ∧ eventNames ds = .ok l := by
  induction h with
  | done => exact ⟨[], by rw [readLoop, Descriptor.frames]; rfl; simp, rfl⟩
  | event lang name text x y z h3 hl hx hy hz h ih =>
    obtain ⟨ds, h1, h2⟩ := ih
    have hp := C81_short_event p lang name text h3 hl
    refine ⟨_, (loop_cons p 0x4D (lang ++ Descriptor.sized name ++ Descriptor.sized text) _ _ ds (by simp [Descriptor.sized]; omega) hp h1).1, ?_⟩
    rw [eventNames] at h2 ⊢
    simp only [pure_eq_ok] at h2
    simp only [List.filterMap_cons, asEvent, List.mapM_cons, saysText_shown _ _ hx, saysText_shown _ _ hy, saysText_shown _ _ hz, ok_bind, h2,
      pure_eq_ok]
  | other tag payload ht hl hr h ih =>
    obtain ⟨ds, h1, h2⟩ := ih
    obtain ⟨d, hd⟩ := hr
    obtain ⟨g1, g2⟩ := loop_cons p tag payload _ d ds hl hd h1
    refine ⟨d :: ds, g1, ?_⟩
    have hn : asEvent d = none := by
      cases d <;> try rfl
      exact (ht g2.symm).elim
    rw [eventNames] at h2 ⊢
    rw [List.filterMap_cons, hn]
    exact h2

theorem network_read (p : Profile) (descs : List UInt8) (l : List (List Char)) (h : SaysNetwork p descs l) :
    ∃ ds, readLoop p descs = .ok ds ∧ networkNames ds = .ok l := by
  induction h with
  | done => exact ⟨[], by rw [readLoop, Descriptor.frames]; rfl; simp, rfl⟩
  | name text x hl hx h ih =>
    obtain ⟨ds, h1, h2⟩ := ih
    refine ⟨_, (loop_cons p 0x40 text _ _ ds hl (C81_network_name p text) h1).1, ?_⟩
    rw [networkNames] at h2 ⊢
    simp only [List.filterMap_cons, asNetwork, List.mapM_cons, saysText_shown _ _ hx, ok_bind, h2, pure_eq_ok]
  | other tag payload ht hl hr h ih =>
    obtain ⟨ds, h1, h2⟩ := ih
    obtain ⟨d, hd⟩ := hr
    obtain ⟨g1, g2⟩ := loop_cons p tag payload _ d ds hl hd h1
    refine ⟨d :: ds, g1, ?_⟩
    have hn : asNetwork d = none := by
      cases d <;> try rfl
      exact (ht g2.symm).elim
    rw [networkNames] at h2 ⊢
    rw [List.filterMap_cons, hn]
    exact h2

theorem names_append (a b : Descriptors) (x y : List (List Char)) (ha : networkNames a = .ok x) (hb : networkNames b = .ok y) :
    networkNames (a ++ b) = .ok (x ++ y) := by
  rw [networkNames] at *
  rw [List.filterMap_append, List.mapM_append, ha, ok_bind, hb]; rfl

theorem told (p : Profile) (said : Foreign.Event → List (List Char × List Char × List Char)) (time : Nat) (l : List Foreign.Event)
    (hl : ∀ x ∈ l, x.Ok) (hd : ∀ x ∈ l, SaysEvents p x.descs (said x)) :
    ∃ items, l.mapM (Eit.readEvent p) = .ok items ∧
      ((onAir time items).mapM fun i => (do pure (i.eventId, ← eventNames i.descriptors) : R (UInt16 × List (List Char × List Char × List Char)))) =
        .ok ((onAirIn time l).map fun x => (UInt16.ofNat x.eventId, said x)) := by
  induction l with
  | nil => exact ⟨[], rfl, rfl⟩
  | cons x l ih =>
    obtain ⟨items, h1, h2⟩ := ih (fun y hy => hl y (List.mem_cons_of_mem _ hy)) (fun y hy => hd y (List.mem_cons_of_mem _ hy))
    obtain ⟨ds, h3, h4⟩ := events_read p _ _ (hd x (by simp))
    have hx := hl x (by simp)
    refine ⟨⟨UInt16.ofNat x.eventId, UInt64.ofNat x.start, UInt32.ofNat x.duration, UInt8.ofNat x.status, UInt8.ofNat x.caMode, ds⟩ :: items, ?_, ?_⟩
    · rw [List.mapM_cons, Eit.readEvent, h3, map_ok, ok_bind, h1]; rfl
    · have e2 : (UInt64.ofNat x.start).toNat = x.start := by
        rw [UInt64.toNat_ofNat']
        have := hx.start
        unfold unixEpochMjd at this
        exact Nat.mod_eq_of_lt (by omega)
      have e3 : (UInt32.ofNat x.duration).toNat = x.duration := by
        rw [UInt32.toNat_ofNat']
        have := hx.duration
        exact Nat.mod_eq_of_lt (by omega)
      rw [onAir, onAirIn] at *
      rw [List.filter_cons, List.filter_cons]
      simp only [e2, e3]
      split
      · rw [List.mapM_cons, List.map_cons]
        simp only [pure_eq_ok] at h2
        simp only [h4, ok_bind, pure_eq_ok, h2]
      · exact h2

end Said

/-- C163: the event sections of any sender, of any services, in any order and layout in which at most one section begins in a packet.  A viewer who
asks what is on a service at a time is told exactly the events of the service that have begun and not ended, each with the language, the name and
the text that its short event descriptors say (texts that are displayed right, C115). -/
theorem C163_told (p : Profile) (ss : List Foreign.Eit) (hss : ∀ s ∈ ss, s.Ok) (service : UInt16)
    (said : Foreign.Event → List (List Char × List Char × List Char)) (hd : ∀ x ∈ eventsIn service ss, SaysEvents p x.descs (said x))
    (pid : Nat) (src : Source) (hs : Steady src) (hc : CarriesSections pid src.data (ss.map fun s => complete s.body)) (time : Nat) (s0 : Psi)
    (buf : List UInt8) (hb : 188 ≤ buf.length) (fuel : Nat) (hf : src.data.length < fuel) :
    tellWhatIsOn p pid service time s0 fuel src buf =
      .ok ((onAirIn time (eventsIn service ss)).map fun x => (UInt16.ofNat x.eventId, said x)) := by
  have hok : ∀ x ∈ eventsIn service ss, x.Ok := by
    intro x hx
    obtain ⟨s, hs', hx⟩ := List.mem_flatMap.1 hx
    exact (hss s (List.mem_filter.1 hs').1).events x hx
  obtain ⟨items, h1, h2⟩ := Said.told p said time _ hok hd
  rw [tellWhatIsOn, Guide.whatIsOn_read p ss hss pid src hs hc service time s0 buf hb fuel hf, h1, map_ok, ok_bind]
  exact h2

/-- C163: the NIT of any sender, in any number of sections: who receives it sees the network names its sections say, in their order, whatever
else is described, as long as all its descriptors can be read. -/
theorem C163_network (p : Profile) (ss : List Foreign.Nit) (hss : ∀ s ∈ ss, s.Ok) (said : Foreign.Nit → List (List Char))
    (hd : ∀ s ∈ ss, SaysNetwork p s.descs (said s)) (ht : ∀ s ∈ ss, ∀ x ∈ s.transports, ∃ ds, readLoop p x.descs = .ok ds)
    (pid : Nat) (src : Source) (hs : Steady src) (hc : CarriesSections pid src.data (ss.map fun s => complete s.body)) (s0 : Psi)
    (buf : List UInt8) (hb : 188 ≤ buf.length) (fuel : Nat) (hf : src.data.length < fuel) :
    nameNetworkPacked p pid s0 fuel src buf = .ok (ss.flatMap said) := by
  obtain ⟨s', h1⟩ := C122_nit p Nit.default ss hss pid src hs hc s0 buf hb fuel hf
  have key : ∀ (l : List Foreign.Nit) (t : Nit) (ns : List (List Char)), (∀ s ∈ l, s ∈ ss) → networkNames t.descriptors = .ok ns →
      ∃ t', l.foldlM (Nit.take p) t = .ok t' ∧ networkNames t'.descriptors = .ok (ns ++ l.flatMap said) := by
    intro l
    induction l with
    | nil => intro t ns _ h; exact ⟨t, rfl, by simpa using h⟩
    | cons s l ih =>
      intro t ns hm h
      have hs := hm s (by simp)
      obtain ⟨ds, g1, g2⟩ := Said.network_read p _ _ (hd s hs)
      have : ∃ is, s.transports.mapM (Nit.readTransport p) = .ok is := by
        have := ht s hs
        generalize s.transports = tr at this
        induction tr with
        | nil => exact ⟨[], rfl⟩
        | cons x tr iht =>
          obtain ⟨is, hi⟩ := iht fun y hy => this y (List.mem_cons_of_mem _ hy)
          obtain ⟨dx, hx⟩ := this x (by simp)
          exact ⟨⟨UInt16.ofNat x.tsid, UInt16.ofNat x.onid, dx⟩ :: is, by rw [List.mapM_cons, Nit.readTransport, hx, map_ok, ok_bind, hi]; rfl⟩
      obtain ⟨is, hi⟩ := this
      obtain ⟨t', k1, k2⟩ := ih
        { tableId := UInt8.ofNat s.head.tableId, version := UInt8.ofNat s.head.version, networkId := UInt16.ofNat s.head.ext,
          descriptors := t.descriptors ++ ds, items := t.items ++ is } (ns ++ said s) (fun y hy => hm y (List.mem_cons_of_mem _ hy))
        (Said.names_append _ _ _ _ h g2)
      refine ⟨t', ?_, ?_⟩
      · rw [List.foldlM_cons, Nit.take, g1, ok_bind, hi, ok_bind, ok_bind, k1]
      · rw [k2, List.flatMap_cons, List.append_assoc]
  obtain ⟨t', k1, k2⟩ := key ss Nit.default [] (fun _ h => h) rfl
  rw [nameNetworkPacked, h1, k1, map_ok, ok_bind]
  exact k2

/-! ## The hypotheses are met -/

/-- A present/following section of a service. -/
def saidEit (ext : Nat) (events : List Foreign.Event) : Foreign.Eit :=
  { head := { tableId := 0x4E, flags := 15, ext := ext, reserved := 3, version := 4, current := 1, number := 0, last := 1 }, tsid := 1, onid := 9,
    segmentLast := 1, lastTableId := 0x4E, events := events }

/-- Two events, the first with a content descriptor (unknown to the crate) and a title in ISO 8859-5. -/
def saidEvents : List Foreign.Event :=
  [⟨7, 1700000000, 3600, 4, 0, [0x54, 2, 0x10, 0] ++ Descriptor.shortEvent [0x72, 0x75, 0x73] [0x01, 0xBC, 0xD8, 0xE0] []⟩,
   ⟨8, 1700003600, 1800, 1, 0, Descriptor.shortEvent [0x65, 0x6E, 0x67] [0x54, 0x56] [0x15, 0x41]⟩]

/-- A section of another service, and one with these events. -/
def saidSample : List Foreign.Eit := [saidEit 5 [⟨1, 1700000000, 7200, 4, 0, []⟩], saidEit 2 saidEvents]

def saidWords (x : Foreign.Event) : List (List Char × List Char × List Char) :=
  if x.eventId = 7 then [(['r', 'u', 's'], ['М', 'и', 'р'], [])] else [(['e', 'n', 'g'], ['T', 'V'], ['A'])]

theorem says_plain (bs : List UInt8) (h : ∀ b ∈ bs, 0x20 ≤ b.toNat ∧ Text.charOf CodePage.iso6937 b ≠ none ∧ b.toNat < 0xC1) :
    SaysText bs (bs.map ForeignText.glyphChar) := by
  have := SaysText.default (bs.map .plain) (by
    intro g hg
    obtain ⟨b, hb, rfl⟩ := List.mem_map.1 hg
    exact plainValid b (h b hb)) (by
    intro g hg
    obtain ⟨b, hb, rfl⟩ := List.mem_map.1 hg
    trivial)
  have e1 : (bs.map ForeignText.Glyph.plain).flatMap (·.bytes) = bs := by
    rw [List.flatMap_map]; simp [ForeignText.Glyph.bytes]
  have e2 : (bs.map ForeignText.Glyph.plain).flatMap (·.text) = bs.map ForeignText.glyphChar := by
    clear h this e1
    induction bs with
    | nil => rfl
    | cons b bs ih => rw [List.map_cons, List.flatMap_cons, ih]; rfl
  rwa [e1, e2] at this

example : (∀ s ∈ saidSample, s.Ok) ∧ eventsIn 2 saidSample = saidEvents ∧ (∀ x ∈ eventsIn 2 saidSample, SaysEvents .debug x.descs (saidWords x)) ∧
    (onAirIn 1700003600 (eventsIn 2 saidSample)).map (·.eventId) = [8] := by
  have e : eventsIn 2 saidSample = saidEvents := by decide +kernel
  refine ⟨?_, e, ?_, by decide +kernel⟩
  · simp only [saidSample, List.forall_mem_cons]
    refine ⟨⟨by constructor <;> decide, by decide, by decide, by decide, by decide, by decide, ?_, by decide +kernel⟩,
      ⟨by constructor <;> decide, by decide, by decide, by decide, by decide, by decide, ?_, by decide +kernel⟩, by simp⟩
    · simp only [saidEit, List.forall_mem_cons]
      refine ⟨?_, by simp⟩
      constructor <;> decide
    · simp only [saidEit, saidEvents, List.forall_mem_cons]
      refine ⟨?_, ?_, by simp⟩ <;> constructor <;> decide
  · rw [e]
    simp only [saidEvents, List.forall_mem_cons]
    refine ⟨?_, ?_, by simp⟩
    · have ht : CodePage.upper 5 = some ((CodePage.upper 5).getD []) := by decide +kernel
      have h := SaysText.iso8859 5 ((CodePage.upper 5).getD []) [0x01] [0xBC, 0xD8, 0xE0] (.short 5 (by decide)) ht (by decide) (by decide +kernel)
      rw [show Text.shown ((CodePage.upper 5).getD []) [0xBC, 0xD8, 0xE0] = ['М', 'и', 'р'] by decide +kernel] at h
      have hl := says_plain [0x72, 0x75, 0x73] (by decide +kernel)
      have := SaysEvents.event (p := .debug) [0x72, 0x75, 0x73] _ [] _ _ _ rfl (by decide) hl h (says_plain [] (by simp)) .done
      rw [List.append_nil] at this
      have := SaysEvents.other 0x54 [0x10, 0] (by decide) (by decide) ⟨.raw ⟨0x54, [0x10, 0]⟩, by decide +kernel⟩ this
      rwa [show List.map ForeignText.glyphChar [0x72, 0x75, 0x73] = ['r', 'u', 's'] by decide +kernel] at this
    · have hl := says_plain [0x65, 0x6E, 0x67] (by decide +kernel)
      have hn := says_plain [0x54, 0x56] (by decide +kernel)
      rw [show List.map ForeignText.glyphChar [0x65, 0x6E, 0x67] = ['e', 'n', 'g'] by decide +kernel] at hl
      rw [show List.map ForeignText.glyphChar [0x54, 0x56] = ['T', 'V'] by decide +kernel] at hn
      have := SaysEvents.event (p := .debug) _ _ _ _ _ _ rfl (by decide) hl hn (SaysText.utf8 ['A'] (by decide +kernel)) .done
      rw [List.append_nil] at this
      exact this

example : SaysNetwork .debug ([0x4A, 1, 0] ++ Descriptor.networkName [0x54, 0x56]) [['T', 'V']] := by
  have hn := says_plain [0x54, 0x56] (by decide +kernel)
  rw [show List.map ForeignText.glyphChar [0x54, 0x56] = ['T', 'V'] by decide +kernel] at hn
  have := SaysNetwork.name (p := .debug) _ _ (by decide) hn .done
  rw [List.append_nil] at this
  exact .other 0x4A [0] (by decide) (by decide) ⟨.raw ⟨0x4A, [0]⟩, by decide +kernel⟩ this

end Mpegts
