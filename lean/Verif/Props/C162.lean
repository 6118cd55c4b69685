import Verif.Spec.ForeignName
import Verif.Props.C81
import Verif.Props.C115
import Verif.Props.C122
import Verif.Props.C149

/-! # C162: the services of any sender, by name -/

namespace Mpegts
open Spec

theorem saysText_shown (bs : List UInt8) (x : List Char) (h : SaysText bs x) : (StringDVB.ofBytes bs).toStringR = .ok x := by
  cases h with
  | iso8859 n t sel data hs ht hne hc => exact (C115_iso8859 n t sel data hs ht hne).2
  | default gs hv hp => exact (C115_accents_refuted gs hv).2.2 hp
  | utf8 s hc => exact C115_utf8 _

theorem lists_read (p : Profile) (descs : List UInt8) (l : List (UInt8 × List Char × List Char)) (h : SaysServices p descs l) :
    ∃ ds, readLoop p descs = .ok ds ∧ serviceNames ds = .ok l := by
  induction h with
  | done => exact ⟨[], by rw [readLoop, Descriptor.frames]; rfl; simp, rfl⟩
  | service type provider name x y hl hx hy h ih =>
    obtain ⟨ds, h1, h2⟩ := ih
    have hp := C81_service p type.toNat provider name hl
    rw [UInt8.ofNat_toNat] at hp
    refine ⟨.d48 ⟨type, StringDVB.ofBytes provider, StringDVB.ofBytes name⟩ :: ds, ?_, ?_⟩
    · rw [readLoop, Descriptor.service, Descriptor.descriptor, List.cons_append, List.cons_append, frames_cons _ _ _ _ (by
        rw [UInt8.toNat_ofNat']; simp [Descriptor.sized]; omega), List.mapM_cons]
      rw [Descriptor.service, Descriptor.descriptor] at hp
      rw [hp, ok_bind]
      rw [readLoop] at h1
      rw [h1]; rfl
    · rw [serviceNames] at h2 ⊢
      simp only [pure_eq_ok] at h2
      simp only [List.filterMap_cons, asService, List.mapM_cons, saysText_shown _ _ hx, saysText_shown _ _ hy, ok_bind, h2, pure_eq_ok]
  | other tag payload ht hl hr h ih =>
    obtain ⟨ds, h1, h2⟩ := ih
    obtain ⟨d, hd⟩ := hr
    refine ⟨d :: ds, ?_, ?_⟩
    · rw [readLoop, Descriptor.descriptor, List.cons_append, List.cons_append, frames_cons _ _ _ _ (by
        rw [UInt8.toNat_ofNat']; omega), List.mapM_cons]
      rw [Descriptor.descriptor] at hd
      rw [hd, ok_bind]
      rw [readLoop] at h1
      rw [h1]; rfl
    · have hn : asService d = none := by
        rw [Descriptor.descriptor] at hd
        have htag := C35_tag p _ _ d hd
        cases d <;> try rfl
        exact (ht (by rw [UInt8.ofNat_toNat] at htag; exact htag.symm)).elim
      rw [serviceNames] at h2 ⊢
      rw [List.filterMap_cons, hn]
      exact h2

theorem services_collected (p : Profile) (shown : Foreign.Service → List (UInt8 × List Char × List Char)) (ss : List Foreign.Sdt)
    (hd : ∀ s ∈ ss, ∀ x ∈ s.services, SaysServices p x.descs (shown x)) (t : Sdt) :
    ∃ t' items, ss.foldlM (Sdt.take p) t = .ok t' ∧ t'.items = t.items ++ items ∧
      (items.mapM fun i => (do pure (i.pnr, ← serviceNames i.descriptors) : R (UInt16 × List (UInt8 × List Char × List Char)))) =
        .ok ((ss.flatMap (·.services)).map fun x => (UInt16.ofNat x.pnr, shown x)) := by
  induction ss generalizing t with
  | nil => exact ⟨t, [], rfl, by simp, rfl⟩
  | cons s r ih =>
    have one : ∀ l : List Foreign.Service, (∀ x ∈ l, SaysServices p x.descs (shown x)) → ∃ is, l.mapM (Sdt.readService p) = .ok is ∧
        (is.mapM fun i => (do pure (i.pnr, ← serviceNames i.descriptors) : R (UInt16 × List (UInt8 × List Char × List Char)))) =
          .ok (l.map fun x => (UInt16.ofNat x.pnr, shown x)) := by
      intro l hl
      induction l with
      | nil => exact ⟨[], rfl, rfl⟩
      | cons x l ihl =>
        obtain ⟨is, h1, h2⟩ := ihl fun y hy => hl y (List.mem_cons_of_mem _ hy)
        obtain ⟨ds, h3, h4⟩ := lists_read p _ _ (hl x (by simp))
        refine ⟨⟨UInt16.ofNat x.pnr, UInt8.ofNat x.schedule, UInt8.ofNat x.presentFollowing, UInt8.ofNat x.status, UInt8.ofNat x.caMode, ds⟩ :: is,
          ?_, ?_⟩
        · rw [List.mapM_cons, Sdt.readService, h3, map_ok, ok_bind, h1]; rfl
        · rw [List.mapM_cons]
          simp only [pure_eq_ok] at h2
          simp only [h4, ok_bind, pure_eq_ok, h2, List.map_cons]
    obtain ⟨is, h1, h2⟩ := one s.services (hd s (by simp))
    obtain ⟨t', items, h3, h4, h5⟩ := ih (fun y hy => hd y (List.mem_cons_of_mem _ hy))
      { tableId := UInt8.ofNat s.head.tableId, version := UInt8.ofNat s.head.version, tsid := UInt16.ofNat s.head.ext,
        onid := UInt16.ofNat s.onid, items := t.items ++ is }
    refine ⟨t', is ++ items, ?_, by rw [h4, List.append_assoc], ?_⟩
    · rw [List.foldlM_cons, Sdt.take, h1, map_ok, ok_bind, h3]
    · rw [List.mapM_append, h2, ok_bind, h5, ok_bind, List.flatMap_cons, List.map_append]; rfl

/-- C162: the SDT of any sender, in any number of sections, with texts in ISO 8859, in the default table or in UTF-8 (those that are displayed
right, C115) and with any other descriptors that can be read.  Who receives it sees every service with its number, and the type, the provider and
the name that each of its service descriptors says. -/
theorem C162_services (p : Profile) (ss : List Foreign.Sdt) (hss : ∀ s ∈ ss, s.Ok) (shown : Foreign.Service → List (UInt8 × List Char × List Char))
    (hd : ∀ s ∈ ss, ∀ x ∈ s.services, SaysServices p x.descs (shown x)) (pid : Nat) (src : Source) (hs : Steady src)
    (hc : CarriesSections pid src.data (ss.map fun s => complete s.body)) (s0 : Psi) (buf : List UInt8) (hb : 188 ≤ buf.length) (fuel : Nat)
    (hf : src.data.length < fuel) :
    listServicesPacked p pid s0 fuel src buf = .ok ((ss.flatMap (·.services)).map fun x => (UInt16.ofNat x.pnr, shown x)) := by
  obtain ⟨s', h1⟩ := C122_sdt p Sdt.default ss hss pid src hs hc s0 buf hb fuel hf
  obtain ⟨t', items, h2, h3, h4⟩ := services_collected p shown ss hd Sdt.default
  rw [listServicesPacked, h1, h2, map_ok, ok_bind]
  simp only [h3]
  exact h4

/-- What a user watches who knows the name of a service: the program of the first service with this name, or nothing. -/
theorem C162_by_name (p : Profile) (ss : List Foreign.Sdt) (hss : ∀ s ∈ ss, s.Ok) (shown : Foreign.Service → List (UInt8 × List Char × List Char))
    (hd : ∀ s ∈ ss, ∀ x ∈ s.services, SaysServices p x.descs (shown x)) (src : Source) (hs : Steady src)
    (hc : CarriesSections 0x11 src.data (ss.map fun s => complete s.body)) (buf : List UInt8) (hb : 188 ≤ buf.length) (fuel : Nat)
    (hf : src.data.length < fuel) (name : List Char) :
    watchServicePacked p name fuel src buf =
      match (ss.flatMap (·.services)).find? (fun x => (shown x).any (·.2.2 == name)) with
      | none => .ok none
      | some x => tunePacked p (UInt16.ofNat x.pnr) fuel src buf := by
  rw [watchServicePacked, C162_services p ss hss shown hd 0x11 src hs hc Psi.default buf hb fuel hf, ok_bind, List.find?_map]
  simp only [Function.comp_def]
  cases (ss.flatMap (·.services)).find? (fun x => (shown x).any (·.2.2 == name)) <;> rfl

/-- C162: watching a service of any sender by its name.  SDT, PAT and PMT come in any number of sections, laid out in packets in any way in which
at most one section begins in a packet.  Knowing only the name, the user gets all PES packets of all streams of the program, with their time
stamps, and the time that passed (as in C149). -/
theorem C162_watch_partial (p : Profile) (ss : List Foreign.Sdt) (hss : ∀ s ∈ ss, s.Ok)
    (shown : Foreign.Service → List (UInt8 × List Char × List Char)) (hd : ∀ s ∈ ss, ∀ x ∈ s.services, SaysServices p x.descs (shown x))
    (name : List Char) (service : Foreign.Service) (hname : (ss.flatMap (·.services)).find? (fun x => (shown x).any (·.2.2 == name)) = some service)
    (pats : List Foreign.Pat) (hpat : ∀ s ∈ pats, s.Ok) (x : Foreign.Program)
    (hx : (pats.flatMap (·.programs)).find? (fun x => x.pnr = service.pnr) = some x) (pmts : List Foreign.Pmt) (last : Foreign.Pmt)
    (hpmt : ∀ s ∈ pmts ++ [last], s.Ok) (pks : List (List UInt8)) (hpk : ∀ pk ∈ pks, pk.length = 188 ∧ pk.head? = some 0x47)
    (ca cb cs : Nat) (ha : Packing [] [] ca (pks.filter fun pk => pidOf pk = 0) (pats.map fun s => complete s.body))
    (hb : Packing [] [] cb (pks.filter fun pk => pidOf pk = x.pid) ((pmts ++ [last]).map fun s => complete s.body))
    (hsd : Packing [] [] cs (pks.filter fun pk => pidOf pk = 0x11) (ss.map fun s => complete s.body))
    (a : Nat) (times : List Nat) (hrun : Running pcrPeriod (a :: times)) (hclock : clockValues last.pcr pks = (a :: times).map (· % pcrPeriod))
    (us : Nat → List PesUnit)
    (hes : ∀ s ∈ (pmts ++ [last]).flatMap (·.streams), CarriesPes s.pid (pks.filter fun pk => pidOf pk = s.pid) (us s.pid))
    (garbage : List UInt8) (src : Source) (hg : 0x47 ∉ garbage) (hsrc : src.data = garbage ++ pks.flatten) (hs : Steady src)
    (buf : List UInt8) (hbuf : 188 ≤ buf.length) (fuel : Nat) (hf : src.data.length < fuel) :
    (∀ m, (pmts ++ [last]).foldlM (Pmt.take p fun s => Pmt.shifted s.descs) Pmt.default = .ok m →
      ∃ time, time + restarts pcrPeriod a ((a :: times).getLast (by simp)) = (a :: times).getLast (by simp) - a ∧
        watchServicePacked p name fuel src buf = .ok (some (time, ((pmts ++ [last]).flatMap (·.streams)).map fun s =>
          (UInt8.ofNat s.type, (us s.pid).map fun u => (u.pts, u.dts, u.data))))) ∧
    (∀ e, (pmts ++ [last]).foldlM (Pmt.take p fun s => Pmt.shifted s.descs) Pmt.default = .error e →
      watchServicePacked p name fuel src buf = .error e) := by
  have hall : ∀ pk ∈ pks, ∃ q, IsTsPacket q pk := fun pk h => ⟨_, (hpk pk h).1, (hpk pk h).2, rfl⟩
  have hcar : Carries 0x11 src.data (pks.filter fun pk => pidOf pk = 0x11) := by rw [hsrc]; exact carries_mixed 0x11 garbage hg pks hall
  have hw := C162_by_name p ss hss shown hd src hs ⟨cs, _, hcar, hsd⟩ buf hbuf fuel hf name
  rw [hname] at hw
  have hpnr : (UInt16.ofNat service.pnr).toNat = service.pnr := by
    obtain ⟨s, hs, hm⟩ := List.mem_flatMap.1 (List.mem_of_find?_eq_some hname)
    have := ((hss s hs).services service hm).pnr
    rw [UInt16.toNat_ofNat']; omega
  have := C149_foreign_partial p pats hpat (UInt16.ofNat service.pnr) x (by rw [hpnr]; exact hx) pmts last hpmt pks hpk ca cb ha hb a times hrun
    hclock us hes garbage src hg hsrc hs buf hbuf fuel hf
  rw [hw]
  exact this

/-- C162: a name that no service has finds nothing, nor does the name of a service whose program no PAT section names. -/
theorem C162_nothing (p : Profile) (ss : List Foreign.Sdt) (hss : ∀ s ∈ ss, s.Ok)
    (shown : Foreign.Service → List (UInt8 × List Char × List Char)) (hd : ∀ s ∈ ss, ∀ x ∈ s.services, SaysServices p x.descs (shown x))
    (name : List Char) (pats : List Foreign.Pat) (hpat : ∀ s ∈ pats, s.Ok)
    (hno : ∀ s ∈ ss, ∀ x ∈ s.services, (∃ y ∈ shown x, y.2.2 = name) → ∀ r ∈ pats, ∀ z ∈ r.programs, z.pnr ≠ x.pnr)
    (pks : List (List UInt8)) (hpk : ∀ pk ∈ pks, pk.length = 188 ∧ pk.head? = some 0x47)
    (ca cs : Nat) (ha : Packing [] [] ca (pks.filter fun pk => pidOf pk = 0) (pats.map fun s => complete s.body))
    (hsd : Packing [] [] cs (pks.filter fun pk => pidOf pk = 0x11) (ss.map fun s => complete s.body))
    (garbage : List UInt8) (src : Source) (hg : 0x47 ∉ garbage) (hsrc : src.data = garbage ++ pks.flatten) (hs : Steady src)
    (buf : List UInt8) (hbuf : 188 ≤ buf.length) (fuel : Nat) (hf : src.data.length < fuel) :
    watchServicePacked p name fuel src buf = .ok none := by
  have hall : ∀ pk ∈ pks, ∃ q, IsTsPacket q pk := fun pk h => ⟨_, (hpk pk h).1, (hpk pk h).2, rfl⟩
  have hcar : Carries 0x11 src.data (pks.filter fun pk => pidOf pk = 0x11) := by rw [hsrc]; exact carries_mixed 0x11 garbage hg pks hall
  rw [C162_by_name p ss hss shown hd src hs ⟨cs, _, hcar, hsd⟩ buf hbuf fuel hf name]
  cases hfind : (ss.flatMap (·.services)).find? (fun x => (shown x).any (·.2.2 == name)) with
  | none => rfl
  | some x =>
    obtain ⟨s, hs', hm⟩ := List.mem_flatMap.1 (List.mem_of_find?_eq_some hfind)
    have hsome := List.find?_some hfind
    obtain ⟨y, hy, he⟩ := List.any_eq_true.1 hsome
    have hpnr : (UInt16.ofNat x.pnr).toNat = x.pnr := by
      have := ((hss s hs').services x hm).pnr
      rw [UInt16.toNat_ofNat']; omega
    exact C149_foreign_unknown p pats hpat (UInt16.ofNat x.pnr) (by
      intro r hr z hz
      rw [hpnr]
      exact hno s hs' x hm ⟨y, hy, by simpa using he⟩ r hr z hz) pks hpk ca ha garbage src hg hsrc hs buf hbuf fuel hf

/-! ## The hypotheses are met -/

/-- The SDT of another sender: a service with an unknown descriptor in front and a name in ISO 8859-5, and one with a name in the default table. -/
def foreignNamedSdt : Foreign.Sdt :=
  { head := { tableId := 0x42, flags := 15, ext := 1, reserved := 3, version := 4, current := 1, number := 0, last := 0 }, onid := 9, reserved := 255,
    services :=
      [⟨1, 63, 0, 1, 4, 0, [0x5F, 4, 0, 0, 0, 1] ++ Descriptor.service 1 [] [0x01, 0xBC, 0xD8, 0xE0]⟩,
       ⟨2, 63, 1, 1, 4, 0, Descriptor.service 1 [0x41] [0x54, 0x56]⟩] }

/-- What these services say. -/
def namedShown (x : Foreign.Service) : List (UInt8 × List Char × List Char) :=
  if x.pnr = 1 then [(1, [], ['М', 'и', 'р'])] else [(1, ['A'], ['T', 'V'])]

theorem plainValid (b : UInt8) (h : 0x20 ≤ b.toNat ∧ Text.charOf CodePage.iso6937 b ≠ none ∧ b.toNat < 0xC1) :
    (ForeignText.Glyph.plain b).Valid := ⟨h.1, h.2.1, fun x => by have := x.1; omega⟩

example : foreignNamedSdt.Ok ∧ ∀ x ∈ foreignNamedSdt.services, SaysServices .debug x.descs (namedShown x) := by
  refine ⟨⟨by constructor <;> decide, by decide, by decide, by decide, ?_, by decide +kernel⟩, ?_⟩
  · simp only [foreignNamedSdt, List.forall_mem_cons]
    refine ⟨?_, ?_, by simp⟩ <;> constructor <;> decide
  · simp only [foreignNamedSdt, List.forall_mem_cons]
    refine ⟨?_, ?_, by simp⟩
    · have ht : CodePage.upper 5 = some ((CodePage.upper 5).getD []) := by decide +kernel
      have h := SaysText.iso8859 5 ((CodePage.upper 5).getD []) [0x01] [0xBC, 0xD8, 0xE0] (.short 5 (by decide)) ht (by decide) (by decide +kernel)
      rw [show Text.shown ((CodePage.upper 5).getD []) [0xBC, 0xD8, 0xE0] = ['М', 'и', 'р'] by decide +kernel] at h
      have := SaysServices.service (p := .debug) 1 [] _ [] _ (by decide) (.default [] (by simp) (by simp)) h .done
      rw [List.append_nil] at this
      exact .other 0x5F [0, 0, 0, 1] (by decide) (by decide) ⟨.raw ⟨0x5F, [0, 0, 0, 1]⟩, by decide +kernel⟩ this
    · have h1 := SaysText.default [.plain 0x41] (by intro g hg; rw [List.mem_singleton.1 hg]; exact plainValid _ (by decide +kernel)) (by simp [ForeignText.Glyph.isPlain])
      have h2 := SaysText.default [.plain 0x54, .plain 0x56] (by
        intro g hg; simp only [List.mem_cons, List.not_mem_nil, or_false] at hg
        rcases hg with rfl | rfl <;> exact plainValid _ (by decide +kernel)) (by simp [ForeignText.Glyph.isPlain])
      have := SaysServices.service (p := .debug) 1 [0x41] [0x54, 0x56] _ _ (by decide) h1 h2 .done
      rw [List.append_nil] at this
      exact this

def namedPacket : List UInt8 := [0x47, 0x40, 0x11, 0x1A, 0] ++ complete foreignNamedSdt.body ++ List.replicate 135 0xFF

example : Packing [] [] 3 [namedPacket] ([foreignNamedSdt].map fun s => complete s.body) := by
  have := Packing.start (got := []) (piece := complete foreignNamedSdt.body) (rest := []) (cc := 3) namedPacket 135
    ⟨by decide +kernel, by decide +kernel, by decide +kernel, by decide +kernel⟩ (by decide +kernel) (by decide +kernel) (by decide +kernel) (.inr rfl)
    (.done _ _)
  rwa [List.append_nil] at this

local instance namedStreams : DecidableEq (List (UInt8 × List (Option Nat × Option Nat × List UInt8))) :=
  have : DecidableEq (List (Option Nat × Option Nat × List UInt8)) := inferInstance
  inferInstance

/-- The stream of C149 with this SDT: its second program by name. -/
example :
    let one := [0, 176, 13, 0, 1, 201, 0, 1, 0, 1, 224, 100, 191, 117, 51, 129]
    let two := [0, 176, 13, 0, 1, 201, 1, 1, 0, 2, 224, 200, 98, 23, 6, 26]
    let p1 : List UInt8 := [0x47, 0x40, 0x00, 0x35, 177, 0x00] ++ List.replicate 176 0xFF ++ [0x00] ++ one.take 5
    let p2 : List UInt8 := [0x47, 0x00, 0x00, 0x25, 183, 0x00] ++ List.replicate 182 0xFF
    let p3 : List UInt8 := [0x47, 0x40, 0x00, 0x16, 0x0B] ++ one.drop 5 ++ two ++ List.replicate 156 0xFF
    let pks := p1 :: p2 :: namedPacket :: tunePackets p3 tuneForeignPacket
    (watchServicePacked .debug ['T', 'V'] 2100 ⟨[1, 2] ++ pks.flatten, [.chunk 100, .chunk 300]⟩ (List.replicate 188 0)).map (·.map (·.1)) = .ok (some 5) ∧
    (watchServicePacked .debug ['T', 'V'] 2100 ⟨[1, 2] ++ pks.flatten, [.chunk 100, .chunk 300]⟩ (List.replicate 188 0)).map (·.map (·.2)) =
      .ok (some [(0x1B, [(some 225220, some 221616, List.replicate 164 7)]), (3, [(some 225000, none, [4, 5])])]) ∧
    (watchServicePacked .debug ['Т', 'В'] 2100 ⟨[1, 2] ++ pks.flatten, []⟩ (List.replicate 188 0)).map (·.map (·.1)) = .ok none := by
  refine ⟨by decide +kernel, by decide +kernel, by decide +kernel⟩

end Mpegts
