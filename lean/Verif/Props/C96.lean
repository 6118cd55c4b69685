import Verif.Props.C95
import Verif.Props.Pat
import Verif.Props.Pmt
import Verif.Props.Nit
import Verif.Props.Sdt
import Verif.Props.Tdt
import Verif.Props.Eit
import Verif.Lemmas.PackedUnique

/-! # C96: relaying received tables

A remultiplexer receives the sections of a table, sent by anybody and cut into sections in any way, and sends the table on.
What is received is given as the standards encode it (numbers and bytes, no types of the crate). -/

namespace Mpegts
open Spec Spec.Table

/-! ## Descriptors -/

/-- The value received from the bytes of a descriptor. -/
def received (p : Profile) (s : List UInt8) : Desc :=
  match Desc.parse p s with
  | .ok d => d
  | .error _ => .raw ⟨0, []⟩

theorem received_spec (p : Profile) (s : List UInt8) (h : Relayed s) :
    (received p s).InRange ∧ (received p s).Exact ∧ ¬ (received p s).HasItems ∧ (received p s).wire = s := by
  obtain ⟨d, h1, h2⟩ := h.parse p
  unfold received
  rw [h1]
  exact h2

theorem received_loop (p : Profile) (l : List (List UInt8)) (h : ∀ s ∈ l, Relayed s) :
    Good (l.map (received p)) ∧ (∀ d ∈ l.map (received p), d.Exact) ∧ (l.map (received p)).flatMap Desc.wire = l.flatten := by
  refine ⟨?_, ?_, ?_⟩
  · intro d hd
    obtain ⟨s, hs, rfl⟩ := List.mem_map.1 hd
    have := received_spec p s (h s hs)
    exact ⟨this.1, this.2.2.1⟩
  · intro d hd
    obtain ⟨s, hs, rfl⟩ := List.mem_map.1 hd
    exact (received_spec p s (h s hs)).2.1
  · induction l with
    | nil => rfl
    | cons s r ih =>
      rw [List.map_cons, List.flatMap_cons, (received_spec p s (h s List.mem_cons_self)).2.2.2, List.flatten_cons,
        ih fun x hx => h x (List.mem_cons_of_mem _ hx)]

/-! ## Distribution over sections -/

theorem _root_.Spec.Table.Packed.map {α β : Type} {size : α → Nat} {size' : β → Nat} {limit first next : Nat} {items : List α}
    {gs : List (List α)} (P : Packed size limit first next items gs) (f : α → β) (hf : ∀ a ∈ items, size' (f a) = size a) :
    Packed size' limit first next (items.map f) (gs.map (List.map f)) := by
  have hm : ∀ g ∈ gs, ∀ a ∈ g, size' (f a) = size a := fun g hg a ha => hf a (P.all ▸ List.mem_flatten.2 ⟨g, hg, ha⟩)
  have hs : ∀ g ∈ gs, ((g.map f).map size').sum = (g.map size).sum := by
    intro g hg
    rw [List.map_map]
    exact congrArg _ (List.map_congr_left fun a ha => hm g hg a ha)
  refine ⟨?_, ?_, ?_, ?_, ?_⟩
  · rw [← P.all, List.map_flatten]
  · have := P.nonempty; simpa using this
  · intro g hg
    rw [← List.map_tail] at hg
    obtain ⟨g', hg', rfl⟩ := List.mem_map.1 hg
    have := P.progress g' hg'
    simpa using this
  · intro i g hg
    rw [List.getElem?_map] at hg
    obtain ⟨g', hg', rfl⟩ := Option.map_eq_some_iff.1 hg
    rw [hs g' (List.mem_of_getElem? hg')]
    exact P.fits i g' hg'
  · intro i g h x hg hh hx
    rw [List.getElem?_map] at hg hh
    obtain ⟨g', hg', rfl⟩ := Option.map_eq_some_iff.1 hg
    obtain ⟨h', hh', rfl⟩ := Option.map_eq_some_iff.1 hh
    rw [List.head?_map] at hx
    obtain ⟨x', hx', rfl⟩ := Option.map_eq_some_iff.1 hx
    rw [hs g' (List.mem_of_getElem? hg'), hm h' (List.mem_of_getElem? hh') x' (List.mem_of_head? hx')]
    exact P.full i g' h' x' hg' hh' hx'

/-! ## Service description table -/

/-- A service as it is sent: the fields of its entry, and its descriptors as bytes. -/
structure Service where
  pnr : Nat
  schedule : Nat
  presentFollowing : Nat
  status : Nat
  caMode : Nat
  descs : List (List UInt8)

namespace Service

def bytes (s : Service) : List UInt8 := sdtEntry s.pnr s.schedule s.presentFollowing s.status s.caMode s.descs.flatten

/-- Fields in range, descriptors that are relayed unchanged (C95), and an entry that fits a section. -/
def Valid (s : Service) : Prop :=
  s.pnr < 2 ^ 16 ∧ s.schedule < 2 ∧ s.presentFollowing < 2 ∧ s.status < 8 ∧ s.caMode < 2 ∧ (∀ d ∈ s.descs, Relayed d) ∧
    11 + s.bytes.length ≤ 1020

/-- The item received for it. -/
def item (p : Profile) (s : Service) : SdtItem :=
  { pnr := UInt16.ofNat s.pnr, eitScheduleFlag := UInt8.ofNat s.schedule, eitPresentFollowingFlag := UInt8.ofNat s.presentFollowing
    runningStatus := UInt8.ofNat s.status, freeCaMode := UInt8.ofNat s.caMode, descriptors := s.descs.map (received p) }

theorem item_spec (p : Profile) (s : Service) (h : s.Valid) :
    Sdt.entry (s.item p) = s.bytes ∧ Sdt.ItemInRange (s.item p) ∧ ∀ d ∈ (s.item p).descriptors, d.Exact := by
  obtain ⟨h1, h2, h3, h4, h5, h6, h7⟩ := h
  obtain ⟨r1, r2, r3⟩ := received_loop p s.descs h6
  have e : Sdt.entry (s.item p) = s.bytes := by
    simp only [Sdt.entry, item, bytes, r3, ofNat16 _ h1, ofNat8 s.schedule (by omega), ofNat8 s.presentFollowing (by omega),
      ofNat8 s.status (by omega), ofNat8 s.caMode (by omega)]
  refine ⟨e, ⟨?_, ?_, ?_, ?_, r1, by rw [e]; exact h7⟩, r2⟩
  all_goals simp only [item]
  · rw [ofNat8 s.schedule (by omega)]; exact h2
  · rw [ofNat8 s.presentFollowing (by omega)]; exact h3
  · rw [ofNat8 s.status (by omega)]; exact h4
  · rw [ofNat8 s.caMode (by omega)]; exact h5

end Service

theorem flatMap_item {α β : Type} (l : List α) (f : α → β) (e : β → List UInt8) (b : α → List UInt8) (h : ∀ a ∈ l, e (f a) = b a) :
    (l.map f).flatMap e = l.flatMap b := by
  induction l with
  | nil => rfl
  | cons a r ih =>
    rw [List.map_cons, List.flatMap_cons, List.flatMap_cons, h a List.mem_cons_self, ih fun x hx => h x (List.mem_cons_of_mem _ hx)]

/-- The SDT sections for services distributed in this way. -/
def sdtSections (tableId tsid version onid : Nat) (groups : List (List Service)) : List (List UInt8) :=
  groups.zipIdx.map fun x => complete (Table.sdt tableId tsid version (x.2 % 256) ((groups.length - 1) % 256) onid
    (x.1.flatMap Service.bytes))

/-- C96 for the SDT: however the services were cut into sections, and whatever section numbers were used, the relayed SDT has
the same identification, the same services in the same order, byte for byte, distributed greedily over sections of at
most 1024 bytes. -/
theorem C96_sdt (p : Profile) (tid tsid version onid : Nat) (hid : tid = 0x42 ∨ tid = 0x46) (hts : tsid < 2 ^ 16) (hv : version < 32)
    (hon : onid < 2 ^ 16) (secs : List (Nat × Nat × List Service)) (hne : secs ≠ [])
    (hsec : ∀ x ∈ secs, x.1 < 256 ∧ x.2.1 < 256 ∧ (x.2.2.flatMap Service.bytes).length ≤ 4083)
    (hval : ∀ x ∈ secs, ∀ s ∈ x.2.2, s.Valid) (pid : Nat) (hp : pid < 8192) (cc : Nat) (s : Psi)
    (pid' : UInt16) (hp' : pid'.toNat < 8192) (cc' : UInt8) (hc' : cc'.toNat < 16) (dst : List UInt8) :
    ∃ t s' gs, receive (Sdt.parse p) p Sdt.default s (stream pid cc (secs.map fun x =>
        complete (Table.sdt tid tsid version x.1 x.2.1 onid (x.2.2.flatMap Service.bytes)))) = .ok (t, s') ∧
      Packed (fun s : Service => s.bytes.length) 1020 11 11 (secs.flatMap fun x => x.2.2) gs ∧
      t.demux p pid' cc' dst = .ok (UInt8.ofNat ((cc'.toNat + streamCount (sdtSections tid tsid version onid gs)) % 16),
        dst ++ (stream pid'.toNat cc'.toNat (sdtSections tid tsid version onid gs)).flatten) := by
  generalize hT : ({ tableId := UInt8.ofNat tid, version := UInt8.ofNat version, tsid := UInt16.ofNat tsid, onid := UInt16.ofNat onid
                     items := (secs.flatMap fun x => x.2.2).map (Service.item p) } : Sdt) = t
  have hmem : ∀ v ∈ secs.flatMap (fun x => x.2.2), v.Valid := by
    intro v hv'
    obtain ⟨x, hx, hm⟩ := List.mem_flatMap.1 hv'
    exact hval x hx v hm
  have ht : t.InRange := by
    rw [← hT]
    refine ⟨?_, ?_, ?_⟩
    · rcases hid with rfl | rfl
      · exact .inl rfl
      · exact .inr rfl
    · show (UInt8.ofNat version).toNat < 32
      rw [ofNat8 _ (by omega)]; exact hv
    · intro i hi
      obtain ⟨v, hv', rfl⟩ := List.mem_map.1 hi
      exact (v.item_spec p (hmem v hv')).2
  have f1 : t.tableId.toNat = tid := by rw [← hT]; exact ofNat8 _ (by omega)
  have f2 : t.tsid.toNat = tsid := by rw [← hT]; exact ofNat16 _ hts
  have f3 : t.version.toNat % 32 = version := by rw [← hT]; simp only []; rw [ofNat8 _ (by omega)]; omega
  have f4 : t.onid.toNat = onid := by rw [← hT]; exact ofNat16 _ hon
  have f5 : t.items = (secs.flatMap fun x => x.2.2).map (Service.item p) := by rw [← hT]
  have fm : ∀ l : List Service, (∀ v ∈ l, v.Valid) → (l.map (Service.item p)).flatMap Sdt.entry = l.flatMap Service.bytes :=
    fun l hl => flatMap_item l _ _ _ fun v hv' => (v.item_spec p (hl v hv')).1
  obtain ⟨s', hr⟩ := receive_stream (Sdt.parse p) p pid hp secs (fun x =>
      complete (Table.sdt tid tsid version x.1 x.2.1 onid (x.2.2.flatMap Service.bytes)))
    (by
      intro x hx
      have := (hsec x hx).2.2
      exact complete_isSection (by simp [Table.sdt]; omega) (by simp only [Table.sdt, List.length_append, header_length, beBytes_length, List.length_singleton]; omega))
    (fun u x => { t with items := u.items ++ x.2.2.map (Service.item p) })
    (by
      intro u x hx psi hb hs
      refine Sdt.parse_section p u t ht x.1 x.2.1 (hsec x hx).1 (hsec x hx).2.1 (x.2.2.map (Service.item p)) ?_ psi ?_ ?_
      · intro i hi
        obtain ⟨v, hv', rfl⟩ := List.mem_map.1 hi
        rw [f5]
        exact List.mem_map_of_mem (List.mem_flatMap.2 ⟨x, hx, hv'⟩)
      · rw [f1, f2, f3, f4, fm _ (hval x hx)]; exact hb
      · rw [f1, f2, f3, f4, fm _ (hval x hx)]; exact hs)
    (by
      intro u psi hx hlt h183
      refine Sdt.C65_sdt p u psi (.inr (by intro e; rw [e] at h183; simp at h183)) ?_
      rintro ⟨-, -, h, -⟩
      omega)
    Sdt.default s cc
  have hfold : ∀ (l : List (Nat × Nat × List Service)) (u : Sdt), l ≠ [] →
      l.foldl (fun u x => { t with items := u.items ++ x.2.2.map (Service.item p) }) u =
      { t with items := u.items ++ (l.flatMap fun x => x.2.2).map (Service.item p) } := by
    intro l
    induction l with
    | nil => intro u h; exact (h rfl).elim
    | cons x r ih =>
      intro u _
      rw [List.foldl_cons]
      by_cases hr : r = []
      · subst hr; simp
      · rw [ih _ hr]; simp
  rw [hfold _ _ hne] at hr
  have ht' : { t with items := Sdt.default.items ++ (secs.flatMap fun x => x.2.2).map (Service.item p) } = t := by
    rw [← f5]; rfl
  rw [ht'] at hr
  obtain ⟨gsI, P, hw⟩ := Sdt.C57_wire p t (fun i hi => (ht.items i hi).1) pid' cc' dst hp' hc'
  have Q : Packed (fun s : Service => s.bytes.length) 1020 11 11 (secs.flatMap fun x => x.2.2)
      (fill (fun s : Service => s.bytes.length) 1020 11 11 (secs.flatMap fun x => x.2.2)) :=
    packed_fill _ _ _ _ (fun v hv' => (hmem v hv').2.2.2.2.2.2) 11 (by omega)
  generalize fill (fun s : Service => s.bytes.length) 1020 11 11 (secs.flatMap fun x => x.2.2) = gs at Q
  have Q' := Q.map (size' := fun i => (Sdt.entry i).length) (Service.item p) fun v hv' => by rw [(v.item_spec p (hmem v hv')).1]
  rw [← f5] at Q'
  have hgs := P.unique Q'
  refine ⟨t, s', gs, hr, Q, ?_⟩
  have hwire : t.wire gsI = sdtSections tid tsid version onid gs := by
    rw [hgs, Sdt.wire, sdtSections, List.zipIdx_map, List.map_map, List.length_map, f1, f2, f3, f4]
    refine List.map_congr_left fun x hx => ?_
    have hg : x.1 ∈ gs := (List.mem_zipIdx' hx).2 ▸ List.getElem_mem _
    simp only [Function.comp, Prod.map]
    rw [fm x.1 fun v hv' => hmem v (Q.all ▸ List.mem_flatten.2 ⟨x.1, hg, hv'⟩)]
    rfl
  rw [hwire] at hw
  exact hw

/-- A list that fits is one group. -/
theorem packed_single {α : Type} (size : α → Nat) (limit first next : Nat) (l : List α) (h : first + (l.map size).sum ≤ limit) :
    Packed size limit first next l [l] := by
  refine ⟨by simp, by simp, by simp, ?_, ?_⟩
  · intro i g hg
    match i with
    | 0 => simp at hg; subst hg; simpa using h
    | i + 1 => simp at hg
  · intro i g h' x hg hh hx
    simp at hh

theorem sum_bytes {α : Type} (f : α → List UInt8) (l : List α) : (l.map fun a => (f a).length).sum = (l.flatMap f).length := by
  induction l with
  | nil => rfl
  | cons a r ih => rw [List.map_cons, List.sum_cons, ih, List.flatMap_cons, List.length_append]

/-- C96 for an SDT of one section: the section is sent on unchanged. -/
theorem C96_sdt_single (p : Profile) (tid tsid version onid : Nat) (hid : tid = 0x42 ∨ tid = 0x46) (hts : tsid < 2 ^ 16)
    (hv : version < 32) (hon : onid < 2 ^ 16) (l : List Service) (hval : ∀ s ∈ l, s.Valid)
    (hl : 11 + (l.flatMap Service.bytes).length ≤ 1020) (pid : Nat) (hp : pid < 8192) (cc : Nat) (s : Psi)
    (pid' : UInt16) (hp' : pid'.toNat < 8192) (cc' : UInt8) (hc' : cc'.toNat < 16) (dst : List UInt8) :
    let sec := complete (Table.sdt tid tsid version 0 0 onid (l.flatMap Service.bytes))
    ∃ t s' c, receive (Sdt.parse p) p Sdt.default s (packets pid cc sec) = .ok (t, s') ∧
      t.demux p pid' cc' dst = .ok (c, dst ++ (packets pid'.toNat cc'.toNat sec).flatten) := by
  intro sec
  obtain ⟨t, s', gs, h1, h2, h3⟩ := C96_sdt p tid tsid version onid hid hts hv hon [(0, 0, l)] (by simp)
    (by simp only [List.mem_singleton]; rintro x rfl; dsimp only; exact ⟨by omega, by omega, by omega⟩) (by simpa using hval) pid hp cc s pid' hp' cc' hc' dst
  have hg : gs = [l] := h2.unique (by
    have := packed_single (fun s : Service => s.bytes.length) 1020 11 11 l (by rw [sum_bytes]; exact hl)
    simpa using this)
  subst hg
  have e : sdtSections tid tsid version onid [l] = [sec] := rfl
  rw [e] at h3
  simp only [List.map_cons, List.map_nil, stream, List.append_nil] at h1 h3
  exact ⟨t, s', _, h1, h3⟩

/-! ## Network information table -/

/-- A transport stream of a NIT as it is sent. -/
structure Transport where
  tsid : Nat
  onid : Nat
  descs : List (List UInt8)

namespace Transport

def bytes (s : Transport) : List UInt8 := nitEntry s.tsid s.onid s.descs.flatten

def Valid (s : Transport) : Prop := s.tsid < 2 ^ 16 ∧ s.onid < 2 ^ 16 ∧ (∀ d ∈ s.descs, Relayed d) ∧ 12 + s.bytes.length ≤ 1020

def item (p : Profile) (s : Transport) : NitItem :=
  { tsid := UInt16.ofNat s.tsid, onid := UInt16.ofNat s.onid, descriptors := s.descs.map (received p) }

theorem item_spec (p : Profile) (s : Transport) (h : s.Valid) :
    Nit.entry (s.item p) = s.bytes ∧ Nit.ItemInRange (s.item p) ∧ ∀ d ∈ (s.item p).descriptors, d.Exact := by
  obtain ⟨h1, h2, h6, h7⟩ := h
  obtain ⟨r1, r2, r3⟩ := received_loop p s.descs h6
  have e : Nit.entry (s.item p) = s.bytes := by
    simp only [Nit.entry, item, bytes, r3, ofNat16 _ h1, ofNat16 _ h2]
  exact ⟨e, ⟨r1, by rw [e]; exact h7⟩, r2⟩

end Transport

/-- One received section of a NIT: section numbers, network descriptors, transport streams. -/
structure NitSection where
  number : Nat
  last : Nat
  network : List (List UInt8)
  streams : List Transport

/-- The NIT sections for transport streams distributed in this way, the network descriptors in the first. -/
def nitSections (tableId networkId version : Nat) (network : List UInt8) (groups : List (List Transport)) : List (List UInt8) :=
  groups.zipIdx.map fun x => complete (Table.nit tableId networkId version (x.2 % 256) ((groups.length - 1) % 256)
    (if x.2 = 0 then network else []) (x.1.flatMap Transport.bytes))

/-- C96 for the NIT: identification, transport streams and network descriptors are relayed byte for byte, in order.  The network
descriptors of all received sections are collected in the first section sent. -/
theorem C96_nit (p : Profile) (tid networkId version : Nat) (hid : tid = 0x40 ∨ tid = 0x41) (hn : networkId < 2 ^ 16) (hv : version < 32)
    (secs : List NitSection) (hne : secs ≠ [])
    (hsec : ∀ x ∈ secs, x.number < 256 ∧ x.last < 256 ∧
      12 + x.network.flatten.length + (x.streams.flatMap Transport.bytes).length ≤ 4094)
    (hnet : ∀ x ∈ secs, ∀ d ∈ x.network, Relayed d) (hlen : 12 + (secs.flatMap (·.network)).flatten.length ≤ 1020)
    (hval : ∀ x ∈ secs, ∀ s ∈ x.streams, s.Valid) (pid : Nat) (hp : pid < 8192) (cc : Nat) (s : Psi)
    (pid' : UInt16) (hp' : pid'.toNat < 8192) (cc' : UInt8) (hc' : cc'.toNat < 16) (dst : List UInt8) :
    ∃ t s' gs, receive (Nit.parse p) p Nit.default s (stream pid cc (secs.map fun x =>
        complete (Table.nit tid networkId version x.number x.last x.network.flatten (x.streams.flatMap Transport.bytes)))) = .ok (t, s') ∧
      Packed (fun s : Transport => s.bytes.length) 1020 (12 + (secs.flatMap (·.network)).flatten.length) 12 (secs.flatMap (·.streams)) gs ∧
      t.demux p pid' cc' dst = .ok
        (UInt8.ofNat ((cc'.toNat + streamCount (nitSections tid networkId version (secs.flatMap (·.network)).flatten gs)) % 16),
         dst ++ (stream pid'.toNat cc'.toNat (nitSections tid networkId version (secs.flatMap (·.network)).flatten gs)).flatten) := by
  generalize hT : ({ tableId := UInt8.ofNat tid, version := UInt8.ofNat version, networkId := UInt16.ofNat networkId
                     descriptors := (secs.flatMap (·.network)).map (received p)
                     items := (secs.flatMap (·.streams)).map (Transport.item p) } : Nit) = t
  have hmem : ∀ v ∈ secs.flatMap (·.streams), v.Valid := by
    intro v hv'
    obtain ⟨x, hx, hm⟩ := List.mem_flatMap.1 hv'
    exact hval x hx v hm
  have hnmem : ∀ d ∈ secs.flatMap (·.network), Relayed d := by
    intro v hv'
    obtain ⟨x, hx, hm⟩ := List.mem_flatMap.1 hv'
    exact hnet x hx v hm
  obtain ⟨n1, n2, n3⟩ := received_loop p _ hnmem
  have hpart : ∀ x ∈ secs, x.network.flatten.length ≤ (secs.flatMap (·.network)).flatten.length := by
    intro x hx
    clear hlen hne hsec hT hmem hnmem n1 n2 n3 hnet hval
    induction secs with
    | nil => cases hx
    | cons y r ih =>
      rw [List.flatMap_cons, List.flatten_append, List.length_append]
      rcases List.mem_cons.1 hx with rfl | hx
      · omega
      · have := ih hx; omega
  have hver : (UInt8.ofNat version).toNat < 32 := by rw [ofNat8 _ (by omega)]; exact hv
  have htid : UInt8.ofNat tid = 0x40 ∨ UInt8.ofNat tid = 0x41 := by
    rcases hid with rfl | rfl
    · exact .inl rfl
    · exact .inr rfl
  have f1 : t.tableId.toNat = tid := by rw [← hT]; exact ofNat8 _ (by omega)
  have f2 : t.networkId.toNat = networkId := by rw [← hT]; exact ofNat16 _ hn
  have f3 : t.version.toNat % 32 = version := by rw [← hT]; simp only []; rw [ofNat8 _ (by omega)]; omega
  have f4 : t.descriptors = (secs.flatMap (·.network)).map (received p) := by rw [← hT]
  have f5 : t.items = (secs.flatMap (·.streams)).map (Transport.item p) := by rw [← hT]
  have ht : t.InRange := by
    refine ⟨by rw [← hT]; exact htid, by rw [← hT]; exact hver, ⟨⟨by rw [f4]; exact n1, by rw [f4, n3]; exact hlen⟩, by rw [f4]; exact n2⟩, ?_⟩
    intro i hi
    rw [f5] at hi
    obtain ⟨v, hv', rfl⟩ := List.mem_map.1 hi
    exact (v.item_spec p (hmem v hv')).2
  have fm : ∀ l : List Transport, (∀ v ∈ l, v.Valid) → (l.map (Transport.item p)).flatMap Nit.entry = l.flatMap Transport.bytes :=
    fun l hl => flatMap_item l _ _ _ fun v hv' => (v.item_spec p (hl v hv')).1
  obtain ⟨s', hr⟩ := receive_stream (Nit.parse p) p pid hp secs (fun x =>
      complete (Table.nit tid networkId version x.number x.last x.network.flatten (x.streams.flatMap Transport.bytes)))
    (by
      intro x hx
      have := (hsec x hx).2.2
      refine complete_isSection ?_ ?_
      all_goals simp only [Table.nit, List.length_append, header_length, sized12_length]; omega)
    (fun u x => { t with descriptors := u.descriptors ++ x.network.map (received p), items := u.items ++ x.streams.map (Transport.item p) })
    (by
      intro u x hx psi hb hs
      obtain ⟨m1, m2, m3⟩ := received_loop p x.network (hnet x hx)
      generalize hTx : ({ t with descriptors := x.network.map (received p) } : Nit) = tx
      have htx : tx.InRange := by
        rw [← hTx]
        refine ⟨ht.id, ht.version, ⟨⟨m1, ?_⟩, m2⟩, ht.items⟩
        show 12 + ((x.network.map (received p)).flatMap Desc.wire).length ≤ 1020
        rw [m3]
        have := hpart x hx
        omega
      have e0 : tx.network 0 = x.network.flatten := by rw [← hTx]; exact m3
      have e1 : tx.tableId.toNat = tid := by rw [← hTx]; exact f1
      have e2 : tx.networkId.toNat = networkId := by rw [← hTx]; exact f2
      have e3 : tx.version.toNat % 32 = version := by rw [← hTx]; exact f3
      have := Nit.parse_section p u tx htx x.number x.last (hsec x hx).1 (hsec x hx).2.1 0 (x.streams.map (Transport.item p)) (by
          intro i hi
          obtain ⟨v, hv', rfl⟩ := List.mem_map.1 hi
          rw [← hTx]
          show _ ∈ t.items
          rw [f5]
          exact List.mem_map_of_mem (List.mem_flatMap.2 ⟨x, hx, hv'⟩)) psi
        (by rw [e0, e1, e2, e3, fm _ (hval x hx)]; exact hb) (by rw [e0, e1, e2, e3, fm _ (hval x hx)]; exact hs)
      rw [this, ← hTx]
      rfl)
    (by
      intro u psi hx hlt h183
      refine Nit.C65_nit p u psi (.inr (by intro e; rw [e] at h183; simp at h183)) ?_
      rintro ⟨-, -, h, -⟩
      omega)
    Nit.default s cc
  have hfold : ∀ (l : List NitSection) (u : Nit), l ≠ [] →
      l.foldl (fun u x => { t with descriptors := u.descriptors ++ x.network.map (received p),
                                   items := u.items ++ x.streams.map (Transport.item p) }) u =
      { t with descriptors := u.descriptors ++ (l.flatMap (·.network)).map (received p),
               items := u.items ++ (l.flatMap (·.streams)).map (Transport.item p) } := by
    intro l
    induction l with
    | nil => intro u h; exact (h rfl).elim
    | cons x r ih =>
      intro u _
      rw [List.foldl_cons]
      by_cases hr : r = []
      · subst hr; simp
      · rw [ih _ hr]; simp
  rw [hfold _ _ hne] at hr
  have ht' : { t with descriptors := Nit.default.descriptors ++ (secs.flatMap (·.network)).map (received p),
                      items := Nit.default.items ++ (secs.flatMap (·.streams)).map (Transport.item p) } = t := by
    rw [← f5, ← f4]; rfl
  rw [ht'] at hr
  obtain ⟨gsI, P, hw⟩ := Nit.C56_wire p t ht.network.1 (fun i hi => (ht.items i hi).1) pid' cc' dst hp' hc'
  have hD : t.descriptors.flatMap Desc.wire = (secs.flatMap (·.network)).flatten := by rw [f4, n3]
  rw [hD] at P
  have Q : Packed (fun s : Transport => s.bytes.length) 1020 (12 + (secs.flatMap (·.network)).flatten.length) 12 (secs.flatMap (·.streams))
      (fill (fun s : Transport => s.bytes.length) 1020 12 (12 + (secs.flatMap (·.network)).flatten.length) (secs.flatMap (·.streams))) :=
    packed_fill _ _ _ _ (fun v hv' => (hmem v hv').2.2.2) _ hlen
  generalize fill (fun s : Transport => s.bytes.length) 1020 12 (12 + (secs.flatMap (·.network)).flatten.length) (secs.flatMap (·.streams)) = gs at Q
  have Q' := Q.map (size' := fun i => (Nit.entry i).length) (Transport.item p) fun v hv' => by rw [(v.item_spec p (hmem v hv')).1]
  rw [← f5] at Q'
  have hgs := P.unique Q'
  refine ⟨t, s', gs, hr, Q, ?_⟩
  have hwire : t.wire gsI = nitSections tid networkId version (secs.flatMap (·.network)).flatten gs := by
    rw [hgs, Nit.wire, nitSections, List.zipIdx_map, List.map_map, List.length_map, f1, f2, f3]
    refine List.map_congr_left fun x hx => ?_
    have hg : x.1 ∈ gs := (List.mem_zipIdx' hx).2 ▸ List.getElem_mem _
    simp only [Function.comp, Prod.map]
    rw [fm x.1 fun v hv' => hmem v (Q.all ▸ List.mem_flatten.2 ⟨x.1, hg, hv'⟩)]
    simp only [Nit.network, hD, id]
  rw [hwire] at hw
  exact hw

/-! ## Program map table -/

/-- An elementary stream of a PMT as it is sent. -/
structure Stream where
  type : Nat
  pid : Nat
  descs : List (List UInt8)

namespace Stream

def bytes (s : Stream) : List UInt8 := pmtEntry s.type s.pid s.descs.flatten

def Valid (s : Stream) : Prop := s.type < 256 ∧ s.pid < 8192 ∧ (∀ d ∈ s.descs, Relayed d) ∧ 12 + s.bytes.length ≤ 1020

def item (p : Profile) (s : Stream) : PmtItem :=
  { streamType := UInt8.ofNat s.type, pid := UInt16.ofNat s.pid, descriptors := s.descs.map (received p) }

theorem item_spec (p : Profile) (s : Stream) (h : s.Valid) :
    Pmt.entry (s.item p) = s.bytes ∧ Pmt.ItemInRange (s.item p) ∧ (s.item p).pid.toNat < 8192 ∧ ∀ d ∈ (s.item p).descriptors, d.Exact := by
  obtain ⟨h1, h2, h6, h7⟩ := h
  obtain ⟨r1, r2, r3⟩ := received_loop p s.descs h6
  have e : Pmt.entry (s.item p) = s.bytes := by
    simp only [Pmt.entry, item, bytes, r3, ofNat8 _ h1, ofNat16 s.pid (by omega), Nat.mod_eq_of_lt h2]
  refine ⟨e, ⟨r1, by rw [e]; exact h7⟩, ?_, r2⟩
  simp only [item]
  rw [ofNat16 s.pid (by omega)]; exact h2

end Stream

/-- The PMT sections, without program descriptors, for streams distributed in this way. -/
def pmtSections (pnr version pcr : Nat) (groups : List (List Stream)) : List (List UInt8) :=
  groups.zipIdx.map fun x => complete (Table.pmt pnr version (x.2 % 256) ((groups.length - 1) % 256) pcr [] (x.1.flatMap Stream.bytes))

/-- C96 for the PMT without program descriptors (those are misread, see C55): identification, PCR PID and streams are relayed byte
for byte, in order. -/
theorem C96_pmt_partial (p : Profile) (pnr version pcr : Nat) (hn : pnr < 2 ^ 16) (hv : version < 32) (hpcr : pcr < 8192)
    (secs : List (Nat × Nat × List Stream)) (hne : secs ≠ [])
    (hsec : ∀ x ∈ secs, x.1 < 256 ∧ x.2.1 < 256 ∧ (x.2.2.flatMap Stream.bytes).length ≤ 4082)
    (hval : ∀ x ∈ secs, ∀ s ∈ x.2.2, s.Valid) (pid : Nat) (hp : pid < 8192) (cc : Nat) (s : Psi)
    (pid' : UInt16) (hp' : pid'.toNat < 8192) (cc' : UInt8) (hc' : cc'.toNat < 16) (dst : List UInt8) :
    ∃ t s' gs, receive (Pmt.parse p) p Pmt.default s (stream pid cc (secs.map fun x =>
        complete (Table.pmt pnr version x.1 x.2.1 pcr [] (x.2.2.flatMap Stream.bytes)))) = .ok (t, s') ∧
      Packed (fun s : Stream => s.bytes.length) 1020 12 12 (secs.flatMap fun x => x.2.2) gs ∧
      t.demux p pid' cc' dst = .ok (UInt8.ofNat ((cc'.toNat + streamCount (pmtSections pnr version pcr gs)) % 16),
        dst ++ (stream pid'.toNat cc'.toNat (pmtSections pnr version pcr gs)).flatten) := by
  generalize hT : ({ version := UInt8.ofNat version, pnr := UInt16.ofNat pnr, pcr := UInt16.ofNat pcr, descriptors := []
                     items := (secs.flatMap fun x => x.2.2).map (Stream.item p) } : Pmt) = t
  have hmem : ∀ v ∈ secs.flatMap (fun x => x.2.2), v.Valid := by
    intro v hv'
    obtain ⟨x, hx, hm⟩ := List.mem_flatMap.1 hv'
    exact hval x hx v hm
  have f1 : t.pnr.toNat = pnr := by rw [← hT]; exact ofNat16 _ hn
  have f3 : t.version.toNat = version := by rw [← hT]; exact ofNat8 _ (by omega)
  have f3' : t.version.toNat % 32 = version := by omega
  have f4 : t.pcr.toNat = pcr := by rw [← hT]; exact ofNat16 _ (by omega)
  have f4' : t.pcr.toNat % 8192 = pcr := by omega
  have f5 : t.items = (secs.flatMap fun x => x.2.2).map (Stream.item p) := by rw [← hT]
  have f6 : t.descriptors = [] := by rw [← hT]
  have f7 : ∀ k, t.program k = [] := by intro k; simp [Pmt.program, f6]
  have ht : t.InRange := by
    refine ⟨by omega, by omega, ⟨by rw [f6]; simp [Good], by rw [f6]; simp⟩, ?_⟩
    intro i hi
    rw [f5] at hi
    obtain ⟨v, hv', rfl⟩ := List.mem_map.1 hi
    exact (v.item_spec p (hmem v hv')).2
  have fm : ∀ l : List Stream, (∀ v ∈ l, v.Valid) → (l.map (Stream.item p)).flatMap Pmt.entry = l.flatMap Stream.bytes :=
    fun l hl => flatMap_item l _ _ _ fun v hv' => (v.item_spec p (hl v hv')).1
  obtain ⟨s', hr⟩ := receive_stream (Pmt.parse p) p pid hp secs (fun x =>
      complete (Table.pmt pnr version x.1 x.2.1 pcr [] (x.2.2.flatMap Stream.bytes)))
    (by
      intro x hx
      have := (hsec x hx).2.2
      refine complete_isSection ?_ ?_
      all_goals simp only [Table.pmt, List.length_append, header_length, beBytes_length, sized12_length, List.length_nil]; omega)
    (fun u x => { t with descriptors := u.descriptors, items := u.items ++ x.2.2.map (Stream.item p) })
    (by
      intro u x hx psi hb hs
      have := Pmt.parse_section p u t ht x.1 x.2.1 (hsec x hx).1 (hsec x hx).2.1 0 (x.2.2.map (Stream.item p)) (by
          intro i hi
          obtain ⟨v, hv', rfl⟩ := List.mem_map.1 hi
          rw [f5]
          exact List.mem_map_of_mem (List.mem_flatMap.2 ⟨x, hx, hv'⟩)) psi
        (by rw [f1, f3', f4', f7, fm _ (hval x hx)]; exact hb) (by rw [f1, f3', f4', f7, fm _ (hval x hx)]; exact hs)
      rw [this, f7, Pmt.shifted_nil, map_ok, List.append_nil])
    (by
      intro u psi hx hlt h183
      refine Pmt.C65_pmt p u psi (.inr (by intro e; rw [e] at h183; simp at h183)) ?_
      rintro ⟨-, -, h, -⟩
      omega)
    Pmt.default s cc
  have hfold : ∀ (l : List (Nat × Nat × List Stream)) (u : Pmt), l ≠ [] →
      l.foldl (fun u x => { t with descriptors := u.descriptors, items := u.items ++ x.2.2.map (Stream.item p) }) u =
      { t with descriptors := u.descriptors, items := u.items ++ (l.flatMap fun x => x.2.2).map (Stream.item p) } := by
    intro l
    induction l with
    | nil => intro u h; exact (h rfl).elim
    | cons x r ih =>
      intro u _
      rw [List.foldl_cons]
      by_cases hr : r = []
      · subst hr; simp
      · rw [ih _ hr]; simp
  rw [hfold _ _ hne] at hr
  have ht' : { t with descriptors := Pmt.default.descriptors, items := Pmt.default.items ++ (secs.flatMap fun x => x.2.2).map (Stream.item p) } = t := by
    rw [← f5]
    show ({ t with descriptors := [], items := [] ++ t.items } : Pmt) = t
    rw [← f6]; rfl
  rw [ht'] at hr
  obtain ⟨gsI, P, hw⟩ := Pmt.C55_wire p t ht.program (fun i hi => (ht.items i hi).1) pid' cc' dst hp' hc'
  rw [f6] at P
  have Q : Packed (fun s : Stream => s.bytes.length) 1020 12 12 (secs.flatMap fun x => x.2.2)
      (fill (fun s : Stream => s.bytes.length) 1020 12 12 (secs.flatMap fun x => x.2.2)) :=
    packed_fill _ _ _ _ (fun v hv' => (hmem v hv').2.2.2) 12 (by omega)
  generalize fill (fun s : Stream => s.bytes.length) 1020 12 12 (secs.flatMap fun x => x.2.2) = gs at Q
  have Q' := Q.map (size' := fun i => (Pmt.entry i).length) (Stream.item p) fun v hv' => by rw [(v.item_spec p (hmem v hv')).1]
  rw [← f5] at Q'
  have hgs := P.unique Q'
  refine ⟨t, s', gs, hr, Q, ?_⟩
  have hwire : t.wire gsI = pmtSections pnr version pcr gs := by
    rw [hgs, Pmt.wire, pmtSections, List.zipIdx_map, List.map_map, List.length_map, f1, f3', f4']
    refine List.map_congr_left fun x hx => ?_
    have hg : x.1 ∈ gs := (List.mem_zipIdx' hx).2 ▸ List.getElem_mem _
    simp only [Function.comp, Prod.map]
    rw [fm x.1 fun v hv' => hmem v (Q.all ▸ List.mem_flatten.2 ⟨x.1, hg, hv'⟩), f7]
    simp only [id]
  rw [hwire] at hw
  exact hw

/-- C96 fails for PMTs with program descriptors.  A single program descriptor whose tag is larger than its length (any CA descriptor
with at most four bytes of private data, for one) is dropped: the program is sent on without it. -/
theorem C96_pmt_refuted (p : Profile) (pnr version pcr : Nat) (hn : pnr < 2 ^ 16) (hv : version < 32) (hpcr : pcr < 8192)
    (tag : UInt8) (b : List UInt8) (hb : b.length < tag.toNat) (hD : Relayed (Descriptor.descriptor tag.toNat b))
    (l : List Stream) (hval : ∀ s ∈ l, s.Valid) (hl : 14 + b.length + (l.flatMap Stream.bytes).length ≤ 1020)
    (pid : Nat) (hp : pid < 8192) (cc : Nat) (s : Psi)
    (pid' : UInt16) (hp' : pid'.toNat < 8192) (cc' : UInt8) (hc' : cc'.toNat < 16) (dst : List UInt8) :
    let sec := fun loop => complete (Table.pmt pnr version 0 0 pcr loop (l.flatMap Stream.bytes))
    ∃ t s' c, receive (Pmt.parse p) p Pmt.default s (packets pid cc (sec (Descriptor.descriptor tag.toNat b))) = .ok (t, s') ∧
      t.demux p pid' cc' dst = .ok (c, dst ++ (packets pid'.toNat cc'.toNat (sec [])).flatten) := by
  intro sec
  have htl := tag.toNat_lt
  have hlen : (Descriptor.descriptor tag.toNat b).length = b.length + 2 := by simp [Descriptor.descriptor]
  obtain ⟨d1, d2, d3, d4⟩ := received_spec p _ hD
  generalize hT : ({ version := UInt8.ofNat version, pnr := UInt16.ofNat pnr, pcr := UInt16.ofNat pcr
                     descriptors := [received p (Descriptor.descriptor tag.toNat b)]
                     items := l.map (Stream.item p) } : Pmt) = t
  have f1 : t.pnr.toNat = pnr := by rw [← hT]; exact ofNat16 _ hn
  have f3 : t.version.toNat = version := by rw [← hT]; exact ofNat8 _ (by omega)
  have f3' : t.version.toNat % 32 = version := by omega
  have f4 : t.pcr.toNat = pcr := by rw [← hT]; exact ofNat16 _ (by omega)
  have f4' : t.pcr.toNat % 8192 = pcr := by omega
  have f5 : t.items = l.map (Stream.item p) := by rw [← hT]
  have f6 : t.descriptors = [received p (Descriptor.descriptor tag.toNat b)] := by rw [← hT]
  have f7 : t.program 0 = Descriptor.descriptor tag.toNat b := by simp [Pmt.program, f6, d4]
  have ht : t.InRange := by
    refine ⟨by omega, by omega, ⟨by rw [f6]; simp [Good, d1, d3], by rw [f6]; simp [d4, hlen]; omega⟩, ?_⟩
    intro i hi
    rw [f5] at hi
    obtain ⟨v, hv', rfl⟩ := List.mem_map.1 hi
    exact (v.item_spec p (hval v hv')).2
  have fm : (l.map (Stream.item p)).flatMap Pmt.entry = l.flatMap Stream.bytes :=
    flatMap_item l _ _ _ fun v hv' => (v.item_spec p (hval v hv')).1
  have hshift : (Descriptor.frames (Pmt.shifted (t.program 0))).mapM (Desc.parse p) = .ok [] := by
    have e : Descriptor.frames (Pmt.shifted (t.program 0)) = [] := by
      rw [f7, Pmt.shifted, hlen]
      simp only [Descriptor.descriptor, u8_eta, List.take_succ_cons]
      rw [Descriptor.frames, if_neg]
      simp only [List.length_take, List.length_cons]
      omega
    rw [e]; rfl
  obtain ⟨s', hr⟩ := receive_stream (Pmt.parse p) p pid hp [()] (fun _ => sec (Descriptor.descriptor tag.toNat b))
    (by
      intro x hx
      refine complete_isSection ?_ ?_
      all_goals simp only [Table.pmt, List.length_append, header_length, beBytes_length, sized12_length, hlen]; omega)
    (fun u _ => { t with descriptors := u.descriptors, items := u.items ++ l.map (Stream.item p) })
    (by
      intro u x hx psi hb hs
      have := Pmt.parse_section p u t ht 0 0 (by omega) (by omega) 0 (l.map (Stream.item p)) (by
          intro i hi
          rw [f5]; exact hi) psi
        (by rw [f1, f3', f4', f7, fm]; exact hb) (by rw [f1, f3', f4', f7, fm]; exact hs)
      rw [this, hshift, map_ok, List.append_nil])
    (by
      intro u psi hx hlt h183
      refine Pmt.C65_pmt p u psi (.inr (by intro e; rw [e] at h183; simp at h183)) ?_
      rintro ⟨-, -, h, -⟩
      omega)
    Pmt.default s cc
  simp only [List.map_cons, List.map_nil, stream, List.append_nil, List.foldl_cons, List.foldl_nil] at hr
  generalize hU : ({ t with descriptors := Pmt.default.descriptors, items := Pmt.default.items ++ l.map (Stream.item p) } : Pmt) = u at hr
  have g1 : u.pnr.toNat = pnr := by rw [← hU]; exact f1
  have g3 : u.version.toNat % 32 = version := by rw [← hU]; exact f3'
  have g4 : u.pcr.toNat % 8192 = pcr := by rw [← hU]; exact f4'
  have g5 : u.items = l.map (Stream.item p) := by rw [← hU]; rfl
  have g6 : u.descriptors = [] := by rw [← hU]; rfl
  obtain ⟨gs, P, hw⟩ := Pmt.C55_wire p u ⟨by rw [g6]; simp [Good], by rw [g6]; simp⟩ (by
    intro i hi
    rw [g5] at hi
    exact (ht.items i (f5 ▸ hi)).1) pid' cc' dst hp' hc'
  rw [g6] at P
  have hg : gs = [l.map (Stream.item p)] := by
    refine P.unique ?_
    rw [g5]
    refine packed_single _ _ _ _ _ ?_
    rw [sum_bytes, fm]
    simp only [List.flatMap_nil, List.length_nil]
    omega
  have hwire : u.wire gs = [sec []] := by
    rw [hg, Pmt.wire, g1, g3, g4]
    have : u.program 0 = [] := by simp [Pmt.program, g6]
    simp only [List.zipIdx_cons, List.zipIdx_nil, List.map_cons, List.map_nil, List.length_singleton, fm, this]
    rfl
  rw [hwire] at hw
  simp only [stream, List.append_nil] at hw
  exact ⟨u, s', _, hr, hw⟩

/-! ## Event information table, present/following -/

/-- An event as it is sent. -/
structure Event where
  id : Nat
  start : Nat
  duration : Nat
  status : Nat
  caMode : Nat
  descs : List (List UInt8)

namespace Event

def bytes (s : Event) : List UInt8 := eitEntry s.id s.start s.duration s.status s.caMode s.descs.flatten

def Valid (s : Event) : Prop :=
  s.id < 2 ^ 16 ∧ unixEpochMjd + s.start / 86400 < 2 ^ 16 ∧ s.duration < 86400 ∧ s.status < 8 ∧ s.caMode < 2 ∧
    (∀ d ∈ s.descs, Relayed d) ∧ 14 + s.bytes.length ≤ 4092

def item (p : Profile) (s : Event) : EitItem :=
  { eventId := UInt16.ofNat s.id, start := UInt64.ofNat s.start, duration := UInt32.ofNat s.duration, status := UInt8.ofNat s.status
    caMode := UInt8.ofNat s.caMode, descriptors := s.descs.map (received p) }

theorem item_spec (p : Profile) (s : Event) (h : s.Valid) :
    Eit.entry (s.item p) = s.bytes ∧ Eit.ItemInRange (s.item p) ∧ ∀ d ∈ (s.item p).descriptors, d.Exact := by
  obtain ⟨h1, h2, h3, h4, h5, h6, h7⟩ := h
  simp only [unixEpochMjd] at h2
  obtain ⟨r1, r2, r3⟩ := received_loop p s.descs h6
  have e : Eit.entry (s.item p) = s.bytes := by
    simp only [Eit.entry, item, bytes, r3, ofNat16 _ h1, ofNat64 s.start (by omega), ofNat32 s.duration (by omega),
      ofNat8 s.status (by omega), ofNat8 s.caMode (by omega)]
  refine ⟨e, ⟨?_, ?_, ?_, ?_, r1, by rw [e]; exact h7⟩, r2⟩
  · simp only [TimeInRange, item, unixEpochMjd]; rw [ofNat64 s.start (by omega)]; exact h2
  all_goals simp only [item]
  · rw [ofNat32 s.duration (by omega)]; exact h3
  · rw [ofNat8 s.status (by omega)]; exact h4
  · rw [ofNat8 s.caMode (by omega)]; exact h5

end Event

/-- One received EIT section: section numbers, segment_last_section_number, last_table_id, events. -/
structure EitSection where
  number : Nat
  last : Nat
  segmentLast : Nat
  lastTableId : Nat
  events : List Event

/-- The present/following sections for these events: one each. -/
def eitPfSections (tableId pnr version tsid onid : Nat) (events : List Event) : List (List UInt8) :=
  events.zipIdx.map fun x => complete (Table.eit tableId pnr version (x.2 % 256) ((events.length - 1) % 256) tsid onid
    ((events.length - 1) % 256) tableId x.1.bytes)

/-- C96 for present/following EITs: the events of all sections are relayed byte for byte, in order, and numbered anew: one section
for each event. -/
theorem C96_eit_pf (p : Profile) (tid pnr version tsid onid : Nat) (hid : tid = 0x4E ∨ tid = 0x4F) (hn : pnr < 2 ^ 16) (hv : version < 32)
    (hts : tsid < 2 ^ 16) (hon : onid < 2 ^ 16) (secs : List EitSection) (hne : secs ≠ [])
    (hsec : ∀ x ∈ secs, x.number < 256 ∧ x.last < 256 ∧ x.segmentLast < 256 ∧ x.lastTableId < 256 ∧
      (x.events.flatMap Event.bytes).length ≤ 4078)
    (hval : ∀ x ∈ secs, ∀ s ∈ x.events, s.Valid) (pid : Nat) (hp : pid < 8192) (cc : Nat) (s : Psi)
    (pid' : UInt16) (hp' : pid'.toNat < 8192) (cc' : UInt8) (hc' : cc'.toNat < 16) (dst : List UInt8) :
    let out := eitPfSections tid pnr version tsid onid (secs.flatMap (·.events))
    ∃ t s', receive (Eit.parse p) p Eit.default s (stream pid cc (secs.map fun x =>
        complete (Table.eit tid pnr version x.number x.last tsid onid x.segmentLast x.lastTableId (x.events.flatMap Event.bytes)))) =
          .ok (t, s') ∧
      t.demux p pid' cc' dst = .ok (UInt8.ofNat ((cc'.toNat + streamCount out) % 16),
        dst ++ (stream pid'.toNat cc'.toNat out).flatten) := by
  intro out
  generalize hT : ({ tableId := UInt8.ofNat tid, version := UInt8.ofNat version, pnr := UInt16.ofNat pnr, tsid := UInt16.ofNat tsid
                     onid := UInt16.ofNat onid, items := (secs.flatMap (·.events)).map (Event.item p) } : Eit) = t
  have hmem : ∀ v ∈ secs.flatMap (·.events), v.Valid := by
    intro v hv'
    obtain ⟨x, hx, hm⟩ := List.mem_flatMap.1 hv'
    exact hval x hx v hm
  have f0 : t.tableId = UInt8.ofNat tid := by rw [← hT]
  have f1 : t.tableId.toNat = tid := by rw [f0]; exact ofNat8 _ (by omega)
  have f2 : t.pnr.toNat = pnr := by rw [← hT]; exact ofNat16 _ hn
  have f3 : t.version.toNat = version := by rw [← hT]; exact ofNat8 _ (by omega)
  have f3' : t.version.toNat % 32 = version := by omega
  have f4 : t.tsid.toNat = tsid := by rw [← hT]; exact ofNat16 _ hts
  have f4' : t.onid.toNat = onid := by rw [← hT]; exact ofNat16 _ hon
  have f5 : t.items = (secs.flatMap (·.events)).map (Event.item p) := by rw [← hT]
  have hitems : ∀ l : List Event, (∀ v ∈ l, v.Valid) → ∀ i ∈ l.map (Event.item p), Eit.ItemInRange i ∧ ∀ d ∈ i.descriptors, d.Exact := by
    intro l hl i hi
    obtain ⟨v, hv', rfl⟩ := List.mem_map.1 hi
    exact (v.item_spec p (hl v hv')).2
  have fm : ∀ l : List Event, (∀ v ∈ l, v.Valid) → (l.map (Event.item p)).flatMap Eit.entry = l.flatMap Event.bytes :=
    fun l hl => flatMap_item l _ _ _ fun v hv' => (v.item_spec p (hl v hv')).1
  obtain ⟨s', hr⟩ := receive_stream (Eit.parse p) p pid hp secs (fun x =>
      complete (Table.eit tid pnr version x.number x.last tsid onid x.segmentLast x.lastTableId (x.events.flatMap Event.bytes)))
    (by
      intro x hx
      have := (hsec x hx).2.2.2.2
      refine complete_isSection ?_ ?_
      all_goals simp only [Table.eit, List.length_append, header_length, beBytes_length]; omega)
    (fun u x => { t with items := u.items ++ x.events.map (Event.item p) })
    (by
      intro u x hx psi hb hs
      obtain ⟨a1, a2, a3, a4, -⟩ := hsec x hx
      have e : t.section' tid x.number x.last x.segmentLast x.lastTableId (x.events.map (Event.item p)) =
          complete (Table.eit tid pnr version x.number x.last tsid onid x.segmentLast x.lastTableId (x.events.flatMap Event.bytes)) := by
        rw [Eit.section', f2, f3', f4, f4', fm _ (hval x hx)]
      have := Eit.parse_section p u t (by omega) tid x.number x.last x.segmentLast x.lastTableId (by omega) a1 a2 a3 a4
        (x.events.map (Event.item p)) (hitems _ (hval x hx)) psi (by rw [e]; exact hb) (by rw [e]; exact hs)
      rw [this, ← f0])
    (by
      intro u psi hx hlt h183
      refine Eit.C65_eit p u psi (.inr (by intro e; rw [e] at h183; simp at h183)) ?_
      rintro ⟨-, -, h, -⟩
      omega)
    Eit.default s cc
  have hfold : ∀ (l : List EitSection) (u : Eit), l ≠ [] →
      l.foldl (fun u x => { t with items := u.items ++ x.events.map (Event.item p) }) u =
      { t with items := u.items ++ (l.flatMap (·.events)).map (Event.item p) } := by
    intro l
    induction l with
    | nil => intro u h; exact (h rfl).elim
    | cons x r ih =>
      intro u _
      rw [List.foldl_cons]
      by_cases hr : r = []
      · subst hr; simp
      · rw [ih _ hr]; simp
  rw [hfold _ _ hne] at hr
  have ht' : { t with items := Eit.default.items ++ (secs.flatMap (·.events)).map (Event.item p) } = t := by
    rw [← f5]; rfl
  rw [ht'] at hr
  have hw := Eit.C58_wire p t (by rw [f0]; rcases hid with rfl | rfl <;> decide)
    (fun i hi => (hitems _ hmem i (f5 ▸ hi)).1) pid' cc' dst hp' hc'
  have hwire : t.wirePf = out := by
    show t.wirePf = eitPfSections tid pnr version tsid onid (secs.flatMap (·.events))
    rw [Eit.wirePf, eitPfSections, f5, List.zipIdx_map, List.map_map, List.length_map, f1]
    refine List.map_congr_left fun x hx => ?_
    have hg : x.1 ∈ secs.flatMap (·.events) := (List.mem_zipIdx' hx).2 ▸ List.getElem_mem _
    simp only [Function.comp, Prod.map, id]
    rw [Eit.section', f2, f3', f4, f4', List.flatMap_cons, List.flatMap_nil, List.append_nil, (x.1.item_spec p (hmem x.1 hg)).1]
  rw [hwire] at hw
  exact ⟨t, s', hr, hw⟩

/-- C96 fails when there is no present event: the standard then sends section 0 without event and the following event in section 1
(EN 300 468 section 5.2.4).  It is sent on as section 0 of a table of one section: the following event is announced as the
present one. -/
theorem C96_eit_following_refuted (p : Profile) (tid pnr version tsid onid : Nat) (hid : tid = 0x4E ∨ tid = 0x4F) (hn : pnr < 2 ^ 16)
    (hv : version < 32) (hts : tsid < 2 ^ 16) (hon : onid < 2 ^ 16) (ev : Event) (hval : ev.Valid) (pid : Nat) (hp : pid < 8192) (cc : Nat)
    (s : Psi) (pid' : UInt16) (hp' : pid'.toNat < 8192) (cc' : UInt8) (hc' : cc'.toNat < 16) (dst : List UInt8) :
    let sec := fun number last events => complete (Table.eit tid pnr version number last tsid onid last tid events)
    ∃ t s' c, receive (Eit.parse p) p Eit.default s (stream pid cc [sec 0 1 [], sec 1 1 ev.bytes]) = .ok (t, s') ∧
      t.demux p pid' cc' dst = .ok (c, dst ++ (packets pid'.toNat cc'.toNat (sec 0 0 ev.bytes)).flatten) := by
  intro sec
  obtain ⟨t, s', h1, h2⟩ := C96_eit_pf p tid pnr version tsid onid hid hn hv hts hon [⟨0, 1, 1, tid, []⟩, ⟨1, 1, 1, tid, [ev]⟩] (by simp)
    (by
      have := hval.2.2.2.2.2.2
      simp only [List.mem_cons, List.not_mem_nil, or_false]
      rintro x (rfl | rfl)
      all_goals dsimp only
      · exact ⟨by omega, by omega, by omega, by omega, by simp⟩
      · exact ⟨by omega, by omega, by omega, by omega, by simp; omega⟩)
    (by
      simp only [List.mem_cons, List.not_mem_nil, or_false]
      rintro x (rfl | rfl)
      · intro s hs; cases hs
      · intro s hs
        rw [List.mem_singleton.1 hs]; exact hval)
    pid hp cc s pid' hp' cc' hc' dst
  simp only [List.map_cons, List.map_nil, List.flatMap_cons, List.flatMap_nil, List.append_nil] at h1
  have e : eitPfSections tid pnr version tsid onid ([⟨0, 1, 1, tid, []⟩, ⟨1, 1, 1, tid, [ev]⟩].flatMap EitSection.events) =
      [sec 0 0 ev.bytes] := rfl
  rw [e] at h2
  simp only [stream, List.append_nil] at h2
  exact ⟨t, s', _, h1, h2⟩

/-! ## Program association table -/

/-- The entries of a list of programs. -/
def patEntries (l : List (Nat × Nat)) : List UInt8 := l.flatMap fun x => patEntry x.1 x.2

theorem Pat.parse_section (p : Profile) (u : Pat) (tsid version n l : Nat) (hts : tsid < 2 ^ 16) (hv : version < 32) (hn : n < 256)
    (hl : l < 256) (g : List (Nat × Nat)) (hg : ∀ x ∈ g, x.1 < 2 ^ 16 ∧ x.2 < 8192) (psi : Psi)
    (hb : psi.buffer = complete (Table.pat tsid version n l (patEntries g)))
    (hs : psi.size = (complete (Table.pat tsid version n l (patEntries g))).length) :
    u.parse p psi = .ok { version := UInt8.ofNat version, tsid := UInt16.ofNat tsid
                          items := u.items ++ g.map fun x => ⟨UInt16.ofNat x.1, UInt16.ofNat x.2⟩ } := by
  rw [Table.pat] at hb hs
  obtain ⟨s1, s2, s3, s4, s5, -, -, s8, s9, -⟩ := section_fields 0x00 0b1011 tsid version n l (patEntries g) (by omega) hts hv hn hl
  have hacc : Pat.Accepts psi := by
    refine ⟨?_, complete_intact _ (by simp; omega) psi hb hs 12 (by simp)⟩
    rw [hb, s2]; rfl
  have h8 := s9 0
  rw [← hs, ← hb] at h8
  rw [← hb] at s4 s5
  rw [Pat.C66_pat p u psi hacc, s4, s5, h8, List.drop_zero, patEntries,
    chunks_flatMap 4 (by omega) (fun x : Nat × Nat => patEntry x.1 x.2) g (fun i _ => by simp [patEntry]), List.map_map]
  rw [show (0xC1 + 2 * version) / 2 % 32 = version by omega]
  refine congrArg (fun x => Except.ok (Pat.mk _ _ (u.items ++ x))) (List.map_congr_left fun i hi => ?_)
  obtain ⟨h1, h2⟩ := hg i hi
  have e1 : field (patEntry i.1 i.2) 0 2 = i.1 := by
    simp only [field, patEntry, List.drop_zero]
    rw [List.take_left' (beBytes_length _ _), beNat_beBytes]; omega
  have e2 : field (patEntry i.1 i.2) 2 2 % 8192 = i.2 := by
    simp only [field, patEntry]
    rw [List.drop_left' (beBytes_length _ _), List.take_of_length_le (by simp), beNat_beBytes]
    simp only [Descriptor.pack, List.foldl_cons, List.foldl_nil]
    omega
  simp only [Function.comp, e1, e2]

theorem pat_relay (p : Profile) (tsid version : Nat) (hts : tsid < 2 ^ 16) (hv : version < 32)
    (secs : List (Nat × Nat × List (Nat × Nat))) (hne : secs ≠ [])
    (hsec : ∀ x ∈ secs, x.1 < 256 ∧ x.2.1 < 256 ∧ x.2.2.length ≤ 1021)
    (hval : ∀ x ∈ secs, ∀ s ∈ x.2.2, s.1 < 2 ^ 16 ∧ s.2 < 8192) (pid : Nat) (hp : pid < 8192) (cc : Nat) (s : Psi)
    (pid' : UInt16) (hp' : pid'.toNat < 8192) (cc' : UInt8) (hc' : cc'.toNat < 16) (dst : List UInt8) :
    let out := complete (Table.pat tsid version 0 0 (patEntries ((secs.flatMap fun x => x.2.2).take 253)))
    ∃ t s', receive (Pat.parse p) p Pat.default s (stream pid cc (secs.map fun x =>
        complete (Table.pat tsid version x.1 x.2.1 (patEntries x.2.2)))) = .ok (t, s') ∧
      t.items = (secs.flatMap fun x => x.2.2).map (fun x => ⟨UInt16.ofNat x.1, UInt16.ofNat x.2⟩) ∧
      t.demux p pid' cc' dst = .ok (UInt8.ofNat ((cc'.toNat + packetCount out.length) % 16),
        dst ++ (packets pid'.toNat cc'.toNat out).flatten) := by
  intro out
  generalize hI : ((secs.flatMap fun x => x.2.2).map fun x : Nat × Nat => (⟨UInt16.ofNat x.1, UInt16.ofNat x.2⟩ : PatItem)) = items
  obtain ⟨s', hr⟩ := receive_stream (Pat.parse p) p pid hp secs (fun x => complete (Table.pat tsid version x.1 x.2.1 (patEntries x.2.2)))
    (by
      intro x hx
      have := (hsec x hx).2.2
      have hl : (patEntries x.2.2).length = x.2.2.length * 4 := flatMap_length _ _ 4 fun i _ => by simp [patEntry]
      refine complete_isSection ?_ ?_
      all_goals simp only [Table.pat, List.length_append, header_length, hl]; omega)
    (fun u x => { version := UInt8.ofNat version, tsid := UInt16.ofNat tsid
                  items := u.items ++ x.2.2.map fun x => ⟨UInt16.ofNat x.1, UInt16.ofNat x.2⟩ })
    (by
      intro u x hx psi hb hs
      exact Pat.parse_section p u tsid version x.1 x.2.1 hts hv (hsec x hx).1 (hsec x hx).2.1 x.2.2 (hval x hx) psi hb hs)
    (by
      intro u psi hx hlt h183
      refine Pat.C65_pat p u psi (.inr (by intro e; rw [e] at h183; simp at h183)) ?_
      rintro ⟨-, -, h, -⟩
      omega)
    Pat.default s cc
  have hfold : ∀ (l : List (Nat × Nat × List (Nat × Nat))) (u : Pat), l ≠ [] →
      l.foldl (fun u x => ({ version := UInt8.ofNat version, tsid := UInt16.ofNat tsid
                             items := u.items ++ x.2.2.map fun x => ⟨UInt16.ofNat x.1, UInt16.ofNat x.2⟩ } : Pat)) u =
      { version := UInt8.ofNat version, tsid := UInt16.ofNat tsid
        items := u.items ++ (l.flatMap fun x => x.2.2).map fun x => ⟨UInt16.ofNat x.1, UInt16.ofNat x.2⟩ } := by
    intro l
    induction l with
    | nil => intro u h; exact (h rfl).elim
    | cons x r ih =>
      intro u _
      rw [List.foldl_cons]
      by_cases hr : r = []
      · subst hr; simp
      · rw [ih _ hr]; simp
  rw [hfold _ _ hne, hI] at hr
  refine ⟨_, s', hr, rfl, ?_⟩
  have hw := Pat.C54_wire p { version := UInt8.ofNat version, tsid := UInt16.ofNat tsid, items := Pat.default.items ++ items } pid' cc' dst hp' hc'
  have e : Pat.wire { version := UInt8.ofNat version, tsid := UInt16.ofNat tsid, items := Pat.default.items ++ items }
      (List.take 253 (Pat.default.items ++ items)) = out := by
    have h1 : (Pat.default.items ++ items).take 253 =
        ((secs.flatMap fun x => x.2.2).take 253).map fun x : Nat × Nat => (⟨UInt16.ofNat x.1, UInt16.ofNat x.2⟩ : PatItem) := by
      rw [← hI, List.map_take]; rfl
    rw [h1, Pat.wire]
    simp only []
    rw [ofNat16 _ hts, ofNat8 version (by omega), Nat.mod_eq_of_lt hv, flatMap_item _ _ Pat.entry (fun x : Nat × Nat => patEntry x.1 x.2)]
    · rfl
    · intro x hx
      obtain ⟨y, hy, hm⟩ := List.mem_flatMap.1 (List.mem_of_mem_take hx)
      obtain ⟨q1, q2⟩ := hval y hy x hm
      simp only [Pat.entry]
      rw [ofNat16 _ q1, ofNat16 x.2 (by omega), Nat.mod_eq_of_lt q2]
  simp only [e] at hw
  exact hw

/-- C96 for the PAT, up to the 253 programs of one section: the programs of all received sections, in order, are sent on in one section. -/
theorem C96_pat_partial (p : Profile) (tsid version : Nat) (hts : tsid < 2 ^ 16) (hv : version < 32)
    (secs : List (Nat × Nat × List (Nat × Nat))) (hne : secs ≠ [])
    (hsec : ∀ x ∈ secs, x.1 < 256 ∧ x.2.1 < 256 ∧ x.2.2.length ≤ 1021)
    (htot : (secs.flatMap fun x => x.2.2).length ≤ 253)
    (hval : ∀ x ∈ secs, ∀ s ∈ x.2.2, s.1 < 2 ^ 16 ∧ s.2 < 8192) (pid : Nat) (hp : pid < 8192) (cc : Nat) (s : Psi)
    (pid' : UInt16) (hp' : pid'.toNat < 8192) (cc' : UInt8) (hc' : cc'.toNat < 16) (dst : List UInt8) :
    let out := complete (Table.pat tsid version 0 0 (patEntries (secs.flatMap fun x => x.2.2)))
    ∃ t s', receive (Pat.parse p) p Pat.default s (stream pid cc (secs.map fun x =>
        complete (Table.pat tsid version x.1 x.2.1 (patEntries x.2.2)))) = .ok (t, s') ∧
      t.demux p pid' cc' dst = .ok (UInt8.ofNat ((cc'.toNat + packetCount out.length) % 16),
        dst ++ (packets pid'.toNat cc'.toNat out).flatten) := by
  obtain ⟨t, s', h1, -, h3⟩ := pat_relay p tsid version hts hv secs hne hsec hval pid hp cc s pid' hp' cc' hc' dst
  rw [List.take_of_length_le htot] at h3
  exact ⟨t, s', h1, h3⟩

/-- C96 fails for PATs of more than 253 programs: all of them are received, over however many sections, and one section with the first 253
is sent on. -/
theorem C96_pat_refuted (p : Profile) (tsid version : Nat) (hts : tsid < 2 ^ 16) (hv : version < 32) (g h : List (Nat × Nat))
    (hg : g.length = 253) (hh : h ≠ []) (hl : h.length ≤ 253) (hval : ∀ s ∈ g ++ h, s.1 < 2 ^ 16 ∧ s.2 < 8192) (pid : Nat) (hp : pid < 8192)
    (cc : Nat) (s : Psi) (pid' : UInt16) (hp' : pid'.toNat < 8192) (cc' : UInt8) (hc' : cc'.toNat < 16) (dst : List UInt8) :
    ∃ t s' c, receive (Pat.parse p) p Pat.default s (stream pid cc [complete (Table.pat tsid version 0 1 (patEntries g)),
        complete (Table.pat tsid version 1 1 (patEntries h))]) = .ok (t, s') ∧ t.items.length = 253 + h.length ∧
      t.demux p pid' cc' dst = .ok (c, dst ++ (packets pid'.toNat cc'.toNat (complete (Table.pat tsid version 0 0 (patEntries g)))).flatten) := by
  obtain ⟨t, s', h1, h2, h3⟩ := pat_relay p tsid version hts hv [(0, 1, g), (1, 1, h)] (by simp)
    (by
      simp only [List.mem_cons, List.not_mem_nil, or_false]
      rintro x (rfl | rfl) <;> dsimp only
      · exact ⟨by omega, by omega, by omega⟩
      · exact ⟨by omega, by omega, by omega⟩)
    (by
      simp only [List.mem_cons, List.not_mem_nil, or_false]
      rintro x (rfl | rfl) s hs
      · exact hval s (List.mem_append_left _ hs)
      · exact hval s (List.mem_append_right _ hs))
    pid hp cc s pid' hp' cc' hc' dst
  simp only [List.map_cons, List.map_nil, List.flatMap_cons, List.flatMap_nil, List.append_nil] at h1 h2 h3
  rw [List.take_left' hg] at h3
  exact ⟨t, s', _, h1, by rw [h2, List.length_map, List.length_append, hg], h3⟩

/-! ## Time tables -/

/-- C96 for the TDT: any time a 16 bit day number can express is sent on unchanged. -/
theorem C96_tdt (p : Profile) (u : Tdt) (time : Nat) (h : unixEpochMjd + time / 86400 < 2 ^ 16) (pid : UInt16) (hp : pid.toNat < 8192) (cc : UInt8)
    (hc : cc.toNat < 16) (s : Psi) (pid' : UInt16) (hp' : pid'.toNat < 8192) (cc' : UInt8) (hc' : cc'.toNat < 16) (dst : List UInt8) :
    ∃ t s', receive (Tdt.parse p) p u s (packets pid.toNat cc.toNat (Table.tdt time)) = .ok (t, s') ∧
      t.demux p pid' cc' dst = .ok (UInt8.ofNat ((cc'.toNat + 1) % 16), dst ++ (packets pid'.toNat cc'.toNat (Table.tdt time)).flatten) := by
  have ht : (UInt64.ofNat time).toNat = time := ofNat64 _ (by unfold unixEpochMjd at h; omega)
  have hr : TimeInRange (UInt64.ofNat time) := by rw [TimeInRange, ht]; exact h
  obtain ⟨c, pk, s', h1, -, h3⟩ := Tdt.C61_round_trip p ⟨UInt64.ofNat time⟩ u hr pid cc [] s hp hc
  have hw := Tdt.C61_wire p ⟨UInt64.ofNat time⟩ hr pid cc [] hp hc
  have hw' := Tdt.C61_wire p ⟨UInt64.ofNat time⟩ hr pid' cc' dst hp' hc'
  simp only [ht] at hw hw'
  have hpk : packets pid.toNat cc.toNat (Table.tdt time) = [packetAt pid.toNat cc.toNat (Table.tdt time) 0] := by
    unfold packets; rw [show (Table.tdt time).length = 8 by simp [Table.tdt]]; rfl
  rw [hw, hpk] at h1
  have e : packetAt pid.toNat cc.toNat (Table.tdt time) 0 = pk := by
    have := congrArg Prod.snd (Except.ok.inj h1)
    simpa using this
  rw [hpk, e]
  exact ⟨_, s', h3, hw'⟩

/-- C96 for the TOT: its time and its descriptors are sent on unchanged. -/
theorem C96_tot (p : Profile) (u : Tot) (hu : u.descriptors = []) (time : Nat) (h : unixEpochMjd + time / 86400 < 2 ^ 16)
    (descs : List (List UInt8)) (hd : ∀ d ∈ descs, Relayed d) (hl : descs.flatten.length ≤ 4084)
    (pid : Nat) (hp : pid < 8192) (cc : Nat) (s : Psi) (pid' : UInt16) (hp' : pid'.toNat < 8192) (cc' : UInt8) (hc' : cc'.toNat < 16)
    (dst : List UInt8) :
    let sec := complete (Table.tot time descs.flatten)
    ∃ t s', receive (Tot.parse p) p u s (packets pid cc sec) = .ok (t, s') ∧
      t.demux p pid' cc' dst = .ok (UInt8.ofNat ((cc'.toNat + packetCount sec.length) % 16),
        dst ++ (packets pid'.toNat cc'.toNat sec).flatten) := by
  intro sec
  have ht : (UInt64.ofNat time).toNat = time := ofNat64 _ (by unfold unixEpochMjd at h; omega)
  obtain ⟨r1, r2, r3⟩ := received_loop p descs hd
  have hr : Tot.InRange ⟨UInt64.ofNat time, descs.map (received p)⟩ := by
    refine ⟨?_, r1, ?_⟩
    · show unixEpochMjd + (UInt64.ofNat time).toNat / 86400 < 2 ^ 16
      rw [ht]; exact h
    · simp only [r3]; omega
  have hw : Tot.wire ⟨UInt64.ofNat time, descs.map (received p)⟩ = sec := by simp only [Tot.wire, ht, r3]; rfl
  obtain ⟨s', h1⟩ := Tot.receive_wire p _ u hr r2 hu pid cc s hp
  have h2 := Tot.C62_wire p _ hr pid' cc' dst hp' hc'
  rw [hw] at h1 h2
  exact ⟨_, s', h1, h2⟩

/-! ## Concrete cases -/

/-- A service with a name and an uninterpreted descriptor. -/
def sampleService : Service := ⟨101, 1, 1, 4, 0, [Descriptor.service 1 [0x41] [0x42, 0x43], Descriptor.descriptor 0x5F [0, 0, 0, 40]]⟩

example : sampleService.Valid := by
  refine ⟨by decide, by decide, by decide, by decide, by decide, ?_, by decide +kernel⟩
  intro d hd
  simp only [sampleService, List.mem_cons, List.not_mem_nil, or_false] at hd
  rcases hd with rfl | rfl
  · exact .service _ _ _ (by decide) (by decide) (by simp [Kept]) (by simp [Kept])
  · exact .uninterpreted 0x5F _ (by decide +kernel) (by decide)

/-- An event of ninety minutes with a short event descriptor. -/
def sampleRelayEvent : Event := ⟨7, 1700000000, 5400, 4, 0, [Descriptor.shortEvent [0x65, 0x6E, 0x67] [0x41] [0x42]]⟩

theorem sampleRelayEvent_valid : sampleRelayEvent.Valid := by
  refine ⟨by decide, by decide +kernel, by decide, by decide, by decide, ?_, by decide +kernel⟩
  intro d hd
  simp only [sampleRelayEvent, List.mem_cons, List.not_mem_nil, or_false] at hd
  rw [hd]
  exact .shortEvent _ _ _ rfl (by decide) (by simp [Kept]) (by simp [Kept]) (by simp [Kept])

/-- The descriptor of `C96_pmt_refuted`: a CA descriptor of the usual four bytes. -/
example : Relayed (Descriptor.descriptor (9 : UInt8).toNat [0x06, 0x50, 0xE4, 0xB1]) ∧ [(0x06 : UInt8), 0x50, 0xE4, 0xB1].length < (9 : UInt8).toNat :=
  ⟨.conditionalAccess 0x0650 0x04B1 [] (by decide) (by decide) (by decide), by decide⟩

end Mpegts
