import Verif.Props.C137
import Verif.Props.C123

/-! # C138: different tables are sent differently -/

namespace Mpegts
open Spec Spec.Table

/-! ## From packets to what is received -/

/-- Two calls that send the same and whose packets are received: the same is received. -/
theorem received_inj {α : Type} {f : α → Psi → R α} {p : Profile} {u : α} {s : Psi} {pid : UInt16} {dst : List UInt8} {a b : R (UInt8 × List UInt8)}
    {x y : α}
    (ha : ∃ cc' pks s', a = .ok (cc', dst ++ pks.flatten) ∧ (∀ pk ∈ pks, IsTsPacket pid.toNat pk) ∧ receive f p u s pks = .ok (x, s'))
    (hb : ∃ cc' pks s', b = .ok (cc', dst ++ pks.flatten) ∧ (∀ pk ∈ pks, IsTsPacket pid.toNat pk) ∧ receive f p u s pks = .ok (y, s'))
    (h : a = b) : x = y := by
  obtain ⟨c1, k1, s1, e1, l1, r1⟩ := ha
  obtain ⟨c2, k2, s2, e2, l2, r2⟩ := hb
  rw [e1, e2] at h
  have h := List.append_cancel_left (Prod.mk.inj (Except.ok.inj h)).2
  have h := flatten_inj (fun z hz => (l1 z hz).1) (fun z hz => (l2 z hz).1) h
  subst h
  rw [r1] at r2
  exact (Prod.mk.inj (Except.ok.inj r2)).1

/-! ## The theorems -/

/-- C138 for PATs: two PATs are sent as the same bytes exactly if they agree in the transport stream id, the low five bits of the version, and the
program numbers and low 13 bits of the PIDs of the first 253 programs. -/
theorem C138_pat (p : Profile) (t u : Pat) (pid : UInt16) (cc : UInt8) (dst : List UInt8) (hp : pid.toNat < 8192) (hc : cc.toNat < 16) :
    t.demux p pid cc dst = u.demux p pid cc dst ↔ t.version % 32 = u.version % 32 ∧ t.tsid = u.tsid ∧
      (t.items.take 253).map (fun i => (i.pnr, i.pid % 8192)) = (u.items.take 253).map (fun i => (i.pnr, i.pid % 8192)) := by
  have key : ∀ t : Pat, ∃ cc' pks s', t.demux p pid cc dst = .ok (cc', dst ++ pks.flatten) ∧ (∀ pk ∈ pks, IsTsPacket pid.toNat pk) ∧
      receive (Pat.parse p) p Pat.default Psi.default pks = .ok ({
        version := UInt8.ofNat (t.version.toNat % 32)
        tsid := t.tsid
        items := (t.items.take 253).map fun i => { i with pid := UInt16.ofNat (i.pid.toNat % 8192) } }, s') := by
    intro t
    obtain ⟨s', hr⟩ := Pat.receive_wire p t Pat.default (t.items.take 253) (by rw [List.length_take]; omega) Psi.default pid.toNat cc.toNat hp
    exact ⟨_, _, s', Pat.C54_wire p t pid cc dst hp hc, packets_isTsPacket _ _ hp _, hr⟩
  have e8 : ∀ v : UInt8, UInt8.ofNat (v.toNat % 32) = v % 32 := fun v => by
    apply UInt8.toNat.inj; simp; omega
  have e16 : ∀ v : UInt16, UInt16.ofNat (v.toNat % 8192) = v % 8192 := fun v => by
    apply UInt16.toNat.inj; simp; omega
  constructor
  · intro h
    have := received_inj (key t) (key u) h
    simp only [Pat.mk.injEq, e8, e16] at this
    refine ⟨this.1, this.2.1, ?_⟩
    have := congrArg (List.map fun i : PatItem => (i.pnr, i.pid)) this.2.2
    simpa [List.map_map, Function.comp_def] using this
  · rintro ⟨h1, h2, h3⟩
    have hi : (t.fit.items.take 253) = u.fit.items.take 253 := by
      have := congrArg (List.map fun x : UInt16 × UInt16 => PatItem.mk x.1 x.2) h3
      simpa [List.map_map, Function.comp_def, Pat.fit, List.map_take] using this
    have hw : t.fit.wire (t.fit.items.take 253) = u.fit.wire (u.fit.items.take 253) := by
      rw [hi]; simp only [Pat.wire, Pat.fit, h1, h2]
    rw [C136_pat p t pid cc dst hp hc, C136_pat p u pid cc dst hp hc, Pat.C54_wire p t.fit pid cc dst hp hc, Pat.C54_wire p u.fit pid cc dst hp hc, hw]

/-- C138 for NITs: two NITs are sent as the same bytes exactly if all their fields hold the same values. -/
theorem C138_nit (p : Profile) (t u : Nit) (ht : t.fit.InRange) (hu : u.fit.InRange) (pid : UInt16) (cc : UInt8) (dst : List UInt8)
    (hp : pid.toNat < 8192) (hc : cc.toNat < 16) : t.demux p pid cc dst = u.demux p pid cc dst ↔ t.fit = u.fit := by
  constructor
  · exact received_inj (C136_nit_received_partial p t ht pid cc dst Psi.default hp hc) (C136_nit_received_partial p u hu pid cc dst Psi.default hp hc)
  · intro h; rw [C136_nit_partial p t pid cc dst hp hc, C136_nit_partial p u pid cc dst hp hc, h]

/-- C138 for SDTs. -/
theorem C138_sdt (p : Profile) (t u : Sdt) (ht : t.fit.InRange) (hu : u.fit.InRange) (pid : UInt16) (cc : UInt8) (dst : List UInt8)
    (hp : pid.toNat < 8192) (hc : cc.toNat < 16) : t.demux p pid cc dst = u.demux p pid cc dst ↔ t.fit = u.fit := by
  constructor
  · exact received_inj (C136_sdt_received_partial p t ht pid cc dst Psi.default hp hc) (C136_sdt_received_partial p u hu pid cc dst Psi.default hp hc)
  · intro h; rw [C136_sdt_partial p t pid cc dst hp hc, C136_sdt_partial p u pid cc dst hp hc, h]

/-- C138 for present/following EITs. -/
theorem C138_eit (p : Profile) (t u : Eit) (h1 : t.tableId = 0x4E ∨ t.tableId = 0x4F) (h2 : u.tableId = 0x4E ∨ u.tableId = 0x4F)
    (ht : t.fit.InRange) (hu : u.fit.InRange) (n1 : t.items ≠ []) (n2 : u.items ≠ []) (pid : UInt16) (cc : UInt8) (dst : List UInt8)
    (hp : pid.toNat < 8192) (hc : cc.toNat < 16) : t.demux p pid cc dst = u.demux p pid cc dst ↔ t.fit = u.fit := by
  constructor
  · exact received_inj (C136_eit_received_partial p t h1 ht n1 pid cc dst Psi.default hp hc)
      (C136_eit_received_partial p u h2 hu n2 pid cc dst Psi.default hp hc)
  · intro h; rw [C136_eit_partial p t pid cc dst hp hc, C136_eit_partial p u pid cc dst hp hc, h]

/-- C138 for TOTs. -/
theorem C138_tot (p : Profile) (t u : Tot) (ht : t.fit.InRange) (hu : u.fit.InRange) (e1 : ∀ d ∈ t.fit.descriptors, d.Exact)
    (e2 : ∀ d ∈ u.fit.descriptors, d.Exact) (pid : UInt16) (cc : UInt8) (dst : List UInt8) (hp : pid.toNat < 8192) (hc : cc.toNat < 16) :
    t.demux p pid cc dst = u.demux p pid cc dst ↔ t.fit = u.fit := by
  constructor
  · exact received_inj (C136_tot_received_partial p t ⟨0, []⟩ ht e1 rfl pid cc dst Psi.default hp hc)
      (C136_tot_received_partial p u ⟨0, []⟩ hu e2 rfl pid cc dst Psi.default hp hc)
  · intro h; rw [C136_tot_partial p t pid cc dst hp hc, C136_tot_partial p u pid cc dst hp hc, h]

/-- C138 for TDTs: two times are sent as the same bytes exactly if they agree in the day modulo 2^16 and the seconds of the day (of the time modulo
2^32). -/
theorem C138_tdt (p : Profile) (t u : Tdt) (pid : UInt16) (cc : UInt8) (dst : List UInt8) (hp : pid.toNat < 8192) (hc : cc.toNat < 16) :
    t.demux p pid cc dst = u.demux p pid cc dst ↔
      Calendar.day t.time.toNat = Calendar.day u.time.toNat ∧ Calendar.ofDay t.time.toNat = Calendar.ofDay u.time.toNat := by
  rw [Tdt.C110_tdt p t pid cc dst hp hc, Tdt.C110_tdt p u pid cc dst hp hc]
  constructor
  · intro h
    have h := List.append_cancel_left (Prod.mk.inj (Except.ok.inj h)).2
    have h := flatten_inj (fun z hz => (packets_isTsPacket _ _ hp _ z hz).1) (fun z hz => (packets_isTsPacket _ _ hp _ z hz).1) h
    have hs : ∀ t : Nat, sectionsIn (packets pid.toNat cc.toNat ([0x70, 0x70, 0x05] ++ AnyValue.utc t)) = [[0x70, 0x70, 0x05] ++ AnyValue.utc t] := by
      intro t
      have := sections_stream pid.toNat hp cc.toNat [[0x70, 0x70, 0x05] ++ AnyValue.utc t] (by
        intro s hs
        obtain rfl := List.mem_singleton.1 hs
        have l : ([0x70, 0x70, 0x05] ++ AnyValue.utc t).length = 8 := by simp [AnyValue.utc]
        refine ⟨⟨by omega, ?_⟩, by simp⟩
        rw [l]; simp; decide)
      simpa [Spec.Table.stream] using this
    have h := congrArg sectionsIn h
    rw [hs, hs] at h
    have h := List.append_cancel_left (List.cons.inj h).1
    obtain ⟨h1, h2⟩ := List.append_inj h (by simp)
    have h1 := congrArg beNat h1
    have h2 := congrArg beNat h2
    rw [beNat_beBytes, beNat_beBytes] at h1 h2
    refine ⟨h1, ?_⟩
    rw [show (256 ^ 3 : Nat) = 2 ^ 24 from rfl, Nat.mod_eq_of_lt (hhmmss_lt _), Nat.mod_eq_of_lt (hhmmss_lt _)] at h2
    have a := fromBcdTime32_at .release (Calendar.ofDay t.time.toNat) (ofDay_lt _)
    have b := fromBcdTime32_at .release (Calendar.ofDay u.time.toNat) (ofDay_lt _)
    rw [show Descriptor.hhmmss (Calendar.ofDay t.time.toNat) = Descriptor.hhmmss (Calendar.ofDay u.time.toNat) from h2, b] at a
    have e := congrArg UInt32.toNat (Except.ok.inj a)
    have l1 := ofDay_lt t.time.toNat
    have l2 := ofDay_lt u.time.toNat
    rw [UInt32.toNat_ofNat', UInt32.toNat_ofNat', Nat.mod_eq_of_lt (by omega), Nat.mod_eq_of_lt (by omega)] at e
    exact e.symm
  · rintro ⟨h1, h2⟩
    have e : AnyValue.utc t.time.toNat = AnyValue.utc u.time.toNat := by
      rw [AnyValue.utc, AnyValue.utc, ← beBytes_mod 2 _ 65536 (by decide), ← beBytes_mod 2 (unixEpochMjd + u.time.toNat / 86400) 65536 (by decide)]
      exact congr (congrArg HAppend.hAppend (congrArg (beBytes 2) h1)) (congrArg (fun x => beBytes 3 (Descriptor.hhmmss x)) h2)
    rw [e]

/-! ## PMTs, whose program descriptors are not read back -/

theorem beBytes_inj (n : Nat) {a b : Nat} (ha : a < 256 ^ n) (hb : b < 256 ^ n) (h : beBytes n a = beBytes n b) : a = b := by
  have h := congrArg beNat h
  rwa [beNat_beBytes, beNat_beBytes, Nat.mod_eq_of_lt ha, Nat.mod_eq_of_lt hb] at h

theorem sized12_inj {a b : Nat} {x y r q : List UInt8} (ha : a < 16) (hb : b < 16) (hx : x.length < 4096) (hy : y.length < 4096)
    (h : sized12 a x ++ r = sized12 b y ++ q) : x = y ∧ r = q := by
  simp only [sized12, List.append_assoc] at h
  obtain ⟨h1, h2⟩ := List.append_inj h (by simp)
  have h1 := beBytes_inj 2 (by simp [Descriptor.pack]; omega) (by simp [Descriptor.pack]; omega) h1
  simp [Descriptor.pack] at h1
  exact List.append_inj h2 (by omega)

theorem complete_inj {a b : List UInt8} (ha : 3 ≤ a.length) (hb : 3 ≤ b.length) (h : complete a = complete b) : a.drop 3 = b.drop 3 := by
  unfold complete at h
  simp only [List.append_assoc] at h
  obtain ⟨-, h⟩ := List.append_inj h (by simp; omega)
  obtain ⟨-, h⟩ := List.append_inj h (by simp)
  exact (List.append_inj' h (by simp)).1

theorem streams_inj : ∀ (a b : List Foreign.Stream), (∀ x ∈ a, x.Ok ∧ x.reserved = 7 ∧ x.reserved2 = 15 ∧ x.descs.length < 4096) →
    (∀ x ∈ b, x.Ok ∧ x.reserved = 7 ∧ x.reserved2 = 15 ∧ x.descs.length < 4096) →
    a.flatMap Foreign.Stream.bytes = b.flatMap Foreign.Stream.bytes → a = b
  | [], [], _, _, _ => rfl
  | [], y :: b, _, _, h => by have := congrArg List.length h; simp [Foreign.Stream.bytes, sized12] at this; omega
  | x :: a, [], _, _, h => by have := congrArg List.length h; simp [Foreign.Stream.bytes, sized12] at this
  | x :: a, y :: b, ha, hb, h => by
    obtain ⟨o1, r1, q1, l1⟩ := ha x List.mem_cons_self
    obtain ⟨o2, r2, q2, l2⟩ := hb y List.mem_cons_self
    simp only [List.flatMap_cons, Foreign.Stream.bytes, List.append_assoc] at h
    obtain ⟨h1, h⟩ := List.append_inj h (by simp)
    obtain ⟨h2, h⟩ := List.append_inj h (by simp)
    rw [q1, q2] at h
    obtain ⟨h3, h⟩ := sized12_inj (by omega) (by omega) l1 l2 h
    have t1 := o1.type
    have t2 := o2.type
    have p1 := o1.pid
    have p2 := o2.pid
    have h1 := beBytes_inj 1 (by omega) (by omega) h1
    have h2 := beBytes_inj 2 (by simp [Descriptor.pack, r1]; omega) (by simp [Descriptor.pack, r2]; omega) h2
    simp [Descriptor.pack, r1, r2] at h2
    have := streams_inj a b (fun z hz => ha z (List.mem_cons_of_mem _ hz)) (fun z hz => hb z (List.mem_cons_of_mem _ hz)) h
    obtain ⟨a1, a2, a3, a4, a5⟩ := x
    obtain ⟨b1, b2, b3, b4, b5⟩ := y
    simp only at *
    subst h1 h2 h3 this r1 r2 q1 q2
    rfl

theorem map_same {α β γ : Type} (f : α → β) (g : α → γ) (P : α → Prop) (hfg : ∀ a b, P a → P b → f a = f b → g a = g b) :
    ∀ l m : List α, (∀ a ∈ l, P a) → (∀ a ∈ m, P a) → l.map f = m.map f → l.map g = m.map g
  | [], [], _, _, _ => rfl
  | [], y :: m, _, _, h => by simp at h
  | x :: l, [], _, _, h => by simp at h
  | x :: l, y :: m, hl, hm, h => by
    simp only [List.map_cons, List.cons.injEq] at h ⊢
    exact ⟨hfg x y (hl x List.mem_cons_self) (hm y List.mem_cons_self) h.1,
      map_same f g P hfg l m (fun a ha => hl a (List.mem_cons_of_mem _ ha)) (fun a ha => hm a (List.mem_cons_of_mem _ ha)) h.2⟩

/-- A program map section of which the reserved bits of the entries are set. -/
def PlainPmt (s : Foreign.Pmt) : Prop := s.Ok ∧ ∀ x ∈ s.streams, x.reserved = 7 ∧ x.reserved2 = 15

theorem flatMap_member_le {α : Type} (f : α → List UInt8) (l : List α) (x : α) (h : x ∈ l) : (f x).length ≤ (l.flatMap f).length := by
  induction l with
  | nil => cases h
  | cons y l ih =>
    rw [List.flatMap_cons, List.length_append]
    rcases List.mem_cons.1 h with rfl | h
    · omega
    · have := ih h; omega

theorem pmt_body_inj (a b : Foreign.Pmt) (ha : PlainPmt a) (hb : PlainPmt b) (h : complete a.body = complete b.body) :
    (a.head.ext, a.head.version, a.pcr, a.descs, a.streams) = (b.head.ext, b.head.version, b.pcr, b.descs, b.streams) := by
  have small : ∀ a : Foreign.Pmt, a.Ok → a.descs.length < 4096 ∧ (a.streams.flatMap Foreign.Stream.bytes).length < 4096 := by
    intro a ha
    have := ha.fits
    simp only [Foreign.Pmt.body, sized12, List.length_append] at this
    constructor <;> omega
  have hd : ∀ a : Foreign.Pmt, a.body.drop 3 = beBytes 2 a.head.ext ++ (beBytes 1 (Descriptor.pack [(2, a.head.reserved), (5, a.head.version),
      (1, a.head.current)]) ++ (beBytes 1 a.head.number ++ (beBytes 1 a.head.last ++ (beBytes 2 (Descriptor.pack [(3, a.reserved), (13, a.pcr)]) ++
      (sized12 a.reserved2 a.descs ++ a.streams.flatMap Foreign.Stream.bytes))))) := by
    intro a
    have : a.body = (beBytes 1 a.head.tableId ++ beBytes 2 (Descriptor.pack [(4, a.head.flags), (12, 0)])) ++ (beBytes 2 a.head.ext ++
      (beBytes 1 (Descriptor.pack [(2, a.head.reserved), (5, a.head.version),
      (1, a.head.current)]) ++ (beBytes 1 a.head.number ++ (beBytes 1 a.head.last ++ (beBytes 2 (Descriptor.pack [(3, a.reserved), (13, a.pcr)]) ++
      (sized12 a.reserved2 a.descs ++ a.streams.flatMap Foreign.Stream.bytes)))))) := by
      simp only [Foreign.Pmt.body, Foreign.Head.bytes, List.append_assoc]
    rw [this, List.drop_left' (by simp)]
  have l3 : ∀ a : Foreign.Pmt, 3 ≤ a.body.length := fun a => by simp [Foreign.Pmt.body, Foreign.Head.bytes]; omega
  have h := complete_inj (l3 a) (l3 b) h
  rw [hd, hd] at h
  obtain ⟨h1, h⟩ := List.append_inj h (by simp)
  obtain ⟨h2, h⟩ := List.append_inj h (by simp)
  obtain ⟨-, h⟩ := List.append_inj h (by simp)
  obtain ⟨-, h⟩ := List.append_inj h (by simp)
  obtain ⟨h3, h⟩ := List.append_inj h (by simp)
  obtain ⟨h4, h⟩ := sized12_inj ha.1.reserved2 hb.1.reserved2 (small a ha.1).1 (small b hb.1).1 h
  have x1 := ha.1.head.ext
  have x2 := hb.1.head.ext
  have y1 := ha.1.head.version
  have y2 := hb.1.head.version
  have r1 := ha.1.head.reserved
  have r2 := hb.1.head.reserved
  have c1 := ha.1.head.current
  have c2 := hb.1.head.current
  have z1 := ha.1.pcr
  have z2 := hb.1.pcr
  have w1 := ha.1.reserved
  have w2 := hb.1.reserved
  have h1 := beBytes_inj 2 (by omega) (by omega) h1
  have h2 := beBytes_inj 1 (by simp [Descriptor.pack]; omega) (by simp [Descriptor.pack]; omega) h2
  have h3 := beBytes_inj 2 (by simp [Descriptor.pack]; omega) (by simp [Descriptor.pack]; omega) h3
  simp [Descriptor.pack] at h2 h3
  have hs : ∀ a : Foreign.Pmt, PlainPmt a → ∀ x ∈ a.streams, x.Ok ∧ x.reserved = 7 ∧ x.reserved2 = 15 ∧ x.descs.length < 4096 := by
    intro a ha x hx
    have := flatMap_member_le Foreign.Stream.bytes a.streams x hx
    have := (small a ha.1).2
    have : x.descs.length ≤ x.bytes.length := by simp [Foreign.Stream.bytes, sized12]; omega
    exact ⟨ha.1.streams x hx, (ha.2 x hx).1, (ha.2 x hx).2, by omega⟩
  have h5 := streams_inj a.streams b.streams (hs a ha) (hs b hb) h
  have h2 : a.head.version = b.head.version := by omega
  have h3 : a.pcr = b.pcr := by omega
  rw [h1, h2, h3, h4, h5]

theorem wire_inj (ds es : List Desc) (h1 : ∀ d ∈ ds, d.InRange ∧ d.Exact) (h2 : ∀ d ∈ es, d.InRange ∧ d.Exact)
    (h : ds.flatMap Desc.wire = es.flatMap Desc.wire) : ds = es := by
  have a := C36_parse_wire .release [] ds h1
  have b := C36_parse_wire .release [] es h2
  rw [h, b] at a
  exact (Except.ok.inj a).symm

theorem reaches_inj {a b : R (UInt8 × List UInt8)} {pid : UInt16} {dst : List UInt8} {x y : List (List UInt8)} (ha : Reaches a pid dst x)
    (hb : Reaches b pid dst y) (h : a = b) : x = y := by
  obtain ⟨c1, k1, e1, l1, r1⟩ := ha
  obtain ⟨c2, k2, e2, l2, r2⟩ := hb
  rw [e1, e2] at h
  have h := List.append_cancel_left (Prod.mk.inj (Except.ok.inj h)).2
  have h := flatten_inj (fun z hz => (l1 z hz).1) (fun z hz => (l2 z hz).1) h
  rw [← r1, ← r2, h]

theorem pmt_inj (p : Profile) (t u : Pmt) (ht : t.InRange) (hu : u.InRange) (e1 : ∀ d ∈ t.descriptors, d.Exact) (e2 : ∀ d ∈ u.descriptors, d.Exact)
    (pid : UInt16) (cc : UInt8) (dst : List UInt8) (hp : pid.toNat < 8192) (hc : cc.toNat < 16)
    (h : t.demux p pid cc dst = u.demux p pid cc dst) : t = u := by
  obtain ⟨ss, a1, a2, a3, a4, a5, a6, a7⟩ := Pmt.C123_pmt p t ht.program (fun i hi => (ht.items i hi).1) pid cc dst hp hc
  obtain ⟨qs, b1, b2, b3, b4, b5, b6, b7⟩ := Pmt.C123_pmt p u hu.program (fun i hi => (hu.items i hi).1) pid cc dst hp hc
  have h := reaches_inj a7 b7 h
  have plain : ∀ (t : Pmt) (ss : List Foreign.Pmt), (∀ s ∈ ss, s.Ok) → ss.flatMap (·.streams) = t.items.map Pmt.stream → ∀ s ∈ ss, PlainPmt s := by
    intro t ss h1 h2 s hs
    refine ⟨h1 s hs, fun x hx => ?_⟩
    have : x ∈ t.items.map Pmt.stream := h2 ▸ List.mem_flatMap.2 ⟨s, hs, hx⟩
    obtain ⟨i, -, rfl⟩ := List.mem_map.1 this
    exact ⟨rfl, rfl⟩
  have h := map_same _ _ PlainPmt pmt_body_inj ss qs (plain t ss a1 a6) (plain u qs b1 b6) h
  have hl : ss.length = qs.length := by simpa using congrArg List.length h
  have hstr : t.items.map Pmt.stream = u.items.map Pmt.stream := by
    have := congrArg (List.flatMap fun x : Nat × Nat × Nat × List UInt8 × List Foreign.Stream => x.2.2.2.2) h
    simp only [List.flatMap_map] at this
    rw [← a6, ← b6, this]
  obtain ⟨s, ss, rfl⟩ := List.exists_cons_of_ne_nil a2
  obtain ⟨q, qs, rfl⟩ := List.exists_cons_of_ne_nil b2
  simp only [List.map_cons, List.cons.injEq, Prod.mk.injEq] at h
  obtain ⟨⟨h1, h2, h3, h4, -⟩, -⟩ := h
  simp only [List.length_cons, List.range_succ_eq_map, List.map_cons, List.cons.injEq] at a3 b3 a5 b5
  rw [a3.1, b3.1] at h1 h2
  rw [a4 s List.mem_cons_self, b4 q List.mem_cons_self] at h3
  rw [a5.1, b5.1, if_pos trivial, if_pos trivial] at h4
  have v1 := ht.version
  have v2 := hu.version
  have q1 := ht.pcr
  have q2 := hu.pcr
  simp only at h1 h2
  have i1 : t.pnr = u.pnr := UInt16.toNat.inj h1
  have i2 : t.version = u.version := UInt8.toNat.inj (by omega)
  have i3 : t.pcr = u.pcr := UInt16.toNat.inj (by omega)
  have i4 : t.descriptors = u.descriptors := wire_inj _ _ (fun d hd => ⟨ht.program.1 d hd |>.1, e1 d hd⟩) (fun d hd => ⟨hu.program.1 d hd |>.1, e2 d hd⟩) h4
  have i5 : t.items = u.items := by
    have := map_same Pmt.stream id (fun i => i.pid.toNat < 8192 ∧ ∀ d ∈ i.descriptors, d.InRange ∧ d.Exact) (by
      intro i j hi hj h
      simp only [Pmt.stream, Foreign.Stream.mk.injEq] at h
      obtain ⟨x1, -, x2, -, x3⟩ := h
      have y1 : i.streamType = j.streamType := UInt8.toNat.inj x1
      have y2 : i.pid = j.pid := UInt16.toNat.inj (by have := hi.1; have := hj.1; omega)
      have y3 := wire_inj _ _ hi.2 hj.2 x3
      obtain ⟨_, _, _⟩ := i
      obtain ⟨_, _, _⟩ := j
      simp only at y1 y2 y3
      simp only [id, y1, y2, y3]) t.items u.items
      (fun i hi => ⟨(ht.items i hi).2.1, fun d hd => ⟨(ht.items i hi).1.1 d hd |>.1, (ht.items i hi).2.2 d hd⟩⟩)
      (fun i hi => ⟨(hu.items i hi).2.1, fun d hd => ⟨(hu.items i hi).1.1 d hd |>.1, (hu.items i hi).2.2 d hd⟩⟩) hstr
    simpa using this
  obtain ⟨_, _, _, _, _⟩ := t
  obtain ⟨_, _, _, _, _⟩ := u
  simp only at i1 i2 i3 i4 i5
  simp only [i1, i2, i3, i4, i5]

/-- C138 for PMTs, program descriptors included (although the library does not read them back, see C55). -/
theorem C138_pmt (p : Profile) (t u : Pmt) (ht : t.fit.InRange) (hu : u.fit.InRange) (e1 : ∀ d ∈ t.fit.descriptors, d.Exact)
    (e2 : ∀ d ∈ u.fit.descriptors, d.Exact) (pid : UInt16) (cc : UInt8) (dst : List UInt8) (hp : pid.toNat < 8192) (hc : cc.toNat < 16) :
    t.demux p pid cc dst = u.demux p pid cc dst ↔ t.fit = u.fit := by
  rw [C136_pmt_partial p t pid cc dst hp hc, C136_pmt_partial p u pid cc dst hp hc]
  exact ⟨pmt_inj p t.fit u.fit ht hu e1 e2 pid cc dst hp hc, fun h => by rw [h]⟩

/-- The first section with events has the table id of the table. -/
theorem place_head {α : Type} (start size : α → Nat) (room origin base : Nat) (l : List α) (s : Spec.Schedule.Slot α) :
    ∃ x r, Spec.Schedule.place start size room origin base s l = x :: r ∧ x.table = s.table := by
  induction l generalizing s with
  | nil => exact ⟨s, [], rfl, rfl⟩
  | cons i l ih =>
    rw [Spec.Schedule.place]
    split
    · exact ⟨s, _, rfl, rfl⟩
    · split
      · exact ⟨s, _, rfl, rfl⟩
      · exact ih _

theorem schedule_first_table (t : Eit) (h : t.Schedulable) :
    ∃ sec, t.wireSchedule[t.firstSegment + 1]? = some sec ∧ tableIdOf sec = t.tableId.toNat := by
  obtain ⟨x, r, e1, e2⟩ := place_head (·.start.toNat) (fun i => (Eit.entry i).length) 4078 t.origin t.base t.items
    (⟨t.firstSegment + 1, 0, t.tableId.toNat, []⟩ : Spec.Schedule.Slot EitItem)
  have hx : t.slots[t.firstSegment + 1]? = some x := by
    rw [Eit.slots, Eit.eventSlots, e1, List.getElem?_append_right (by simp)]
    simp
  obtain ⟨n, hn⟩ := Eit.getElem_withLast t.slots _ x hx
  have hs : t.wireSchedule[t.firstSegment + 1]? = some (t.slotSection (x, n)) := by rw [Eit.wireSchedule, List.getElem?_map, hn]; rfl
  obtain ⟨y, hy, h1, -⟩ := Eit.schedule_at t h _ _ hs
  rw [hx] at hy
  cases hy
  exact ⟨_, hs, h1.trans e2⟩

theorem schedule_reaches (p : Profile) (t : Eit) (h : t.Schedulable) (pid : UInt16) (cc : UInt8) (dst : List UInt8) (hp : pid.toNat < 8192)
    (hc : cc.toNat < 16) : Reaches (t.demux p pid cc dst) pid dst t.wireSchedule := by
  refine reaches_of_sends hp (Eit.sendsSchedule p t h pid cc dst hp hc) fun sec hs e => ?_
  obtain ⟨k, hk⟩ := List.getElem?_of_mem hs
  obtain ⟨x, hx, h1, -⟩ := Eit.schedule_at t h k sec hk
  have h2 := (Eit.slots_ok t h x (List.mem_of_getElem? hx)).2.2.1
  cases sec with
  | nil => cases e
  | cons b l =>
    simp only [List.head?_cons, Option.some.injEq] at e
    subst e
    simp [tableIdOf, bytesAt, beNat] at h1
    omega

/-- C138 for schedules: two schedules are sent as the same bytes exactly if they agree in every field, the table id included (which the first section with
events gets as it is, see C60). -/
theorem C138_schedule (p : Profile) (t u : Eit) (h1 : t.fit.Schedulable) (h2 : u.fit.Schedulable) (ht : t.fit.InRange) (hu : u.fit.InRange)
    (pid : UInt16) (cc : UInt8) (dst : List UInt8) (hp : pid.toNat < 8192) (hc : cc.toNat < 16) :
    t.demux p pid cc dst = u.demux p pid cc dst ↔ t.fit = u.fit := by
  constructor
  · intro h
    obtain ⟨c1, k1, s1, l1, a1, a2, -, a3⟩ := C136_schedule_received_partial p t h1 ht pid cc dst Psi.default hp hc
    obtain ⟨c2, k2, s2, l2, b1, b2, -, b3⟩ := C136_schedule_received_partial p u h2 hu pid cc dst Psi.default hp hc
    have e := received_inj ⟨c1, k1, s1, a1, a2, a3⟩ ⟨c2, k2, s2, b1, b2, b3⟩ h
    rw [Eit.mk.injEq] at e
    rw [C136_eit_partial p t pid cc dst hp hc, C136_eit_partial p u pid cc dst hp hc] at h
    have hw := reaches_inj (schedule_reaches p _ h1 pid cc dst hp hc) (schedule_reaches p _ h2 pid cc dst hp hc) h
    obtain ⟨x, f1, f2⟩ := schedule_first_table _ h1
    obtain ⟨y, g1, g2⟩ := schedule_first_table _ h2
    have hi : t.fit.items = u.fit.items := e.2.2.2.2.2
    have hseg : t.fit.firstSegment = u.fit.firstSegment := by simp only [Eit.firstSegment, Eit.origin, Eit.firstStart, hi]
    rw [hw, hseg, g1] at f1
    obtain rfl := Option.some.inj f1
    have hid : t.fit.tableId = u.fit.tableId := UInt8.toNat_inj.1 (f2.symm.trans g2)
    exact Eit.mk.injEq .. |>.mpr ⟨hid, e.2⟩
  · intro h
    rw [C136_eit_partial p t pid cc dst hp hc, C136_eit_partial p u pid cc dst hp hc, h]

/-- C138 for descriptors. -/
theorem C138_descriptor (p : Profile) (d e : Desc) (h1 : d.fit.InRange) (h2 : e.fit.InRange) (e1 : d.fit.Exact) (e2 : e.fit.Exact)
    (n1 : ¬ d.fit.HasItems) (n2 : ¬ e.fit.HasItems) : d.assemble p [] = e.assemble p [] ↔ d.fit = e.fit := by
  constructor
  · intro h
    have a := C136_descriptor_read_partial p d h1 e1 n1
    have b := C136_descriptor_read_partial p e h2 e2 n2
    rw [h, b] at a
    exact (Except.ok.inj a).symm
  · intro h; rw [(C136_descriptor_partial p d []).1, (C136_descriptor_partial p e []).1, h]

/-! ## Examples -/

/-- Two PATs that differ in a PID. -/
example : Pat.demux .debug ⟨1, 2, [⟨7, 0x101⟩]⟩ 0 0 [] ≠ Pat.demux .debug ⟨1, 2, [⟨7, 0x102⟩]⟩ 0 0 [] := by
  rw [ne_eq, C138_pat .debug _ _ 0 0 [] (by decide) (by decide)]; decide
/-- Two PATs that differ only in what is not sent. -/
example : Pat.demux .debug ⟨1, 2, [⟨7, 0x101⟩]⟩ 0 0 [] = Pat.demux .debug ⟨33, 2, [⟨7, 0x2101⟩]⟩ 0 0 [] := by
  rw [C138_pat .debug _ _ 0 0 [] (by decide) (by decide)]; decide

example (p : Profile) : Sdt.demux p spoiltSdt 17 0 [] = Sdt.demux p spoiltSdt.fit 17 0 [] := by
  rw [C138_sdt p spoiltSdt spoiltSdt.fit spoiltSdt_fits (by refine ⟨.inl rfl, by decide, ?_⟩; intro i hi; refine ⟨⟨?_, ?_, ?_, ?_, ?_, ?_⟩, ?_⟩ <;> revert i <;> decide)
    17 0 [] (by decide) (by decide)]; decide

/-- Two PMTs that differ only in their program descriptors. -/
def pmtOne : Pmt := ⟨1, 7, 0x101, [.d52 ⟨9⟩], [⟨0x1B, 0x101, [.d52 ⟨1⟩]⟩]⟩
def pmtTwo : Pmt := ⟨1, 7, 0x101, [.d52 ⟨8⟩], [⟨0x1B, 0x101, [.d52 ⟨1⟩]⟩]⟩

example (p : Profile) : pmtOne.demux p 256 0 [] ≠ pmtTwo.demux p 256 0 [] := by
  rw [ne_eq, C138_pmt p pmtOne pmtTwo (by refine ⟨?_, ?_, ?_, ?_⟩ <;> decide +kernel) (by refine ⟨?_, ?_, ?_, ?_⟩ <;> decide +kernel)
    (by decide +kernel) (by decide +kernel) 256 0 [] (by decide) (by decide)]
  decide

/-- Noon of two days. -/
example (p : Profile) : Tdt.demux p ⟨43200⟩ 20 0 [] ≠ Tdt.demux p ⟨129600⟩ 20 0 [] := by
  rw [ne_eq, C138_tdt p _ _ 20 0 [] (by decide) (by decide)]; decide

example (p : Profile) := C138_eit p spoiltEit spoiltEit (.inl rfl) (.inl rfl) spoiltEit_fits spoiltEit_fits (by decide) (by decide) 18 0 [] (by decide) (by decide)

example (p : Profile) : Desc.assemble p (.d52 ⟨9⟩) [] ≠ Desc.assemble p (.d52 ⟨8⟩) [] := by
  rw [ne_eq, C138_descriptor p _ _ (by decide +kernel) (by decide +kernel) (by decide +kernel) (by decide +kernel) (by decide +kernel) (by decide +kernel)]
  decide

example (p : Profile) : Nit.demux p ⟨0x40, 1, 1, [], [⟨1, 2, [.d52 ⟨9⟩]⟩]⟩ 16 0 [] ≠ Nit.demux p ⟨0x40, 1, 1, [.d52 ⟨9⟩], [⟨1, 2, []⟩]⟩ 16 0 [] := by
  rw [ne_eq, C138_nit p _ _ (by refine ⟨?_, ?_, ?_, ?_⟩ <;> decide +kernel) (by refine ⟨?_, ?_, ?_, ?_⟩ <;> decide +kernel) 16 0 [] (by decide) (by decide)]
  decide

example (p : Profile) : Tot.demux p ⟨43200, []⟩ 20 0 [] ≠ Tot.demux p ⟨43201, []⟩ 20 0 [] := by
  rw [ne_eq, C138_tot p _ _ ⟨show _ < _ by decide, by decide +kernel, by decide +kernel⟩ ⟨show _ < _ by decide, by decide +kernel, by decide +kernel⟩
    (by decide +kernel) (by decide +kernel) 20 0 [] (by decide) (by decide)]
  decide

theorem sampleSchedule_fits : sampleSchedule.fit = sampleSchedule := by decide +kernel

example (p : Profile) := C138_schedule p sampleSchedule sampleSchedule (sampleSchedule_fits.symm ▸ sampleSchedule_ok)
  (sampleSchedule_fits.symm ▸ sampleSchedule_ok) (sampleSchedule_fits.symm ▸ sampleSchedule_inRange)
  (sampleSchedule_fits.symm ▸ sampleSchedule_inRange) 18 0 [] (by decide) (by decide)

/-- A schedule under another table id is sent differently. -/
example (p : Profile) : sampleSchedule.demux p 18 0 [] ≠ Eit.demux p { sampleSchedule with tableId := sampleSchedule.tableId + 1 } 18 0 [] := by
  have hf : Eit.fit { sampleSchedule with tableId := sampleSchedule.tableId + 1 } = { sampleSchedule with tableId := sampleSchedule.tableId + 1 } := by
    decide +kernel
  rw [Ne, C138_schedule p _ _ (sampleSchedule_fits.symm ▸ sampleSchedule_ok)
    (hf.symm ▸ ⟨by decide, by decide, sampleSchedule_ok.events, sampleSchedule_ok.span, by decide +kernel⟩)
    (sampleSchedule_fits.symm ▸ sampleSchedule_inRange) (hf.symm ▸ ⟨sampleSchedule_inRange.1, sampleSchedule_inRange.2⟩) 18 0 [] (by decide) (by decide), sampleSchedule_fits, hf]
  decide

end Mpegts
