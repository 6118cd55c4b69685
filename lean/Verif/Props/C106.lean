import Verif.Spec.ReadBack
import Verif.Props.C36
import Verif.Props.Sdt
import Verif.Props.Nit
import Verif.Props.Pmt
import Verif.Props.Tdt
import Verif.Props.EitSchedule

/-! # C106: a table arrives as its descriptors are read back

The round trips C55 to C59 and C62 are about descriptors that are read back exactly.  Here the descriptors are arbitrary ones within
the ranges of their fields: what arrives is the table with every list of descriptors replaced by what this list is read back as, and
receiving panics if reading one of the lists back does. -/

namespace Mpegts
open Spec Spec.Table Spec.Schedule

theorem readBack_good (p : Profile) (ds : Descriptors) (h : Good ds) :
    readBack p ds = (Descriptor.frames (ds.flatMap Desc.wire)).mapM (Desc.parse p) := by
  rw [readBack, (C33_list_partial p ds [] h).1, ok_bind]
  simp only [List.nil_append]
  rw [C37_frames]
  simp only [List.nil_append]
  cases (Descriptor.frames (ds.flatMap Desc.wire)).mapM (Desc.parse p) <;> rfl

theorem readBack_sent (p : Profile) (ds : Descriptors) (h : ∀ d ∈ ds, d.InRange) :
    readBack p ds = (Descriptor.frames (ds.flatMap Desc.sent)).mapM (Desc.parse p) := by
  rw [readBack, assemble_sent p ds [] h, ok_bind]
  simp only [List.nil_append]
  rw [C37_frames]
  simp only [List.nil_append]
  cases (Descriptor.frames (ds.flatMap Desc.sent)).mapM (Desc.parse p) <;> rfl

theorem readBackShifted_good (p : Profile) (ds : Descriptors) (h : Good ds) :
    readBackShifted p ds = (Descriptor.frames (Pmt.shifted (ds.flatMap Desc.wire))).mapM (Desc.parse p) := by
  rw [readBackShifted, (C33_list_partial p ds [] h).1, ok_bind]
  simp only [List.nil_append]
  rw [C37_frames]
  simp only [List.nil_append, Pmt.shifted]
  cases (Descriptor.frames ((UInt8.ofNat (ds.flatMap Desc.wire).length :: ds.flatMap Desc.wire).take
    (ds.flatMap Desc.wire).length)).mapM (Desc.parse p) <;> rfl

/-- Receiving a stream of sections whose parsing may fail. -/
theorem receive_streamM {α β : Type} (parse : α → Psi → R α) (p : Profile) (pid : Nat) (hp : pid < 8192)
    (l : List β) (f : β → List UInt8) (hs : ∀ x ∈ l, IsSection (f x)) (step : α → β → R α)
    (hpar : ∀ t x, x ∈ l → ∀ psi : Psi, psi.buffer = f x → psi.size = (f x).length → parse t psi = step t x)
    (hi : ∀ t (psi : Psi), (∃ x ∈ l, psi.size = (f x).length) → psi.buffer.length < psi.size → 183 ≤ psi.buffer.length →
      parse t psi = .ok t)
    (t : α) (s : Psi) (cc : Nat) :
    ∃ s', receive parse p t s (stream pid cc (l.map f)) = (fun u => (u, s')) <$> l.foldlM step t := by
  induction l generalizing t s cc with
  | nil => exact ⟨s, rfl⟩
  | cons x r ih =>
    rw [List.map_cons, stream, receive_append, receive_section parse p t s pid cc (f x) (hs x List.mem_cons_self) hp
      (fun psi h1 h2 h3 => hi t psi ⟨x, List.mem_cons_self, h1⟩ (by omega) h3)]
    simp only []
    rw [hpar t x List.mem_cons_self _ rfl rfl, List.foldlM_cons]
    cases step t x with
    | error e => exact ⟨s, rfl⟩
    | ok u =>
      simp only [ok_bind, pure_eq_ok]
      exact ih (fun y hy => hs y (List.mem_cons_of_mem _ hy)) (fun t y hy => hpar t y (List.mem_cons_of_mem _ hy))
        (fun t psi ⟨y, hy, e⟩ => hi t psi ⟨y, List.mem_cons_of_mem _ hy, e⟩) u _ _

theorem mapM_append_ok {β γ : Type} (f : β → R γ) (a b : List β) :
    (a ++ b).mapM f = (do let x ← a.mapM f; (fun y => x ++ y) <$> b.mapM f) := by
  rw [List.mapM_append]
  cases a.mapM f with
  | error e => rfl
  | ok x => simp only [ok_bind]; cases b.mapM f <;> rfl

theorem mapM_map_congr {α β γ : Type} (w : α → β) (f : β → R γ) (g : α → R γ) (l : List α) (h : ∀ x ∈ l, f (w x) = g x) :
    (l.map w).mapM f = l.mapM g := by
  induction l with
  | nil => rfl
  | cons x r ih =>
    rw [List.map_cons, List.mapM_cons, List.mapM_cons, h x List.mem_cons_self, ih fun y hy => h y (List.mem_cons_of_mem _ hy)]

/-- Collecting the items of the sections one after the other. -/
theorem foldlM_items {α β γ : Type} (get : α → List β) (con : List β → α) (hget : ∀ l, get (con l) = l) (f : γ → R β) (items : List (List γ))
    (u : α) (hne : items ≠ []) :
    items.foldlM (fun u x => (fun r => con (get u ++ r)) <$> x.mapM f) u = (fun r => con (get u ++ r)) <$> items.flatten.mapM f := by
  induction items generalizing u with
  | nil => exact (hne rfl).elim
  | cons x r ih =>
    rw [List.foldlM_cons, List.flatten_cons, mapM_append_ok]
    cases x.mapM f with
    | error e => rfl
    | ok y =>
      simp only [map_ok, ok_bind]
      by_cases hr : r = []
      · subst hr; simp
      · rw [ih _ hr, hget]
        cases r.flatten.mapM f with
        | error e => rfl
        | ok z => simp

theorem foldlM_map_fst {α β γ : Type} (step : α → β → R α) (l : List (β × γ)) (u : α) :
    l.foldlM (fun u x => step u x.1) u = (l.map (·.1)).foldlM step u := by
  induction l generalizing u with
  | nil => rfl
  | cons x r ih =>
    rw [List.foldlM_cons, List.map_cons, List.foldlM_cons]
    cases step u x.1 with
    | error e => rfl
    | ok v => simp only [ok_bind]; exact ih v

namespace Sdt

theorem read_entry_any (p : Profile) (i : SdtItem) (h : ItemFits i) :
    readItem p (entry i) = (fun ds => { i with descriptors := ds }) <$> readBack p i.descriptors := by
  obtain ⟨f0, f2, f3, f4, f5⟩ := entry_fields i h
  unfold readItem
  rw [f5, readBack_good p i.descriptors h.2.2.2.2.1, f0, f2, f4,
    show field (entry i) 3 1 / 32 = field (entry i) 3 1 / 16 / 2 by omega, f4]
  obtain ⟨h1, h2, h3, h4, h5, h6⟩ := h
  obtain ⟨pnr, s, f, r, c, ds⟩ := i
  simp only [] at *
  rw [show (252 + s.toNat * 2 + f.toNat) / 2 % 2 = s.toNat by omega, show (252 + s.toNat * 2 + f.toNat) % 2 = f.toNat by omega,
    show (r.toNat * 2 + c.toNat) / 2 = r.toNat by omega, show (r.toNat * 2 + c.toNat) % 2 = c.toNat by omega]
  simp only [UInt8.ofNat_toNat, UInt16.ofNat_toNat]

theorem parse_section_any (p : Profile) (u t : Sdt) (hid : t.tableId = 0x42 ∨ t.tableId = 0x46) (hv : t.version.toNat < 32) (n l : Nat)
    (hn : n < 256) (hl : l < 256) (g : List SdtItem) (hg : ∀ i ∈ g, ItemFits i) (psi : Psi)
    (hb : psi.buffer = complete (Table.sdt t.tableId.toNat t.tsid.toNat (t.version.toNat % 32) n l t.onid.toNat (g.flatMap entry)))
    (hs : psi.size = (complete (Table.sdt t.tableId.toNat t.tsid.toNat (t.version.toNat % 32) n l t.onid.toNat (g.flatMap entry))).length) :
    u.parse p psi = (fun items => { t with items := u.items ++ items }) <$>
      g.mapM fun i => (fun ds => { i with descriptors := ds }) <$> readBack p i.descriptors := by
  have e : Table.sdt t.tableId.toNat t.tsid.toNat (t.version.toNat % 32) n l t.onid.toNat (g.flatMap entry) =
      header t.tableId.toNat 0b1111 t.tsid.toNat (t.version.toNat % 32) n l ++ (beBytes 2 t.onid.toNat ++ [0xFF] ++ g.flatMap entry) := by
    simp [Table.sdt]
  rw [e] at hb hs
  obtain ⟨s1, s2, s3, s4, s5, -, -, s8, s9, -⟩ := section_fields t.tableId.toNat 0b1111 t.tsid.toNat (t.version.toNat % 32) n l
    (beBytes 2 t.onid.toNat ++ [0xFF] ++ g.flatMap entry) t.tableId.toNat_lt t.tsid.toNat_lt (by omega) hn hl
  have hacc : Accepts psi := by
    refine ⟨?_, complete_intact _ (by simp; omega) psi hb hs 15 (by simp; omega)⟩
    rw [hb, s2, UInt8.ofNat_toNat]
    rcases hid with h | h <;> simp [h]
  have h8 := s8 0 2 (by simp)
  have h11 := s9 3
  rw [← hs, ← hb] at h11
  rw [← hb] at s3 s4 s5 h8
  rw [C66_sdt p u psi hacc, s3, s4, s5, h8, h11]
  have hd : (beBytes 2 t.onid.toNat ++ [0xFF] ++ g.flatMap entry).drop 3 = g.flatMap entry := List.drop_left' (by simp)
  have hf : field (beBytes 2 t.onid.toNat ++ [0xFF] ++ g.flatMap entry) 0 2 = t.onid.toNat := by
    have := t.onid.toNat_lt
    rw [field, List.drop_zero, List.append_assoc, List.take_left' (beBytes_length _ _), beNat_beBytes]
    omega
  rw [hd, hf, entries_flatMap 5 (by omega) entry g fun i hi => ?_,
    mapM_map_congr entry (readItem p) _ g fun i hi => read_entry_any p i (hg i hi)]
  · rw [Nat.mod_eq_of_lt hv, show (0xC1 + 2 * t.version.toNat) / 2 % 32 = t.version.toNat by omega]
    simp only [UInt8.ofNat_toNat, UInt16.ofNat_toNat]
  · have hr := hg i hi
    have h3 := (entry_fields i hr).2.2.1
    have hle := hr.2.2.2.2.2
    rw [entry_length] at hle ⊢
    unfold field at h3
    rw [h3]
    refine ⟨by omega, ?_⟩
    rw [show ∀ a b, (a * 4096 + b) % 4096 = b % 4096 from fun a b => by omega, Nat.mod_eq_of_lt (by omega)]

theorem wire_bound_any (t : Sdt) (ht : ∀ i ∈ t.items, ItemFits i) (gs : List (List SdtItem))
    (P : Spread (fun i => (entry i).length) 1020 11 11 t.items gs) : ∀ sec ∈ t.wire gs, sec.length ≤ 4096 := by
  intro sec hs
  obtain ⟨x, hx, rfl⟩ := List.mem_map.1 hs
  have hg : gs[x.2]? = some x.1 := by
    obtain ⟨h1, h2⟩ := List.mem_zipIdx' hx
    rw [List.getElem?_eq_getElem h1, ← h2]
  have h1 := spread_bound P 4092 (by omega) (by omega) (fun i hi => (ht i hi).2.2.2.2.2) _ _ hg
  have h2 := sum_size (fun i => (entry i).length) entry x.1 (fun _ _ => rfl)
  rw [complete_length (by simp [Table.sdt]; omega)]
  simp only [Table.sdt, List.length_append, header_length, beBytes_length, h2, List.length_cons, List.length_nil]
  split at h1 <;> omega

/-- C106 for the SDT. -/
theorem C106_sdt (p : Profile) (t : Sdt) (hid : t.tableId = 0x42 ∨ t.tableId = 0x46) (hv : t.version.toNat < 32)
    (ht : ∀ i ∈ t.items, ItemFits i) (pid : UInt16) (cc : UInt8) (dst : List UInt8) (s : Psi) (hp : pid.toNat < 8192)
    (hc : cc.toNat < 16) :
    ∃ cc' pks s', t.demux p pid cc dst = .ok (cc', dst ++ pks.flatten) ∧ (∀ pk ∈ pks, IsTsPacket pid.toNat pk) ∧
      receive (Sdt.parse p) p Sdt.default s pks = (do
        let items ← t.items.mapM fun i => (fun ds => { i with descriptors := ds }) <$> readBack p i.descriptors
        .ok ({ t with items := items }, s')) := by
  obtain ⟨gs, P, hw⟩ := demux_fill p t ht pid cc dst hp hc
  have h63 := wire_bound_any t ht gs P
  have hlong : ∀ x ∈ gs.zipIdx, 3 ≤ (Table.sdt t.tableId.toNat t.tsid.toNat (t.version.toNat % 32) (x.2 % 256)
    ((gs.length - 1) % 256) t.onid.toNat (x.1.flatMap entry)).length := by intro x _; simp [Table.sdt]; omega
  have hrec := receive_streamM (Sdt.parse p) p pid.toNat hp gs.zipIdx (fun x => complete (Table.sdt t.tableId.toNat t.tsid.toNat
      (t.version.toNat % 32) (x.2 % 256) ((gs.length - 1) % 256) t.onid.toNat (x.1.flatMap entry)))
    (by
      intro x hx
      have := h63 _ (List.mem_map_of_mem hx)
      rw [complete_length (hlong x hx)] at this
      exact complete_isSection (hlong x hx) (by omega))
    (fun u x => (fun items => { t with items := u.items ++ items }) <$>
      x.1.mapM fun i => (fun ds => { i with descriptors := ds }) <$> readBack p i.descriptors)
    (by
      intro u x hx psi hb hs
      have hg : x.1 ∈ gs := (List.mem_zipIdx' hx).2 ▸ List.getElem_mem _
      exact parse_section_any p u t hid hv _ _ (Nat.mod_lt _ (by omega)) (Nat.mod_lt _ (by omega)) x.1
        (fun i hi => ht i (mem_of_group P.all hg hi)) psi hb hs)
    (by
      intro u psi hx hlt h183
      refine C65_sdt p u psi (.inr (by intro e; rw [e] at h183; simp at h183)) ?_
      rintro ⟨-, -, h, -⟩
      omega)
    Sdt.default s cc.toNat
  obtain ⟨s', hr⟩ := hrec
  refine ⟨_, _, s', hw, stream_packets _ _ hp _, ?_⟩
  unfold wire
  rw [hr, foldlM_map_fst (fun (u : Sdt) (x : List SdtItem) => (fun items => { t with items := u.items ++ items }) <$>
      x.mapM fun i => (fun ds => { i with descriptors := ds }) <$> readBack p i.descriptors), List.zipIdx_map_fst,
    foldlM_items Sdt.items (fun l => { t with items := l }) (fun _ => rfl) _ gs _ P.nonempty, P.all]
  cases t.items.mapM fun i => (fun ds => ({ i with descriptors := ds } : SdtItem)) <$> readBack p i.descriptors <;> rfl

end Sdt

namespace Nit

theorem read_entry_any (p : Profile) (i : NitItem) (h : ItemFits i) :
    readItem p (entry i) = (fun ds => { i with descriptors := ds }) <$> readBack p i.descriptors := by
  obtain ⟨f0, f2, f3, f5⟩ := entry_fields i h
  unfold readItem
  rw [f5, readBack_good p i.descriptors h.1, f0, f2]
  simp only [UInt16.ofNat_toNat]

theorem parse_section_any (p : Profile) (u t : Nit) (hid : t.tableId = 0x40 ∨ t.tableId = 0x41) (hv : t.version.toNat < 32)
    (hD' : NetworkFits t) (n l : Nat) (hn : n < 256) (hl : l < 256) (k : Nat) (g : List NitItem)
    (hg : ∀ i ∈ g, ItemFits i) (psi : Psi)
    (hb : psi.buffer = complete (Table.nit t.tableId.toNat t.networkId.toNat (t.version.toNat % 32) n l (t.network k) (g.flatMap entry)))
    (hs : psi.size = (complete (Table.nit t.tableId.toNat t.networkId.toNat (t.version.toNat % 32) n l (t.network k) (g.flatMap entry))).length) :
    u.parse p psi = (do
      let ds ← readBack p (if k = 0 then t.descriptors else [])
      let items ← g.mapM fun i => (fun ds => { i with descriptors := ds }) <$> readBack p i.descriptors
      .ok { t with descriptors := u.descriptors ++ ds, items := u.items ++ items }) := by
  have e : Table.nit t.tableId.toNat t.networkId.toNat (t.version.toNat % 32) n l (t.network k) (g.flatMap entry) =
      header t.tableId.toNat 0b1111 t.networkId.toNat (t.version.toNat % 32) n l ++
        (sized12 0b1111 (t.network k) ++ sized12 0b1111 (g.flatMap entry)) := by
    simp [Table.nit]
  rw [e] at hb hs
  obtain ⟨s1, s2, s3, s4, s5, -, -, s8, s9, -⟩ := section_fields t.tableId.toNat 0b1111 t.networkId.toNat (t.version.toNat % 32) n l
    (sized12 0b1111 (t.network k) ++ sized12 0b1111 (g.flatMap entry)) t.tableId.toNat_lt t.networkId.toNat_lt (by omega) hn hl
  have hacc : Accepts psi := by
    refine ⟨?_, complete_intact _ (by simp; omega) psi hb hs 16 (by simp [sized12_length]; omega)⟩
    rw [hb, s2, UInt8.ofNat_toNat]
    rcases hid with h | h <;> simp [h]
  have hD : (t.network k).length ≤ 4080 := by
    have := hD'.2
    unfold network
    split
    · omega
    · simp
  have hnl : networkLength psi = (t.network k).length := by
    have h8 := s8 0 2 (by simp [sized12_length]; omega)
    rw [← hb] at h8
    rw [networkLength, h8, field, List.drop_zero, sized12, List.append_assoc, List.take_left' (beBytes_length _ _), beNat_beBytes]
    simp only [Descriptor.pack, List.foldl_cons, List.foldl_nil]
    omega
  have hsz : psi.size = 16 + (t.network k).length + (g.flatMap entry).length := by
    rw [hs, s1]; simp only [List.length_append, sized12_length]; omega
  have hil : itemLoop psi = g.flatMap entry := by
    have h9 := s9 (4 + (t.network k).length)
    rw [← hs, ← hb] at h9
    rw [itemLoop, hnl, show 12 + (t.network k).length = 8 + (4 + (t.network k).length) by omega, h9]
    have : (sized12 0b1111 (t.network k) ++ sized12 0b1111 (g.flatMap entry)) =
        (sized12 0b1111 (t.network k) ++ beBytes 2 (Descriptor.pack [(4, 0b1111), (12, (g.flatMap entry).length)])) ++ g.flatMap entry := by
      simp [sized12]
    rw [this, List.drop_left' (by simp [sized12_length]; omega)]
  have hnlp : networkLoop psi = t.network k := by
    have h9 := s9 2
    rw [← hs, ← hb] at h9
    have h10 : networkLoop psi = ((psi.buffer.take (psi.size - 4)).drop (8 + 2)).take (t.network k).length := by
      rw [networkLoop, hnl, List.drop_take, List.take_take, Nat.min_eq_left (by omega)]
    rw [h10, h9, sized12, List.append_assoc, List.drop_left' (beBytes_length _ _), List.take_left]
  rw [← hb] at s3 s4 s5
  rw [C66_nit p u psi hacc (by omega), s3, s4, s5, hil, hnlp]
  have hdesc : (Descriptor.frames (t.network k)).mapM (Desc.parse p) = readBack p (if k = 0 then t.descriptors else []) := by
    unfold network
    by_cases h0 : k = 0
    · rw [if_pos h0, if_pos h0, readBack_good p _ hD'.1]
    · rw [if_neg h0, if_neg h0, readBack_good p _ (by simp [Good])]; rfl
  rw [hdesc, entries_flatMap 6 (by omega) entry g fun i hi => ?_,
    mapM_map_congr entry (readItem p) _ g fun i hi => read_entry_any p i (hg i hi)]
  · rw [Nat.mod_eq_of_lt hv, show (0xC1 + 2 * t.version.toNat) / 2 % 32 = t.version.toNat by omega]
    simp only [UInt8.ofNat_toNat, UInt16.ofNat_toNat]
  · have hr := hg i hi
    have h3 := (entry_fields i hr).2.2.1
    have hle := hr.2
    rw [entry_length] at hle ⊢
    unfold field at h3
    rw [h3]
    refine ⟨by omega, ?_⟩
    rw [show ∀ a b, (a * 4096 + b) % 4096 = b % 4096 from fun a b => by omega, Nat.mod_eq_of_lt (by omega)]

theorem wire_bound_any (t : Nit) (hD : NetworkFits t) (ht : ∀ i ∈ t.items, ItemFits i) (gs : List (List NitItem))
    (P : Spread (fun i => (entry i).length) 1020 (12 + (t.descriptors.flatMap Desc.wire).length) 12 t.items gs) :
    ∀ sec ∈ t.wire gs, sec.length ≤ 4096 := by
  intro sec hs
  obtain ⟨x, hx, rfl⟩ := List.mem_map.1 hs
  have hg : gs[x.2]? = some x.1 := by
    obtain ⟨h1, h2⟩ := List.mem_zipIdx' hx
    rw [List.getElem?_eq_getElem h1, ← h2]
  have h1 := spread_bound P 4092 (by omega) hD.2 (fun i hi => (ht i hi).2) _ _ hg
  have h2 := sum_size (fun i => (entry i).length) entry x.1 (fun _ _ => rfl)
  have h3 : (t.network x.2).length = if x.2 = 0 then (t.descriptors.flatMap Desc.wire).length else 0 := by
    unfold network; split <;> rfl
  rw [complete_length (by simp [Table.nit]; omega)]
  simp only [Table.nit, List.length_append, header_length, sized12_length, h2, h3]
  by_cases h0 : x.2 = 0 <;> simp only [h0, if_true, if_false] at h1 ⊢ <;> omega

/-- C106 for the NIT. -/
theorem C106_nit (p : Profile) (t : Nit) (hid : t.tableId = 0x40 ∨ t.tableId = 0x41) (hv : t.version.toNat < 32) (hD : NetworkFits t)
    (ht : ∀ i ∈ t.items, ItemFits i) (pid : UInt16) (cc : UInt8) (dst : List UInt8) (s : Psi) (hp : pid.toNat < 8192)
    (hc : cc.toNat < 16) :
    ∃ cc' pks s', t.demux p pid cc dst = .ok (cc', dst ++ pks.flatten) ∧ (∀ pk ∈ pks, IsTsPacket pid.toNat pk) ∧
      receive (Nit.parse p) p Nit.default s pks = (do
        let network ← readBack p t.descriptors
        let items ← t.items.mapM fun i => (fun ds => { i with descriptors := ds }) <$> readBack p i.descriptors
        .ok ({ t with descriptors := network, items := items }, s')) := by
  obtain ⟨gs, P, hw⟩ := demux_fill p t hD ht pid cc dst hp hc
  have h63 := wire_bound_any t hD ht gs P
  have hlong : ∀ x ∈ gs.zipIdx, 3 ≤ (Table.nit t.tableId.toNat t.networkId.toNat (t.version.toNat % 32) (x.2 % 256)
    ((gs.length - 1) % 256) (t.network x.2) (x.1.flatMap entry)).length := by intro x _; simp [Table.nit]; omega
  have hrec := receive_streamM (Nit.parse p) p pid.toNat hp gs.zipIdx (fun x => complete (Table.nit t.tableId.toNat t.networkId.toNat
      (t.version.toNat % 32) (x.2 % 256) ((gs.length - 1) % 256) (t.network x.2) (x.1.flatMap entry)))
    (by
      intro x hx
      have := h63 _ (List.mem_map_of_mem hx)
      rw [complete_length (hlong x hx)] at this
      exact complete_isSection (hlong x hx) (by omega))
    (fun u x => (do
      let ds ← readBack p (if x.2 = 0 then t.descriptors else [])
      let items ← x.1.mapM fun i => (fun ds => { i with descriptors := ds }) <$> readBack p i.descriptors
      .ok { t with descriptors := u.descriptors ++ ds, items := u.items ++ items }))
    (by
      intro u x hx psi hb hs
      have hg : x.1 ∈ gs := (List.mem_zipIdx' hx).2 ▸ List.getElem_mem _
      exact parse_section_any p u t hid hv hD _ _ (Nat.mod_lt _ (by omega)) (Nat.mod_lt _ (by omega)) x.2 x.1
        (fun i hi => ht i (mem_of_group P.all hg hi)) psi hb hs)
    (by
      intro u psi hx hlt h183
      refine C65_nit p u psi (.inr (by intro e; rw [e] at h183; simp at h183)) ?_
      rintro ⟨-, -, h, -⟩
      omega)
    Nit.default s cc.toNat
  obtain ⟨s', hr⟩ := hrec
  refine ⟨_, _, s', hw, stream_packets _ _ hp _, ?_⟩
  unfold wire
  rw [hr]
  have h00 : readBack p [] = .ok [] := rfl
  have hf : ∀ (l : List (List NitItem)) (n : Nat) (ds : Descriptors) (is : List NitItem), 0 < n →
      (l.zipIdx n).foldlM (fun (u : Nit) x => (do
        let ds ← readBack p (if x.2 = 0 then t.descriptors else [])
        let items ← x.1.mapM fun i => (fun ds => { i with descriptors := ds }) <$> readBack p i.descriptors
        .ok { t with descriptors := u.descriptors ++ ds, items := u.items ++ items })) { t with descriptors := ds, items := is } =
      (fun r => { t with descriptors := ds, items := is ++ r }) <$>
        l.flatten.mapM fun i => (fun ds => { i with descriptors := ds }) <$> readBack p i.descriptors := by
    intro l
    induction l with
    | nil => intro n ds is _; simp
    | cons x r ih =>
      intro n ds is hn
      rw [List.zipIdx_cons, List.foldlM_cons, List.flatten_cons, mapM_append_ok, if_neg (by simp only []; omega), h00, ok_bind]
      simp only []
      cases x.mapM fun i => (fun ds => ({ i with descriptors := ds } : NitItem)) <$> readBack p i.descriptors with
      | error e => rfl
      | ok y =>
        simp only [ok_bind, List.append_nil]
        rw [ih _ _ _ (by omega)]
        cases r.flatten.mapM fun i => (fun ds => ({ i with descriptors := ds } : NitItem)) <$> readBack p i.descriptors with
        | error e => rfl
        | ok z => simp
  have hall := P.all
  obtain ⟨g, r, hgr⟩ := List.exists_cons_of_ne_nil P.nonempty
  rw [hgr, List.flatten_cons] at hall
  rw [hgr, List.zipIdx_cons, List.foldlM_cons, if_pos rfl, ← hall, mapM_append_ok]
  cases readBack p t.descriptors with
  | error e => rfl
  | ok ds =>
    simp only [ok_bind]
    cases g.mapM fun i => (fun ds => ({ i with descriptors := ds } : NitItem)) <$> readBack p i.descriptors with
    | error e => rfl
    | ok y =>
      simp only [ok_bind]
      rw [hf _ _ _ _ (by omega)]
      cases r.flatten.mapM fun i => (fun ds => ({ i with descriptors := ds } : NitItem)) <$> readBack p i.descriptors <;> rfl

end Nit

namespace Pmt

theorem read_entry_any (p : Profile) (i : PmtItem) (h : ItemFits i) (hp : i.pid.toNat < 8192) :
    readItem p (entry i) = (fun ds => { i with descriptors := ds }) <$> readBack p i.descriptors := by
  obtain ⟨f0, f2, f3, f5⟩ := entry_fields i h
  unfold readItem
  rw [f5, readBack_good p i.descriptors h.1, f0, f2, show (7 * 8192 + i.pid.toNat % 8192) % 8192 = i.pid.toNat by omega]
  simp only [UInt16.ofNat_toNat, UInt8.ofNat_toNat]

theorem parse_section_any (p : Profile) (u t : Pmt) (hv : t.version.toNat < 32) (hpc : t.pcr.toNat < 8192) (hD' : ProgramFits t) (n l : Nat) (hn : n < 256) (hl : l < 256) (k : Nat) (g : List PmtItem)
    (hg : ∀ i ∈ g, ItemFits i ∧ i.pid.toNat < 8192) (psi : Psi)
    (hb : psi.buffer = complete (Table.pmt t.pnr.toNat (t.version.toNat % 32) n l (t.pcr.toNat % 8192) (t.program k) (g.flatMap entry)))
    (hs : psi.size = (complete (Table.pmt t.pnr.toNat (t.version.toNat % 32) n l (t.pcr.toNat % 8192) (t.program k) (g.flatMap entry))).length) :
    u.parse p psi = (do
      let ds ← readBackShifted p (if k = 0 then t.descriptors else [])
      let items ← g.mapM fun i => (fun ds => { i with descriptors := ds }) <$> readBack p i.descriptors
      .ok { t with descriptors := u.descriptors ++ ds, items := u.items ++ items }) := by
  have e : Table.pmt t.pnr.toNat (t.version.toNat % 32) n l (t.pcr.toNat % 8192) (t.program k) (g.flatMap entry) =
      header 0x02 0b1011 t.pnr.toNat (t.version.toNat % 32) n l ++
        (beBytes 2 (Descriptor.pack [(3, 0b111), (13, t.pcr.toNat % 8192)]) ++ sized12 0b1111 (t.program k) ++ g.flatMap entry) := by
    simp [Table.pmt]
  rw [e] at hb hs
  obtain ⟨s1, s2, s3, s4, s5, -, -, s8, s9, -⟩ := section_fields 0x02 0b1011 t.pnr.toNat (t.version.toNat % 32) n l
    (beBytes 2 (Descriptor.pack [(3, 0b111), (13, t.pcr.toNat % 8192)]) ++ sized12 0b1111 (t.program k) ++ g.flatMap entry)
    (by omega) t.pnr.toNat_lt (by omega) hn hl
  have hacc : Accepts psi := by
    refine ⟨?_, complete_intact _ (by simp; omega) psi hb hs 16 (by simp [sized12_length]; omega)⟩
    rw [hb, s2]; rfl
  have hD : (t.program k).length ≤ 4080 := by
    have := hD'.2
    unfold program
    split
    · omega
    · simp
  have hnl : programLength psi = (t.program k).length := by
    have h8 := s8 2 2 (by simp [sized12_length]; omega)
    rw [← hb] at h8
    rw [programLength, h8, field, List.append_assoc, List.drop_left' (beBytes_length _ _), sized12, List.append_assoc,
      List.take_left' (beBytes_length _ _), beNat_beBytes]
    simp only [Descriptor.pack, List.foldl_cons, List.foldl_nil]
    omega
  have hpcr : field psi.buffer 8 2 % 8192 = t.pcr.toNat := by
    have := hpc
    have h8 := s8 0 2 (by simp)
    rw [← hb] at h8
    rw [h8, field, List.drop_zero, List.append_assoc, List.take_left' (beBytes_length _ _), beNat_beBytes]
    simp only [Descriptor.pack, List.foldl_cons, List.foldl_nil]
    omega
  have hsz : psi.size = 16 + (t.program k).length + (g.flatMap entry).length := by
    rw [hs, s1]; simp only [List.length_append, sized12_length, beBytes_length]; omega
  have hil : itemLoop psi = g.flatMap entry := by
    have h9 := s9 (4 + (t.program k).length)
    rw [← hs, ← hb] at h9
    rw [itemLoop, hnl, show 12 + (t.program k).length = 8 + (4 + (t.program k).length) by omega, h9,
      List.drop_left' (by simp [sized12_length]; omega)]
  have hnlp : programLoop psi = shifted (t.program k) := by
    have h9 := s9 3
    rw [← hs, ← hb] at h9
    have h10 : programLoop psi = ((psi.buffer.take (psi.size - 4)).drop (8 + 3)).take (t.program k).length := by
      rw [programLoop, hnl, List.drop_take, List.take_take, Nat.min_eq_left (by omega)]
    have h11 : (beBytes 2 (Descriptor.pack [(3, 0b111), (13, t.pcr.toNat % 8192)]) ++ sized12 0b1111 (t.program k) ++ g.flatMap entry).drop 3 =
        (UInt8.ofNat (t.program k).length :: t.program k) ++ g.flatMap entry := by
      have : UInt8.ofNat (61440 + (t.program k).length) = UInt8.ofNat (t.program k).length := by
        apply UInt8.toNat_inj.1; rw [UInt8.toNat_ofNat', UInt8.toNat_ofNat']; omega
      simp [sized12, beBytes, Descriptor.pack, this]
    rw [h10, h9, h11, shifted, List.take_append_of_le_length (by simp)]
  rw [← hb] at s4 s5
  have hdesc : (Descriptor.frames (shifted (t.program k))).mapM (Desc.parse p) = readBackShifted p (if k = 0 then t.descriptors else []) := by
    unfold program
    by_cases h0 : k = 0
    · rw [if_pos h0, if_pos h0, readBackShifted_good p _ hD'.1]
    · rw [if_neg h0, if_neg h0, readBackShifted_good p _ (by simp [Good])]; rfl
  rw [C66_pmt p u psi hacc (by omega), s4, s5, hpcr, hil, hnlp, hdesc, entries_flatMap 5 (by omega) entry g fun i hi => ?_,
    mapM_map_congr entry (readItem p) _ g fun i hi => read_entry_any p i (hg i hi).1 (hg i hi).2]
  · rw [Nat.mod_eq_of_lt hv, show (0xC1 + 2 * t.version.toNat) / 2 % 32 = t.version.toNat by omega]
    simp only [UInt8.ofNat_toNat, UInt16.ofNat_toNat]
  · have hr := (hg i hi).1
    have h3 := (entry_fields i hr).2.2.1
    have hle := hr.2
    rw [entry_length] at hle ⊢
    unfold field at h3
    rw [h3]
    refine ⟨by omega, ?_⟩
    rw [show ∀ a b, (a * 4096 + b) % 4096 = b % 4096 from fun a b => by omega, Nat.mod_eq_of_lt (by omega)]

theorem wire_bound_any (t : Pmt) (hD : ProgramFits t) (ht : ∀ i ∈ t.items, ItemFits i ∧ i.pid.toNat < 8192) (gs : List (List PmtItem))
    (P : Spread (fun i => (entry i).length) 1020 (12 + (t.descriptors.flatMap Desc.wire).length) 12 t.items gs) :
    ∀ sec ∈ t.wire gs, sec.length ≤ 4096 := by
  intro sec hs
  obtain ⟨x, hx, rfl⟩ := List.mem_map.1 hs
  have hg : gs[x.2]? = some x.1 := by
    obtain ⟨h1, h2⟩ := List.mem_zipIdx' hx
    rw [List.getElem?_eq_getElem h1, ← h2]
  have h1 := spread_bound P 4092 (by omega) hD.2 (fun i hi => (ht i hi).1.2) _ _ hg
  have h2 := sum_size (fun i => (entry i).length) entry x.1 (fun _ _ => rfl)
  have h3 : (t.program x.2).length = if x.2 = 0 then (t.descriptors.flatMap Desc.wire).length else 0 := by
    unfold program; split <;> rfl
  rw [complete_length (by simp [Table.pmt]; omega)]
  simp only [Table.pmt, List.length_append, header_length, beBytes_length, sized12_length, h2, h3]
  by_cases h0 : x.2 = 0 <;> simp only [h0, if_true, if_false] at h1 ⊢ <;> omega

/-- C106 for the PMT: its program descriptors are read one byte too early (C55). -/
theorem C106_pmt (p : Profile) (t : Pmt) (hv : t.version.toNat < 32) (hpc : t.pcr.toNat < 8192) (hD : ProgramFits t)
    (ht : ∀ i ∈ t.items, ItemFits i ∧ i.pid.toNat < 8192) (pid : UInt16) (cc : UInt8) (dst : List UInt8) (s : Psi) (hp : pid.toNat < 8192)
    (hc : cc.toNat < 16) :
    ∃ cc' pks s', t.demux p pid cc dst = .ok (cc', dst ++ pks.flatten) ∧ (∀ pk ∈ pks, IsTsPacket pid.toNat pk) ∧
      receive (Pmt.parse p) p Pmt.default s pks = (do
        let program ← readBackShifted p t.descriptors
        let items ← t.items.mapM fun i => (fun ds => { i with descriptors := ds }) <$> readBack p i.descriptors
        .ok ({ t with descriptors := program, items := items }, s')) := by
  obtain ⟨gs, P, hw⟩ := demux_fill p t hD (fun i hi => (ht i hi).1) pid cc dst hp hc
  have h63 := wire_bound_any t hD ht gs P
  have hlong : ∀ x ∈ gs.zipIdx, 3 ≤ (Table.pmt t.pnr.toNat (t.version.toNat % 32) (x.2 % 256)
    ((gs.length - 1) % 256) (t.pcr.toNat % 8192) (t.program x.2) (x.1.flatMap entry)).length := by intro x _; simp [Table.pmt]; omega
  have hrec := receive_streamM (Pmt.parse p) p pid.toNat hp gs.zipIdx (fun x => complete (Table.pmt t.pnr.toNat
      (t.version.toNat % 32) (x.2 % 256) ((gs.length - 1) % 256) (t.pcr.toNat % 8192) (t.program x.2) (x.1.flatMap entry)))
    (by
      intro x hx
      have := h63 _ (List.mem_map_of_mem hx)
      rw [complete_length (hlong x hx)] at this
      exact complete_isSection (hlong x hx) (by omega))
    (fun u x => (do
      let ds ← readBackShifted p (if x.2 = 0 then t.descriptors else [])
      let items ← x.1.mapM fun i => (fun ds => { i with descriptors := ds }) <$> readBack p i.descriptors
      .ok { t with descriptors := u.descriptors ++ ds, items := u.items ++ items }))
    (by
      intro u x hx psi hb hs
      have hg : x.1 ∈ gs := (List.mem_zipIdx' hx).2 ▸ List.getElem_mem _
      exact parse_section_any p u t hv hpc hD _ _ (Nat.mod_lt _ (by omega)) (Nat.mod_lt _ (by omega)) x.2 x.1
        (fun i hi => ht i (mem_of_group P.all hg hi)) psi hb hs)
    (by
      intro u psi hx hlt h183
      refine C65_pmt p u psi (.inr (by intro e; rw [e] at h183; simp at h183)) ?_
      rintro ⟨-, -, h, -⟩
      omega)
    Pmt.default s cc.toNat
  obtain ⟨s', hr⟩ := hrec
  refine ⟨_, _, s', hw, stream_packets _ _ hp _, ?_⟩
  unfold wire
  rw [hr]
  have h00 : readBackShifted p [] = .ok [] := rfl
  have hf : ∀ (l : List (List PmtItem)) (n : Nat) (ds : Descriptors) (is : List PmtItem), 0 < n →
      (l.zipIdx n).foldlM (fun (u : Pmt) x => (do
        let ds ← readBackShifted p (if x.2 = 0 then t.descriptors else [])
        let items ← x.1.mapM fun i => (fun ds => { i with descriptors := ds }) <$> readBack p i.descriptors
        .ok { t with descriptors := u.descriptors ++ ds, items := u.items ++ items })) { t with descriptors := ds, items := is } =
      (fun r => { t with descriptors := ds, items := is ++ r }) <$>
        l.flatten.mapM fun i => (fun ds => { i with descriptors := ds }) <$> readBack p i.descriptors := by
    intro l
    induction l with
    | nil => intro n ds is _; simp
    | cons x r ih =>
      intro n ds is hn
      rw [List.zipIdx_cons, List.foldlM_cons, List.flatten_cons, mapM_append_ok, if_neg (by simp only []; omega), h00, ok_bind]
      simp only []
      cases x.mapM fun i => (fun ds => ({ i with descriptors := ds } : PmtItem)) <$> readBack p i.descriptors with
      | error e => rfl
      | ok y =>
        simp only [ok_bind, List.append_nil]
        rw [ih _ _ _ (by omega)]
        cases r.flatten.mapM fun i => (fun ds => ({ i with descriptors := ds } : PmtItem)) <$> readBack p i.descriptors with
        | error e => rfl
        | ok z => simp
  have hall := P.all
  obtain ⟨g, r, hgr⟩ := List.exists_cons_of_ne_nil P.nonempty
  rw [hgr, List.flatten_cons] at hall
  rw [hgr, List.zipIdx_cons, List.foldlM_cons, if_pos rfl, ← hall, mapM_append_ok]
  cases readBackShifted p t.descriptors with
  | error e => rfl
  | ok ds =>
    simp only [ok_bind]
    cases g.mapM fun i => (fun ds => ({ i with descriptors := ds } : PmtItem)) <$> readBack p i.descriptors with
    | error e => rfl
    | ok y =>
      simp only [ok_bind]
      rw [hf _ _ _ _ (by omega)]
      cases r.flatten.mapM fun i => (fun ds => ({ i with descriptors := ds } : PmtItem)) <$> readBack p i.descriptors <;> rfl

end Pmt

namespace Tot

/-- C106 for the TOT, received by an object that holds no descriptors yet. -/
theorem C106_tot (p : Profile) (t u : Tot) (h : t.InRange) (hu : u.descriptors = []) (pid : UInt16) (cc : UInt8) (dst : List UInt8)
    (s : Psi) (hp : pid.toNat < 8192) (hc : cc.toNat < 16) :
    ∃ cc' pks s', t.demux p pid cc dst = .ok (cc', dst ++ pks.flatten) ∧ (∀ pk ∈ pks, IsTsPacket pid.toNat pk) ∧
      receive (Tot.parse p) p u s pks = (do
        let ds ← readBack p t.descriptors
        .ok ({ t with descriptors := ds }, s')) := by
  have hs := h.size
  have l := tot_length t.time.toNat (t.descriptors.flatMap Desc.wire)
  obtain ⟨f0, f1, f2, f3, f4, f5⟩ := wire_fields t h
  have hr := receive_section (Tot.parse p) p u s pid.toNat cc.toNat t.wire (complete_isSection (by omega) (by omega)) hp (by
    intro psi h1 h2 h3
    refine C65_tot p u psi (.inr (by intro e; rw [e] at h3; simp at h3)) ?_
    rintro ⟨-, -, h, -⟩
    omega)
  refine ⟨_, packets pid.toNat cc.toNat t.wire, { s with buffer := t.wire, size := t.wire.length, cc := UInt8.ofNat ((cc.toNat + packetCount t.wire.length - 1) % 16) },
    C62_wire p t h pid cc dst hp hc, ?_, ?_⟩
  · intro pk hpk
    exact stream_packets pid.toNat cc.toNat hp [t.wire] pk (by simpa [stream] using hpk)
  rw [hr]
  simp only []
  have hacc : Accepts { s with buffer := t.wire, size := t.wire.length, cc := UInt8.ofNat ((cc.toNat + packetCount t.wire.length - 1) % 16) } :=
    ⟨f1, complete_intact _ (by omega) _ rfl rfl 14 (by omega)⟩
  have hl : loopLength { s with buffer := t.wire, size := t.wire.length, cc := UInt8.ofNat ((cc.toNat + packetCount t.wire.length - 1) % 16) } =
      (t.descriptors.flatMap Desc.wire).length := by
    rw [loopLength]; simp only [f4]; omega
  rw [parse_accepted p u _ hacc]
  simp only [hl, f2, f3]
  rw [readUtc_utc p _ h.time, ok_bind, slice, if_pos (by omega), ok_bind, List.drop_take, Nat.add_sub_cancel_left, f5,
    readBack_good p t.descriptors h.good]
  cases (Descriptor.frames (t.descriptors.flatMap Desc.wire)).mapM (Desc.parse p) with
  | error e => rfl
  | ok ds => simp only [ok_bind, hu, List.nil_append, UInt64.ofNat_toNat, pure_eq_ok]

end Tot

namespace Eit

theorem read_entry_any (p : Profile) (i : EitItem) (h : ItemInRange i) :
    readItem p (entry i) = (fun ds => { i with descriptors := ds }) <$> readBack p i.descriptors := by
  obtain ⟨f0, f2, f3, f4, f5, f6, f7⟩ := entry_fields i h
  obtain ⟨h1, h2, h3, h4, h5, h6⟩ := h
  have hd := fromBcdTime32_at p i.duration.toNat h2
  rw [Nat.mod_eq_of_lt (hhmmss_lt _)] at hd
  unfold readItem
  rw [f0, f2, f3, f4, f7, readUtc_utc p _ h1, ok_bind, hd, ok_bind, readBack_good p i.descriptors h5,
    show field (entry i) 10 1 / 32 = field (entry i) 10 1 / 16 / 2 by omega, f6]
  clear f0 f2 f3 f4 f5 f6 f7 h6 hd
  obtain ⟨id, s, d, r, c, ds⟩ := i
  simp only [] at *
  rw [show (r.toNat * 2 + c.toNat) / 2 = r.toNat by omega, show (r.toNat * 2 + c.toNat) % 2 = c.toNat by omega]
  simp only [UInt8.ofNat_toNat, UInt16.ofNat_toNat, UInt64.ofNat_toNat, UInt32.ofNat_toNat]
  cases (Descriptor.frames (ds.flatMap Desc.wire)).mapM (Desc.parse p) <;> rfl

theorem parse_section_any (p : Profile) (u t : Eit) (hv : t.version.toNat < 32) (tid n l sl lt : Nat) (ht : 0x4E ≤ tid ∧ tid ≤ 0x6F) (hn : n < 256)
    (hl : l < 256) (hsl : sl < 256) (hlt : lt < 256) (g : List EitItem) (hg : ∀ i ∈ g, ItemInRange i)
    (psi : Psi) (hb : psi.buffer = t.section' tid n l sl lt g) (hs : psi.size = (t.section' tid n l sl lt g).length) :
    u.parse p psi = (fun items => { t with tableId := UInt8.ofNat tid, items := u.items ++ items }) <$>
      g.mapM fun i => (fun ds => { i with descriptors := ds }) <$> readBack p i.descriptors := by
  obtain ⟨s1, s2, s3, s4, -, -, s7, s8, -, -, s11⟩ := section_read t tid n l sl lt g (by omega) hn hl hsl hlt
  have hacc : Accepts psi := by
    rw [section_eq] at hb hs
    refine ⟨⟨UInt8.ofNat tid, ?_, ?_⟩, complete_intact _ (by simp; omega) psi hb hs 18 (by simp [rest_length]; omega)⟩
    · rw [hb, ← section_eq, s1]
    · rw [UInt8.toNat_ofNat']; omega
  rw [C66_eit p u psi hacc, hb, hs, s2, s3, s4, s7, s8, s11]
  rw [entries_flatMap 12 (by omega) entry g fun i hi => ?_,
    mapM_map_congr entry (readItem p) _ g fun i hi => read_entry_any p i (hg i hi)]
  · rw [Nat.mod_eq_of_lt hv, show (0xC1 + 2 * t.version.toNat) / 2 % 32 = t.version.toNat by omega]
    simp only [UInt8.ofNat_toNat, UInt16.ofNat_toNat]
  · have hr := hg i hi
    have h3 := (entry_fields i hr).2.2.2.2.1
    have hle := hr.2.2.2.2.2
    rw [entry_length] at hle ⊢
    unfold field at h3
    rw [h3]
    refine ⟨by omega, ?_⟩
    rw [show ∀ a b, (a * 4096 + b) % 4096 = b % 4096 from fun a b => by omega, Nat.mod_eq_of_lt (by omega)]

/-- C106 for an EIT schedule.  (The table id is that of the last sub-table sent, see C59.) -/
theorem C106_eit_schedule (p : Profile) (t : Eit) (h : t.Schedulable) (hv : t.version.toNat < 32) (hr : ∀ i ∈ t.items, ItemInRange i)
    (pid : UInt16) (cc : UInt8) (dst : List UInt8) (s : Psi) (hp : pid.toNat < 8192) (hc : cc.toNat < 16) :
    ∃ cc' pks s' last, t.demux p pid cc dst = .ok (cc', dst ++ pks.flatten) ∧ (∀ pk ∈ pks, IsTsPacket pid.toNat pk) ∧ t.slots.getLast? = some last ∧
      receive (Eit.parse p) p Eit.default s pks = (do
        let items ← t.items.mapM fun i => (fun ds => { i with descriptors := ds }) <$> readBack p i.descriptors
        .ok ({ t with tableId := UInt8.ofNat last.table, items := items }, s')) := by
  have hlt := lastTable_lt t h
  have h63 := wireSchedule_le t h
  have hrec := receive_streamM (Eit.parse p) p pid.toNat hp (withLast t.slots) t.slotSection
    (by
      intro x hx
      have := h63 _ (List.mem_map_of_mem hx)
      rw [slotSection, section_length] at this
      rw [slotSection, section_eq]
      exact complete_isSection (by simp; omega) (by simp only [List.length_append, header_length, rest_length]; omega))
    (fun u x => (fun items => { t with tableId := UInt8.ofNat x.1.table, items := u.items ++ items }) <$>
      x.1.events.mapM fun i => (fun ds => { i with descriptors := ds }) <$> readBack p i.descriptors)
    (by
      intro u x hx psi hb hs
      obtain ⟨⟨-, a2, a3, -⟩, a6, a7, a4, a5⟩ := withLast_ok t h x hx
      exact parse_section_any p u t hv _ _ _ _ _ ⟨by omega, by omega⟩ a3 a5 a3 (by omega) x.1.events (fun i hi => hr i (a4 i hi)) psi hb hs)
    (by
      intro u psi hx hlt h183
      refine C65_eit p u psi (.inr (by intro e; rw [e] at h183; simp at h183)) ?_
      rintro ⟨-, -, h, -⟩
      omega)
    Eit.default s cc.toNat
  obtain ⟨s', hrr⟩ := hrec
  have hn : t.slots ≠ [] := by rw [slots]; simp
  refine ⟨_, _, s', t.slots.getLast hn, C60_wire_partial p t h pid cc dst hp hc, stream_packets _ _ hp _, List.getLast?_eq_some_getLast hn, ?_⟩
  rw [wireSchedule, hrr]
  have hf : ∀ (l : List (Slot EitItem × Nat)) (u : Eit) (hl : l ≠ []), l.foldlM (fun (u : Eit) x =>
        (fun items => { t with tableId := UInt8.ofNat x.1.table, items := u.items ++ items }) <$>
          x.1.events.mapM fun i => (fun ds => { i with descriptors := ds }) <$> readBack p i.descriptors) u =
      (fun items => { t with tableId := UInt8.ofNat (l.getLast hl).1.table, items := u.items ++ items }) <$>
        ((l.map (·.1)).flatMap (·.events)).mapM fun i => (fun ds => { i with descriptors := ds }) <$> readBack p i.descriptors := by
    intro l
    induction l with
    | nil => intro u h; exact (h rfl).elim
    | cons x r ih =>
      intro u _
      rw [List.foldlM_cons, List.map_cons, List.flatMap_cons, mapM_append_ok]
      cases x.1.events.mapM fun i => (fun ds => ({ i with descriptors := ds } : EitItem)) <$> readBack p i.descriptors with
      | error e => rfl
      | ok y =>
        simp only [map_ok, ok_bind]
        by_cases hr : r = []
        · subst hr; simp
        · rw [ih _ hr, List.getLast_cons hr]
          cases ((r.map (·.1)).flatMap (·.events)).mapM fun i => (fun ds => ({ i with descriptors := ds } : EitItem)) <$>
            readBack p i.descriptors with
          | error e => rfl
          | ok z => simp
  have hw : withLast t.slots ≠ [] := by
    intro e
    apply hn
    rw [← withLast_fst t.slots, e]; rfl
  have hg : ((withLast t.slots).getLast hw).1 = t.slots.getLast hn := by
    have e : ((withLast t.slots).map (·.1)).getLast (by simpa using hw) = ((withLast t.slots).getLast hw).1 := by rw [List.getLast_map]
    rw [← e]
    simp only [withLast_fst]
  rw [hf _ _ hw, withLast_fst, slots_events, hg]
  cases t.items.mapM fun i => (fun ds => ({ i with descriptors := ds } : EitItem)) <$> readBack p i.descriptors <;> rfl

/-! ### Present/following, also with extended events that have items -/

/-- Every field fits, and the event fits into a section.  The descriptors may be extended events with items. -/
def ItemSendable (i : EitItem) : Prop :=
  TimeInRange i.start ∧ i.duration.toNat < 86400 ∧ i.status.toNat < 8 ∧ i.caMode.toNat < 2 ∧ (∀ d ∈ i.descriptors, d.InRange) ∧
    (i.descriptors.flatMap Desc.wire).length ≤ 4066

theorem ItemInRange.sendable {i : EitItem} (h : ItemInRange i) : ItemSendable i := by
  obtain ⟨h1, h2, h3, h4, h5, h6⟩ := h
  rw [entry_length] at h6
  exact ⟨h1, h2, h3, h4, fun d hd => (h5 d hd).1, by omega⟩

/-- What is sent for an event. -/
def sentEntry (i : EitItem) : List UInt8 :=
  eitEntry i.eventId.toNat i.start.toNat i.duration.toNat i.status.toNat i.caMode.toNat (i.descriptors.flatMap Desc.sent)

theorem flatMap_sent_length (ds : Descriptors) : (ds.flatMap Desc.sent).length = (ds.flatMap Desc.wire).length := by
  induction ds with
  | nil => rfl
  | cons d r ih => rw [List.flatMap_cons, List.flatMap_cons, List.length_append, List.length_append, sent_length, ih]

theorem sentEntry_length (i : EitItem) : (sentEntry i).length = 12 + (i.descriptors.flatMap Desc.wire).length := by
  rw [← flatMap_sent_length]; simp [sentEntry, eitEntry, sized12_length]; omega

theorem assemble_sentEntry (p : Profile) (i : EitItem) (h : ItemSendable i) (b : List UInt8) :
    i.assemble p b = .ok (b ++ sentEntry i) := by
  obtain ⟨h1, h2, h3, h4, h5, h6⟩ := h
  obtain ⟨w1, v, w2, w3⟩ := write_utc p i.start h1
  obtain ⟨d, e3, f3⟩ := C20_to_bcd_time p i.duration
  rw [← bcd_hhmmss, Nat.mod_eq_of_lt h2] at f3
  rw [← flatMap_sent_length] at h6
  unfold EitItem.assemble
  simp only [resize_extend, show List.replicate 12 (0 : UInt8) = [0, 0, 0, 0, 0, 0, 0, 0, 0, 0, 0, 0] from rfl]
  have e1 := setU16At_append b [0, 0, 0, 0, 0, 0, 0, 0, 0, 0, 0, 0] 0 i.eventId
  rw [Nat.add_zero] at e1
  rw [e1, setU16At_ok _ (by simp), map_ok, ok_bind, setU16At_append, setU16At_ok _ (by simp [beBytes]), map_ok, ok_bind, w1, w2, ok_bind,
    setU24At_append, setU24At_ok _ (by simp [beBytes]), map_ok, ok_bind, e3, ok_bind, setU24At_append, setU24At_ok _ (by simp [beBytes]), map_ok,
    ok_bind, w3, f3]
  rw [assemble_sent p i.descriptors _ h5, ok_bind]
  simp only []
  rw [List.append_assoc, setU16At_append, setU16At_ok _ (by simp [beBytes]), map_ok, flags_word' _ _ _ h3 h4 (by omega)]
  refine congrArg (fun x => Except.ok (b ++ x)) ?_
  simp [sentEntry, eitEntry, Descriptor.utc, sized12, beBytes]

/-- The section that is sent for an event. -/
def sentSection (t : Eit) (n last : Nat) (i : EitItem) : List UInt8 :=
  complete (Table.eit t.tableId.toNat t.pnr.toNat (t.version.toNat % 32) n last t.tsid.toNat t.onid.toNat last t.tableId.toNat (sentEntry i))

theorem sentSection_eq (t : Eit) (n last : Nat) (i : EitItem) : t.sentSection n last i =
    complete (header t.tableId.toNat 0b1111 t.pnr.toNat (t.version.toNat % 32) n last ++ (t.rest last t.tableId.toNat [] ++ sentEntry i)) := by
  simp [sentSection, Table.eit, rest]

theorem sentSection_length (t : Eit) (n last : Nat) (i : EitItem) : (t.sentSection n last i).length = 18 + (sentEntry i).length := by
  rw [sentSection_eq, complete_length (by simp; omega)]
  simp only [List.length_append, header_length, rest_length]
  simp; omega

theorem pfLoop_sent (p : Profile) (t : Eit) (last : UInt8) (l : List EitItem) (hl : ∀ i ∈ l, ItemSendable i) (n : Nat) :
    pfLoop p t last n l = .ok (((l.zipIdx n).map fun x => t.sentSection (x.2 % 256) last.toNat x.1).map fun b =>
        { Psi.default with buffer := b, size := b.length }) := by
  induction l generalizing n with
  | nil => rfl
  | cons i r ih =>
    have hi := hl i List.mem_cons_self
    have h6 := hi.2.2.2.2.2
    have hd := t.draft_length t.tableId.toNat (UInt8.ofNat n).toNat last.toNat last.toNat t.tableId.toNat []
    rw [List.flatMap_nil, List.length_nil] at hd
    have he := sentEntry_length i
    rw [pfLoop, psiInit_eq, ok_bind]
    simp only []
    rw [← draft, set_number, ok_bind, set_last, ok_bind, set_segment, ok_bind, set_lastTable, ok_bind, assemble_sentEntry p i hi,
      ok_bind, C49_finalize p _ rfl (by simp only [List.length_append, hd, he]; omega) (by simp only [List.length_append, hd, he]; omega), ok_bind,
      ih (fun x hx => hl x (List.mem_cons_of_mem _ hx)), ok_bind]
    simp only [List.zipIdx_cons, List.map_cons, pure_eq_ok, sentSection_length]
    simp only [sentSection_eq, draft, List.append_assoc, UInt8.toNat_ofNat', List.length_append, header_length, rest_length, List.flatMap_nil,
      List.length_nil]
    rw [show 8 + (6 + 0 + (sentEntry i).length) + 4 = 18 + (sentEntry i).length by omega]

theorem demux_sent (p : Profile) (t : Eit) (hid : t.tableId = 0x4E ∨ t.tableId = 0x4F) (hr : ∀ i ∈ t.items, ItemSendable i) (pid : UInt16)
    (cc : UInt8) (dst : List UInt8) (hp : pid.toNat < 8192) (hc : cc.toNat < 16) :
    t.demux p pid cc dst = .ok (UInt8.ofNat ((cc.toNat + streamCount (t.items.zipIdx.map fun x =>
        t.sentSection (x.2 % 256) ((t.items.length - 1) % 256) x.1)) % 16),
      dst ++ (stream pid.toNat cc.toNat (t.items.zipIdx.map fun x => t.sentSection (x.2 % 256) ((t.items.length - 1) % 256) x.1)).flatten) := by
  unfold demux psiListAssemble
  by_cases he : t.items = []
  · simp [he, stream, streamCount, Nat.mod_eq_of_lt hc]
  · rw [List.head?_eq_some_head he, List.getLast?_eq_some_getLast he]
    simp only []
    rw [if_pos hid, pfLoop_sent p t _ t.items hr 0, ok_bind]
    simp only [UInt8.toNat_ofNat']
    rw [if_neg (by simpa using he), demuxLoop_eq p pid hp _ _ cc hc dst]
    intro s hs
    obtain ⟨x, hx, rfl⟩ := List.mem_map.1 hs
    intro e
    have := sentSection_length t (x.2 % 256) ((t.items.length - 1) % 256) x.1
    rw [e] at this
    simp at this
    omega

theorem sentEntry_fields (i : EitItem) (h : ItemSendable i) : field (sentEntry i) 0 2 = i.eventId.toNat ∧
    field (sentEntry i) 2 2 = unixEpochMjd + i.start.toNat / 86400 ∧ field (sentEntry i) 4 3 = Descriptor.hhmmss (i.start.toNat % 86400) ∧
    field (sentEntry i) 7 3 = Descriptor.hhmmss i.duration.toNat ∧
    field (sentEntry i) 10 2 = (i.status.toNat * 2 + i.caMode.toNat) * 4096 + (i.descriptors.flatMap Desc.wire).length ∧
    field (sentEntry i) 10 1 / 16 = i.status.toNat * 2 + i.caMode.toNat ∧
    (sentEntry i).drop 12 = i.descriptors.flatMap Desc.sent := by
  obtain ⟨h1, h2, h3, h4, h5, h6⟩ := h
  have hp := i.eventId.toNat_lt
  rw [← flatMap_sent_length] at h6 ⊢
  have b1 := hhmmss_lt (i.start.toNat % 86400)
  have b2 := hhmmss_lt i.duration.toNat
  unfold TimeInRange at h1
  simp only [sentEntry, eitEntry, Descriptor.utc, sized12, beBytes, List.cons_append, List.nil_append, field, List.drop_succ_cons, List.drop_zero,
    List.take_succ_cons, List.take_zero, beNat_two, beNat, List.length_cons, List.length_nil, UInt8.toNat_ofNat', Descriptor.pack, List.foldl_cons, List.foldl_nil]
  generalize Descriptor.hhmmss (i.start.toNat % 86400) = x at *
  generalize Descriptor.hhmmss i.duration.toNat = y at *
  generalize unixEpochMjd + i.start.toNat / 86400 = z at *
  refine ⟨by omega, by omega, by omega, by omega, by omega, by omega, trivial⟩

theorem read_sentEntry (p : Profile) (i : EitItem) (h : ItemSendable i) :
    readItem p (sentEntry i) = (fun ds => { i with descriptors := ds }) <$> readBack p i.descriptors := by
  obtain ⟨f0, f2, f3, f4, f5, f6, f7⟩ := sentEntry_fields i h
  obtain ⟨h1, h2, h3, h4, h5, h6⟩ := h
  have hd := fromBcdTime32_at p i.duration.toNat h2
  rw [Nat.mod_eq_of_lt (hhmmss_lt _)] at hd
  unfold readItem
  rw [f0, f2, f3, f4, f7, readUtc_utc p _ h1, ok_bind, hd, ok_bind, readBack_sent p i.descriptors h5,
    show field (sentEntry i) 10 1 / 32 = field (sentEntry i) 10 1 / 16 / 2 by omega, f6]
  clear f0 f2 f3 f4 f5 f6 f7 h6 hd
  obtain ⟨id, s, d, r, c, ds⟩ := i
  simp only [] at *
  rw [show (r.toNat * 2 + c.toNat) / 2 = r.toNat by omega, show (r.toNat * 2 + c.toNat) % 2 = c.toNat by omega]
  simp only [UInt8.ofNat_toNat, UInt16.ofNat_toNat, UInt64.ofNat_toNat, UInt32.ofNat_toNat]
  cases (Descriptor.frames (ds.flatMap Desc.sent)).mapM (Desc.parse p) <;> rfl

theorem sentSection_read (t : Eit) (n l : Nat) (i : EitItem) (hn : n < 256) (hl : l < 256) :
    let sec := t.sentSection n l i
    sec.head? = some t.tableId ∧ field sec 0 1 = t.tableId.toNat ∧ field sec 3 2 = t.pnr.toNat ∧ field sec 5 1 = 0xC1 + 2 * (t.version.toNat % 32) ∧
    field sec 8 2 = t.tsid.toNat ∧ field sec 10 2 = t.onid.toNat ∧ (sec.take (sec.length - 4)).drop 14 = sentEntry i := by
  simp only [sentSection_eq]
  obtain ⟨s1, s2, s3, s4, s5, s6, s7, s8, s9, -⟩ := section_fields t.tableId.toNat 0b1111 t.pnr.toNat (t.version.toNat % 32) n l
    (t.rest l t.tableId.toNat [] ++ sentEntry i) t.tableId.toNat_lt t.pnr.toNat_lt (by omega) hn hl
  have h1 := t.tsid.toNat_lt
  have h2 := t.onid.toNat_lt
  have r := t.rest_length l t.tableId.toNat []
  rw [List.flatMap_nil, List.length_nil] at r
  rw [UInt8.ofNat_toNat] at s2
  refine ⟨s2, s3, s4, s5, ?_, ?_, ?_⟩
  · rw [show 8 = 8 + 0 from rfl, s8 0 2 (by simp only [List.length_append]; omega)]
    simp only [rest, field, beBytes, List.cons_append, List.nil_append, List.drop_zero, List.take_succ_cons, List.take_zero, beNat_two,
      UInt8.toNat_ofNat']
    omega
  · rw [show 10 = 8 + 2 from rfl, s8 2 2 (by simp only [List.length_append]; omega)]
    simp only [rest, field, beBytes, List.cons_append, List.nil_append, List.drop_zero, List.drop_succ_cons, List.take_succ_cons, List.take_zero, beNat_two,
      UInt8.toNat_ofNat']
    omega
  · rw [show 14 = 8 + 6 from rfl, s9 6, List.drop_left' r]

theorem parse_sentSection (p : Profile) (u t : Eit) (hid : t.tableId = 0x4E ∨ t.tableId = 0x4F) (hv : t.version.toNat < 32) (n l : Nat)
    (hn : n < 256) (hl : l < 256) (i : EitItem) (hi : ItemSendable i)
    (psi : Psi) (hb : psi.buffer = t.sentSection n l i) (hs : psi.size = (t.sentSection n l i).length) :
    u.parse p psi = (fun ds => { t with items := u.items ++ [{ i with descriptors := ds }] }) <$> readBack p i.descriptors := by
  obtain ⟨s1, s2, s3, s4, s7, s8, s11⟩ := sentSection_read t n l i hn hl
  have hacc : Accepts psi := by
    rw [sentSection_eq] at hb hs
    refine ⟨⟨t.tableId, ?_, ?_⟩, complete_intact _ (by simp; omega) psi hb hs 18 (by simp [rest_length]; omega)⟩
    · rw [hb, ← sentSection_eq, s1]
    · rcases hid with h | h <;> rw [h] <;> decide
  rw [C66_eit p u psi hacc, hb, hs, s2, s3, s4, s7, s8, s11]
  have hen := entries_flatMap 12 (by omega) sentEntry [i] fun j hj => ?_
  · rw [List.flatMap_singleton] at hen
    rw [hen, List.map_singleton]
    rw [Nat.mod_eq_of_lt hv, show (0xC1 + 2 * t.version.toNat) / 2 % 32 = t.version.toNat by omega]
    simp only [UInt8.ofNat_toNat, UInt16.ofNat_toNat, List.mapM_cons, List.mapM_nil, read_sentEntry p i hi]
    cases readBack p i.descriptors <;> rfl
  · rw [List.mem_singleton.1 hj]
    have h3 := (sentEntry_fields i hi).2.2.2.2.1
    have hle := hi.2.2.2.2.2
    rw [sentEntry_length]
    unfold field at h3
    rw [h3]
    refine ⟨by omega, ?_⟩
    rw [show ∀ a b, (a * 4096 + b) % 4096 = b % 4096 from fun a b => by omega, Nat.mod_eq_of_lt (by omega)]

/-- C106 for a present/following EIT, whose events may also have extended event descriptors with items. -/
theorem C106_eit_pf (p : Profile) (t : Eit) (hid : t.tableId = 0x4E ∨ t.tableId = 0x4F) (hv : t.version.toNat < 32)
    (hr : ∀ i ∈ t.items, ItemSendable i) (hne : t.items ≠ []) (pid : UInt16) (cc : UInt8) (dst : List UInt8) (s : Psi)
    (hp : pid.toNat < 8192) (hc : cc.toNat < 16) :
    ∃ cc' pks s', t.demux p pid cc dst = .ok (cc', dst ++ pks.flatten) ∧ (∀ pk ∈ pks, IsTsPacket pid.toNat pk) ∧
      receive (Eit.parse p) p Eit.default s pks = (do
        let items ← t.items.mapM fun i => (fun ds => { i with descriptors := ds }) <$> readBack p i.descriptors
        .ok ({ t with items := items }, s')) := by
  have hrec := receive_streamM (Eit.parse p) p pid.toNat hp t.items.zipIdx (fun x => t.sentSection (x.2 % 256) ((t.items.length - 1) % 256) x.1)
    (by
      intro x hx
      have hi : x.1 ∈ t.items := (List.mem_zipIdx' hx).2 ▸ List.getElem_mem _
      have := sentEntry_length x.1
      have := (hr x.1 hi).2.2.2.2.2
      rw [sentSection_eq]
      exact complete_isSection (by simp; omega)
        (by simp only [List.length_append, header_length, rest_length, List.flatMap_nil, List.length_nil]; omega))
    (fun u x => (fun r => { t with items := u.items ++ r }) <$>
      [x.1].mapM fun i => (fun ds => { i with descriptors := ds }) <$> readBack p i.descriptors)
    (by
      intro u x hx psi hb hs
      have hi : x.1 ∈ t.items := (List.mem_zipIdx' hx).2 ▸ List.getElem_mem _
      rw [parse_sentSection p u t hid hv _ _ (by omega) (by omega) x.1 (hr _ hi) psi hb hs]
      simp only [List.mapM_cons, List.mapM_nil]
      cases readBack p x.1.descriptors <;> rfl)
    (by
      intro u psi hx hlt h183
      refine C65_eit p u psi (.inr (by intro e; rw [e] at h183; simp at h183)) ?_
      rintro ⟨-, -, h, -⟩
      omega)
    Eit.default s cc.toNat
  obtain ⟨s', hrr⟩ := hrec
  refine ⟨_, _, s', demux_sent p t hid hr pid cc dst hp hc, stream_packets _ _ hp _, ?_⟩
  have hsing : ∀ (l : List EitItem) (u : Eit), l.foldlM (fun (u : Eit) x => (fun r => { t with items := u.items ++ r }) <$>
        [x].mapM fun i => (fun ds => { i with descriptors := ds }) <$> readBack p i.descriptors) u =
      (l.map fun x => [x]).foldlM (fun (u : Eit) x => (fun r => { t with items := u.items ++ r }) <$>
        x.mapM fun i => (fun ds => { i with descriptors := ds }) <$> readBack p i.descriptors) u := by
    intro l u
    rw [List.foldlM_map]
  rw [hrr, foldlM_map_fst (fun (u : Eit) (x : EitItem) => (fun r => { t with items := u.items ++ r }) <$>
      [x].mapM fun (i : EitItem) => (fun ds => { i with descriptors := ds }) <$> readBack p i.descriptors), List.zipIdx_map_fst, hsing,
    foldlM_items Eit.items (fun l => { t with items := l }) (fun _ => rfl) _ _ _ (by simpa using hne),
    show (t.items.map fun x => [x]).flatten = t.items by simp [← List.flatMap_def]]
  cases t.items.mapM fun i => (fun ds => ({ i with descriptors := ds } : EitItem)) <$> readBack p i.descriptors <;> rfl

end Eit
end Mpegts

namespace Mpegts
open Spec Spec.Table

theorem readBack_panic (p : Profile) (ds : Descriptors) (h : Good ds) (d : Desc) (hd : d ∈ ds) (hp : Desc.parse p d.wire = panic) :
    readBack p ds = panic := by
  rw [readBack_good p ds h]
  have hf := frames_wire ds (fun d hd => (h d hd).1) []
  rw [List.append_nil, frames_truncated [] (.inl (by simp)), List.append_nil] at hf
  refine (loop_outcome p _).bad (Classical.byContradiction fun hn => ?_)
  obtain ⟨r, hr⟩ := (loop_outcome p _).good hn
  rw [hf] at hr
  clear hn hf h
  induction ds generalizing r with
  | nil => cases hd
  | cons x xs ih =>
    rw [List.map_cons, List.mapM_cons] at hr
    rcases List.mem_cons.1 hd with rfl | hd
    · rw [hp] at hr; cases hr
    · cases hx : Desc.parse p x.wire with
      | error e => rw [hx] at hr; cases hr
      | ok y =>
        rw [hx, ok_bind] at hr
        cases hxs : (xs.map Desc.wire).mapM (Desc.parse p) with
        | error e => rw [hxs] at hr; cases hr
        | ok ys => exact ih hd _ hxs

/-- C62 fails for local time offsets of five hours and more: in a debug build the packets of such a TOT make the receiver panic. -/
theorem Tot.C62_time_offset_refuted (t u : Tot) (h : t.InRange) (hu : u.descriptors = []) (d : Desc58) (hd : Desc.d58 d ∈ t.descriptors)
    (ho : ∃ i ∈ d.items, 300 ≤ i.offset.toNat ∨ 300 ≤ i.nextOffset.toNat) (pid : UInt16) (cc : UInt8) (dst : List UInt8)
    (s : Psi) (hp : pid.toNat < 8192) (hc : cc.toNat < 16) :
    ∃ cc' pks, t.demux .debug pid cc dst = .ok (cc', dst ++ pks.flatten) ∧ (∀ pk ∈ pks, IsTsPacket pid.toNat pk) ∧
      receive (Tot.parse .debug) .debug u s pks = panic := by
  obtain ⟨cc', pks, s', h1, h2, h3⟩ := C106_tot .debug t u h hu pid cc dst s hp hc
  refine ⟨cc', pks, h1, h2, ?_⟩
  have hr : (Desc.d58 d).InRange := (h.good _ hd).1
  have hv : ∀ i ∈ d.items.map item58, Valid58 i := by
    intro i hi; obtain ⟨j, hj, rfl⟩ := List.mem_map.1 hi; exact hr.1 j hj
  have hpan : Desc.parse .debug (Desc.d58 d).wire = panic := by
    obtain ⟨i, hi, hb⟩ := ho
    exact (C81_local_time_offset_refuted (d.items.map item58) hv).1 ⟨item58 i, List.mem_map_of_mem hi, hb⟩
  rw [h3, readBack_panic .debug t.descriptors h.good _ hd hpan]
  rfl

theorem readBack_outcome (p : Profile) (ds : Descriptors) (h : ∀ d ∈ ds, d.InRange) : readBack p ds = panic ∨ ∃ r, readBack p ds = .ok r := by
  rw [readBack_sent p ds h]
  by_cases hl : LoopPanics p (ds.flatMap Desc.sent)
  · exact .inl ((loop_outcome p _).bad hl)
  · exact .inr ((loop_outcome p _).good hl)

/-- C58 fails for events with an extended event descriptor that has items: the table is sent but never given back, and if the text of
the descriptor has fewer than two bytes for each item, receiving the packets panics in every build. -/
theorem Eit.C58_extended_event_refuted (p : Profile) (t : Eit) (hid : t.tableId = 0x4E ∨ t.tableId = 0x4F) (hv : t.version.toNat < 32)
    (hr : ∀ i ∈ t.items, ItemSendable i) (i : EitItem) (hi : i ∈ t.items) (a b : Descriptors) (e : Desc4E)
    (hds : i.descriptors = a ++ .d4E e :: b) (ha : ∀ d ∈ a, d.Exact ∧ ¬ d.HasItems) (hb : ∀ d ∈ b, ¬ d.HasItems) (he : e.items ≠ [])
    (pid : UInt16) (cc : UInt8) (dst : List UInt8) (s : Psi) (hp : pid.toNat < 8192) (hc : cc.toNat < 16) :
    ∃ cc' pks, t.demux p pid cc dst = .ok (cc', dst ++ pks.flatten) ∧ (∀ pk ∈ pks, IsTsPacket pid.toNat pk) ∧
      ((text e.text).length < 2 * e.items.length → receive (Eit.parse p) p Eit.default s pks = panic) ∧
      ∀ s', receive (Eit.parse p) p Eit.default s pks ≠ .ok (t, s') := by
  obtain ⟨cc', pks, s', h1, h2, h3⟩ := C106_eit_pf p t hid hv hr (List.ne_nil_of_mem hi) pid cc dst s hp hc
  refine ⟨cc', pks, h1, h2, ?_⟩
  have hin := (hr i hi).2.2.2.2.1
  rw [hds] at hin
  obtain ⟨out, g1, -, g3, -, g5⟩ := C36_extended_event_refuted p [] a b e [] (fun d hd => ⟨hin d (by simp [hd]), ha d hd⟩)
    (hin _ (by simp)) he (fun d hd => ⟨hin d (by simp [hd]), hb d hd⟩)
  have hrb : readBack p i.descriptors = Descriptors.parse p [] out := by
    rw [readBack, hds, g1, ok_bind, List.nil_append]
  rw [h3]
  constructor
  · intro hlt
    have hm : (t.items.mapM fun i => (fun ds => ({ i with descriptors := ds } : EitItem)) <$> readBack p i.descriptors) = panic := by
      refine mapM_panic _ _ (fun j hj => ?_) ⟨i, hi, ?_⟩
      · rcases readBack_outcome p j.descriptors (hr j hj).2.2.2.2.1 with h | ⟨r, h⟩
        · exact .inl (by rw [h]; rfl)
        · exact .inr ⟨_, by rw [h]; rfl⟩
      · rw [hrb, g3 hlt]; rfl
    rw [hm]; rfl
  · intro s'' hc
    have key : ∀ l : List EitItem, i ∈ l → ∀ r, (l.mapM fun i => (fun ds => ({ i with descriptors := ds } : EitItem)) <$> readBack p i.descriptors) =
        .ok r → r ≠ l := by
      intro l
      induction l with
      | nil => intro h; cases h
      | cons x xs ih =>
        intro hm r hr
        rw [List.mapM_cons] at hr
        cases hx : readBack p x.descriptors with
        | error e => rw [hx] at hr; cases hr
        | ok y =>
          rw [hx, map_ok, ok_bind] at hr
          cases hxs : xs.mapM fun i => (fun ds => ({ i with descriptors := ds } : EitItem)) <$> readBack p i.descriptors with
          | error e => rw [hxs] at hr; cases hr
          | ok ys =>
            rw [hxs, ok_bind] at hr
            obtain rfl := Except.ok.inj hr
            intro heq
            obtain ⟨e1, e2⟩ := List.cons.inj heq
            rcases List.mem_cons.1 hm with rfl | hm
            · have e3 : y = i.descriptors := congrArg EitItem.descriptors e1
              rw [hrb] at hx
              apply g5
              rw [hx, e3, hds]; rfl
            · exact ih hm ys hxs e2
    cases hm : t.items.mapM fun i => (fun ds => ({ i with descriptors := ds } : EitItem)) <$> readBack p i.descriptors with
    | error e => rw [hm] at hc; cases hc
    | ok r =>
      rw [hm, ok_bind] at hc
      have e1 : { t with items := r } = t := congrArg Prod.fst (Except.ok.inj hc)
      exact key t.items hi r hm (congrArg Eit.items e1)

/-! ## Concrete cases -/

instance Eit.decSendable (i : EitItem) : Decidable (Eit.ItemSendable i) := by unfold Eit.ItemSendable TimeInRange; infer_instance
instance Sdt.decFits (i : SdtItem) : Decidable (Sdt.ItemFits i) := by unfold Sdt.ItemFits; infer_instance
instance Nit.decFits (i : NitItem) : Decidable (Nit.ItemFits i) := by unfold Nit.ItemFits; infer_instance
instance Nit.decNetworkFits (t : Nit) : Decidable (Nit.NetworkFits t) := by unfold Nit.NetworkFits; infer_instance
instance Pmt.decFits (i : PmtItem) : Decidable (Pmt.ItemFits i) := by unfold Pmt.ItemFits; infer_instance
instance Pmt.decProgramFits (t : Pmt) : Decidable (Pmt.ProgramFits t) := by unfold Pmt.ProgramFits; infer_instance

/-- An event with an extended event that has an item. -/
def extendedEit : Eit := { tableId := 0x4E, version := 1, pnr := 1, tsid := 2, onid := 3
                           items := [⟨1, 1700000000, 3600, 4, 0, [.d52 ⟨7⟩, .d4E shortExtended]⟩] }
example (p : Profile) : ∃ cc' pks, extendedEit.demux p 0x12 3 [] = .ok (cc', [] ++ pks.flatten) ∧ (∀ pk ∈ pks, IsTsPacket 0x12 pk) ∧
    receive (Eit.parse p) p Eit.default Psi.default pks = panic := by
  obtain ⟨cc', pks, h1, h2, h3, -⟩ := Eit.C58_extended_event_refuted p extendedEit (by decide) (by decide) (by decide +kernel)
    ⟨1, 1700000000, 3600, 4, 0, [.d52 ⟨7⟩, .d4E shortExtended]⟩ (by decide +kernel) [.d52 ⟨7⟩] [] shortExtended rfl (by decide +kernel)
    (by decide) (by decide) 0x12 3 [] Psi.default (by decide) (by decide)
  exact ⟨cc', pks, h1, h2, h3 (by decide +kernel)⟩

/-- A TOT for a place five and a half hours east of Greenwich. -/
def easternTot : Tot := { time := 1700000000, descriptors := [.d58 ⟨[⟨⟨0, [0x49, 0x4E, 0x44]⟩, 0, 0, 330, 1711846800, 330⟩]⟩] }
theorem easternTot_inRange : easternTot.InRange := ⟨by unfold TimeInRange unixEpochMjd; decide, by decide +kernel, by decide +kernel⟩
example : ∃ cc' pks, easternTot.demux .debug 0x14 3 [] = .ok (cc', [] ++ pks.flatten) ∧ (∀ pk ∈ pks, IsTsPacket 0x14 pk) ∧
    receive (Tot.parse .debug) .debug Tot.default Psi.default pks = panic :=
  Tot.C62_time_offset_refuted easternTot Tot.default easternTot_inRange rfl ⟨[⟨⟨0, [0x49, 0x4E, 0x44]⟩, 0, 0, 330, 1711846800, 330⟩]⟩
    (by simp [easternTot]) ⟨_, List.mem_singleton.2 rfl, .inl (by decide)⟩ 0x14 3 [] Psi.default (by decide) (by decide)

/-- A name whose first byte selects a table when it is read back: it is not given back exactly. -/
example : readBack .debug [.d40 ⟨⟨0, [0x01, 0x41]⟩⟩] = .ok [.d40 ⟨⟨5, [0x41]⟩⟩] := by decide +kernel
example : Sdt.ItemFits ⟨1, 1, 0, 4, 1, [.d40 ⟨⟨0, [0x01, 0x41]⟩⟩]⟩ := by decide +kernel
example : (∀ i ∈ sampleNit.items, Nit.ItemFits i) ∧ Nit.NetworkFits sampleNit := by decide +kernel
example : (∀ i ∈ samplePmt.items, Pmt.ItemFits i ∧ i.pid.toNat < 8192) ∧ Pmt.ProgramFits samplePmt := by decide +kernel

end Mpegts
