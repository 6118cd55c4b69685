import Verif.Props.C141
import Verif.Props.C91
import Mathlib.Data.Nat.Bitwise

/-! # C142: tables over a channel that damages bits -/

namespace Mpegts
open Spec Spec.Table Spec.Schedule

theorem check_of_section (p : Profile) (psi : Psi) (sec : List UInt8) (hb : psi.buffer = sec) (hs : psi.size = sec.length) (h7 : 7 < sec.length)
    (hc : crc32 sec = 0) : psi.check p = .ok true := by
  rw [Psi.check_eq, hb, hs, List.take_length]
  exact congrArg Except.ok (decide_eq_true ⟨h7, Nat.le_refl _, hc⟩)

/-- A disturbed section is rejected. -/
theorem disturbed_rejected (p : Profile) (psi : Psi) (sec got : List UInt8) (hs : IsSection sec) (h7 : 7 < sec.length) (hc : crc32 sec = 0)
    (hd : Disturbed sec got) (hne : got ≠ sec) (hb : psi.buffer = got) (hz : psi.size = got.length) : psi.check p = .ok false := by
  rcases hd with h | ⟨hl, _, ⟨h1, h3⟩ | ⟨pre, w, w', post, b1, b2, b3, b4, b5⟩⟩
  · exact absurd h hne
  rotate_left
  · refine C18_burst_check p { Psi.default with buffer := sec, size := sec.length } psi (check_of_section p _ sec rfl rfl h7 hc) (by rw [hz, hl])
      pre w w' post ?_ ?_ b3 b4 b5
    · show bits (sec.take sec.length) = _
      rw [List.take_length]; exact b1
    · show bits (psi.buffer.take sec.length) = _
      rw [hb, ← hl, List.take_length]; exact b2
  have hn : sec.length ≤ 4098 := by
    have := hs.2
    have := Nat.mod_lt (beNat ((sec.drop 1).take 2)) (show 0 < 4096 by decide)
    omega
  refine C141_check p { Psi.default with buffer := sec, size := sec.length } psi (check_of_section p _ sec rfl rfl h7 hc) (by rw [hz, hl]) hn ?_ ?_
  · show 1 ≤ damaged (sec.take sec.length) (psi.buffer.take sec.length)
    rw [hb, List.take_length, ← hl, List.take_length]
    exact h1
  · show damaged (sec.take sec.length) (psi.buffer.take sec.length) ≤ 3
    rw [hb, List.take_length, ← hl, List.take_length]
    exact h3

theorem forall2_zip {α β : Type} {r : α → β → Prop} {a : List α} {b : List β} (h : List.Forall₂ r a b) : ∀ x ∈ a.zip b, r x.1 x.2 := by
  induction h with
  | nil => intro x hx; cases hx
  | cons h _ ih =>
    intro x hx
    rcases List.mem_cons.1 hx with rfl | hx
    · exact h
    · exact ih x hx

/-- A table whose sections are sent one after the other over a channel that damages bits. -/
theorem Sent.noisy {α β : Type} {p : Profile} {parse : α → Psi → R α} {l : List β} {f : β → List UInt8} {step : α → β → α}
    (H : Sent p parse l f step) (pid : Nat) (hp : pid < 8192) (got : List (List UInt8)) (hg : List.Forall₂ Disturbed (l.map f) got)
    (t : α) (s : Psi) (cc : Nat) :
    ∃ s', receive parse p t s (stream pid cc got) = .ok ((undamaged l (l.map f) got).foldl step t, s') := by
  have hlen : l.length = got.length := by simpa using hg.length_eq
  have hrej : ∀ t (psi : Psi), psi.buffer.length < psi.size → 183 ≤ psi.buffer.length → parse t psi = .ok t := by
    intro t psi hlt h183
    refine H.rej t psi ?_ (.inr (by intro e; rw [e] at h183; simp at h183))
    rw [Psi.check_eq]
    refine congrArg _ (decide_eq_false ?_)
    rintro ⟨-, h, -⟩
    omega
  have hz : ∀ x ∈ l.zip got, x.1 ∈ l ∧ Disturbed (f x.1) x.2 := by
    intro x hx
    refine ⟨(List.of_mem_zip hx).1, ?_⟩
    have := forall2_zip hg (f x.1, x.2) (by rw [List.zip_map_left]; exact List.mem_map.2 ⟨x, hx, rfl⟩)
    exact this
  obtain ⟨s', h⟩ := receive_stream parse p pid hp (l.zip got) (·.2)
    (fun x hx => by
      rcases (hz x hx).2 with e | e
      · show IsSection x.2
        rw [e]; exact (H.sec x.1 (hz x hx).1).1
      · exact e.2.1)
    (fun t x => if f x.1 == x.2 then step t x.1 else t)
    (fun t x hx psi hb hs => by
      have hx' := hz x hx
      obtain ⟨h1, h2, h3⟩ := H.sec x.1 hx'.1
      by_cases e : x.2 = f x.1
      · rw [H.par t x.1 hx'.1 psi (by rw [hb, e]) (by rw [hs, e]), if_pos (by rw [e]; exact beq_self_eq_true _)]
      · rw [if_neg (by rw [beq_iff_eq]; exact fun h => e h.symm)]
        refine H.rej t psi (disturbed_rejected p psi (f x.1) x.2 h1 h2 h3 hx'.2 e hb hs) (.inr ?_)
        rintro hn
        rcases hx'.2 with h | h
        · exact e h
        · rw [hb] at hn
          have := h.1
          rw [hn, List.length_nil] at this
          omega)
    (fun t psi _ => hrej t psi) t s cc
  refine ⟨s', ?_⟩
  have e1 : (l.zip got).map (·.2) = got := List.map_snd_zip (by omega)
  rw [e1] at h
  rw [h]
  refine congrArg (fun x => Except.ok (x, s')) ?_
  clear h e1 hz hrej hg H
  induction l generalizing got t with
  | nil => rfl
  | cons x r ih =>
    cases got with
    | nil => cases hlen
    | cons g got =>
      rw [List.zip_cons_cons, List.foldl_cons, ih got _ (Nat.succ.inj hlen)]
      unfold undamaged
      rw [List.map_cons, List.zip_cons_cons, List.zip_cons_cons, List.filter_cons]
      split
      · rw [List.map_cons, List.foldl_cons]
      · rfl

/-! ## The tables -/

/-- C142 for the PAT, which is one section: all or nothing. -/
theorem C142_pat (p : Profile) (t : Pat) (hv : t.version.toNat < 32) (hn : t.items.length ≤ 253) (hi : ∀ i ∈ t.items, i.pid.toNat < 8192)
    (pid : UInt16) (cc : UInt8) (dst : List UInt8) (hp : pid.toNat < 8192) (hc : cc.toNat < 16) :
    t.demux p pid cc dst = .ok (UInt8.ofNat ((cc.toNat + packetCount (t.wire t.items).length) % 16),
        dst ++ (packets pid.toNat cc.toNat (t.wire t.items)).flatten) ∧
      ∀ (got : List UInt8) (s : Psi), Disturbed (t.wire t.items) got →
        ∃ s', receive (Pat.parse p) p Pat.default s (packets pid.toNat cc.toNat got) = .ok (if got = t.wire t.items then t else Pat.default, s') := by
  refine ⟨(C91_pat p t hv hn hi pid cc dst hp hc).1, ?_⟩
  intro got s hg
  obtain ⟨s', h⟩ := (Pat.sent p t hv hn hi).noisy pid.toNat hp [got] (.cons hg .nil) Pat.default s cc.toNat
  refine ⟨s', ?_⟩
  have hst : stream pid.toNat cc.toNat [got] = packets pid.toNat cc.toNat got := by simp [stream]
  rw [hst] at h
  rw [h]
  refine congrArg (fun x => Except.ok (x, s')) ?_
  by_cases e : got = t.wire t.items
  · subst e; simp [undamaged, Pat.default]
  · rw [if_neg e]
    simp [undamaged, Ne.symm e]

/-- C142 for the TOT, which is one section: all or nothing. -/
theorem C142_tot (p : Profile) (t u : Tot) (h : t.InRange) (he : ∀ d ∈ t.descriptors, d.Exact)
    (pid : UInt16) (cc : UInt8) (dst : List UInt8) (hp : pid.toNat < 8192) (hc : cc.toNat < 16) :
    t.demux p pid cc dst = .ok (UInt8.ofNat ((cc.toNat + packetCount t.wire.length) % 16), dst ++ (packets pid.toNat cc.toNat t.wire).flatten) ∧
      ∀ (got : List UInt8) (s : Psi), Disturbed t.wire got →
        ∃ s', receive (Tot.parse p) p u s (packets pid.toNat cc.toNat got) =
          .ok (if got = t.wire then { t with descriptors := u.descriptors ++ t.descriptors } else u, s') := by
  refine ⟨Tot.C62_wire p t h pid cc dst hp hc, ?_⟩
  intro got s hg
  obtain ⟨s', h⟩ := (Tot.sent p t h he).noisy pid.toNat hp [got] (.cons hg .nil) u s cc.toNat
  refine ⟨s', ?_⟩
  have hst : stream pid.toNat cc.toNat [got] = packets pid.toNat cc.toNat got := by simp [stream]
  rw [hst] at h
  rw [h]
  refine congrArg (fun x => Except.ok (x, s')) ?_
  by_cases e : got = t.wire
  · subst e; simp [undamaged]
  · rw [if_neg e]
    simp [undamaged, Ne.symm e]

/-- C142: an SDT is sent and bits of its sections are damaged, up to three in each or any number in a window of 32 bits of each, and not in its length: the receiver has exactly the
services of the sections that arrive undamaged, in order, and the head of the table if there is such a section. -/
theorem C142_sdt (p : Profile) (t : Sdt) (ht : t.InRange) (pid : UInt16) (cc : UInt8) (dst : List UInt8) (hp : pid.toNat < 8192) (hc : cc.toNat < 16) :
    ∃ gs, Packed (fun i => (Sdt.entry i).length) 1020 11 11 t.items gs ∧
      t.demux p pid cc dst = .ok (UInt8.ofNat ((cc.toNat + streamCount (t.wire gs)) % 16), dst ++ (stream pid.toNat cc.toNat (t.wire gs)).flatten) ∧
      ∀ (got : List (List UInt8)) (s : Psi), List.Forall₂ Disturbed (t.wire gs) got →
        let arrived := undamaged gs.zipIdx (t.wire gs) got
        ∃ s', receive (Sdt.parse p) p Sdt.default s (stream pid.toNat cc.toNat got) =
          .ok (if arrived = [] then Sdt.default else { t with items := arrived.flatMap (·.1) }, s') := by
  obtain ⟨gs, P, hw⟩ := Sdt.C57_wire p t (fun i hi => (ht.items i hi).1) pid cc dst hp hc
  refine ⟨gs, P, hw, ?_⟩
  intro got s hg
  obtain ⟨s', h⟩ := (Sdt.sent p t ht gs P).noisy pid.toNat hp got hg Sdt.default s cc.toNat
  refine ⟨s', ?_⟩
  rw [h, foldl_items _ (fun x => { t with items := x }) Sdt.items (fun x : List SdtItem × Nat => x.1) (fun _ => rfl)]
  rfl

/-- C142 for the NIT: moreover the network descriptors arrive with section 0. -/
theorem C142_nit (p : Profile) (t : Nit) (ht : t.InRange) (pid : UInt16) (cc : UInt8) (dst : List UInt8) (hp : pid.toNat < 8192) (hc : cc.toNat < 16) :
    ∃ gs, Packed (fun i => (Nit.entry i).length) 1020 (12 + (t.descriptors.flatMap Desc.wire).length) 12 t.items gs ∧
      t.demux p pid cc dst = .ok (UInt8.ofNat ((cc.toNat + streamCount (t.wire gs)) % 16), dst ++ (stream pid.toNat cc.toNat (t.wire gs)).flatten) ∧
      ∀ (got : List (List UInt8)) (s : Psi), List.Forall₂ Disturbed (t.wire gs) got →
        let arrived := undamaged gs.zipIdx (t.wire gs) got
        ∃ s', receive (Nit.parse p) p Nit.default s (stream pid.toNat cc.toNat got) =
          .ok (if arrived = [] then Nit.default else
            { t with descriptors := arrived.flatMap (fun x => if x.2 = 0 then t.descriptors else []), items := arrived.flatMap (·.1) }, s') := by
  obtain ⟨gs, P, hw⟩ := Nit.C56_wire p t ht.network.1 (fun i hi => (ht.items i hi).1) pid cc dst hp hc
  refine ⟨gs, P, hw, ?_⟩
  intro got s hg
  obtain ⟨s', h⟩ := (Nit.sent p t ht gs P).noisy pid.toNat hp got hg Nit.default s cc.toNat
  refine ⟨s', ?_⟩
  rw [h, Nit.foldl_sent]
  rfl

/-- C142 for the PMT; `ds` is what the parser makes of the program descriptors (C55). -/
theorem C142_pmt (p : Profile) (t : Pmt) (ht : t.InRange) (ds : Descriptors) (hds : Pmt.misread p t = .ok ds)
    (pid : UInt16) (cc : UInt8) (dst : List UInt8) (hp : pid.toNat < 8192) (hc : cc.toNat < 16) :
    ∃ gs, Packed (fun i => (Pmt.entry i).length) 1020 (12 + (t.descriptors.flatMap Desc.wire).length) 12 t.items gs ∧
      t.demux p pid cc dst = .ok (UInt8.ofNat ((cc.toNat + streamCount (t.wire gs)) % 16), dst ++ (stream pid.toNat cc.toNat (t.wire gs)).flatten) ∧
      ∀ (got : List (List UInt8)) (s : Psi), List.Forall₂ Disturbed (t.wire gs) got →
        let arrived := undamaged gs.zipIdx (t.wire gs) got
        ∃ s', receive (Pmt.parse p) p Pmt.default s (stream pid.toNat cc.toNat got) =
          .ok (if arrived = [] then Pmt.default else
            { t with descriptors := arrived.flatMap (fun x => if x.2 = 0 then ds else []), items := arrived.flatMap (·.1) }, s') := by
  obtain ⟨gs, P, hw⟩ := Pmt.C55_wire p t ht.program (fun i hi => (ht.items i hi).1) pid cc dst hp hc
  refine ⟨gs, P, hw, ?_⟩
  intro got s hg
  obtain ⟨s', h⟩ := (Pmt.sent p t ht ds hds gs P).noisy pid.toNat hp got hg Pmt.default s cc.toNat
  refine ⟨s', ?_⟩
  rw [h, Pmt.foldl_sent]
  rfl

/-- C142 for a present/following EIT: every event is a section of its own. -/
theorem C142_eit_pf (p : Profile) (t : Eit) (hid : t.tableId = 0x4E ∨ t.tableId = 0x4F) (ht : t.InRange) (pid : UInt16) (cc : UInt8)
    (dst : List UInt8) (hp : pid.toNat < 8192) (hc : cc.toNat < 16) :
    t.demux p pid cc dst = .ok (UInt8.ofNat ((cc.toNat + streamCount t.wirePf) % 16), dst ++ (stream pid.toNat cc.toNat t.wirePf).flatten) ∧
      ∀ (got : List (List UInt8)) (s : Psi), List.Forall₂ Disturbed t.wirePf got →
        let arrived := undamaged t.items t.wirePf got
        ∃ s', receive (Eit.parse p) p Eit.default s (stream pid.toNat cc.toNat got) =
          .ok (if arrived = [] then Eit.default else { t with items := arrived }, s') := by
  refine ⟨Eit.C58_wire p t hid (fun i hi => (ht.items i hi).1) pid cc dst hp hc, ?_⟩
  intro got s hg
  obtain ⟨s', h⟩ := (Eit.sent_pf p t hid ht).noisy pid.toNat hp got hg Eit.default s cc.toNat
  refine ⟨s', ?_⟩
  have e : undamaged t.items t.wirePf got = (undamaged t.items.zipIdx t.wirePf got).map (·.1) := by
    unfold undamaged
    rw [List.map_map]
    conv_lhs => rw [← List.zipIdx_map_fst 0 t.items, List.zip_map_left, List.filter_map, List.map_map]
    rfl
  rw [h, foldl_items _ (fun x => { t with items := x }) Eit.items (fun x : EitItem × Nat => [x.1]) (fun _ => rfl), flatMap_fst]
  simp only [e, List.map_eq_nil_iff]
  rfl

/-- C142 for a schedule: the events of the sections that arrive undamaged; the table id is that of the last one. -/
theorem C142_eit_schedule (p : Profile) (t : Eit) (hs : t.Schedulable) (ht : t.InRange) (pid : UInt16) (cc : UInt8)
    (dst : List UInt8) (hp : pid.toNat < 8192) (hc : cc.toNat < 16) :
    t.demux p pid cc dst = .ok (UInt8.ofNat ((cc.toNat + streamCount t.wireSchedule) % 16),
        dst ++ (stream pid.toNat cc.toNat t.wireSchedule).flatten) ∧
      ∀ (got : List (List UInt8)) (s : Psi), List.Forall₂ Disturbed t.wireSchedule got →
        let arrived := undamaged (withLast t.slots) t.wireSchedule got
        ∃ s', receive (Eit.parse p) p Eit.default s (stream pid.toNat cc.toNat got) =
          .ok (match arrived.getLast? with
            | none => Eit.default
            | some x => { t with tableId := UInt8.ofNat x.1.table, items := arrived.flatMap (·.1.events) }, s') := by
  refine ⟨Eit.C60_wire_partial p t hs pid cc dst hp hc, ?_⟩
  intro got s hg
  obtain ⟨s', h⟩ := (Eit.sent_schedule p t hs ht).noisy pid.toNat hp got hg Eit.default s cc.toNat
  refine ⟨s', ?_⟩
  rw [h, Eit.foldl_sent]
  rfl

/-! ## The TDT has no CRC -/

theorem hhmmss_next (n : Nat) (h : n % 2 = 0) : Descriptor.hhmmss (n + 1) = Descriptor.hhmmss n + 1 ∧ Descriptor.hhmmss n % 2 = 0 := by
  have hb : ∀ v, v % 2 = 0 → bcd 6 (v + 1) = bcd 6 v + 1 ∧ bcd 6 v % 2 = 0 := by
    intro v hv
    have e1 : ∀ v, bcd 6 v = bcd 5 (v / 10) * 16 + v % 10 := fun _ => rfl
    rw [e1, e1, show (v + 1) / 10 = v / 10 by omega]
    omega
  unfold Descriptor.hhmmss
  have e : (n + 1) / 3600 * 10000 + (n + 1) / 60 % 60 * 100 + (n + 1) % 60 = n / 3600 * 10000 + n / 60 % 60 * 100 + n % 60 + 1 := by omega
  rw [e]
  exact hb _ (by omega)

theorem damaged_append (a b c : List UInt8) : damaged (a ++ b) (a ++ c) = damaged b c := by
  have hb : ∀ a b : List UInt8, bits (a ++ b) = bits a ++ bits b := by intro a b; unfold bits; rw [List.flatMap_append]
  unfold damaged
  rw [hb, hb, List.zipWith_append rfl, zip_self, List.count_append]
  simp [List.count_replicate]

theorem damaged_low : ∀ x : UInt8, x.toNat % 2 = 0 → damaged [x] [x + 1] = 1 ∧ damaged [x + 1] [x] = 1 := by decide +kernel

/-- The TDT of the next second, of an even one, is that of this second with one bit damaged. -/
theorem tdt_next (n : Nat) (h : n % 2 = 0) : damaged (Table.tdt n) (Table.tdt (n + 1)) = 1 ∧ damaged (Table.tdt (n + 1)) (Table.tdt n) = 1 := by
  obtain ⟨h1, h2⟩ := hhmmss_next (n % 86400) (by omega)
  have e : ∀ k, k % 2 = 0 → ∃ a b : UInt8, beBytes 3 k = [a, b] ++ [UInt8.ofNat k] ∧ beBytes 3 (k + 1) = [a, b] ++ [UInt8.ofNat k + 1] := by
    intro k hk
    refine ⟨UInt8.ofNat (k / 65536), UInt8.ofNat (k / 256), by simp [beBytes], ?_⟩
    have h1 : (k + 1) / 65536 = k / 65536 := by omega
    have h2 : (k + 1) / 256 = k / 256 := by omega
    simp [beBytes, h1, h2, UInt8.ofNat_add]
  obtain ⟨a, b, e1, e2⟩ := e _ h2
  have hd : damaged [UInt8.ofNat (Descriptor.hhmmss (n % 86400))] _ = 1 ∧ _ := damaged_low _ (by rw [UInt8.toNat_ofNat']; omega)
  unfold Table.tdt Descriptor.utc
  rw [show (n + 1) / 86400 = n / 86400 by omega, show (n + 1) % 86400 = n % 86400 + 1 by omega, h1, e1, e2]
  simp only [← List.append_assoc]
  rw [damaged_append, damaged_append]
  exact hd

/-- C142 fails for the TDT, which has no CRC: of every TDT one bit can be damaged such that another time is received. -/
theorem C142_tdt_refuted (p : Profile) (t u : Tdt) (h : TimeInRange t.time) (pid : UInt16) (cc : UInt8) (dst : List UInt8) (s : Psi)
    (hp : pid.toNat < 8192) (hc : cc.toNat < 16) :
    t.demux p pid cc dst = .ok (UInt8.ofNat ((cc.toNat + 1) % 16), dst ++ (packets pid.toNat cc.toNat (Table.tdt t.time.toNat)).flatten) ∧
      ∃ got, Disturbed (Table.tdt t.time.toNat) got ∧ damaged (Table.tdt t.time.toNat) got = 1 ∧
        ∃ s', receive (Tdt.parse p) p u s (packets pid.toNat cc.toNat got) = .ok (⟨t.time ^^^ 1⟩, s') := by
  have hx : (t.time ^^^ 1).toNat = if t.time.toNat % 2 = 0 then t.time.toNat + 1 else t.time.toNat - 1 := by
    rw [UInt64.toNat_xor]
    show t.time.toNat ^^^ 1 = _
    split
    · rename_i h; exact Nat.xor_one_of_even (Nat.even_iff.2 h)
    · rename_i h; exact Nat.xor_one_of_odd (Nat.odd_iff.2 (by omega))
  have hr : TimeInRange (t.time ^^^ 1) := by
    unfold TimeInRange at h ⊢
    rw [hx]
    split <;> omega
  have hl : ∀ n, (Table.tdt n).length = 8 := fun n => by simp [Table.tdt]
  have hs : ∀ n, IsSection (Table.tdt n) := fun n => ⟨by rw [hl]; omega, by rw [hl]; simp [Table.tdt]; decide⟩
  have hd : damaged (Table.tdt t.time.toNat) (Table.tdt (t.time ^^^ 1).toNat) = 1 := by
    rw [hx]
    split
    · rename_i h; exact (tdt_next _ h).1
    · have := (tdt_next (t.time.toNat - 1) (by omega)).2
      rwa [show t.time.toNat - 1 + 1 = t.time.toNat by omega] at this
  refine ⟨Tdt.C61_wire p t h pid cc dst hp hc, Table.tdt (t.time ^^^ 1).toNat,
    .inr ⟨by rw [hl, hl], hs _, .inl ⟨by omega, by omega⟩⟩, hd, ?_⟩
  obtain ⟨cc', pk, s', h1, -, h3⟩ := Tdt.C61_round_trip p ⟨t.time ^^^ 1⟩ u hr pid cc [] s hp hc
  refine ⟨s', ?_⟩
  have hpk : packets pid.toNat cc.toNat (Table.tdt (t.time ^^^ 1).toNat) = [packetAt pid.toNat cc.toNat (Table.tdt (t.time ^^^ 1).toNat) 0] := by
    unfold packets; rw [hl]; rfl
  rw [Tdt.C61_wire p _ hr pid cc [] hp hc, hpk] at h1
  have h1 : packetAt pid.toNat cc.toNat (Table.tdt (t.time ^^^ 1).toNat) 0 = pk := by
    have := (Prod.mk.inj (Except.ok.inj h1)).2
    simpa using this
  rw [hpk, h1]
  exact h3

/-! ## Cases -/

/-- The last bit of a section is damaged. -/
def flipLast (sec : List UInt8) : List UInt8 := sec.take (sec.length - 1) ++ (sec.drop (sec.length - 1)).map (· ^^^ 1)

theorem flipLast_disturbed (sec : List UInt8) (hs : IsSection sec) (h4 : 4 ≤ sec.length) : Disturbed sec (flipLast sec) ∧ flipLast sec ≠ sec := by
  obtain ⟨a, x, rfl⟩ : ∃ a x, sec = a ++ [x] := ⟨_, _, (List.dropLast_append_getLast (by rintro rfl; simp at h4)).symm⟩
  have e : flipLast (a ++ [x]) = a ++ [x ^^^ 1] := by simp [flipLast]
  have hd : ∀ x : UInt8, damaged [x] [x ^^^ 1] = 1 ∧ x ^^^ 1 ≠ x := by decide +kernel
  rw [List.length_append, List.length_singleton] at h4
  rw [e]
  refine ⟨.inr ⟨by simp, ?_, .inl ⟨?_, ?_⟩⟩, ?_⟩
  · unfold IsSection at hs ⊢
    have ht : ∀ y, ((a ++ [y]).drop 1).take 2 = (a.drop 1).take 2 := by
      intro y
      rw [List.drop_append_of_le_length (by omega), List.take_append_of_le_length (by simp; omega)]
    rw [ht] at hs ⊢
    simpa using hs
  · rw [damaged_append, (hd x).1]
  · rw [damaged_append, (hd x).1]
    omega
  · intro h
    exact (hd x).2 (by simpa using h)

theorem undamaged_self {β : Type} (l : List β) (W : List (List UInt8)) (h : l.length = W.length) : undamaged l W W = l := by
  induction l generalizing W with
  | nil => rfl
  | cons x r ih =>
    cases W with
    | nil => cases h
    | cons w W =>
      have := ih W (Nat.succ.inj h)
      unfold undamaged at this ⊢
      rw [List.zip_cons_cons, List.zip_cons_cons, List.filter_cons_of_pos (by exact beq_self_eq_true _), List.map_cons, this]

/-- An SDT of 40 services of 105 bytes each takes five sections.  If a bit of the first is damaged, exactly the nine services of the first
section are missing. -/
theorem C142_example (p : Profile) (s : Psi) :
    ∃ cc' sec rest s', bigSdt.demux p 17 14 [] = .ok (cc', (stream 17 14 (sec :: rest)).flatten) ∧
      receive (Sdt.parse p) p Sdt.default s (stream 17 14 (flipLast sec :: rest)) = .ok ({ bigSdt with items := bigSdt.items.drop 9 }, s') := by
  obtain ⟨gs, P, hd, h⟩ := C142_sdt p bigSdt bigSdt_inRange 17 14 [] (by decide) (by decide)
  have hg : gs = (List.range 5).map fun i => (bigSdt.items.drop (9 * i)).take 9 := by
    refine P.unique ?_
    have := packed_fill (fun i => (Sdt.entry i).length) 1020 11 bigSdt.items (fun i hi => (bigSdt_inRange.items i hi).1.2.2.2.2.2) 11 (by omega)
    have e : fill (fun i => (Sdt.entry i).length) 1020 11 11 bigSdt.items = (List.range 5).map fun i => (bigSdt.items.drop (9 * i)).take 9 := by
      decide +kernel
    rw [e] at this
    exact this
  have H := Sdt.sent p bigSdt bigSdt_inRange gs P
  have hlen : gs.zipIdx.length = (bigSdt.wire gs).length := by simp [Sdt.wire]
  have hsec : ∀ w ∈ bigSdt.wire gs, IsSection w ∧ 7 < w.length ∧ crc32 w = 0 := by
    intro w hw
    obtain ⟨x, hx, rfl⟩ := List.mem_map.1 hw
    exact H.sec x hx
  cases hW : bigSdt.wire gs with
  | nil => rw [hW, hg] at hlen; cases hlen
  | cons w W =>
    rw [hW] at h hd hlen hsec
    obtain ⟨f1, f2⟩ := flipLast_disturbed w (hsec w List.mem_cons_self).1 (by have := (hsec w List.mem_cons_self).2.1; omega)
    obtain ⟨s', h⟩ := h (flipLast w :: W) s (.cons f1 (List.forall₂_same.2 fun _ _ => .inl rfl))
    refine ⟨_, w, W, s', hd, ?_⟩
    show receive (Sdt.parse p) p Sdt.default s (stream (17 : UInt16).toNat (14 : UInt8).toNat (flipLast w :: W)) = _
    rw [h]
    cases hz : gs.zipIdx with
    | nil => rw [hz] at hlen; cases hlen
    | cons z Z =>
      rw [hz] at hlen
      have ha : undamaged (z :: Z) (w :: W) (flipLast w :: W) = Z := by
        have := undamaged_self Z W (Nat.succ.inj hlen)
        unfold undamaged at this ⊢
        rw [List.zip_cons_cons, List.zip_cons_cons, List.filter_cons_of_neg (by simpa using Ne.symm f2), this]
      have hZ : Z = gs.zipIdx.tail := by rw [hz]; rfl
      rw [ha, hZ, hg]
      refine congrArg (fun x => Except.ok (x, s')) ?_
      rw [if_neg (by decide +kernel)]
      refine congrArg (fun x => { bigSdt with items := x }) ?_
      decide +kernel

example := (C142_pat .release samplePat140 (by decide) (by decide) (by decide) 0 3 [] (by decide) (by decide)).2
  (flipLast (samplePat140.wire samplePat140.items)) Psi.default (by
    have h := (Pat.sent .release samplePat140 (by decide) (by decide) (by decide)).sec () (by decide)
    exact (flipLast_disturbed _ h.1 (by omega)).1)

theorem tot142_inRange : sampleTot.InRange := ⟨by unfold TimeInRange unixEpochMjd; decide, by decide +kernel, by decide +kernel⟩
theorem tot142_exact : ∀ d ∈ sampleTot.descriptors, d.Exact := by decide +kernel

example := (C142_tot .release sampleTot sampleTot tot142_inRange tot142_exact 20 3 [] (by decide) (by decide)).2
  (flipLast sampleTot.wire) Psi.default (by
    have h := (Tot.sent .release sampleTot tot142_inRange tot142_exact).sec () (by decide)
    exact (flipLast_disturbed _ h.1 (by omega)).1)

/-- Sections all of which are damaged in the last bit. -/
theorem flipLast_all {α β : Type} {p : Profile} {parse : α → Psi → R α} {l : List β} {f : β → List UInt8} {step : α → β → α}
    (H : Sent p parse l f step) : List.Forall₂ Disturbed (l.map f) ((l.map f).map flipLast) := by
  rw [List.forall₂_map_right_iff, List.forall₂_same]
  intro w hw
  obtain ⟨x, hx, rfl⟩ := List.mem_map.1 hw
  obtain ⟨h1, h2, -⟩ := H.sec x hx
  exact (flipLast_disturbed _ h1 (by omega)).1

example := (C142_eit_pf .release sampleEit (by decide) sampleEit_inRange 18 3 [] (by decide) (by decide)).2 _ Psi.default
  (flipLast_all (Eit.sent_pf .release sampleEit (by decide) sampleEit_inRange))

example := (C142_eit_schedule .release sampleSchedule sampleSchedule_ok sampleSchedule_inRange 18 3 [] (by decide) (by decide)).2 _ Psi.default
  (flipLast_all (Eit.sent_schedule .release sampleSchedule sampleSchedule_ok sampleSchedule_inRange))

example : True := by
  obtain ⟨gs, P, -, h⟩ := C142_nit .release sampleNit sampleNit_inRange 16 3 [] (by decide) (by decide)
  have := h _ Psi.default (flipLast_all (Nit.sent .release sampleNit sampleNit_inRange gs P))
  trivial

example : True := by
  obtain ⟨gs, P, -, h⟩ := C142_pmt .release samplePmt samplePmt_inRange [] (by decide +kernel) 256 3 [] (by decide) (by decide)
  have := h _ Psi.default (flipLast_all (Pmt.sent .release samplePmt samplePmt_inRange [] (by decide +kernel) gs P))
  trivial

example := C142_tdt_refuted .debug ⟨1700000000⟩ ⟨0⟩ (by unfold TimeInRange unixEpochMjd; decide) 20 3 [] Psi.default (by decide) (by decide)

end Mpegts
