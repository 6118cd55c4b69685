import Verif.Spec.Listen
import Verif.Props.C70_C72
import Verif.Props.Pat
import Verif.Props.Pmt
import Verif.Props.Sdt
import Verif.Props.Nit
import Verif.Props.Tdt
import Verif.Props.Eit
import Verif.Props.EitSchedule

/-! # C76: from a table through packets, a byte stream, the reader and the reassembler back to the table -/

namespace Mpegts
open Spec

/-- C76: listening to a stream gives what receiving the packets it carries on that PID gives, however the source splits its
reads, and whatever is between the packets and on other PIDs. -/
theorem C76_listen {α : Type} (parse : α → Psi → R α) (p : Profile) (pid : Nat) (t : α) (s : Psi) (src : Source) (hs : Steady src)
    (pks : List (List UInt8)) (hc : Carries pid src.data pks) (buf : List UInt8) (hb : 188 ≤ buf.length) (fuel : Nat)
    (hf : src.data.length < fuel) : listen parse p pid t s fuel src buf = receive parse p t s pks := by
  obtain ⟨data, evs⟩ := src
  obtain ⟨l, gap, part, rfl, hl, hg, hp, hlen, rfl⟩ := hc
  unfold listen receive
  rw [C71_stream l hl gap part hg hp hlen evs hs buf hb fuel hf]
  simp only [ok_bind]
  have h188 : ∀ pk ∈ l.map (·.2), pk.length = 188 := by
    intro pk h
    obtain ⟨x, hx, rfl⟩ := List.mem_map.1 h
    exact (hl x hx).2.1
  generalize l.map (·.2) = pks at h188
  clear hl hf hs
  generalize hst : (t, s) = st
  clear hst
  induction pks generalizing st with
  | nil => rfl
  | cons pk pks ih =>
    obtain ⟨q, hq, hqp⟩ := getPid_eq (h188 pk (by simp))
    have ih' := ih (fun pk h => h188 pk (List.mem_cons_of_mem _ h))
    by_cases hpid : pidOf pk = pid
    · rw [List.filter_cons_of_pos (by simpa using hpid)]
      simp only [List.foldlM_cons, hq, ok_bind, hqp, if_pos hpid, bind_assoc, pure_bind]
      cases hm : st.2.mux p pk with
      | error e => rfl
      | ok s1 =>
        simp only [ok_bind]
        cases hpa : parse st.1 s1 with
        | error e => rfl
        | ok t1 => simp only [ok_bind]; exact ih' (t1, s1)
    · rw [List.filter_cons_of_neg (by simpa using hpid)]
      simp only [List.foldlM_cons, hq, ok_bind, hqp, if_neg hpid, pure_eq_ok]
      exact ih' st

/-- A stream of the packets after bytes that are not 0x47 carries the packets (so `Carries` can be met for every table). -/
theorem carries_plain (pid : Nat) (garbage : List UInt8) (hg : 0x47 ∉ garbage) (pks : List (List UInt8))
    (hp : ∀ pk ∈ pks, IsTsPacket pid pk) : Carries pid (garbage ++ pks.flatten) pks := by
  have hi : ∀ l : List (List UInt8), interleave (l.map (fun pk => ([], pk))) = l.flatten := by
    intro l
    induction l with
    | nil => rfl
    | cons a l ih => rw [List.map_cons, interleave, ih]; rfl
  cases pks with
  | nil => exact ⟨[], garbage, [], by simp [interleave], by simp, hg, .inl rfl, by decide, rfl⟩
  | cons pk pks =>
    refine ⟨(garbage, pk) :: pks.map (fun pk => ([], pk)), [], [], ?_, ?_, by simp, .inl rfl, by decide, ?_⟩
    · rw [interleave, hi]; simp
    · intro x hx
      rcases List.mem_cons.1 hx with rfl | hx
      · exact ⟨hg, (hp pk (by simp)).1, (hp pk (by simp)).2.1⟩
      · obtain ⟨q, hq, rfl⟩ := List.mem_map.1 hx
        have := hp q (List.mem_cons_of_mem _ hq)
        exact ⟨by simp, this.1, this.2.1⟩
    · have : ((garbage, pk) :: pks.map (fun pk => (([] : List UInt8), pk))).map (·.2) = pk :: pks := by
        rw [List.map_cons, List.map_map]
        conv_rhs => rw [← List.map_id pks]
        rfl
      rw [this, List.filter_eq_self]
      intro q hq
      simpa using (hp q hq).2.2

/-- C76 for the PAT: demultiplex a table into packets, put them on any stream, read it under any chunking, listen to the PID:
the table comes back, whatever the reassembler held before. -/
theorem C76_pat (p : Profile) (t : Pat) (pid : UInt16) (cc : UInt8) (s : Psi) (hp : pid.toNat < 8192)
    (hc : cc.toNat < 16) (hv : t.version.toNat < 32) (hn : t.items.length ≤ 253) (hi : ∀ i ∈ t.items, i.pid.toNat < 8192) :
    ∃ cc' pks s', t.demux p pid cc [] = .ok (cc', pks.flatten) ∧ (∀ pk ∈ pks, IsTsPacket pid.toNat pk) ∧
      ∀ src : Source, Steady src → Carries pid.toNat src.data pks → ∀ buf : List UInt8, 188 ≤ buf.length → ∀ fuel, src.data.length < fuel →
        listen (Pat.parse p) p pid.toNat Pat.default s fuel src buf = .ok (t, s') := by
  obtain ⟨cc', pks, s', h1, h2, h3⟩ := Pat.C53_round_trip p t pid cc [] s hp hc hv hn hi
  exact ⟨cc', pks, s', h1, h2, fun src hs hcar buf hb fuel hf => (C76_listen _ p _ _ s src hs pks hcar buf hb fuel hf).trans h3⟩

/-- C76 for the SDT. -/
theorem C76_sdt (p : Profile) (t : Sdt) (ht : t.InRange) (pid : UInt16) (cc : UInt8) (s : Psi) (hp : pid.toNat < 8192) (hc : cc.toNat < 16) :
    ∃ cc' pks s', t.demux p pid cc [] = .ok (cc', pks.flatten) ∧ (∀ pk ∈ pks, IsTsPacket pid.toNat pk) ∧
      ∀ src : Source, Steady src → Carries pid.toNat src.data pks → ∀ buf : List UInt8, 188 ≤ buf.length → ∀ fuel, src.data.length < fuel →
        listen (Sdt.parse p) p pid.toNat Sdt.default s fuel src buf = .ok (t, s') := by
  obtain ⟨cc', pks, s', h1, h2, h3⟩ := Sdt.C57_round_trip p t ht pid cc [] s hp hc
  exact ⟨cc', pks, s', h1, h2, fun src hs hcar buf hb fuel hf => (C76_listen _ p _ _ s src hs pks hcar buf hb fuel hf).trans h3⟩

/-- C76 for the NIT. -/
theorem C76_nit (p : Profile) (t : Nit) (ht : t.InRange) (pid : UInt16) (cc : UInt8) (s : Psi) (hp : pid.toNat < 8192) (hc : cc.toNat < 16) :
    ∃ cc' pks s', t.demux p pid cc [] = .ok (cc', pks.flatten) ∧ (∀ pk ∈ pks, IsTsPacket pid.toNat pk) ∧
      ∀ src : Source, Steady src → Carries pid.toNat src.data pks → ∀ buf : List UInt8, 188 ≤ buf.length → ∀ fuel, src.data.length < fuel →
        listen (Nit.parse p) p pid.toNat Nit.default s fuel src buf = .ok (t, s') := by
  obtain ⟨cc', pks, s', h1, h2, h3⟩ := Nit.C56_round_trip p t ht pid cc [] s hp hc
  exact ⟨cc', pks, s', h1, h2, fun src hs hcar buf hb fuel hf => (C76_listen _ p _ _ s src hs pks hcar buf hb fuel hf).trans h3⟩

/-- C76 for a PMT without program descriptors (those are misread, see C55). -/
theorem C76_pmt_partial (p : Profile) (t : Pmt) (ht : t.InRange) (hd : t.descriptors = []) (pid : UInt16) (cc : UInt8) (s : Psi)
    (hp : pid.toNat < 8192) (hc : cc.toNat < 16) :
    ∃ cc' pks s', t.demux p pid cc [] = .ok (cc', pks.flatten) ∧ (∀ pk ∈ pks, IsTsPacket pid.toNat pk) ∧
      ∀ src : Source, Steady src → Carries pid.toNat src.data pks → ∀ buf : List UInt8, 188 ≤ buf.length → ∀ fuel, src.data.length < fuel →
        listen (Pmt.parse p) p pid.toNat Pmt.default s fuel src buf = .ok (t, s') := by
  obtain ⟨cc', pks, s', h1, h2, h3⟩ := Pmt.C55_round_trip_partial p t ht hd pid cc [] s hp hc
  exact ⟨cc', pks, s', h1, h2, fun src hs hcar buf hb fuel hf => (C76_listen _ p _ _ s src hs pks hcar buf hb fuel hf).trans h3⟩

/-- C76 for a PMT with program descriptors: everything else comes back, with what the parser makes of the program descriptors read one
byte early (see C55). -/
theorem C76_pmt_received_partial (p : Profile) (t : Pmt) (ht : t.InRange) (pid : UInt16) (cc : UInt8) (s : Psi)
    (hp : pid.toNat < 8192) (hc : cc.toNat < 16) :
    ∃ cc' pks, t.demux p pid cc [] = .ok (cc', pks.flatten) ∧ (∀ pk ∈ pks, IsTsPacket pid.toNat pk) ∧
      ∀ src : Source, Steady src → Carries pid.toNat src.data pks → ∀ buf : List UInt8, 188 ≤ buf.length → ∀ fuel, src.data.length < fuel →
        (∀ ds, Pmt.misread p t = .ok ds → ∃ s', listen (Pmt.parse p) p pid.toNat Pmt.default s fuel src buf = .ok ({ t with descriptors := ds }, s')) ∧
        (Pmt.misread p t = panic → listen (Pmt.parse p) p pid.toNat Pmt.default s fuel src buf = panic) := by
  obtain ⟨cc', pks, h1, h2, h3, h4⟩ := Pmt.C55_received_partial p t ht pid cc [] s hp hc
  refine ⟨cc', pks, h1, h2, fun src hs hcar buf hb fuel hf => ?_⟩
  rw [C76_listen _ p _ _ s src hs pks hcar buf hb fuel hf]
  exact ⟨h3, h4⟩

/-- C76 fails for the PMT: one with up to 255 bytes of program descriptors does not come back on any stream. -/
theorem C76_pmt_refuted (p : Profile) (t : Pmt) (ht : t.InRange) (hd : t.descriptors ≠ [])
    (hl : (t.descriptors.flatMap Desc.wire).length ≤ 255) (pid : UInt16) (cc : UInt8) (s : Psi) (hp : pid.toNat < 8192) (hc : cc.toNat < 16) :
    ∃ cc' pks, t.demux p pid cc [] = .ok (cc', pks.flatten) ∧ (∀ pk ∈ pks, IsTsPacket pid.toNat pk) ∧
      ∀ src : Source, Steady src → Carries pid.toNat src.data pks → ∀ buf : List UInt8, 188 ≤ buf.length → ∀ fuel, src.data.length < fuel →
        ∀ s', listen (Pmt.parse p) p pid.toNat Pmt.default s fuel src buf ≠ .ok (t, s') := by
  obtain ⟨cc', pks, h1, h2, h3⟩ := Pmt.C55_refuted p t ht hd hl pid cc [] s hp hc
  refine ⟨cc', pks, h1, h2, fun src hs hcar buf hb fuel hf => ?_⟩
  rw [C76_listen _ p _ _ s src hs pks hcar buf hb fuel hf]
  exact h3

/-- C76 for the TDT. -/
theorem C76_tdt (p : Profile) (t u : Tdt) (h : TimeInRange t.time) (pid : UInt16) (cc : UInt8) (s : Psi) (hp : pid.toNat < 8192)
    (hc : cc.toNat < 16) :
    ∃ cc' pk s', t.demux p pid cc [] = .ok (cc', pk) ∧ IsTsPacket pid.toNat pk ∧
      ∀ src : Source, Steady src → Carries pid.toNat src.data [pk] → ∀ buf : List UInt8, 188 ≤ buf.length → ∀ fuel, src.data.length < fuel →
        listen (Tdt.parse p) p pid.toNat u s fuel src buf = .ok (t, s') := by
  obtain ⟨cc', pk, s', h1, h2, h3⟩ := Tdt.C61_round_trip p t u h pid cc [] s hp hc
  exact ⟨cc', pk, s', h1, h2, fun src hs hcar buf hb fuel hf => (C76_listen _ p _ _ s src hs [pk] hcar buf hb fuel hf).trans h3⟩

/-- C76 for a TOT with descriptors that read back exactly (see C62 for the others). -/
theorem C76_tot_partial (p : Profile) (t u : Tot) (h : t.InRange) (he : ∀ d ∈ t.descriptors, d.Exact) (hu : u.descriptors = []) (pid : UInt16)
    (cc : UInt8) (s : Psi) (hp : pid.toNat < 8192) (hc : cc.toNat < 16) :
    ∃ cc' pks s', t.demux p pid cc [] = .ok (cc', pks.flatten) ∧ (∀ pk ∈ pks, IsTsPacket pid.toNat pk) ∧
      ∀ src : Source, Steady src → Carries pid.toNat src.data pks → ∀ buf : List UInt8, 188 ≤ buf.length → ∀ fuel, src.data.length < fuel →
        listen (Tot.parse p) p pid.toNat u s fuel src buf = .ok (t, s') := by
  obtain ⟨cc', pks, s', h1, h2, h3⟩ := Tot.C62_round_trip_partial p t u h he hu pid cc [] s hp hc
  exact ⟨cc', pks, s', h1, h2, fun src hs hcar buf hb fuel hf => (C76_listen _ p _ _ s src hs pks hcar buf hb fuel hf).trans h3⟩

/-- C76 for a present/following EIT with descriptors that read back exactly and events shorter than a day (see C58 for the others). -/
theorem C76_eit_pf_partial (p : Profile) (t : Eit) (hid : t.tableId = 0x4E ∨ t.tableId = 0x4F) (ht : t.InRange) (hne : t.items ≠ []) (pid : UInt16)
    (cc : UInt8) (s : Psi) (hp : pid.toNat < 8192) (hc : cc.toNat < 16) :
    ∃ cc' pks s', t.demux p pid cc [] = .ok (cc', pks.flatten) ∧ (∀ pk ∈ pks, IsTsPacket pid.toNat pk) ∧
      ∀ src : Source, Steady src → Carries pid.toNat src.data pks → ∀ buf : List UInt8, 188 ≤ buf.length → ∀ fuel, src.data.length < fuel →
        listen (Eit.parse p) p pid.toNat Eit.default s fuel src buf = .ok (t, s') := by
  obtain ⟨cc', pks, s', h1, h2, h3⟩ := Eit.C58_round_trip_partial p t hid ht hne pid cc [] s hp hc
  exact ⟨cc', pks, s', h1, h2, fun src hs hcar buf hb fuel hf => (C76_listen _ p _ _ s src hs pks hcar buf hb fuel hf).trans h3⟩

/-- C76 for an EIT schedule: everything comes back but the table id, which is that of the last sub-table sent (see C59). -/
theorem C76_eit_schedule_partial (p : Profile) (t : Eit) (h : t.Schedulable) (ht : t.InRange) (pid : UInt16) (cc : UInt8) (s : Psi)
    (hp : pid.toNat < 8192) (hc : cc.toNat < 16) :
    ∃ cc' pks s' last, t.demux p pid cc [] = .ok (cc', pks.flatten) ∧ (∀ pk ∈ pks, IsTsPacket pid.toNat pk) ∧ t.slots.getLast? = some last ∧
      ∀ src : Source, Steady src → Carries pid.toNat src.data pks → ∀ buf : List UInt8, 188 ≤ buf.length → ∀ fuel, src.data.length < fuel →
        listen (Eit.parse p) p pid.toNat Eit.default s fuel src buf = .ok ({ t with tableId := UInt8.ofNat last.table }, s') := by
  obtain ⟨cc', pks, s', last, h1, h2, h3, h4⟩ := Eit.C59_delivery_partial p t h ht pid cc [] s hp hc
  exact ⟨cc', pks, s', last, h1, h2, h3, fun src hs hcar buf hb fuel hf => (C76_listen _ p _ _ s src hs pks hcar buf hb fuel hf).trans h4⟩

/-- A PAT after three stray bytes, read one byte, then five bytes, then everything. -/
example : ∃ (pks : List (List UInt8)) (s' : Psi), (∀ pk ∈ pks, IsTsPacket 0 pk) ∧
    listen (Pat.parse .debug) .debug 0 Pat.default Psi.default (1000 + pks.flatten.length) ⟨[1, 2, 3] ++ pks.flatten, [.chunk 0, .chunk 4]⟩
      (List.replicate 188 0) = .ok (samplePat, s') := by
  obtain ⟨cc', pks, s', -, h2, h3⟩ := C76_pat .debug samplePat 0 3 Psi.default (by decide) (by decide) (by decide) (by decide) (by decide)
  refine ⟨pks, s', h2, h3 ⟨[1, 2, 3] ++ pks.flatten, [.chunk 0, .chunk 4]⟩ ?_ (carries_plain 0 [1, 2, 3] (by decide) pks h2) _ (by decide +kernel) _ (by simp; omega)⟩
  intro e h
  simp at h
  rcases h with rfl | rfl <;> exact ⟨_, rfl⟩

/-- A PMT with a conditional access descriptor does not come back. -/
example : ∃ (cc' : UInt8) (pks : List (List UInt8)), samplePmt2.demux .release 0x10 3 [] = .ok (cc', pks.flatten) ∧
    ∀ s', listen (Pmt.parse .release) .release 0x10 Pmt.default Psi.default (1000 + pks.flatten.length) ⟨[1, 2, 3] ++ pks.flatten, []⟩
      (List.replicate 188 0) ≠ .ok (samplePmt2, s') := by
  obtain ⟨cc', pks, h1, h2, h3⟩ := C76_pmt_refuted .release samplePmt2 samplePmt2_inRange (by decide) (by decide +kernel) 0x10 3 Psi.default
    (by decide) (by decide)
  exact ⟨cc', pks, h1, h3 ⟨[1, 2, 3] ++ pks.flatten, []⟩ (fun e h => nomatch h) (carries_plain 0x10 [1, 2, 3] (by decide) pks h2) _
    (by decide +kernel) _ (by simp; omega)⟩

end Mpegts
