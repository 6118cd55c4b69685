import Verif.Props.C83_C86
import Verif.Props.C70_C72
import Verif.Lemmas.Receiver
import Verif.Props.Pat
import Verif.Props.Pmt
import Verif.Props.Nit
import Verif.Props.Sdt
import Verif.Props.Eit
import Verif.Props.Tdt

/-! # C135: joining a stream in the middle -/

namespace Mpegts
open Spec Spec.Table

namespace Join

/-- A packet that an empty reassembler with the counter `c` ignores: it continues a section, and its counter is not the next. -/
def Orphan (c : Nat) (ts : List UInt8) : Prop :=
  IsPacket ts ∧ hasPayload ts = true ∧ pusiOf ts = false ∧ ccOf ts ≠ (c + 1) % 16

theorem orphans (pid cc c : Nat) (hp : pid < 8192) (sec : List UInt8) (k : Nat) (hk : 0 < k)
    (hcc : ∀ i, k ≤ i → i < packetCount sec.length → (cc + i) % 16 ≠ (c + 1) % 16) :
    ∀ ts ∈ (packets pid cc sec).drop k, Orphan c ts := by
  intro ts hts
  obtain ⟨j, hj, rfl⟩ := List.mem_iff_getElem.1 hts
  have hl : (packets pid cc sec).length = packetCount sec.length := packets_length pid cc sec
  rw [List.length_drop] at hj
  rw [List.getElem_drop]
  simp only [packets, List.getElem_map, List.getElem_range]
  obtain ⟨f1, f2, f3, f4, _⟩ := packetAt_fields pid cc hp sec (k + j)
  exact ⟨f1, f2, by rw [f3, decide_eq_false_iff_not]; omega, by rw [f4]; exact hcc _ (by omega) (by omega)⟩

theorem sections_orphans (p : Profile) (s : Psi) (hb : s.buffer = []) (hz : s.size = 0) (hs : s.cc.toNat < 16)
    (l : List (List UInt8)) (h : ∀ ts ∈ l, Orphan s.cc.toNat ts) (r : List (List UInt8)) :
    sections p s (l ++ r) = sections p s r := by
  induction l with
  | nil => rfl
  | cons ts l ih =>
    obtain ⟨h1, h2, h3, h4⟩ := h ts (by simp)
    obtain ⟨b, hc, hc'⟩ := C50_check p s
    have hbf : b = false := by
      cases b
      · rfl
      · have := (hc'.1 rfl).1
        omega
    rw [List.cons_append, sections_cons, C79_orphan_partial p s ts hb hz hs h1 h2 h3 h4, ok_bind, hc, ok_bind,
      ih fun x hx => h x (List.mem_cons_of_mem _ hx), hbf]
    cases sections p s r <;> rfl

theorem receive_orphans {α : Type} (parse : α → Psi → R α) (p : Profile) (t : α) (s : Psi) (hb : s.buffer = []) (hz : s.size = 0)
    (hs : s.cc.toNat < 16) (hi : parse t s = .ok t)
    (l : List (List UInt8)) (h : ∀ ts ∈ l, Orphan s.cc.toNat ts) (r : List (List UInt8)) :
    receive parse p t s (l ++ r) = receive parse p t s r := by
  induction l with
  | nil => rfl
  | cons ts l ih =>
    obtain ⟨h1, h2, h3, h4⟩ := h ts (by simp)
    rw [List.cons_append, receive_cons, C79_orphan_partial p s ts hb hz hs h1 h2 h3 h4, ok_bind, hi, ok_bind,
      ih fun x hx => h x (List.mem_cons_of_mem _ hx)]

theorem received_all (n : Nat) (l : List (List UInt8)) : received (fun _ => true) n l = l := by
  induction l generalizing n with
  | nil => rfl
  | cons x l ih => rw [received, if_pos rfl, ih]

theorem intact_all (n : Nat) (l : List (List UInt8)) : intact (fun _ => true) n l = l := by
  induction l generalizing n with
  | nil => rfl
  | cons x l ih => rw [intact, if_pos (by simp), ih]

theorem sections_stream (p : Profile) (pid cc : Nat) (hp : pid < 8192) (secs : List (List UInt8))
    (hsec : ∀ sec ∈ secs, IsSection sec ∧ 7 < sec.length ∧ crc32 sec = 0) (s : Psi) :
    sections p s (stream pid cc secs) = .ok secs := by
  have := C83_loss_partial p pid cc hp (fun _ => true) secs hsec rfl (by intro i j _ _ _ h; cases h) s
  rwa [received_all, intact_all] at this

/-- C135, the part that holds: a reassembler that holds nothing (a new one has the counter 0) joins a stream of sections at the
packet `k` of a section, not its first.  If none of the packets left of that section happens to carry the counter behind that of the
reassembler, nothing is made of them, and of the sections `secs` that follow exactly those are received all of whose packets arrive;
all of them, in order, if no packet is lost.  (Full property: without the condition on the counter; false, see
`C135_inside_refuted`.) -/
theorem C135_sections_partial (p : Profile) (pid cc : Nat) (hp : pid < 8192) (s : Psi) (hb : s.buffer = []) (hz : s.size = 0)
    (hs : s.cc.toNat < 16) (sec : List UInt8) (k : Nat) (hk : 0 < k)
    (hcc : ∀ i, k ≤ i → i < packetCount sec.length → (cc + i) % 16 ≠ (s.cc.toNat + 1) % 16)
    (secs : List (List UInt8)) (hsec : ∀ sec ∈ secs, IsSection sec ∧ 7 < sec.length ∧ crc32 sec = 0)
    (keep : Nat → Bool) (h0 : keep 0 = true) (hu : Unambiguous keep (stream pid (cc + packetCount sec.length) secs)) :
    sections p s ((packets pid cc sec).drop k ++ received keep 0 (stream pid (cc + packetCount sec.length) secs)) =
        .ok (intact keep 0 secs) ∧
      sections p s ((packets pid cc sec).drop k ++ stream pid (cc + packetCount sec.length) secs) = .ok secs := by
  have ho := orphans pid cc s.cc.toNat hp sec k hk hcc
  refine ⟨?_, ?_⟩
  · rw [sections_orphans p s hb hz hs _ ho]
    exact C83_loss_partial p pid _ hp keep secs hsec h0 hu s
  · rw [sections_orphans p s hb hz hs _ ho, sections_stream p pid _ hp secs hsec s]

/-- C135: so a table object that joins a stream in the middle of a section is, under the same condition, what it would be without the
rest of that section, whatever packets `r` follow. -/
theorem C135_tables_partial (p : Profile) (pid cc : Nat) (hp : pid < 8192) (s : Psi) (hb : s.buffer = []) (hz : s.size = 0)
    (hs : s.cc.toNat < 16) (sec : List UInt8) (k : Nat) (hk : 0 < k)
    (hcc : ∀ i, k ≤ i → i < packetCount sec.length → (cc + i) % 16 ≠ (s.cc.toNat + 1) % 16) (r : List (List UInt8)) :
    (∀ t, receive (Pat.parse p) p t s ((packets pid cc sec).drop k ++ r) = receive (Pat.parse p) p t s r) ∧
    (∀ t, receive (Pmt.parse p) p t s ((packets pid cc sec).drop k ++ r) = receive (Pmt.parse p) p t s r) ∧
    (∀ t, receive (Nit.parse p) p t s ((packets pid cc sec).drop k ++ r) = receive (Nit.parse p) p t s r) ∧
    (∀ t, receive (Sdt.parse p) p t s ((packets pid cc sec).drop k ++ r) = receive (Sdt.parse p) p t s r) ∧
    (∀ t, receive (Eit.parse p) p t s ((packets pid cc sec).drop k ++ r) = receive (Eit.parse p) p t s r) ∧
    (∀ t, receive (Tdt.parse p) p t s ((packets pid cc sec).drop k ++ r) = receive (Tdt.parse p) p t s r) ∧
    (∀ t, receive (Tot.parse p) p t s ((packets pid cc sec).drop k ++ r) = receive (Tot.parse p) p t s r) := by
  have ho := orphans pid cc s.cc.toNat hp sec k hk hcc
  have hn : ∀ m, 0 < m → ¬ Intact m s := fun m hm h => by have := h.1; omega
  refine ⟨fun t => ?_, fun t => ?_, fun t => ?_, fun t => ?_, fun t => ?_, fun t => ?_, fun t => ?_⟩
  · exact receive_orphans _ p t s hb hz hs (Pat.C65_pat p t s (.inl (by omega)) fun h => hn _ (by decide) h.2) _ ho r
  · exact receive_orphans _ p t s hb hz hs (Pmt.C65_pmt p t s (.inl (by omega)) fun h => hn _ (by decide) h.2) _ ho r
  · exact receive_orphans _ p t s hb hz hs (Nit.C65_nit p t s (.inl (by omega)) fun h => hn _ (by decide) h.2) _ ho r
  · exact receive_orphans _ p t s hb hz hs (Sdt.C65_sdt p t s (.inl (by omega)) fun h => hn _ (by decide) h.2) _ ho r
  · exact receive_orphans _ p t s hb hz hs (Eit.C65_eit p t s (.inl (by omega)) fun h => hn _ (by decide) h.2) _ ho r
  · exact receive_orphans _ p t s hb hz hs (Tdt.C65_tdt p t s (.inl (by omega))) _ ho r
  · exact receive_orphans _ p t s hb hz hs (Tot.C65_tot p t s (.inl (by omega)) fun h => hn _ (by decide) h.2) _ ho r

/-- C135 fails: if the last packet of a section carries the counter behind that of the empty reassembler and its payload begins with the
bytes of another section (in the data of a descriptor, say), the reassembler takes these for a section, and a section is received that
nobody sent; then those that follow.  Any table object is given it. -/
theorem C135_inside_refuted (p : Profile) (pid cc : Nat) (hp : pid < 8192) (s : Psi) (hb : s.buffer = []) (hz : s.size = 0)
    (hs : s.cc.toNat < 16) (sec : List UInt8) (k : Nat) (hk : 0 < k) (hl : k + 1 = packetCount sec.length)
    (hcc : (cc + k) % 16 = (s.cc.toNat + 1) % 16)
    (inner rest : List UInt8) (hi : IsSection inner) (h7 : 7 < inner.length) (hcrc : crc32 inner = 0)
    (hd : sec.drop (184 * k - 1) = inner ++ rest)
    (secs : List (List UInt8)) (hsec : ∀ sec ∈ secs, IsSection sec ∧ 7 < sec.length ∧ crc32 sec = 0) :
    sections p s ((packets pid cc sec).drop k ++ stream pid (cc + packetCount sec.length) secs) = .ok (inner :: secs) ∧
    ∃ s', s'.buffer = inner ∧ s'.size = inner.length ∧ ∀ (α : Type) (parse : α → Psi → R α) (t : α),
      receive parse p t s ((packets pid cc sec).drop k) = (fun u => (u, s')) <$> parse t s' := by
  have hdrop : (packets pid cc sec).drop k = [packetAt pid cc sec k] := by
    rw [packets, ← hl, List.range_succ, List.map_append, List.drop_left' (by simp)]
    rfl
  obtain ⟨f1, f2, f3, f4, f5⟩ := packetAt_fields pid cc hp sec k
  obtain ⟨s', h1, h2, h3⟩ := C79_orphan_refuted p s (packetAt pid cc sec k) hb hz hs f1 f2
    (by rw [f3, decide_eq_false_iff_not]; omega) (by rw [f4]; exact hcc) (by rw [f5]; decide)
  have hlen : (inner ++ rest).length ≤ 184 := by
    rw [← hd, List.length_drop]
    unfold packetCount at hl
    omega
  have hpl : (packetAt pid cc sec k).drop 4 = inner ++ (rest ++ List.replicate (184 - (inner ++ rest).length) 0xFF) := by
    have e : ((0x00 :: sec).drop (184 * k)).take 184 = inner ++ rest := by
      obtain ⟨m, hm⟩ : ∃ m, 184 * k = m + 1 := ⟨184 * k - 1, by omega⟩
      rw [hm, List.drop_succ_cons, show m = 184 * k - 1 by omega, hd, List.take_of_length_le hlen]
    rw [packetAt_drop, e, List.append_assoc]
  have hsz : declaredSize (inner ++ (rest ++ List.replicate (184 - (inner ++ rest).length) 0xFF)) = inner.length := by
    rw [Psi.declaredSize_append _ _ hi.1, Psi.declaredSize_section hi]
  rw [f5, hpl] at h2 h3
  rw [hsz] at h3
  rw [upToEnd, if_pos (by rw [List.length_append]; have := hi.1; omega), hsz, List.take_left' rfl] at h2
  obtain ⟨b, hc, hc'⟩ := C50_check p s'
  have hbt : b = true := by
    refine hc'.2 ⟨by omega, by rw [h2, h3], ?_⟩
    rw [h2, h3, List.take_length]
    exact crc32_append_eq_zero (inner.take (inner.length - 4)) (inner.drop (inner.length - 4)) (by rw [List.length_drop]; omega)
      (by rw [List.take_append_drop]; exact hcrc)
  have hall := sections_stream p pid (cc + packetCount sec.length) hp secs hsec s'
  refine ⟨?_, s', h2, h3, fun α parse t => ?_⟩
  · rw [hdrop, List.singleton_append, sections_cons, h1, ok_bind, hc, ok_bind, hall, ok_bind, hbt, if_pos rfl, h2, h3, List.take_length]
    rfl
  · rw [hdrop, receive_cons, h1, ok_bind]
    cases parse t s' <;> rfl

/-! ## Joining a stream of bytes -/

/-- C135, the part that holds: a reader that joins a stream of packets within a packet, behind which that packet has no byte 47, finds
the packets that follow, however the source cuts its reads. -/
theorem C135_bytes_partial (first : List UInt8) (m : Nat) (hm : 0x47 ∉ first.drop m) (pks : List (List UInt8))
    (hpk : ∀ pk ∈ pks, pk.length = 188 ∧ pk.head? = some 0x47) (evs : List ReadEvent) (he : Chunks evs) (buf : List UInt8)
    (hb : 188 ≤ buf.length) (fuel : Nat) (hf : (first.drop m ++ pks.flatten).length < fuel) :
    readAll fuel ⟨first.drop m ++ pks.flatten, evs⟩ buf = .ok pks := by
  have hi : ∀ l : List (List UInt8), interleave (l.map fun pk => ([], pk)) = l.flatten := by
    intro l
    induction l with
    | nil => rfl
    | cons a l ih => rw [List.map_cons, interleave, ih]; rfl
  cases pks with
  | nil =>
    have := C71_stream [] (by simp) (first.drop m) [] hm (.inl rfl) (by decide) evs he buf hb fuel (by simpa [interleave] using hf)
    simpa [interleave] using this
  | cons pk pks =>
    have := C71_stream ((first.drop m, pk) :: pks.map fun pk => ([], pk)) (by
        intro x hx
        rcases List.mem_cons.1 hx with rfl | hx
        · exact ⟨hm, hpk _ (by simp)⟩
        · obtain ⟨y, hy, rfl⟩ := List.mem_map.1 hx
          exact ⟨by simp, hpk _ (List.mem_cons_of_mem _ hy)⟩) [] [] (by simp) (.inl rfl) (by decide) evs he buf hb fuel
        (by simpa [interleave, hi] using hf)
    simpa [interleave, hi, Function.comp_def] using this

/-- C135 fails for the bytes: the reader takes a single byte 47 for the beginning of a packet.  If every packet has the byte 47 at the
position `m`, a reader that joins the stream there never finds a packet that was sent: all it delivers, for ever, are the ends of
packets with the beginnings of the next. -/
theorem C135_bytes_refuted (m : Nat) (hm : 0 < m) (hm' : m < 188) (first : List UInt8) (pks : List (List UInt8))
    (hpk : ∀ pk ∈ first :: pks, pk.length = 188 ∧ pk[m]? = some 0x47) (evs : List ReadEvent) (he : Chunks evs) (buf : List UInt8)
    (hb : 188 ≤ buf.length) (fuel : Nat) (hf : 188 * (pks.length + 1) ≤ fuel) :
    readAll fuel ⟨(first :: pks).flatten.drop m, evs⟩ buf =
      .ok (List.zipWith (fun a b => a.drop m ++ b.take m) (first :: pks) pks) := by
  have hdr : ∀ pk ∈ first :: pks, (pk.drop m).head? = some 0x47 := fun pk h => by
    rw [List.head?_drop]; exact (hpk pk h).2
  have key : ∀ (pks : List (List UInt8)) (first : List UInt8), (∀ pk ∈ first :: pks, pk.length = 188 ∧ (pk.drop m).head? = some 0x47) →
      ∃ part, part.length = 188 - m ∧ part.head? = some 0x47 ∧
        first.drop m ++ pks.flatten =
          (List.zipWith (fun a b => a.drop m ++ b.take m) (first :: pks) pks).flatten ++ part := by
    intro pks
    induction pks with
    | nil => intro first h; exact ⟨first.drop m, by rw [List.length_drop, (h first (by simp)).1], (h first (by simp)).2, by simp⟩
    | cons x pks ih =>
      intro first h
      obtain ⟨part, h1, h2, h3⟩ := ih x fun pk hp => h pk (List.mem_cons_of_mem _ hp)
      refine ⟨part, h1, h2, ?_⟩
      rw [List.zipWith_cons_cons, List.flatten_cons (l := first.drop m ++ x.take m), List.append_assoc, ← h3, List.flatten_cons,
        List.append_assoc]
      rw [← List.append_assoc (x.take m), List.take_append_drop]
  obtain ⟨part, h1, h2, h3⟩ := key pks first fun pk h => ⟨(hpk pk h).1, hdr pk h⟩
  have hz : ∀ x ∈ List.zipWith (fun a b => a.drop m ++ b.take m) (first :: pks) pks, x.length = 188 ∧ x.head? = some 0x47 := by
    intro x hx
    obtain ⟨i, hi, rfl⟩ := List.mem_iff_getElem.1 hx
    rw [List.length_zipWith] at hi
    rw [List.getElem_zipWith]
    have a1 := (hpk _ (List.getElem_mem (l := first :: pks) (n := i) (by omega)))
    have a2 := (hpk _ (List.mem_cons_of_mem first (List.getElem_mem (l := pks) (n := i) (by omega))))
    have a3 := hdr _ (List.getElem_mem (l := first :: pks) (n := i) (by omega))
    refine ⟨?_, ?_⟩
    · rw [List.length_append, List.length_drop, List.length_take, a1.1, a2.1]; omega
    · rw [List.head?_append, a3]; rfl
  have hflat : (first :: pks).flatten.drop m = first.drop m ++ pks.flatten := by
    rw [List.flatten_cons, List.drop_append_of_le_length (by rw [(hpk first (by simp)).1]; omega)]
  have hi : ∀ l : List (List UInt8), interleave (l.map fun pk => ([], pk)) = l.flatten := by
    intro l
    induction l with
    | nil => rfl
    | cons a l ih => rw [List.map_cons, interleave, ih]; rfl
  have hlen : ∀ l : List (List UInt8), (∀ pk ∈ l, pk.length = 188) → l.flatten.length = 188 * l.length := by
    intro l h
    induction l with
    | nil => rfl
    | cons a l ih =>
      rw [List.flatten_cons, List.length_append, ih (fun pk hp => h pk (List.mem_cons_of_mem _ hp)), h a (by simp), List.length_cons]
      omega
  have := C71_stream ((List.zipWith (fun a b => a.drop m ++ b.take m) (first :: pks) pks).map fun pk => ([], pk)) (by
      intro x hx
      obtain ⟨y, hy, rfl⟩ := List.mem_map.1 hx
      exact ⟨by simp, hz _ hy⟩) [] part (by simp) (.inr h2) (by omega) evs he buf hb fuel (by
        rw [hi, List.nil_append, List.length_append, hlen _ (fun x hx => (hz x hx).1), List.length_zipWith, h1, List.length_cons]
        omega)
  rw [hi, List.nil_append, ← h3, ← hflat] at this
  rw [this]
  simp

/-! ## Concrete cases -/

/-- The receiver joins at the second packet of `validSection 1`, whose counter is 15. -/
example (p : Profile) : sections p Psi.default ((packets 17 14 (validSection 1)).drop 1 ++
      stream 17 (14 + packetCount (validSection 1).length) [validSection 2, validSection 3]) =
    .ok [validSection 2, validSection 3] :=
  (C135_sections_partial p 17 14 (by decide) Psi.default rfl rfl (by decide) (validSection 1) 1 (by decide)
    (by rw [(validSection_ok 1).2.1]; decide) [validSection 2, validSection 3]
    (by
      intro sec h
      have : ∃ b, sec = validSection b := by
        simp only [List.mem_cons, List.not_mem_nil, or_false] at h
        rcases h with rfl | rfl <;> exact ⟨_, rfl⟩
      obtain ⟨b, rfl⟩ := this
      exact ⟨(validSection_ok b).1, by rw [(validSection_ok b).2.1]; decide, (validSection_ok b).2.2⟩)
    (fun _ => true) rfl (by intro i j _ _ _ h; cases h)).2

/-- The same section on a counter so that its second packet has the number 1 is in the way of the condition. -/
example : ¬ ∀ i, 1 ≤ i → i < packetCount (validSection 1).length → (16 + i) % 16 ≠ (Psi.default.cc.toNat + 1) % 16 := by
  rw [(validSection_ok 1).2.1]
  exact fun h => h 1 (by decide) (by decide) (by decide)

example (p : Profile) (r : List (List UInt8)) := C135_tables_partial p 17 14 (by decide) Psi.default rfl rfl (by decide) (validSection 1) 1
  (by decide) (by rw [(validSection_ok 1).2.1]; decide) r

/-- A PAT with one program. -/
def hidden : List UInt8 := complete [0x00, 0xB0, 0, 0, 1, 0xC1, 0, 0, 0, 7, 0xE1, 0x00]

/-- A private section with the bytes of that PAT in its data, at the beginning of its second packet. -/
def around : List UInt8 := complete ([0x80, 0xB0, 0] ++ List.replicate 180 0 ++ hidden)

theorem hidden_length : hidden.length = 16 := by decide +kernel

theorem around_eq : around = ([0x80, 0xB0, 200] ++ List.replicate 180 0) ++ (hidden ++
    beBytes 4 (crc32 ([0x80, 0xB0, 200] ++ List.replicate 180 0 ++ hidden)).toNat) := by
  have hl : ([0x80, 0xB0, 0] ++ List.replicate 180 (0 : UInt8) ++ hidden).length = 199 := by
    rw [List.length_append, hidden_length, List.length_append, List.length_replicate]; rfl
  unfold around complete
  rw [hl, ← List.append_assoc]
  rfl

theorem around_length : around.length = 203 := by
  rw [around_eq, List.length_append, List.length_append (as := hidden), hidden_length, beBytes_length]
  decide +kernel

example (p : Profile) : IsSection around ∧ crc32 around = 0 ∧
    sections p Psi.default ((packets 0 16 around).drop 1) = .ok [hidden] ∧
    ∃ s', receive (Pat.parse p) p Pat.default Psi.default ((packets 0 16 around).drop 1) =
      .ok ({ version := 0, tsid := 1, items := [⟨7, 0x100⟩] }, s') := by
  have hl : ([0x80, 0xB0, 0] ++ List.replicate 180 (0 : UInt8) ++ hidden).length = 199 := by
    rw [List.length_append, hidden_length, List.length_append, List.length_replicate]; rfl
  obtain ⟨h1, s', h2, h3, h4⟩ := C135_inside_refuted p 0 16 (by decide) Psi.default rfl rfl (by decide) around 1 (by decide)
    (by rw [around_length]; rfl) (by decide) hidden _ (by decide +kernel) (by decide +kernel) (by decide +kernel)
    (by rw [around_eq]; exact List.drop_left' (by decide +kernel)) [] (by simp)
  refine ⟨complete_isSection (by rw [hl]; decide) (by rw [hl]; decide), crc32_append_self _, by simpa [stream] using h1, s', ?_⟩
  rw [h4]
  obtain ⟨b, z, q, c⟩ := s'
  simp only at h2 h3
  subst h2 h3
  have : Pat.parse p Pat.default ⟨hidden, hidden.length, q, c⟩ = .ok { version := 0, tsid := 1, items := [⟨7, 0x100⟩] } := by
    rw [Pat.C66_pat p _ _ ⟨show hidden.head? = some 0 by decide +kernel, show 12 ≤ hidden.length by decide +kernel, Nat.le_refl _,
      show (hidden.take hidden.length).drop (hidden.length - 4) =
        beBytes 4 (crc32 (hidden.take (hidden.length - 4))).toNat by decide +kernel⟩]
    clear h1 h4
    dsimp only
    clear q c
    clear p
    decide +kernel
  rw [this]
  rfl

example (evs : List ReadEvent) (he : Chunks evs) (fuel : Nat) (hf : 276 < fuel) :=
  C135_bytes_partial (0x47 :: List.replicate 187 0) 100 (by decide +kernel) [0x47 :: List.replicate 187 1] (by decide +kernel) evs he
    (List.replicate 188 0) (by decide +kernel) fuel (by rw [show (List.drop 100 (0x47 :: List.replicate 187 (0 : UInt8)) ++ [0x47 :: List.replicate 187 (1 : UInt8)].flatten).length = 276 by decide +kernel]; exact hf)

/-- Three packets with the byte 47 at position 4: the reader that joins there finds two packets that nobody sent. -/
example (evs : List ReadEvent) (he : Chunks evs) :=
  C135_bytes_refuted 4 (by decide) (by decide) ([0x47, 0, 17, 0x10, 0x47] ++ List.replicate 183 0)
    (List.replicate 2 ([0x47, 0, 17, 0x10, 0x47] ++ List.replicate 183 0)) (by decide +kernel) evs he
    (List.replicate 188 0) (by decide +kernel) 564 (by decide +kernel)

end Join
end Mpegts
