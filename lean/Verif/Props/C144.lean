import Verif.Props.C135
import Verif.Props.C76

/-! # C144: bytes lost, inserted or damaged anywhere in a stream of packets -/

namespace Mpegts
open Spec Spec.Table

namespace Slip

/-! ## The packets of a stream -/

theorem packetsOf_some {data pk rest : List UInt8} (h : nextPacket data = some (pk, rest)) : packetsOf data = pk :: packetsOf rest := by
  rw [packetsOf]
  split
  · next h' => rw [h] at h'; cases h'
  · next pk' rest' h' =>
    rw [h] at h'
    injection h' with h'; injection h' with h1 h2
    rw [h1, h2]

theorem packetsOf_none {data : List UInt8} (h : nextPacket data = none) : packetsOf data = [] := by
  rw [packetsOf]
  split
  · rfl
  · next h' => rw [h] at h'; cases h'

theorem packetsOf_gap {gap pk rest : List UInt8} (hg : 0x47 ∉ gap) (hl : pk.length = 188) (hp : pk.head? = some 0x47) :
    packetsOf (gap ++ (pk ++ rest)) = pk :: packetsOf rest := by
  rw [← List.append_assoc]
  exact packetsOf_some (nextPacket_gap hg hl hp)

theorem packetsOf_quiet {gap : List UInt8} (hg : 0x47 ∉ gap) : packetsOf gap = [] := by
  refine packetsOf_none ?_
  have := split_unique (b := []) (rest := []) hg (.inl rfl) (fun _ => rfl)
  rw [List.append_nil, List.append_nil] at this
  simp only [nextPacket]
  rw [this, if_neg (by decide)]

theorem packetsOf_packets (pks : List (List UInt8)) (hp : ∀ pk ∈ pks, pk.length = 188 ∧ pk.head? = some 0x47) (rest : List UInt8) :
    packetsOf (pks.flatten ++ rest) = pks ++ packetsOf rest := by
  induction pks with
  | nil => rfl
  | cons pk pks ih =>
    obtain ⟨h1, h2⟩ := hp pk (by simp)
    have := packetsOf_gap (gap := []) (rest := pks.flatten ++ rest) (by simp) h1 h2
    rw [List.nil_append] at this
    rw [List.flatten_cons, List.append_assoc, this, ih fun x hx => hp x (List.mem_cons_of_mem _ hx)]
    rfl

theorem packetsOf_quiet_packets {gap : List UInt8} (hg : 0x47 ∉ gap) (pks : List (List UInt8))
    (hp : ∀ pk ∈ pks, pk.length = 188 ∧ pk.head? = some 0x47) : packetsOf (gap ++ pks.flatten) = pks := by
  cases pks with
  | nil => rw [List.flatten_nil, List.append_nil, packetsOf_quiet hg]
  | cons pk pks =>
    have := packetsOf_packets pks (fun x hx => hp x (List.mem_cons_of_mem _ hx)) []
    rw [List.append_nil, packetsOf_quiet (gap := []) (by simp), List.append_nil] at this
    rw [List.flatten_cons, packetsOf_gap hg (hp pk (by simp)).1 (hp pk (by simp)).2, this]

/-- The bytes from the first sync byte on, if there is one. -/
theorem split_sync (bad : List UInt8) : ∃ gap d, bad = gap ++ d ∧ 0x47 ∉ gap ∧ (d = [] ∨ d.head? = some 0x47) := by
  refine ⟨bad.takeWhile (· != 0x47), bad.dropWhile (· != 0x47), List.takeWhile_append_dropWhile.symm, not_mem_takeWhile bad, ?_⟩
  by_cases hd : bad.dropWhile (· != 0x47) = []
  · exact .inl hd
  · right
    have := List.head_dropWhile_not (· != 0x47) hd
    rw [List.head?_eq_some_head hd]
    simp at this
    rw [this]

/-- The reader is in step again behind at most one packet more than those at the beginning that have a second sync byte. -/
theorem in_step (pks : List (List UInt8)) (hp : ∀ pk ∈ pks, pk.length = 188 ∧ pk.head? = some 0x47) (bad : List UInt8) :
    ∃ j, j ≤ pks.length ∧ (0x47 ∉ bad → j = 0) ∧ (∀ i, i + 1 < j → ∃ pk, pks[i]? = some pk ∧ 0x47 ∈ pk.tail) ∧
      packetsOf (bad ++ pks.flatten) = packetsOf (bad ++ (pks.take j).flatten) ++ pks.drop j := by
  induction pks generalizing bad with
  | nil => exact ⟨0, Nat.le_refl _, fun _ => rfl, by intro i h; omega, by simp⟩
  | cons q qs ihq =>
    induction hn : bad.length using Nat.strong_induction_on generalizing bad with
    | _ n ih =>
    subst hn
    obtain ⟨gap, d, rfl, hg, hd⟩ := split_sync bad
    rcases hd with rfl | hd
    · rw [List.append_nil]
      refine ⟨0, Nat.zero_le _, fun _ => rfl, by intro i h; omega, ?_⟩
      rw [packetsOf_quiet_packets hg _ hp, List.take_zero, List.flatten_nil, List.append_nil, packetsOf_quiet hg, List.drop_zero]
      rfl
    have hmem : 0x47 ∈ gap ++ d := List.mem_append_right _ (List.mem_of_mem_head? (by rw [hd]; rfl))
    by_cases h188 : 188 ≤ d.length
    · obtain ⟨j, h1, -, h3, h4⟩ := ih (d.drop 188).length (by simp; omega) (d.drop 188) rfl
      refine ⟨j, h1, fun h => absurd hmem h, h3, ?_⟩
      have hh : (d.take 188).head? = some 0x47 := by rw [List.head?_take, if_neg (by decide), hd]
      have hl : (d.take 188).length = 188 := by rw [List.length_take]; omega
      have e : ∀ x : List UInt8, gap ++ d ++ x = gap ++ (d.take 188 ++ (d.drop 188 ++ x)) := by
        intro x
        rw [← List.append_assoc (d.take 188), List.take_append_drop, List.append_assoc]
      rw [e, packetsOf_gap hg hl hh, h4, e, packetsOf_gap hg hl hh]
      rfl
    · obtain ⟨hq1, hq2⟩ := hp q (by simp)
      have hpos : 0 < d.length := by
        cases d with
        | nil => cases hd
        | cons => simp
      obtain ⟨j, h1, h2, h3, h4⟩ := ihq (fun x hx => hp x (List.mem_cons_of_mem _ hx)) (q.drop (188 - d.length))
      refine ⟨j + 1, by simp; omega, fun h => absurd hmem h, ?_, ?_⟩
      · intro i hi
        cases i with
        | zero =>
          refine ⟨q, rfl, ?_⟩
          by_contra hne
          have : j = 0 := h2 fun hm => hne (by
            have : q.drop (188 - d.length) = q.tail.drop (187 - d.length) := by
              rw [← List.drop_one, List.drop_drop]; congr 1; omega
            rw [this] at hm
            exact List.mem_of_mem_drop hm)
          omega
        | succ i =>
          rw [List.getElem?_cons_succ]
          exact h3 i (by omega)
      · have hh : (d ++ q.take (188 - d.length)).head? = some 0x47 := by rw [List.head?_append, hd]; rfl
        have hl : (d ++ q.take (188 - d.length)).length = 188 := by rw [List.length_append, List.length_take]; omega
        have e : ∀ x : List UInt8, gap ++ d ++ (q ++ x) = gap ++ ((d ++ q.take (188 - d.length)) ++ (q.drop (188 - d.length) ++ x)) := by
          intro x
          rw [List.append_assoc d, ← List.append_assoc (q.take _), List.take_append_drop, List.append_assoc]
        rw [List.flatten_cons, e, packetsOf_gap hg hl hh, h4, List.take_succ_cons, List.flatten_cons, e, packetsOf_gap hg hl hh]
        rfl

/-- What is collected does not depend on what comes later. -/
theorem sections_append (p : Profile) (a : List (List UInt8)) (s : Psi) (got : List (List UInt8)) (h : sections p s a = .ok got) :
    ∃ s', ∀ b, sections p s (a ++ b) = (got ++ ·) <$> sections p s' b := by
  induction a generalizing s got with
  | nil =>
    cases h
    refine ⟨s, fun b => ?_⟩
    rw [List.nil_append]
    cases sections p s b <;> rfl
  | cons pk a ih =>
    rw [sections_cons] at h
    cases hm : s.mux p pk with
    | error e => rw [hm] at h; cases h
    | ok s1 =>
      obtain ⟨c, hc, -⟩ := C50_check p s1
      rw [hm, ok_bind, hc, ok_bind] at h
      cases hr : sections p s1 a with
      | error e => rw [hr] at h; cases h
      | ok rest =>
        rw [hr, ok_bind] at h
        injection h with h
        obtain ⟨s', hs'⟩ := ih s1 rest hr
        refine ⟨s', fun b => ?_⟩
        rw [List.cons_append, sections_cons, hm, ok_bind, hc, ok_bind, hs' b, ← h]
        cases sections p s' b with
        | error e => rfl
        | ok x => cases c <;> rfl

/-- Listening is receiving the packets of the PID that are read. -/
theorem listen_read {α : Type} (parse : α → Psi → R α) (p : Profile) (pid : Nat) (t : α) (s : Psi) (src : Source) (hs : Steady src)
    (buf : List UInt8) (hb : 188 ≤ buf.length) (fuel : Nat) (hf : src.data.length < fuel) (pks : List (List UInt8))
    (h : readAll fuel src buf = .ok pks) :
    listen parse p pid t s fuel src buf = receive parse p t s (pks.filter fun pk => pidOf pk = pid) := by
  obtain ⟨l, gap, part, e, h1, h2, h3, h4, h5⟩ := C71_slices src hs buf hb fuel hf
  rw [h] at h5
  injection h5 with h5
  subst h5
  exact C76_listen parse p pid t s src hs _ ⟨l, gap, part, e, h1, h2, h3, h4, rfl⟩ buf hb fuel hf

end Slip

open Slip

/-- C144, the part that holds: whatever happens to the bytes between two parts of a stream of packets (`bad` stands for what is left of
the packets there, and for bytes that do not belong there), the packets `before` are read as they are, and then, however the source cuts
its reads, what looks like packets in `bad` and in the first `j` packets behind it, and from then on every packet.  All of these `j`
packets but the last have a byte 47 that is not their first; none is lost if `bad` has no byte 47. -/
theorem C144_recover_partial (before after : List (List UInt8)) (bad : List UInt8)
    (hb : ∀ pk ∈ before, pk.length = 188 ∧ pk.head? = some 0x47) (ha : ∀ pk ∈ after, pk.length = 188 ∧ pk.head? = some 0x47)
    (evs : List ReadEvent) (he : Chunks evs) (buf : List UInt8) (hbuf : 188 ≤ buf.length) (fuel : Nat)
    (hf : (before.flatten ++ (bad ++ after.flatten)).length < fuel) :
    ∃ j, j ≤ after.length ∧ (0x47 ∉ bad → j = 0) ∧ (∀ i, i + 1 < j → ∃ pk, after[i]? = some pk ∧ 0x47 ∈ pk.tail) ∧
      readAll fuel ⟨before.flatten ++ (bad ++ after.flatten), evs⟩ buf =
        .ok (before ++ (packetsOf (bad ++ (after.take j).flatten) ++ after.drop j)) := by
  obtain ⟨j, h1, h2, h3, h4⟩ := in_step after ha bad
  refine ⟨j, h1, h2, h3, ?_⟩
  rw [C70_all fuel ⟨before.flatten ++ (bad ++ after.flatten), evs⟩ he buf hbuf hf]
  simp only
  rw [packetsOf_packets before hb, h4]

/-- C144, the part that holds: so at most one packet is lost behind the damage if that packet has no byte 47 but its first. -/
theorem C144_one_partial (before after : List (List UInt8)) (bad first : List UInt8) (hfirst : 0x47 ∉ first.tail)
    (hb : ∀ pk ∈ before, pk.length = 188 ∧ pk.head? = some 0x47) (ha : ∀ pk ∈ first :: after, pk.length = 188 ∧ pk.head? = some 0x47)
    (evs : List ReadEvent) (he : Chunks evs) (buf : List UInt8) (hbuf : 188 ≤ buf.length) (fuel : Nat)
    (hf : (before.flatten ++ (bad ++ (first :: after).flatten)).length < fuel) :
    readAll fuel ⟨before.flatten ++ (bad ++ (first :: after).flatten), evs⟩ buf = .ok (before ++ (packetsOf bad ++ first :: after)) ∨
      readAll fuel ⟨before.flatten ++ (bad ++ (first :: after).flatten), evs⟩ buf =
        .ok (before ++ (packetsOf (bad ++ first) ++ after)) := by
  obtain ⟨j, h1, -, h3, h4⟩ := C144_recover_partial before (first :: after) bad hb ha evs he buf hbuf fuel hf
  have hj : j ≤ 1 := by
    by_contra hj
    obtain ⟨pk, e, hm⟩ := h3 0 (by omega)
    injection e with e
    subst e
    exact hfirst hm
  rw [h4]
  match j, hj with
  | 0, _ => left; simp
  | 1, _ => right; simp

/-- C144, the part that holds: bytes inserted into a packet (anywhere behind its first byte) damage this packet and no other, if there
is no byte 47 in what is then behind its first 188 bytes. -/
theorem C144_inserted_partial (before after : List (List UInt8)) (a b extra : List UInt8)
    (hb : ∀ pk ∈ before, pk.length = 188 ∧ pk.head? = some 0x47) (ha : ∀ pk ∈ after, pk.length = 188 ∧ pk.head? = some 0x47)
    (hpk : (a ++ b).length = 188) (hs : a.head? = some 0x47) (hq : 0x47 ∉ (a ++ extra ++ b).drop 188)
    (evs : List ReadEvent) (he : Chunks evs) (buf : List UInt8) (hbuf : 188 ≤ buf.length) (fuel : Nat)
    (hf : (before.flatten ++ (a ++ extra ++ b ++ after.flatten)).length < fuel) :
    readAll fuel ⟨before.flatten ++ (a ++ extra ++ b ++ after.flatten), evs⟩ buf =
      .ok (before ++ (a ++ extra ++ b).take 188 :: after) := by
  rw [C70_all fuel ⟨before.flatten ++ (a ++ extra ++ b ++ after.flatten), evs⟩ he buf hbuf hf]
  simp only
  have hlen : 188 ≤ (a ++ extra ++ b).length := by simp at hpk ⊢; omega
  have hh : (a ++ extra ++ b).head? = some 0x47 := by rw [List.append_assoc, List.head?_append, hs]; rfl
  generalize a ++ extra ++ b = x at hq hlen hh hf
  have e : x ++ after.flatten = [] ++ (x.take 188 ++ (x.drop 188 ++ after.flatten)) := by
    rw [List.nil_append, ← List.append_assoc, List.take_append_drop]
  rw [packetsOf_packets before hb, e, packetsOf_gap (by simp) (by rw [List.length_take]; omega)
    (by rw [List.head?_take, if_neg (by decide), hh]), packetsOf_quiet_packets hq after ha]

/-- C144 fails: if bytes are lost within a packet (not its first byte), the reader fills up what is left of it with the first bytes of
the next packet, and delivers this packet, that nobody sent; the next packet, of which nothing was lost, is not delivered (here if it
has no byte 47 in its rest). -/
theorem C144_lost_refuted (before after : List (List UInt8)) (a lost b next : List UInt8)
    (hb : ∀ pk ∈ before, pk.length = 188 ∧ pk.head? = some 0x47) (ha : ∀ pk ∈ after, pk.length = 188 ∧ pk.head? = some 0x47)
    (hpk : (a ++ lost ++ b).length = 188) (hs : a.head? = some 0x47)
    (hn : next.length = 188 ∧ next.head? = some 0x47) (hq : 0x47 ∉ next.drop lost.length)
    (evs : List ReadEvent) (he : Chunks evs) (buf : List UInt8) (hbuf : 188 ≤ buf.length) (fuel : Nat)
    (hf : (before.flatten ++ (a ++ b ++ (next :: after).flatten)).length < fuel) :
    readAll fuel ⟨before.flatten ++ (a ++ b ++ (next :: after).flatten), evs⟩ buf =
      .ok (before ++ (a ++ b ++ next.take lost.length) :: after) := by
  rw [C70_all fuel ⟨before.flatten ++ (a ++ b ++ (next :: after).flatten), evs⟩ he buf hbuf hf]
  simp only
  have e : a ++ b ++ (next :: after).flatten = [] ++ ((a ++ b ++ next.take lost.length) ++ (next.drop lost.length ++ after.flatten)) := by
    rw [List.nil_append, List.append_assoc (a ++ b), ← List.append_assoc (next.take _), List.take_append_drop, List.flatten_cons]
  rw [packetsOf_packets before hb, e, packetsOf_gap (by simp) (by have := hn.1; simp at hpk ⊢; omega)
    (by rw [List.append_assoc, List.head?_append, hs]; rfl), packetsOf_quiet_packets hq after ha]

/-- C144, the part that holds: every section of a PID that begins behind the damage and behind one undisturbed packet (of any PID) with
no byte 47 but its first is received, and every table object goes on with the packets from there; unless `mux` panics on what was taken
for packets (see C45). -/
theorem C144_sections_partial (p : Profile) (pid cc : Nat) (hp : pid < 8192) (before between after : List (List UInt8)) (bad : List UInt8)
    (hb : ∀ pk ∈ before, pk.length = 188 ∧ pk.head? = some 0x47)
    (hm : ∀ pk ∈ between, pk.length = 188 ∧ pk.head? = some 0x47) (hquiet : ∃ pk ∈ between, 0x47 ∉ pk.tail)
    (ha : ∀ pk ∈ after, pk.length = 188 ∧ pk.head? = some 0x47)
    (secs : List (List UInt8)) (hsec : ∀ sec ∈ secs, IsSection sec ∧ 7 < sec.length ∧ crc32 sec = 0)
    (hsent : after.filter (fun pk => pidOf pk = pid) = stream pid cc secs)
    (evs : List ReadEvent) (he : Chunks evs) (buf : List UInt8) (hbuf : 188 ≤ buf.length) (fuel : Nat)
    (hf : (before.flatten ++ (bad ++ (between ++ after).flatten)).length < fuel) :
    ∃ some', readAll fuel ⟨before.flatten ++ (bad ++ (between ++ after).flatten), evs⟩ buf = .ok (before ++ some' ++ after) ∧
      (∀ s got, sections p s ((before ++ some').filter (fun pk => pidOf pk = pid)) = .ok got →
        sections p s ((before ++ some' ++ after).filter (fun pk => pidOf pk = pid)) = .ok (got ++ secs)) ∧
      ∀ (α : Type) (parse : α → Psi → R α) (t u : α) (s s' : Psi),
        receive parse p t s ((before ++ some').filter (fun pk => pidOf pk = pid)) = .ok (u, s') →
        listen parse p pid t s fuel ⟨before.flatten ++ (bad ++ (between ++ after).flatten), evs⟩ buf =
          receive parse p u s' (stream pid cc secs) := by
  have hall : ∀ pk ∈ between ++ after, pk.length = 188 ∧ pk.head? = some 0x47 := fun pk h =>
    (List.mem_append.1 h).elim (hm pk) (ha pk)
  obtain ⟨j, h1, -, h3, h4⟩ := C144_recover_partial before (between ++ after) bad hb hall evs he buf hbuf fuel hf
  have hj : j ≤ between.length := by
    obtain ⟨pk, hpk, hq⟩ := hquiet
    obtain ⟨i, hi, rfl⟩ := List.mem_iff_getElem.1 hpk
    by_contra hj
    obtain ⟨pk, e, hmem⟩ := h3 i (by omega)
    rw [List.getElem?_append_left hi, List.getElem?_eq_getElem hi] at e
    injection e with e
    subst e
    exact hq hmem
  rw [List.drop_append_of_le_length hj, ← List.append_assoc (packetsOf _), ← List.append_assoc before (_ ++ _) after] at h4
  refine ⟨_, h4, ?_, ?_⟩
  · intro s got hgot
    obtain ⟨s', hs'⟩ := sections_append p _ s got hgot
    rw [List.filter_append, hs', hsent, Join.sections_stream p pid cc hp secs hsec]
    rfl
  · intro α parse t u s s' hr
    rw [listen_read parse p pid t s ⟨before.flatten ++ (bad ++ (between ++ after).flatten), evs⟩ he buf hbuf fuel hf _ h4, List.filter_append, receive_append, hr, hsent]
    rfl

/-! ## Concrete cases -/

namespace Slip

/-- A packet of the PID `pid` with nothing but the byte `b` in it. -/
def filled (pid b : UInt8) : List UInt8 := [0x47, 0x00, pid, 0x10] ++ List.replicate 184 b

theorem filled_len (pid b : UInt8) : (filled pid b).length = 188 := by
  rw [filled, List.length_append, List.length_replicate]; rfl

theorem filled_ok (pid b : UInt8) : (filled pid b).length = 188 ∧ (filled pid b).head? = some 0x47 := ⟨filled_len _ _, rfl⟩

theorem filled_two (a b c d : UInt8) : ∀ pk ∈ [filled a b, filled c d], pk.length = 188 ∧ pk.head? = some 0x47 := by
  intro pk h
  simp only [List.mem_cons, List.not_mem_nil, or_false] at h
  rcases h with rfl | rfl <;> exact filled_ok _ _

end Slip

/-- Three bytes with a false sync byte between packets: the reader makes a packet of them and of the packet behind them. -/
example (evs : List ReadEvent) (he : Chunks evs) (buf : List UInt8) (hb : 188 ≤ buf.length) (fuel : Nat) (hf : 1000 < fuel) :
    ∃ j, j ≤ 1 ∧ readAll fuel ⟨[filled 1 1, filled 1 2].flatten ++ ([0x47, 7, 7] ++ [filled 1 3, filled 1 4].flatten), evs⟩ buf =
      .ok ([filled 1 1, filled 1 2] ++ (packetsOf ([0x47, 7, 7] ++ ([filled 1 3, filled 1 4].take j).flatten) ++
        [filled 1 3, filled 1 4].drop j)) := by
  obtain ⟨j, h1, -, h3, h4⟩ := C144_recover_partial [filled 1 1, filled 1 2] [filled 1 3, filled 1 4] [0x47, 7, 7] (filled_two _ _ _ _)
    (filled_two _ _ _ _) evs he buf hb fuel (Nat.lt_of_le_of_lt (by decide +kernel) hf)
  refine ⟨j, ?_, h4⟩
  by_contra hj
  obtain ⟨pk, e, hm⟩ := h3 0 (by omega)
  injection e with e
  subst e
  revert hm
  decide +kernel

/-- And this is what is read: the third packet is lost. -/
example : packetsOf ([0x47, 7, 7] ++ (filled 1 3 ++ filled 1 4)) = [[0x47, 7, 7] ++ (filled 1 3).take 185, filled 1 4] := by
  have h : [0x47, 7, 7] ++ (filled 1 3 ++ filled 1 4) =
      [] ++ (([0x47, 7, 7] ++ (filled 1 3).take 185) ++ ((filled 1 3).drop 185 ++ [filled 1 4].flatten)) := by
    rw [List.nil_append, List.append_assoc [0x47, 7, 7], ← List.append_assoc ((filled 1 3).take 185), List.take_append_drop,
      List.flatten_singleton]
  rw [h, packetsOf_gap (by simp) (by decide +kernel) rfl,
    packetsOf_quiet_packets (by decide +kernel) [filled 1 4] (fun pk hp => by rw [List.mem_singleton.1 hp]; exact filled_ok _ _)]

/-- `C144_one_partial` on a stream that has a piece of another one in it. -/
example (bad : List UInt8) (evs : List ReadEvent) (he : Chunks evs) (buf : List UInt8) (hb : 188 ≤ buf.length) (fuel : Nat)
    (hf : bad.length + 1000 < fuel) :
    readAll fuel ⟨[filled 1 1, filled 1 2].flatten ++ (bad ++ [filled 1 3, filled 1 4].flatten), evs⟩ buf =
        .ok ([filled 1 1, filled 1 2] ++ (packetsOf bad ++ [filled 1 3, filled 1 4])) ∨
      readAll fuel ⟨[filled 1 1, filled 1 2].flatten ++ (bad ++ [filled 1 3, filled 1 4].flatten), evs⟩ buf =
        .ok ([filled 1 1, filled 1 2] ++ (packetsOf (bad ++ filled 1 3) ++ [filled 1 4])) :=
  C144_one_partial _ [filled 1 4] bad (filled 1 3) (by decide +kernel) (filled_two _ _ _ _) (filled_two _ _ _ _) evs he buf hb fuel
    (by
      rw [← List.append_assoc, List.length_append, List.length_append, show [filled 1 1, filled 1 2].flatten.length = 376 by decide +kernel,
        show [filled 1 3, filled 1 4].flatten.length = 376 by decide +kernel]
      omega)

/-- Two bytes inserted into the third packet. -/
example (evs : List ReadEvent) (he : Chunks evs) (buf : List UInt8) (hb : 188 ≤ buf.length) (fuel : Nat) (hf : 1000 < fuel) :
    readAll fuel ⟨[filled 1 1, filled 1 2].flatten ++ ((filled 1 3).take 10 ++ [0x47, 0] ++ (filled 1 3).drop 10 ++
        [filled 1 4, filled 1 5].flatten), evs⟩ buf =
      .ok ([filled 1 1, filled 1 2] ++ ((filled 1 3).take 10 ++ [0x47, 0] ++ (filled 1 3).drop 10).take 188 :: [filled 1 4, filled 1 5]) :=
  C144_inserted_partial _ _ _ _ _ (filled_two _ _ _ _) (filled_two _ _ _ _) (by decide +kernel) rfl (by decide +kernel) evs he buf hb fuel
    (Nat.lt_of_le_of_lt (by decide +kernel) hf)

/-- Five bytes lost of the third packet: the fourth is lost with it. -/
example (evs : List ReadEvent) (he : Chunks evs) (buf : List UInt8) (hb : 188 ≤ buf.length) (fuel : Nat) (hf : 2000 < fuel) :
    readAll fuel ⟨[filled 1 1, filled 1 2].flatten ++ ((filled 1 3).take 10 ++ (filled 1 3).drop 15 ++
        (filled 1 4 :: [filled 1 5, filled 1 6]).flatten), evs⟩ buf =
      .ok ([filled 1 1, filled 1 2] ++ ((filled 1 3).take 10 ++ (filled 1 3).drop 15 ++ (filled 1 4).take 5) :: [filled 1 5, filled 1 6]) :=
  C144_lost_refuted _ _ _ [3, 3, 3, 3, 3] _ (filled 1 4) (filled_two _ _ _ _) (filled_two _ _ _ _) (by decide +kernel) rfl
    (filled_ok _ _) (by decide +kernel) evs he buf hb fuel (Nat.lt_of_le_of_lt (by decide +kernel) hf)

/-- Sections behind the damage: here nothing of their PID was sent before. -/
example (p : Profile) (bad : List UInt8) (evs : List ReadEvent) (he : Chunks evs) (buf : List UInt8) (hb : 188 ≤ buf.length) (fuel : Nat)
    (hf : bad.length + (stream 17 5 [validSection 1, validSection 2]).flatten.length + 1000 < fuel) :
    ∃ some', readAll fuel ⟨[filled 1 1, filled 1 2].flatten ++ (bad ++ ([filled 1 3, filled 1 4] ++
          stream 17 5 [validSection 1, validSection 2]).flatten), evs⟩ buf =
        .ok ([filled 1 1, filled 1 2] ++ some' ++ stream 17 5 [validSection 1, validSection 2]) := by
  have hst : ∀ pk ∈ stream 17 5 [validSection 1, validSection 2], pk.length = 188 ∧ pk.head? = some 0x47 ∧ pidOf pk = 17 :=
    stream_packets 17 5 (by decide) _
  obtain ⟨x, h, -⟩ := C144_sections_partial p 17 5 (by decide) [filled 1 1, filled 1 2] [filled 1 3, filled 1 4]
    (stream 17 5 [validSection 1, validSection 2]) bad (filled_two _ _ _ _) (filled_two _ _ _ _)
    ⟨filled 1 3, by simp, by decide +kernel⟩ (fun pk h => ⟨(hst pk h).1, (hst pk h).2.1⟩) [validSection 1, validSection 2] (by
      intro sec h
      have : ∃ b, sec = validSection b := by
        simp only [List.mem_cons, List.not_mem_nil, or_false] at h
        rcases h with rfl | rfl <;> exact ⟨_, rfl⟩
      obtain ⟨b, rfl⟩ := this
      exact ⟨(validSection_ok b).1, by rw [(validSection_ok b).2.1]; decide, (validSection_ok b).2.2⟩)
    (List.filter_eq_self.2 fun pk h => by simpa using (hst pk h).2.2) evs he buf hb fuel (by
      rw [List.flatten_append]
      generalize stream 17 5 [validSection 1, validSection 2] = st at hf
      rw [List.length_append, List.length_append, List.length_append, show [filled 1 1, filled 1 2].flatten.length = 376 by decide +kernel,
        show [filled 1 3, filled 1 4].flatten.length = 376 by decide +kernel]
      omega)
  exact ⟨x, h⟩

end Mpegts
