import Verif.Spec.Cbr
import Verif.Props.C70_C72
import Verif.Props.C06_C11

/-! # C99: the constant bit rate multiplexer

`src/mux/cbr/mod.rs` as it stands: packets are collected in a block, the clock of the stream is followed, and nothing is given to the
caller. -/

namespace Mpegts
open Spec

theorem find_first {α : Type} (q : α → Bool) (l : List α) (x : α) (h : q x = true) : ∃ y, (l ++ [x]).find? q = some y ∧ q y = true := by
  have : ((l ++ [x]).find? q).isSome := by
    rw [List.find?_isSome]; exact ⟨x, by simp, h⟩
  obtain ⟨y, hy⟩ := Option.isSome_iff_exists.1 this
  exact ⟨y, hy, by simpa using List.find?_some hy⟩

theorem clockOf_append (pks : List (List UInt8)) (pk : List UInt8) :
    clockOf (pks ++ [pk]) = match pcrOf pk with
      | none => clockOf pks
      | some (pid, pcr) => match clockOf pks with
        | none => some (pid, pcr)
        | some (pid', old) => if pid = pid' then some (pid, pcr) else some (pid', old) := by
  unfold clockOf
  rw [List.filterMap_append, List.filterMap_cons, List.filterMap_nil]
  cases hp : pcrOf pk with
  | none => simp only [List.append_nil]
  | some x =>
    obtain ⟨pid, pcr⟩ := x
    simp only
    cases hl : pks.filterMap pcrOf with
    | nil => simp
    | cons y l =>
      obtain ⟨pid', pcr'⟩ := y
      simp only [List.cons_append]
      obtain ⟨⟨a, b⟩, h1, h2⟩ := find_first (fun x : Nat × Nat => decide (x.1 = pid')) l.reverse (pid', pcr') (by simp)
      have h3 : ((pid', pcr') :: (l ++ [(pid, pcr)])).reverse = (pid, pcr) :: (l.reverse ++ [(pid', pcr')]) := by simp
      rw [h3, List.find?_cons, List.reverse_cons]
      simp only [h1]
      have h4 : a = pid' := by simpa using h2
      subst h4
      by_cases h : pid = a <;> simp [h]

/-- The model's test for and value of a PCR, in one. -/
theorem pcrOf_eq (pk : List UInt8) (hl : 12 ≤ pk.length) :
    (pcrOf pk = none → Ts.isPcr pk = .ok false) ∧
    ∀ pid pcr, pcrOf pk = some (pid, pcr) → pid < 8192 ∧ Ts.isPcr pk = .ok true ∧ Ts.getPid pk = .ok (UInt16.ofNat pid) ∧
      ∃ v, Ts.getPcr pk = .ok v ∧ v.toNat = pcr := by
  obtain ⟨v, hv1, hv2⟩ := getPcr_eq pk hl
  obtain ⟨a0, a1, a2, a3, a4, a5, a, b, c, d, e, f, r, rfl⟩ := exists_cons12 hl
  have hi : Ts.isPcr (a0 :: a1 :: a2 :: a3 :: a4 :: a5 :: a :: b :: c :: d :: e :: f :: r) =
      .ok (decide (a3.toNat / 2 ^ 5 % 2 = 1 ∧ 7 ≤ a4.toNat ∧ a5.toNat / 2 ^ 4 % 2 = 1)) := by
    have h7 : (a4 ≥ 7) = (7 ≤ a4.toNat) := rfl
    simp only [Ts.isPcr, Ts.isAdaptation, Ts.getAdaptationSize, idx_zero, idx_succ, ok_bind, pure_eq_ok, mask20, mask10, h7, Nat.reducePow]
    by_cases h1 : a3.toNat / 32 % 2 = 1 <;> by_cases h2 : 7 ≤ a4.toNat <;> simp [h1, h2]
  have hg : Ts.getPid (a0 :: a1 :: a2 :: a3 :: a4 :: a5 :: a :: b :: c :: d :: e :: f :: r) =
      .ok (UInt16.ofNat (beNat [a1, a2] % 2 ^ 13)) := by
    simp only [Ts.getPid, idx_zero, idx_succ, ok_bind, pure_eq_ok]
    refine congrArg Except.ok (UInt16.toNat_inj.1 ?_)
    have := a1.toNat_lt; have := a2.toNat_lt
    rw [u16_join, mask1F, beNat_two, UInt16.toNat_ofNat']
    omega
  simp only [List.drop, List.take] at hv2
  simp only [pcrOf, List.getD_cons_zero, List.getD_cons_succ, List.drop, List.take]
  rw [hi, hg, hv1]
  by_cases hc : a3.toNat / 2 ^ 5 % 2 = 1 ∧ 7 ≤ a4.toNat ∧ a5.toNat / 2 ^ 4 % 2 = 1
  · rw [if_pos hc]
    refine ⟨fun h => (by cases h), fun pid pcr h => ?_⟩
    rw [Option.some.injEq, Prod.mk.injEq] at h
    obtain ⟨rfl, rfl⟩ := h
    exact ⟨Nat.mod_lt _ (by decide), by rw [decide_eq_true hc], rfl, v, rfl, hv2⟩
  · rw [if_neg hc]
    exact ⟨fun _ => by rw [decide_eq_false hc], fun _ _ h => by cases h⟩

namespace Cbr
variable {σ : Type}

/-- The multiplexer's idea of the stream clock. -/
def Follows (c : Cbr σ) (pks : List (List UInt8)) : Prop :=
  match clockOf pks with
  | none => c.pid = 8192 ∧ c.lastPcr.toNat = pcrPeriod
  | some (pid, pcr) => pid < 8192 ∧ c.pid = UInt16.ofNat pid ∧ c.lastPcr.toNat = pcr

/-- What the multiplexer holds after the calls on a record. -/
structure Holds (c : Cbr σ) (tape : List (Except IoError Nat × List UInt8)) (g1 : Nat → UInt8) : Prop where
  parity : c.parity = 0
  blocks : ∃ b, c.blocks = [b, Block.new g1] ∧ b.buffer.length = 5000000 ∧ b.cap = 188 * (packetsIn tape).length ∧
    b.buffer.take b.cap = (packetsIn tape).flatten ∧ b.pos = 0 ∧ b.pcr = 0 ∧ b.delta = 0
  clock : c.Follows (packetsIn tape)

theorem u16_ofNat_inj {a b : Nat} (ha : a < 8192) (hb : b < 8192) : UInt16.ofNat a = UInt16.ofNat b ↔ a = b := by
  refine ⟨fun h => ?_, fun h => by rw [h]⟩
  have := congrArg UInt16.toNat h
  rw [UInt16.toNat_ofNat', UInt16.toNat_ofNat'] at this
  omega

theorem analyze_eq (c : Cbr σ) (b b1 : Block) (hp : c.parity = 0) (hb : c.blocks = [b, b1]) (pks : List (List UInt8)) (pk : List UInt8)
    (hc : b.cap ≤ b.buffer.length) (hpk : 188 ≤ (b.buffer.drop b.cap).length) (he : (b.buffer.drop b.cap).take 188 = pk)
    (hf : c.Follows pks) :
    ∃ pid pcr, c.analyze = .ok { c with pid := pid, lastPcr := pcr } ∧ Follows { c with pid := pid, lastPcr := pcr } (pks ++ [pk]) := by
  have h12 : 12 ≤ (b.buffer.drop b.cap).length := by omega
  obtain ⟨h1, h2⟩ := pcrOf_eq (b.buffer.drop b.cap) h12
  have hsame : pcrOf pk = pcrOf (b.buffer.drop b.cap) := by
    obtain ⟨a0, a1, a2, a3, a4, a5, a6, a7, a8, a9, a10, a11, r, hr⟩ := exists_cons12 h12
    rw [← he, hr]
    rfl
  have hs : sliceFrom b.buffer b.cap = .ok (b.buffer.drop b.cap) := sliceFrom_ok hc
  unfold Follows at hf ⊢
  rw [clockOf_append, hsame]
  simp only [analyze, hp, hb, idx_zero, ok_bind, hs]
  cases hx : pcrOf (b.buffer.drop b.cap) with
  | none =>
    rw [h1 hx]
    exact ⟨c.pid, c.lastPcr, by simp [← hp, ← hb], by simpa using hf⟩
  | some x =>
    obtain ⟨pid, pcr⟩ := x
    obtain ⟨hlt, hi, hg, v, hv1, hv2⟩ := h2 pid pcr hx
    rw [hi, hg, hv1]
    simp only [ok_bind, Bool.not_true, Bool.false_eq_true, if_false, pure_eq_ok]
    cases hk : clockOf pks with
    | none =>
      rw [hk] at hf
      obtain ⟨hf1, hf2⟩ := hf
      have hne : (UInt16.ofNat pid != c.pid) = true := by
        rw [hf1, bne_iff_ne]
        intro h
        have := congrArg UInt16.toNat h
        rw [UInt16.toNat_ofNat'] at this
        have : (8192 : UInt16).toNat = 8192 := rfl
        omega
      have hpn : (c.pid != Ts.PID_NONE) = false := by rw [hf1]; rfl
      have hln : (c.lastPcr != Ts.PCR_NONE) = false := by
        have : c.lastPcr = Ts.PCR_NONE := UInt64.toNat_inj.1 (by rw [hf2]; rfl)
        rw [this]; simp
      refine ⟨UInt16.ofNat pid, v, ?_, hlt, rfl, hv2⟩
      simp [hne, hpn, hln]
    | some y =>
      obtain ⟨pid', old⟩ := y
      rw [hk] at hf
      obtain ⟨hf0, hf1, hf2⟩ := hf
      have hpn : (c.pid != Ts.PID_NONE) = true := by
        rw [hf1, bne_iff_ne]
        intro h
        have := congrArg UInt16.toNat h
        rw [UInt16.toNat_ofNat'] at this
        have : Ts.PID_NONE.toNat = 8192 := rfl
        omega
      by_cases hpp : pid = pid'
      · have hne : (UInt16.ofNat pid != c.pid) = false := by rw [hf1, hpp]; simp
        refine ⟨UInt16.ofNat pid, v, ?_, ?_⟩
        · have hcp : c.pid = UInt16.ofNat pid := by rw [hf1, hpp]
          simp only [hne, Bool.false_and, Bool.false_eq_true, if_false]
          by_cases hlv : c.lastPcr = v
          · simp only [hlv, BEq.rfl, Bool.and_true]
            have : c = { c with pid := UInt16.ofNat pid, lastPcr := v } := by rw [← hcp, ← hlv]
            rw [← hp, ← hb]
            split
            · exact congrArg Except.ok this
            · rw [← hcp]
          · have : (c.lastPcr == v) = false := by simpa using hlv
            rw [this, Bool.and_false]
            simp only [Bool.false_eq_true, if_false]
            rw [← hp, ← hb, ← hcp]
        · simp only [hpp, if_true]
          exact ⟨hf0, trivial, hv2⟩
      · have hne : (UInt16.ofNat pid != c.pid) = true := by
          rw [hf1, bne_iff_ne]
          intro h
          exact hpp ((u16_ofNat_inj hlt hf0).1 h)
        refine ⟨c.pid, c.lastPcr, ?_, ?_⟩
        · simp [hne, hpn, ← hp, ← hb]
        · simp only [hpp, if_false]
          exact ⟨hf0, hf1, hf2⟩

theorem packetsIn_append (tape : List (Except IoError Nat × List UInt8)) (x : Except IoError Nat × List UInt8) :
    packetsIn (tape ++ [x]) = packetsIn tape ++ if x.2 = [] then [] else [x.2] := by
  unfold packetsIn
  rw [List.map_append, List.filter_append]
  refine congrArg _ ?_
  by_cases h : x.2 = [] <;> simp [h]

/-- One call. -/
theorem read_eq (rd : TsReadImpl σ) (hrd : PacketReader rd) (c : Cbr (σ × List (Except IoError Nat × List UInt8))) (g1 : Nat → UInt8)
    (h : c.Holds c.inner.2 g1) (hlen : (packetsIn c.inner.2).length < 26595) (buf : List UInt8) :
    ∃ r x, c.read (taped rd) buf = .ok r ∧ r.buf = buf ∧ r.st.inner.2 = c.inner.2 ++ [(r.res, x)] ∧ r.st.Holds r.st.inner.2 g1 := by
  obtain ⟨hp, ⟨b, hb, hbl, hcap, htake, hpos, hpcr, hdelta⟩, hclock⟩ := h
  have hdl : 188 ≤ (b.buffer.drop b.cap).length := by rw [List.length_drop]; omega
  have hs : sliceFrom b.buffer b.cap = .ok (b.buffer.drop b.cap) := sliceFrom_ok (by omega)
  obtain ⟨r, hr, hrl, hcase⟩ := hrd c.inner.1 (b.buffer.drop b.cap) hdl
  have hrl' : r.buf.length = 5000000 - b.cap := by rw [hrl, List.length_drop, hbl]
  have htk : (b.buffer.take b.cap ++ r.buf).take b.cap = (packetsIn c.inner.2).flatten := by
    rw [List.take_append_of_le_length (by rw [List.length_take]; omega), List.take_take, Nat.min_self, htake]
  have hlen2 : (b.buffer.take b.cap ++ r.buf).length = 5000000 := by rw [List.length_append, List.length_take, hrl']; omega
  have hdr : (b.buffer.take b.cap ++ r.buf).drop b.cap = r.buf := by
    rw [List.drop_append_of_le_length (by rw [List.length_take]; omega), List.drop_of_length_le (by rw [List.length_take]; omega), List.nil_append]
  by_cases hok : r.res = .ok 188
  · have hgot : got r = r.buf.take 188 := by simp only [got, hok]
    have hgne : got r ≠ [] := by
      rw [hgot]; intro h0
      have := congrArg List.length h0
      rw [List.length_take, List.length_nil] at this
      omega
    let c1 : Cbr (σ × List (Except IoError Nat × List UInt8)) :=
      { c with inner := (r.st, c.inner.2 ++ [(.ok 188, got r)]), blocks := [{ b with buffer := b.buffer.take b.cap ++ r.buf }, Block.new g1] }
    obtain ⟨pid, pcr, han, hfo⟩ := analyze_eq c1 { b with buffer := b.buffer.take b.cap ++ r.buf } (Block.new g1) hp rfl (packetsIn c.inner.2)
      (got r) (by dsimp only; omega) (by dsimp only; rw [hdr]; omega) (by dsimp only; rw [hdr, hgot]) hclock
    refine ⟨⟨.ok 188, buf, { c1 with pid := pid, lastPcr := pcr, blocks := [{ b with buffer := b.buffer.take b.cap ++ r.buf, cap := b.cap + 188 }, Block.new g1] }⟩, got r, ?_, rfl, rfl, ?_⟩
    · simp only [read, pushPacket, hp, hb, idx_zero, ok_bind, hs, taped, hr, pure_eq_ok, hok, Ts.PACKET_SIZE, if_true, List.set_cons_zero]
      rw [show ({ inner := (r.st, c.inner.2 ++ [(Except.ok 188, got r)]), parity := 0, blocks := [{ b with buffer := b.buffer.take b.cap ++ r.buf }, Block.new g1], pid := c.pid, lastPcr := c.lastPcr } : Cbr (σ × List (Except IoError Nat × List UInt8))) = c1 by
        simp only [c1, hp]]
      rw [han]
      simp only [ok_bind, c1, hp, idx_zero, List.set_cons_zero]
    · have hpk : packetsIn (c.inner.2 ++ [((.ok 188 : Except IoError Nat), got r)]) = packetsIn c.inner.2 ++ [got r] := by
        rw [packetsIn_append, if_neg hgne]
      refine ⟨hp, ⟨_, rfl, hlen2, ?_, ?_, hpos, hpcr, hdelta⟩, ?_⟩
      · show b.cap + 188 = 188 * (packetsIn (c.inner.2 ++ [((.ok 188 : Except IoError Nat), got r)])).length
        rw [hpk, List.length_append, List.length_singleton]; omega
      · show (b.buffer.take b.cap ++ r.buf).take (b.cap + 188) = (packetsIn (c.inner.2 ++ [((.ok 188 : Except IoError Nat), got r)])).flatten
        rw [hpk, List.flatten_append, List.take_add, htk, hdr, hgot]
        simp
      · show Follows _ (packetsIn (c.inner.2 ++ [((.ok 188 : Except IoError Nat), got r)]))
        rw [hpk]
        exact hfo
  · have hgot : got r = [] := by
      rcases hcase with h | h | ⟨e, h⟩
      · exact absurd h hok
      · simp only [got, h, List.take_zero]
      · simp only [got, h]
    refine ⟨⟨r.res, buf, { c with inner := (r.st, c.inner.2 ++ [(r.res, got r)]), blocks := [{ b with buffer := b.buffer.take b.cap ++ r.buf }, Block.new g1] }⟩, got r, ?_, rfl, rfl, ?_⟩
    · simp only [read, pushPacket, hp, hb, idx_zero, ok_bind, hs, taped, hr, pure_eq_ok, List.set_cons_zero]
      rcases hcase with h | h | ⟨e, h⟩
      · exact absurd h hok
      · simp only [h, Ts.PACKET_SIZE]
        rw [if_neg (by decide)]
        simp only [ok_bind]
      · simp only [h, ok_bind]
    · have hpk : packetsIn (c.inner.2 ++ [(r.res, got r)]) = packetsIn c.inner.2 := by
        rw [packetsIn_append, if_pos hgot, List.append_nil]
      refine ⟨hp, ⟨_, rfl, hlen2, ?_, ?_, hpos, hpcr, hdelta⟩, ?_⟩
      · show b.cap = _
        dsimp only
        rw [hpk]; exact hcap
      · dsimp only
        rw [hpk]; exact htk
      · dsimp only
        rw [hpk]; exact hclock

theorem run_eq (rd : TsReadImpl σ) (hrd : PacketReader rd) (c : Cbr (σ × List (Except IoError Nat × List UInt8))) (g1 : Nat → UInt8)
    (h : c.Holds c.inner.2 g1) (bufs : List (List UInt8)) (hlen : (packetsIn c.inner.2).length + bufs.length ≤ 26595) :
    ∃ outs c' more, cbrRun (taped rd) c bufs = .ok (outs, c') ∧ outs.map (·.2) = bufs ∧ c'.inner.2 = c.inner.2 ++ more ∧
      outs.map (·.1) = more.map (·.1) ∧ c'.Holds c'.inner.2 g1 := by
  induction bufs generalizing c with
  | nil => exact ⟨[], c, [], rfl, rfl, by simp, rfl, h⟩
  | cons buf bufs ih =>
    rw [List.length_cons] at hlen
    obtain ⟨r, x, h1, h2, h3, h4⟩ := read_eq rd hrd c g1 h (by omega) buf
    have hl : (packetsIn r.st.inner.2).length ≤ (packetsIn c.inner.2).length + 1 := by
      rw [h3, packetsIn_append, List.length_append]
      split <;> simp
    obtain ⟨outs, c', more, e1, e2, e3, e4, e5⟩ := ih r.st h4 (by omega)
    refine ⟨(r.res, r.buf) :: outs, c', (r.res, x) :: more, ?_, ?_, ?_, ?_, e5⟩
    · simp only [cbrRun, h1, ok_bind, e1, pure_eq_ok]
    · rw [List.map_cons, e2, h2]
    · rw [e3, h3, List.append_assoc]; rfl
    · rw [List.map_cons, List.map_cons, e4]

theorem new_length (g : Nat → UInt8) : (Block.new g).buffer.length = 5000000 := by
  rw [Block.new, List.length_map, List.length_range]; rfl

theorem new_holds (st : σ × List (Except IoError Nat × List UInt8)) (ht : st.2 = []) (g0 g1 : Nat → UInt8) :
    (Cbr.new st g0 g1).Holds st.2 g1 := by
  rw [ht]
  exact ⟨rfl, ⟨Block.new g0, rfl, new_length g0, rfl, rfl, rfl, rfl, rfl⟩, rfl, rfl⟩

end Cbr

/-- C99, the part that holds: a new multiplexer, called up to 26595 times, asks its source for a packet each time and passes on what the
source reports; it collects the packets in order, without gaps, in its first block, leaves the second one alone, and knows the PID of
the first PCR and the last PCR on that PID.  (Full property: and the caller gets the packets; false, the caller's buffers are as they
were.) -/
theorem C99_collect_partial {σ : Type} (rd : TsReadImpl σ) (hrd : PacketReader rd) (st : σ) (g0 g1 : Nat → UInt8)
    (bufs : List (List UInt8)) (hlen : bufs.length ≤ 26595) :
    ∃ outs c', cbrRun (taped rd) (Cbr.new (st, []) g0 g1) bufs = .ok (outs, c') ∧ outs.map (·.1) = c'.inner.2.map (·.1) ∧
      (∃ b, c'.parity = 0 ∧ c'.blocks = [b, Block.new g1] ∧ b.buffer.take b.cap = (packetsIn c'.inner.2).flatten ∧
        b.cap = 188 * (packetsIn c'.inner.2).length ∧ b.buffer.length = 5000000 ∧ b.pos = 0 ∧ b.pcr = 0 ∧ b.delta = 0) ∧
      (match clockOf (packetsIn c'.inner.2) with
        | none => c'.pid = 8192 ∧ c'.lastPcr.toNat = pcrPeriod
        | some (pid, pcr) => c'.pid.toNat = pid ∧ c'.lastPcr.toNat = pcr) := by
  obtain ⟨outs, c', more, e1, -, e3, e4, e5, ⟨b, b1, b2, b3, b4, b5, b6, b7⟩, e7⟩ :=
    Cbr.run_eq rd hrd (Cbr.new (st, []) g0 g1) g1 (Cbr.new_holds _ rfl _ _) bufs (by simpa [Cbr.new, packetsIn] using hlen)
  refine ⟨outs, c', e1, ?_, ⟨b, e5, b1, b4, b3, b2, b5, b6, b7⟩, ?_⟩
  · rw [e4, e3]; rfl
  · unfold Cbr.Follows at e7
    cases hc : clockOf (packetsIn c'.inner.2) with
    | none => rw [hc] at e7; exact e7
    | some x =>
      rw [hc] at e7
      obtain ⟨h1, h2, h3⟩ := e7
      refine ⟨?_, h3⟩
      rw [h2, UInt16.toNat_ofNat']
      omega

/-- C99 fails: whatever the state, a call leaves the caller's buffer as it was, also when it reports a packet. -/
theorem C99_caller_refuted {σ : Type} (rd : TsReadImpl σ) (c : Cbr σ) (buf : List UInt8) (r : ReadRes (Cbr σ))
    (h : c.read rd buf = .ok r) : r.buf = buf := by
  unfold Cbr.read at h
  obtain ⟨⟨res, c'⟩, h1, h2⟩ := bind_eq_ok.1 h
  simp only [pure_eq_ok] at h2
  injection h2 with h2
  rw [← h2]

namespace Cbr

theorem follows_of_eq {c c' : Cbr Source} {pks : List (List UInt8)} (h : c.Follows pks) (h1 : c'.pid = c.pid) (h2 : c'.lastPcr = c.lastPcr) :
    c'.Follows pks := by
  unfold Follows at h ⊢
  rw [h1, h2]
  exact h

theorem nextPacket_cons {pk rest : List UInt8} (hl : pk.length = 188) (hh : pk.head? = some 0x47) :
    nextPacket (pk ++ rest) = some (pk, rest) := by
  have := nextPacket_gap (gap := []) (rest := rest) (by simp) hl hh
  simpa using this

theorem step (c : Cbr Source) (b b1 : Block) (done : List (List UInt8)) (pk rest : List UInt8) (evs : List ReadEvent) (hp : c.parity = 0)
    (hb : c.blocks = [b, b1]) (hbl : b.buffer.length = 5000000) (hcap : b.cap + 188 ≤ 5000000) (ht : b.buffer.take b.cap = done.flatten)
    (hf : c.Follows done) (hl : pk.length = 188) (hh : pk.head? = some 0x47) (hi : c.inner = ⟨pk ++ rest, evs⟩) (hs : Steady c.inner)
    (buf : List UInt8) :
    ∃ c' b' evs', c.read TsReader.read buf = .ok ⟨.ok 188, buf, c'⟩ ∧ c'.parity = 0 ∧ c'.blocks = [b', b1] ∧ b'.buffer.length = 5000000 ∧
      b'.cap = b.cap + 188 ∧ b'.buffer.take b'.cap = (done ++ [pk]).flatten ∧ c'.Follows (done ++ [pk]) ∧ c'.inner = ⟨rest, evs'⟩ ∧
      Steady c'.inner := by
  have hdl : 188 ≤ (b.buffer.drop b.cap).length := by rw [List.length_drop]; omega
  have hsl : sliceFrom b.buffer b.cap = .ok (b.buffer.drop b.cap) := sliceFrom_ok (by omega)
  obtain ⟨evs', hr, hs'⟩ := (C70_read c.inner hs (b.buffer.drop b.cap) hdl).1 pk rest (by rw [hi]; exact nextPacket_cons hl hh)
  have hlen2 : (b.buffer.take b.cap ++ (pk ++ (b.buffer.drop b.cap).drop 188)).length = 5000000 := by
    simp only [List.length_append, List.length_take, List.length_drop, hl]; omega
  have hdr : (b.buffer.take b.cap ++ (pk ++ (b.buffer.drop b.cap).drop 188)).drop b.cap = pk ++ (b.buffer.drop b.cap).drop 188 :=
    List.drop_left' (by rw [List.length_take]; omega)
  have htk : (b.buffer.take b.cap ++ (pk ++ (b.buffer.drop b.cap).drop 188)).take b.cap = b.buffer.take b.cap :=
    List.take_left' (by rw [List.length_take]; omega)
  let nb : Block := { b with buffer := b.buffer.take b.cap ++ (pk ++ (b.buffer.drop b.cap).drop 188) }
  let c1 : Cbr Source := { c with inner := ⟨rest, evs'⟩, blocks := [nb, b1] }
  obtain ⟨pid, pcr, han, hfo⟩ := analyze_eq c1 nb b1 hp rfl done pk (by simp only [nb]; omega) (by simp only [nb]; rw [hdr]; simp [hl])
    (by simp only [nb]; rw [hdr]; exact List.take_left' hl) (follows_of_eq hf rfl rfl)
  refine ⟨{ c1 with pid := pid, lastPcr := pcr, blocks := [{ nb with cap := b.cap + 188 }, b1] }, { nb with cap := b.cap + 188 }, evs', ?_, hp,
    rfl, hlen2, rfl, ?_, follows_of_eq hfo rfl rfl, rfl, hs'⟩
  · simp only [read, pushPacket, hp, hb, idx_zero, ok_bind, hsl, hr, pure_eq_ok, Ts.PACKET_SIZE, if_true, List.set_cons_zero]
    rw [show ({ inner := ⟨rest, evs'⟩, parity := 0, blocks := [{ b with buffer := b.buffer.take b.cap ++ (pk ++ (b.buffer.drop b.cap).drop 188) }, b1], pid := c.pid, lastPcr := c.lastPcr } : Cbr Source) = c1 by
      simp only [c1, nb, hp]]
    rw [han]
    simp only [ok_bind, c1, hp, idx_zero, List.set_cons_zero, nb]
  · show nb.buffer.take (b.cap + 188) = _
    simp only [nb]
    rw [List.take_add, htk, hdr, List.take_left' hl, ht, List.flatten_append]
    simp

theorem stream_run (pks : List (List UInt8)) (hpk : ∀ pk ∈ pks, pk.length = 188 ∧ pk.head? = some 0x47) (rest : List UInt8) (b1 : Block)
    (bufs : List (List UInt8)) (hlen : bufs.length = pks.length) :
    ∀ (c : Cbr Source) (b : Block) (done : List (List UInt8)) (evs : List ReadEvent), c.parity = 0 → c.blocks = [b, b1] →
      b.buffer.length = 5000000 → b.cap + 188 * pks.length ≤ 5000000 → b.buffer.take b.cap = done.flatten → c.Follows done →
      c.inner = ⟨pks.flatten ++ rest, evs⟩ → Steady c.inner →
      ∃ c' b' evs', cbrRun TsReader.read c bufs = .ok (bufs.map (fun x => (.ok 188, x)), c') ∧ c'.parity = 0 ∧ c'.blocks = [b', b1] ∧
        b'.buffer.length = 5000000 ∧ b'.cap = b.cap + 188 * pks.length ∧ b'.buffer.take b'.cap = (done ++ pks).flatten ∧
        c'.Follows (done ++ pks) ∧ c'.inner = ⟨rest, evs'⟩ ∧ Steady c'.inner := by
  induction pks generalizing bufs with
  | nil =>
    intro c b done evs h1 h2 h3 h4 h5 h6 h7 h8
    obtain rfl : bufs = [] := List.length_eq_zero_iff.1 hlen
    exact ⟨c, b, evs, rfl, h1, h2, h3, rfl, by rw [List.append_nil]; exact h5, by rw [List.append_nil]; exact h6, by simpa using h7, h8⟩
  | cons pk pks ih =>
    intro c b done evs h1 h2 h3 h4 h5 h6 h7 h8
    obtain ⟨buf, bufs, rfl⟩ : ∃ x xs, bufs = x :: xs := by
      cases bufs with
      | nil => simp at hlen
      | cons x xs => exact ⟨x, xs, rfl⟩
    rw [List.length_cons] at h4
    obtain ⟨hl, hh⟩ := hpk pk (by simp)
    obtain ⟨c', b', evs', e1, e2, e3, e4, e5, e6, e7, e8, e9⟩ := step c b b1 done pk (pks.flatten ++ rest) evs h1 h2 h3 (by omega) h5 h6 hl hh
      (by rw [h7, List.flatten_cons, List.append_assoc]) h8 buf
    obtain ⟨c2, b2, evs2, f1, f2, f3, f4, f5, f6, f7, f8, f9⟩ := ih (fun x hx => hpk x (List.mem_cons_of_mem _ hx)) bufs
      (by simpa using hlen) c' b' (done ++ [pk]) evs' e2 e3 e4 (by omega) e6 e7 e8 e9
    refine ⟨c2, b2, evs2, ?_, f2, f3, f4, by rw [f5, e5, List.length_cons]; omega, by rw [f6, List.append_assoc]; rfl,
      by rw [List.append_assoc] at f7; exact f7, f8, f9⟩
    simp only [cbrRun, e1, ok_bind, f1, pure_eq_ok, List.map_cons]

end Cbr

/-- C99, the part that holds, over the crate's own reader: of a stream of up to 26595 packets, in pieces of any size, one call per packet
collects all of them. -/
theorem C99_stream_partial (pks : List (List UInt8)) (hp : ∀ pk ∈ pks, pk.length = 188 ∧ pk.head? = some 0x47) (hn : pks.length ≤ 26595)
    (rest : List UInt8) (evs : List ReadEvent) (he : Chunks evs) (g0 g1 : Nat → UInt8)
    (bufs : List (List UInt8)) (hb : bufs.length = pks.length) :
    ∃ c' b, cbrRun TsReader.read (Cbr.new ⟨pks.flatten ++ rest, evs⟩ g0 g1) bufs = .ok (bufs.map (fun x => (.ok 188, x)), c') ∧
      c'.parity = 0 ∧ c'.blocks = [b, Block.new g1] ∧ b.cap = 188 * pks.length ∧ b.buffer.take b.cap = pks.flatten ∧ c'.inner.data = rest ∧
      (match clockOf pks with
        | none => c'.pid = 8192 ∧ c'.lastPcr.toNat = pcrPeriod
        | some (pid, pcr) => c'.pid.toNat = pid ∧ c'.lastPcr.toNat = pcr) := by
  obtain ⟨c', b', evs', e1, e2, e3, e4, e5, e6, e7, e8, e9⟩ := Cbr.stream_run pks hp rest (Block.new g1) bufs hb
    (Cbr.new ⟨pks.flatten ++ rest, evs⟩ g0 g1) (Block.new g0) [] evs rfl rfl (Cbr.new_length g0) (by show 0 + _ ≤ _; omega) rfl ⟨rfl, rfl⟩ rfl he
  refine ⟨c', b', e1, e2, e3, by rw [e5]; exact Nat.zero_add _, e6, by rw [e8], ?_⟩
  unfold Cbr.Follows at e7
  rw [List.nil_append] at e7
  cases hc : clockOf pks with
  | none => rw [hc] at e7; exact e7
  | some x =>
    rw [hc] at e7
    obtain ⟨h1, h2, h3⟩ := e7
    refine ⟨?_, h3⟩
    rw [h2, UInt16.toNat_ofNat']
    omega

/-- C99 fails: on a stream of packets the first 26595 calls report a packet each, and the next one panics, whatever the stream goes on with
and whatever buffer the caller offers. -/
theorem C99_full_refuted (pks : List (List UInt8)) (hp : ∀ pk ∈ pks, pk.length = 188 ∧ pk.head? = some 0x47) (hn : pks.length = 26595)
    (rest : List UInt8) (evs : List ReadEvent) (he : Chunks evs) (g0 g1 : Nat → UInt8)
    (bufs : List (List UInt8)) (hb : bufs.length = 26595) (buf : List UInt8) :
    ∃ c', cbrRun TsReader.read (Cbr.new ⟨pks.flatten ++ rest, evs⟩ g0 g1) bufs = .ok (bufs.map (fun x => (.ok 188, x)), c') ∧
      c'.read TsReader.read buf = panic := by
  obtain ⟨c', b', evs', e1, e2, e3, e4, e5, -, -, -, -⟩ := Cbr.stream_run pks hp rest (Block.new g1) bufs (by omega)
    (Cbr.new ⟨pks.flatten ++ rest, evs⟩ g0 g1) (Block.new g0) [] evs rfl rfl (Cbr.new_length g0) (by show 0 + _ ≤ _; omega) rfl ⟨rfl, rfl⟩ rfl he
  refine ⟨c', e1, ?_⟩
  have h0 : (Block.new g0).cap = 0 := rfl
  have hc : b'.cap = 4999860 := by omega
  have hs : sliceFrom b'.buffer b'.cap = .ok (b'.buffer.drop b'.cap) := sliceFrom_ok (by omega)
  simp only [Cbr.read, Cbr.pushPacket, e2, e3, idx_zero, ok_bind, hs]
  rw [C72_short _ _ (by rw [List.length_drop]; omega)]
  rfl

/-- A stream of two packets with PCR and one without, in pieces of 1, 2 and then all bytes. -/
example (g0 g1 : Nat → UInt8) :
    ∃ c' b, cbrRun TsReader.read (Cbr.new ⟨[[0x47, 1, 0, 0x20, 7, 0x10, 0, 0, 0, 0, 0x80, 5] ++ List.replicate 176 0xFF,
        0x47 :: List.replicate 187 0, [0x47, 1, 0, 0x20, 7, 0x10, 0, 0, 0, 1, 0, 7] ++ List.replicate 176 0xFF].flatten ++ [9],
        [.chunk 0, .chunk 1]⟩ g0 g1) [[], [1], [2]] = .ok ([(.ok 188, []), (.ok 188, [1]), (.ok 188, [2])], c') ∧
      c'.parity = 0 ∧ c'.blocks = [b, Block.new g1] ∧ b.cap = 564 ∧ c'.inner.data = [9] ∧ c'.pid.toNat = 0x100 ∧ c'.lastPcr.toNat = 607 := by
  obtain ⟨c', b, h1, h2, h3, h4, -, h6, h7⟩ := C99_stream_partial [[0x47, 1, 0, 0x20, 7, 0x10, 0, 0, 0, 0, 0x80, 5] ++ List.replicate 176 0xFF,
    0x47 :: List.replicate 187 0, [0x47, 1, 0, 0x20, 7, 0x10, 0, 0, 0, 1, 0, 7] ++ List.replicate 176 0xFF] (by decide +kernel) (by decide) [9]
    [.chunk 0, .chunk 1] (by intro e he; simp at he; rcases he with rfl | rfl <;> exact ⟨_, rfl⟩) g0 g1 [[], [1], [2]] rfl
  have hk : clockOf [[0x47, 1, 0, 0x20, 7, 0x10, 0, 0, 0, 0, 0x80, 5] ++ List.replicate 176 0xFF,
    0x47 :: List.replicate 187 0, [0x47, 1, 0, 0x20, 7, 0x10, 0, 0, 0, 1, 0, 7] ++ List.replicate 176 0xFF] = some (0x100, 607) := by
    decide +kernel
  rw [hk] at h7
  exact ⟨c', b, h1, h2, h3, h4, h6, h7.1, h7.2⟩

end Mpegts
