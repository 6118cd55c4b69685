import Verif.Spec.Drain
import Verif.Props.C70_C72

/-! # C73, C74: the byte drain -/

namespace Mpegts
open Spec

namespace TsDrain

/-- The states a drain can be in: a 188-byte buffer and a position in it. -/
def Valid {σ : Type} (d : TsDrain σ) : Prop := d.buf.length = 188 ∧ d.pos < 188

theorem copyOut_eq {σ : Type} (d : TsDrain σ) (hv : d.Valid) (buf : List UInt8) :
    d.copyOut buf = .ok ⟨.ok (min (188 - d.pos) buf.length), (d.buf.drop d.pos).take (min (188 - d.pos) buf.length) ++
      buf.drop (min (188 - d.pos) buf.length), { d with pos := (d.pos + min (188 - d.pos) buf.length) % 188 }⟩ := by
  obtain ⟨h1, h2⟩ := hv
  have hs : sliceFrom d.buf d.pos = .ok (d.buf.drop d.pos) := if_pos (by omega)
  simp only [copyOut, hs, ok_bind, List.length_drop, h1, pure_eq_ok, Ts.PACKET_SIZE]

theorem copyOut_pending {σ : Type} (d : TsDrain σ) (hv : d.Valid) (n : Nat) (hn : n ≤ 188 - d.pos) (h0 : d.pos ≠ 0 ∨ n ≠ 0) :
    pending { d with pos := (d.pos + n) % 188 } = (d.buf.drop d.pos).drop n ∧ Valid { d with pos := (d.pos + n) % 188 } := by
  obtain ⟨h1, h2⟩ := hv
  refine ⟨?_, h1, Nat.mod_lt _ (by decide)⟩
  simp only [pending]
  by_cases he : d.pos + n = 188
  · rw [he, if_pos (by decide), List.drop_drop, List.drop_of_length_le (by omega)]
  · rw [Nat.mod_eq_of_lt (by omega), if_neg (by omega), List.drop_drop]

end TsDrain

open TsDrain

/-- C73: one read from a drain, into a non-empty buffer.  While bytes of a packet are pending, the read hands out as many of
them as fit, and does not touch the packet source.  Otherwise the packet source is asked for one packet: its `Ok(0)` or error
is passed on and nothing becomes pending, and of a packet the first bytes are handed out, as many as fit, and the others become
pending. -/
theorem C73_read {σ : Type} (rd : TsReadImpl σ) (hrd : PacketReader rd) (d : TsDrain σ) (hv : d.Valid) (buf : List UInt8) (hb : buf ≠ []) :
    (pending d ≠ [] → ∃ d', d.read rd buf = .ok ⟨.ok (min (pending d).length buf.length),
        (pending d).take buf.length ++ buf.drop (pending d).length, d'⟩ ∧
      d'.inner = d.inner ∧ pending d' = (pending d).drop buf.length ∧ d'.Valid) ∧
    (pending d = [] → ∃ b r r', 188 ≤ b.length ∧ rd d.inner b = .ok r ∧ d.read rd buf = .ok r' ∧ r'.st.inner = r.st ∧ r'.st.Valid ∧
      r'.buf.length = buf.length ∧
      ((r.res = .ok 188 ∧ r'.res = .ok (min 188 buf.length) ∧ got r' = (got r).take buf.length ∧ pending r'.st = (got r).drop buf.length) ∨
       (r'.res = r.res ∧ pending r'.st = [] ∧ (r.res = .ok 0 ∨ ∃ e, r.res = .error e)))) := by
  have hbl : 0 < buf.length := List.length_pos_iff.2 hb
  by_cases hpos : d.pos = 0
  · have hp : pending d = [] := if_pos hpos
    refine ⟨fun h => absurd hp h, fun _ => ?_⟩
    by_cases hlen : 188 ≤ buf.length
    · obtain ⟨r, hr, hrl, hcase⟩ := hrd d.inner buf hlen
      have he : d.read rd buf = .ok ⟨r.res, r.buf, { d with inner := r.st }⟩ := by
        unfold TsDrain.read
        rw [if_pos hpos, if_pos (show buf.length ≥ Ts.PACKET_SIZE from hlen)]
        simp only [hr, ok_bind, pure_eq_ok]
      refine ⟨buf, r, _, hlen, hr, he, rfl, hv, hrl, ?_⟩
      have hp' : pending { d with inner := r.st } = [] := if_pos hpos
      rcases hcase with h | h
      · left
        refine ⟨h, ?_, ?_, ?_⟩
        · simp only [h]
          rw [Nat.min_eq_left hlen]
        · simp only [got, h]
          exact (List.take_of_length_le (by rw [List.length_take]; omega)).symm
        · simp only [got, h]
          rw [hp', List.drop_of_length_le (by simp; omega)]
      · exact .inr ⟨rfl, hp', h⟩
    · obtain ⟨r, hr, hrl, hcase⟩ := hrd d.inner d.buf (by rw [hv.1])
      have hv' : Valid { d with inner := r.st, buf := r.buf } := ⟨hrl.trans hv.1, hv.2⟩
      have he : d.read rd buf = match r.res with
          | .error e => .ok ⟨.error e, buf, { d with inner := r.st, buf := r.buf }⟩
          | .ok x => if x = 0 then .ok ⟨.ok 0, buf, { d with inner := r.st, buf := r.buf }⟩
            else TsDrain.copyOut { d with inner := r.st, buf := r.buf } buf := by
        unfold TsDrain.read
        rw [if_pos hpos, if_neg (show ¬ buf.length ≥ Ts.PACKET_SIZE from hlen)]
        simp only [hr, ok_bind, pure_eq_ok]
        cases r.res <;> rfl
      have hp' : pending { d with inner := r.st, buf := r.buf } = [] := if_pos hpos
      rcases hcase with h | h | ⟨e, h⟩
      · rw [h] at he
        simp only at he
        rw [if_neg (by decide), copyOut_eq _ hv'] at he
        have hm : min (188 - d.pos) buf.length = buf.length := by omega
        simp only [hm] at he
        obtain ⟨hpe, hva⟩ := copyOut_pending _ hv' buf.length (by simp only; omega) (.inr (by omega))
        simp only [hpos, List.drop_zero] at he hpe hva
        have h188 : r.buf.take 188 = r.buf := List.take_of_length_le (by rw [hrl, hv.1])
        have htl : (r.buf.take buf.length).length = buf.length := by
          rw [List.length_take, hrl, hv.1]; omega
        refine ⟨d.buf, r, _, by rw [hv.1], hr, he, rfl, hva, ?_, .inl ⟨h, ?_, ?_, ?_⟩⟩
        · simp only [List.length_append, htl, List.length_drop]; omega
        · simp only; rw [Nat.min_eq_right (by omega)]
        · simp only [got, h, h188]
          rw [List.take_append_of_le_length (by omega), List.take_of_length_le (by omega)]
        · simp only [got, h, h188]
          exact hpe
      · rw [h] at he
        refine ⟨d.buf, r, _, by rw [hv.1], hr, he, rfl, hv', rfl, .inr ⟨h.symm, hp', .inl h⟩⟩
      · rw [h] at he
        refine ⟨d.buf, r, _, by rw [hv.1], hr, he, rfl, hv', rfl, .inr ⟨h.symm, hp', .inr ⟨e, h⟩⟩⟩
  · have hp : pending d = d.buf.drop d.pos := if_neg hpos
    have hpl : (pending d).length = 188 - d.pos := by rw [hp, List.length_drop, hv.1]
    have hne : pending d ≠ [] := by
      intro h
      rw [h] at hpl
      have := hv.2
      simp at hpl
      omega
    refine ⟨fun _ => ?_, fun h => absurd h hne⟩
    have he : d.read rd buf = d.copyOut buf := by
      unfold TsDrain.read
      rw [if_neg hpos]
    rw [copyOut_eq d hv, ← hp] at he
    obtain ⟨hpe, hva⟩ := copyOut_pending d hv (min (188 - d.pos) buf.length) (by omega) (.inl hpos)
    refine ⟨{ d with pos := (d.pos + min (188 - d.pos) buf.length) % 188 }, ?_, rfl, ?_, hva⟩
    · rw [he, ← hpl]
      have h1 : (pending d).take (min (pending d).length buf.length) = (pending d).take buf.length := by
        rw [Nat.min_comm, ← List.take_take, List.take_length]
      have h2 : buf.drop (min (pending d).length buf.length) = buf.drop (pending d).length := by
        by_cases h : (pending d).length ≤ buf.length
        · rw [Nat.min_eq_left h]
        · rw [Nat.min_eq_right (by omega), List.drop_of_length_le (by omega), List.drop_of_length_le (by omega)]
      rw [h1, h2]
    · rw [hpe, ← hp]
      by_cases h : 188 - d.pos ≤ buf.length
      · rw [Nat.min_eq_left h, List.drop_of_length_le (by omega), List.drop_of_length_le (by omega)]
      · rw [Nat.min_eq_right (by omega)]

theorem logged_packetReader {σ : Type} {rd : TsReadImpl σ} (h : PacketReader rd) : PacketReader (logged rd) := by
  intro st buf hb
  obtain ⟨r, hr, hl, hc⟩ := h st.1 buf hb
  refine ⟨⟨r.res, r.buf, (r.st, st.2 ++ got r)⟩, ?_, hl, hc⟩
  simp only [logged, hr, ok_bind, pure_eq_ok]

theorem drainRun_log {σ : Type} (rd : TsReadImpl σ) (hrd : PacketReader rd) (d : TsDrain (σ × List UInt8)) (hv : d.Valid)
    (bufs : List (List UInt8)) (hb : ∀ b ∈ bufs, b ≠ []) :
    ∃ out d', drainRun (logged rd) d bufs = .ok (out, d') ∧ d'.Valid ∧
      ∃ more, d'.inner.2 = d.inner.2 ++ more ∧ pending d ++ more = out ++ pending d' := by
  induction bufs generalizing d with
  | nil => exact ⟨[], d, rfl, hv, [], by simp, by simp⟩
  | cons buf bufs ih =>
    have hb0 := hb buf (by simp)
    have h := C73_read (logged rd) (logged_packetReader hrd) d hv buf hb0
    by_cases hp : pending d = []
    · obtain ⟨b, r, r', hbl, hr, hr', hst, hva, hlen, hcase⟩ := h.2 hp
      obtain ⟨out, d', he, hvd, more, hm1, hm2⟩ := ih r'.st hva (fun b hb' => hb b (List.mem_cons_of_mem _ hb'))
      obtain ⟨r0, hr0⟩ : ∃ r0, rd d.inner.1 b = .ok r0 ∧ r = ⟨r0.res, r0.buf, (r0.st, d.inner.2 ++ got r0)⟩ := by
        obtain ⟨r0, h0, -, -⟩ := hrd d.inner.1 b hbl
        refine ⟨r0, h0, ?_⟩
        simp only [logged, h0, ok_bind, pure_eq_ok] at hr
        injection hr with hr
        exact hr.symm
      have hgot : got r = got r0 := by rw [hr0.2]; rfl
      have hlog : r'.st.inner.2 = d.inner.2 ++ got r := by rw [hst, hgot, hr0.2]
      refine ⟨got r' ++ out, d', ?_, hvd, got r ++ more, ?_, ?_⟩
      · rw [drainRun]
        simp only [hr', ok_bind, he, pure_eq_ok]
      · rw [hm1, hlog, List.append_assoc]
      · rw [hp, List.nil_append, List.append_assoc, ← hm2, ← List.append_assoc]
        congr 1
        rcases hcase with ⟨-, -, h1, h2⟩ | ⟨h1, h2, h3⟩
        · rw [h1, h2, List.take_append_drop]
        · rw [h2, List.append_nil]
          have : got r = [] ∧ got r' = [] := by
            rcases h3 with h3 | ⟨e, h3⟩ <;> simp only [got, h1, h3, List.take_zero] <;> trivial
          rw [this.1, this.2]
    · obtain ⟨d1, hr', hin, hpe, hva⟩ := h.1 hp
      obtain ⟨out, d', he, hvd, more, hm1, hm2⟩ := ih d1 hva (fun b hb' => hb b (List.mem_cons_of_mem _ hb'))
      refine ⟨((pending d).take buf.length ++ buf.drop (pending d).length).take (min (pending d).length buf.length) ++ out, d', ?_, hvd, more, ?_, ?_⟩
      · rw [drainRun]
        simp only [hr', ok_bind, he, pure_eq_ok]
        rfl
      · rw [hm1, hin]
      · rw [List.append_assoc, ← hm2, hpe, ← List.append_assoc]
        congr 1
        have : ((pending d).take buf.length).length = min (pending d).length buf.length := by rw [List.length_take, Nat.min_comm]
        rw [← this, List.take_append_of_le_length (Nat.le_refl _), List.take_length, List.take_append_drop]

/-- C73: whatever the packet source does and whatever non-empty buffers are used, the bytes read through a new drain are a
prefix of the packets the source reported, in order, without loss, repetition or bytes from elsewhere (the memory the drain
was created with, `garbage`, is arbitrary), and less than one packet is held back. -/
theorem C73_prefix {σ : Type} (rd : TsReadImpl σ) (hrd : PacketReader rd) (st : σ) (garbage : Nat → UInt8)
    (bufs : List (List UInt8)) (hb : ∀ b ∈ bufs, b ≠ []) :
    ∃ out d held, drainRun (logged rd) (TsDrain.new (st, []) garbage) bufs = .ok (out, d) ∧ d.inner.2 = out ++ held ∧ held.length < 188 := by
  obtain ⟨out, d, he, hv, more, h1, h2⟩ := drainRun_log rd hrd (TsDrain.new (st, []) garbage) ⟨by simp [TsDrain.new, Ts.PACKET_SIZE], Nat.zero_lt_succ _⟩ bufs hb
  refine ⟨out, d, pending d, he, ?_, ?_⟩
  · rw [h1, ← h2]; rfl
  · simp only [pending]
    have := hv.1
    split
    · decide
    · rw [List.length_drop]; omega

theorem reader_packetReader : PacketReader TsReader.read := by
  intro s buf hb
  obtain ⟨r, sk, part, evs, hr, hd, hn, hpart, hlen, hdrop, hcase⟩ := C72_outcome s buf hb
  refine ⟨r, hr, hlen, ?_⟩
  rcases hcase with ⟨h, -⟩ | ⟨-, h⟩
  · exact .inl h
  · rcases h with ⟨h, -⟩ | ⟨h, -⟩ | ⟨e, cs, h, -⟩
    · exact .inr (.inl h)
    · exact .inr (.inl h)
    · exact .inr (.inr ⟨e, h⟩)

theorem copyAll_eq (fuel : Nat) (d : TsDrain Source) (hv : d.Valid) (hs : Steady d.inner) (bufs : Nat → List UInt8)
    (hb : ∀ i, bufs i ≠ []) (hf : (pending d).length + d.inner.data.length < fuel) :
    copyAll TsReader.read fuel d bufs = .ok (pending d ++ (packetsOf d.inner.data).flatten) := by
  induction fuel generalizing d bufs with
  | zero => omega
  | succ fuel ih =>
    have h := C73_read TsReader.read reader_packetReader d hv (bufs 0) (hb 0)
    have hbl : 0 < (bufs 0).length := List.length_pos_iff.2 (hb 0)
    by_cases hp : pending d = []
    · obtain ⟨b, r, r', hbl', hr, hr', hst, hva, hlen, hcase⟩ := h.2 hp
      have hread := C70_read d.inner hs b hbl'
      rw [hp, List.nil_append, packetsOf]
      split
      · next hn =>
        obtain ⟨b', evs, hr1, -, -⟩ := hread.2 hn
        rw [hr1] at hr
        injection hr with hr
        subst hr
        rcases hcase with ⟨h1, -⟩ | ⟨h1, -⟩
        · cases h1
        · simp only at h1
          rw [copyAll]
          simp only [hr', ok_bind, h1]
          rfl
      · next pk rest hn =>
        obtain ⟨evs, hr1, hst1⟩ := hread.1 pk rest hn
        rw [hr1] at hr
        injection hr with hr
        subst hr
        have hpk := nextPacket_length hn
        have hgot : got (⟨.ok 188, pk ++ b.drop 188, ⟨rest, evs⟩⟩ : ReadRes Source) = pk := by
          simp only [got]
          rw [List.take_append_of_le_length (by omega), List.take_of_length_le (by omega)]
        have hlt : rest.length + 188 ≤ d.inner.data.length := by
          simp only [nextPacket] at hn
          have := (List.dropWhile_sublist (l := d.inner.data) (· != 0x47)).length_le
          split at hn
          · injection hn with hn; injection hn with h1 h2
            rw [← h2, List.length_drop]; omega
          · cases hn
        rcases hcase with ⟨-, h1, h2, h3⟩ | ⟨h1, h2, h3 | ⟨e, h3⟩⟩
        · rw [hgot] at h2 h3
          obtain ⟨n, hn0⟩ : ∃ n, min 188 (bufs 0).length = n + 1 := ⟨min 188 (bufs 0).length - 1, by omega⟩
          have hg' : got r' = r'.buf.take (min 188 (bufs 0).length) := by simp only [got, h1]
          have hrec := ih r'.st hva (by rw [hst]; exact hst1) (fun i => bufs (i + 1)) (fun i => hb (i + 1)) (by
            rw [h3, hst, List.length_drop]; simp only; omega)
          rw [copyAll]
          simp only [hr', ok_bind, h1, hn0]
          rw [hrec]
          simp only [ok_bind, pure_eq_ok]
          refine congrArg Except.ok ?_
          rw [← hn0, ← hg', h2, h3, ← List.append_assoc, List.take_append_drop, hst]
          rfl
        · cases h3
        · cases h3
    · obtain ⟨d1, hr', hin, hpe, hva⟩ := h.1 hp
      have hpl : 0 < (pending d).length := List.length_pos_iff.2 hp
      obtain ⟨n, hn0⟩ : ∃ n, min (pending d).length (bufs 0).length = n + 1 := ⟨min (pending d).length (bufs 0).length - 1, by omega⟩
      have hrec := ih d1 hva (by rw [hin]; exact hs) (fun i => bufs (i + 1)) (fun i => hb (i + 1)) (by
        rw [hpe, hin, List.length_drop]; omega)
      rw [copyAll]
      simp only [hr', ok_bind, hn0]
      rw [hrec]
      simp only [ok_bind, pure_eq_ok]
      refine congrArg Except.ok ?_
      have : ((pending d).take (bufs 0).length).length = min (pending d).length (bufs 0).length := by rw [List.length_take, Nat.min_comm]
      rw [← hn0, ← this, List.take_append_of_le_length (Nat.le_refl _), List.take_length, hpe, ← List.append_assoc,
        List.take_append_drop, hin]

/-- C73: copying everything out of a drain over a packet reader, with any non-empty buffers and any way the source splits its
reads, gives the packets of the stream, one after the other. -/
theorem C73_copy (s : Source) (hs : Steady s) (garbage : Nat → UInt8) (bufs : Nat → List UInt8)
    (hb : ∀ i, bufs i ≠ []) (fuel : Nat) (hf : s.data.length < fuel) :
    copyAll TsReader.read fuel (TsDrain.new s garbage) bufs = .ok (packetsOf s.data).flatten := by
  rw [copyAll_eq fuel (TsDrain.new s garbage) ⟨by simp [TsDrain.new, Ts.PACKET_SIZE], Nat.zero_lt_succ _⟩ hs bufs hb (by simpa [pending, TsDrain.new] using hf)]
  rfl

/-! ## C74 -/

/-- C74 (refuted): a read into an empty buffer at a packet boundary takes the next packet from the source and loses it: it
returns `Ok(0)`, nothing is pending, and copying the rest out of the drain starts with the packet after it. -/
theorem C74_empty_refuted (d : TsDrain Source) (hv : d.Valid) (h0 : pending d = []) (hs : Steady d.inner) (pk rest : List UInt8)
    (hn : nextPacket d.inner.data = some (pk, rest)) :
    ∃ d', d.read TsReader.read [] = .ok ⟨.ok 0, [], d'⟩ ∧ pending d' = [] ∧ d'.inner.data = rest ∧
      ∀ bufs : Nat → List UInt8, (∀ i, bufs i ≠ []) → ∀ fuel, rest.length < fuel →
        copyAll TsReader.read fuel d' bufs = .ok (packetsOf rest).flatten ∧ packetsOf d.inner.data = pk :: packetsOf rest := by
  have hpos : d.pos = 0 := by
    by_contra hne
    have hp : pending d = d.buf.drop d.pos := if_neg hne
    rw [hp] at h0
    have := congrArg List.length h0
    rw [List.length_drop, hv.1] at this
    have := hv.2
    simp at *
    omega
  obtain ⟨evs, hr, hst⟩ := (C70_read d.inner hs d.buf (by rw [hv.1])).1 pk rest hn
  have hpk := nextPacket_length hn
  have hbuf : pk ++ d.buf.drop 188 = pk := by rw [List.drop_of_length_le (by rw [hv.1]), List.append_nil]
  rw [hbuf] at hr
  have hv' : Valid (⟨⟨rest, evs⟩, pk, d.pos⟩ : TsDrain Source) := ⟨hpk, hv.2⟩
  have he : d.read TsReader.read [] = .ok ⟨.ok 0, [], ⟨⟨rest, evs⟩, pk, 0⟩⟩ := by
    unfold TsDrain.read
    rw [if_pos hpos, if_neg (by decide)]
    simp only [hr, ok_bind]
    rw [if_neg (by decide), copyOut_eq _ hv']
    simp [hpos]
  refine ⟨_, he, rfl, rfl, fun bufs hb fuel hf => ⟨?_, ?_⟩⟩
  · exact copyAll_eq fuel _ ⟨hpk, Nat.zero_lt_succ _⟩ hst bufs hb (by simpa [pending] using hf)
  · rw [packetsOf]
    split
    · next h => rw [hn] at h; cases h
    · next pk' rest' h =>
      rw [hn] at h
      injection h with h; injection h with h1 h2
      rw [h1, h2]

/-- C74 (partial): inside a packet, a read into an empty buffer returns `Ok(0)` and changes nothing.  Missing: a read into an
empty buffer at a packet boundary, see `C74_empty_refuted`. -/
theorem C74_empty_partial {σ : Type} (rd : TsReadImpl σ) (d : TsDrain σ) (hv : d.Valid) (h : pending d ≠ []) :
    d.read rd [] = .ok ⟨.ok 0, [], d⟩ := by
  have hpos : d.pos ≠ 0 := fun h0 => h (if_pos h0)
  unfold TsDrain.read
  rw [if_neg hpos, copyOut_eq d hv]
  simp only [List.length_nil, Nat.min_zero, List.take_zero, List.drop_nil, List.append_nil, Nat.add_zero, Nat.mod_eq_of_lt hv.2]

/-! ## Concrete cases -/

example : copyAll TsReader.read 1000 (TsDrain.new ⟨sampleStream, [.chunk 7]⟩ (fun _ => 0xEE)) (fun i => List.replicate (i % 5 * 50 + 7) 1) =
    .ok (0x47 :: List.replicate 187 3 ++ (0x47 :: List.replicate 187 0x47)) := by decide +kernel
/-- The drain after a read of 32 bytes: 156 are pending. -/
example : (TsDrain.read TsReader.read (TsDrain.new ⟨sampleStream, []⟩ (fun _ => 0)) (List.replicate 32 0)).map (fun r => (pending r.st).length) =
    .ok 156 := by decide +kernel
example : PacketReader TsReader.read := reader_packetReader
example : pending (TsDrain.new (⟨sampleStream, []⟩ : Source) (fun _ => 0)) = [] := rfl
example : (nextPacket sampleStream).isSome = true := by decide +kernel
example : nextPacket sampleStream ≠ none := by decide +kernel

end Mpegts
