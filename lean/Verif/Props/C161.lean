import Verif.Spec.TakeBack
import Verif.Props.C70_C72

/-! # C161: the source of a reader -/

namespace Mpegts
open Spec

theorem takeBytes_steady (fuel n : Nat) (s : Source) (hs : Steady s) (hf : n ≤ fuel) :
    ∃ s', takeBytes fuel n s = (s.data.take n, s') ∧ s'.data = s.data.drop n ∧ Steady s' := by
  induction fuel generalizing n s with
  | zero => obtain rfl : n = 0 := by omega
            exact ⟨s, by simp [takeBytes], by simp, hs⟩
  | succ fuel ih =>
    by_cases hn : n = 0
    · subst hn; exact ⟨s, by simp [takeBytes], by simp, hs⟩
    obtain ⟨data, events⟩ := s
    have key : ∃ m es, 0 < m ∧ m ≤ n ∧ Source.read ⟨data, events⟩ n = (.ok (data.take m), ⟨data.drop m, es⟩) ∧ Steady ⟨data.drop m, es⟩ := by
      cases events with
      | nil => exact ⟨n, [], by omega, by omega, rfl, by intro e he; cases he⟩
      | cons e es =>
        obtain ⟨k, rfl⟩ := hs e (by simp)
        exact ⟨min n (k + 1), es, by omega, by omega, rfl, fun e he => hs e (List.mem_cons_of_mem _ he)⟩
    obtain ⟨m, es, hm, hmn, hr, hs'⟩ := key
    rw [takeBytes, if_neg hn, hr]
    cases hd : data.take m with
    | nil =>
      have : data = [] := by
        cases data with
        | nil => rfl
        | cons b l => rw [show m = (m - 1) + 1 by omega] at hd; simp at hd
      subst this
      exact ⟨⟨[].drop m, es⟩, by simp, by simp, hs'⟩
    | cons b l =>
      obtain ⟨s', h1, h2, h3⟩ := ih (n - (data.take m).length) ⟨data.drop m, es⟩ hs' (by rw [hd]; simp; omega)
      have hlen : (b :: l).length ≤ m := by rw [← hd, List.length_take]; omega
      rw [hd] at h1 h2
      refine ⟨s', ?_, ?_, h3⟩
      · simp only [h1, Prod.mk.injEq, and_true]
        have h5 : (data.drop m).take (n - (b :: l).length) = (data.drop m).take (n - m) := by
          by_cases hle : m ≤ data.length
          · have : (b :: l).length = m := by rw [← hd, List.length_take]; omega
            rw [this]
          · rw [List.drop_eq_nil_of_le (by omega)]; simp
        rw [h5, ← hd, ← List.take_add, show m + (n - m) = n by omega]
      · rw [h2]
        by_cases hle : m ≤ data.length
        · have : (b :: l).length = m := by rw [← hd, List.length_take]; omega
          rw [this, List.drop_drop, show m + (n - m) = n by omega]
        · simp only []
          rw [List.drop_eq_nil_of_le (by omega : data.length ≤ m), List.drop_eq_nil_of_le (by omega : data.length ≤ n)]; simp

/-- C161: whatever a user does with a reader and, through it, with its source, in any order: reading packets, reading bytes from the source
itself, looking at it, exchanging it, taking it back and making a new reader of it.  They see what the bytes alone say: the reader never takes
more from the source than the packet it returns (and the bytes before its sync byte), keeps nothing to itself, and goes on with whatever the
source gives next.  (A reader without a further packet has used up the source, `[]`.) -/
theorem C161_session (l : List Use) (hl : ∀ u ∈ l, u.Steady) (src : Source) (hs : Steady src) (buf : List UInt8) (hb : 188 ≤ buf.length) :
    ∃ back, useReader l (TsReader.new src) buf = .ok ((byBytes l src.data).1, back) ∧ back.data = (byBytes l src.data).2 ∧ Steady back := by
  induction l generalizing src buf with
  | nil => exact ⟨src, rfl, rfl, hs⟩
  | cons u l ih =>
    have hl' : ∀ u ∈ l, u.Steady := fun x hx => hl x (List.mem_cons_of_mem _ hx)
    cases u with
    | packet =>
      obtain ⟨h1, h2⟩ := C70_read src hs buf hb
      cases hn : nextPacket src.data with
      | none =>
        obtain ⟨buf', evs, hr, hlen, hst⟩ := h2 hn
        obtain ⟨back, g1, g2, g3⟩ := ih hl' ⟨[], evs⟩ hst buf' (by omega)
        refine ⟨back, ?_, ?_, g3⟩
        · rw [useReader, TsReader.readPacket]
          simp only [TsReader.new] at g1 ⊢
          simp only [hr, ok_bind, pure_eq_ok, g1, byBytes, hn, List.take_zero]
        · simp only [byBytes, hn, g2]
      | some x =>
        obtain ⟨pk, rest⟩ := x
        obtain ⟨evs, hr, hst⟩ := h1 pk rest hn
        have hpk : pk.length = 188 := by
          simp only [nextPacket] at hn
          split at hn
          · injection hn with hn; injection hn with hn _
            rw [← hn, List.length_take]; omega
          · cases hn
        obtain ⟨back, g1, g2, g3⟩ := ih hl' ⟨rest, evs⟩ hst (pk ++ buf.drop 188) (by simp; omega)
        refine ⟨back, ?_, ?_, g3⟩
        · rw [useReader, TsReader.readPacket]
          simp only [TsReader.new] at g1 ⊢
          simp only [hr, ok_bind, pure_eq_ok, g1, byBytes, hn]
          rw [List.take_append_of_le_length (by omega), List.take_of_length_le (by omega)]
        · simp only [byBytes, hn, g2]
    | bytes n =>
      obtain ⟨s', t1, t2, t3⟩ := takeBytes_steady n n src hs (Nat.le_refl _)
      obtain ⟨back, g1, g2, g3⟩ := ih hl' s' t3 buf hb
      rw [t2] at g1 g2
      simp only [TsReader.new] at g1
      exact ⟨back, by simp only [useReader, TsReader.getMut, TsReader.new, t1, g1, ok_bind, pure_eq_ok, byBytes], by simp only [byBytes, g2], g3⟩
    | look =>
      obtain ⟨back, g1, g2, g3⟩ := ih hl' src hs buf hb
      simp only [TsReader.new] at g1
      exact ⟨back, by simp only [useReader, g1, ok_bind, pure_eq_ok, byBytes, TsReader.getRef, TsReader.new], by simp only [byBytes, g2], g3⟩
    | rewrap =>
      obtain ⟨back, g1, g2, g3⟩ := ih hl' src hs buf hb
      exact ⟨back, by simpa only [useReader, byBytes, TsReader.intoInner, TsReader.new] using g1, by simp only [byBytes, g2], g3⟩
    | exchange src' =>
      obtain ⟨back, g1, g2, g3⟩ := ih hl' src' (hl (.exchange src') (by simp)) buf hb
      simp only [TsReader.new] at g1
      exact ⟨back, by simp only [useReader, TsReader.getMut, TsReader.new, g1, ok_bind, pure_eq_ok, byBytes], by simp only [byBytes, g2], g3⟩

theorem byBytes_packets (k : Nat) (d : List UInt8) : (byBytes (List.replicate k .packet) d).1.filter (· ≠ []) = (packetsOf d).take k ∧
    packetsOf (byBytes (List.replicate k .packet) d).2 = (packetsOf d).drop k := by
  induction k generalizing d with
  | zero => simp [byBytes]
  | succ k ih =>
    rw [List.replicate_succ, packetsOf]
    split
    · rename_i hn
      have h0 : packetsOf [] = [] := by rw [packetsOf]; rfl
      obtain ⟨h1, h2⟩ := ih []
      rw [h0] at h1 h2
      simp only [byBytes, hn]
      refine ⟨?_, by simpa using h2⟩
      rw [List.filter_cons_of_neg (by simp)]; simpa using h1
    · rename_i pk rest hn
      obtain ⟨h1, h2⟩ := ih rest
      have hpk : pk ≠ [] := by
        simp only [nextPacket] at hn
        split at hn
        · injection hn with hn; injection hn with hn _
          intro h; rw [h] at hn
          have := congrArg List.length hn
          rw [List.length_take, List.length_nil] at this; omega
        · cases hn
      simp only [byBytes, hn]
      refine ⟨?_, by simpa using h2⟩
      rw [List.filter_cons_of_pos (by simpa using hpk), h1]; rfl

/-- C161: after any number of packets the source taken back has exactly the packets not yet returned, for another reader. -/
theorem C161_continue (k : Nat) (src : Source) (hs : Steady src) (buf : List UInt8) (hb : 188 ≤ buf.length) :
    ∃ seen back, useReader (List.replicate k .packet) (TsReader.new src) buf = .ok (seen, back) ∧
      seen.filter (· ≠ []) = (packetsOf src.data).take k ∧
      ∀ buf' : List UInt8, 188 ≤ buf'.length → ∀ fuel, back.data.length < fuel →
        readAll fuel (TsReader.new back).intoInner buf' = .ok ((packetsOf src.data).drop k) := by
  obtain ⟨back, h1, h2, h3⟩ := C161_session (List.replicate k .packet) (fun u hu => by rw [List.eq_of_mem_replicate hu]; trivial) src hs buf hb
  obtain ⟨g1, g2⟩ := byBytes_packets k src.data
  refine ⟨_, back, h1, g1, fun buf' hb' fuel hf => ?_⟩
  rw [← g2, ← h2]
  exact C70_all fuel back h3 buf' hb' hf

/-- C161: whatever the source does (short reads, `Ok(0)`, errors), a call on the reader is a call on its source: the source seen or taken back
afterwards is the one that call left, and a buffer shorter than a packet panics. -/
theorem C161_any (src : Source) (buf : List UInt8) :
    (buf.length < 188 → (TsReader.new src).readPacket buf = panic) ∧
    (188 ≤ buf.length → ∃ x r, (TsReader.new src).readPacket buf = .ok x ∧ TsReader.read src buf = .ok r ∧ x.res = r.res ∧ x.buf = r.buf ∧
      x.st.getRef = r.st ∧ x.st.intoInner = r.st ∧ ∃ bytes evs, Delivered src x.st.intoInner bytes evs) := by
  constructor
  · intro h
    rw [TsReader.readPacket, TsReader.new, C72_short src buf h]; rfl
  · intro h
    obtain ⟨r, skipped, part, evs, h1, h2, -⟩ := C72_outcome src buf h
    exact ⟨⟨r.res, r.buf, ⟨r.st⟩⟩, r, by rw [TsReader.readPacket, TsReader.new, h1]; rfl, h1, rfl, rfl, rfl, rfl, _, _, h2⟩

/-- A session: the user looks for a packet, reads two bytes themselves, reconnects and goes on. -/
def sampleUse : List Use :=
  [.packet, .bytes 2, .look, .rewrap, .packet, .exchange ⟨0x47 :: List.replicate 187 8 ++ [3], [.chunk 3]⟩, .packet, .packet]

example : (∀ u ∈ sampleUse, u.Steady) := by
  intro u hu
  simp only [sampleUse, List.mem_cons, List.not_mem_nil, or_false] at hu
  rcases hu with rfl | rfl | rfl | rfl | rfl | rfl | rfl | rfl <;> try trivial
  intro e he; simp only [List.mem_singleton] at he; exact ⟨3, he⟩

example : byBytes sampleUse ([1] ++ (0x47 :: List.replicate 187 9) ++ [5, 6, 7] ++ (0x47 :: List.replicate 187 4) ++ [1]) =
    ([0x47 :: List.replicate 187 9, [5, 6], [7] ++ (0x47 :: List.replicate 187 4) ++ [1], 0x47 :: List.replicate 187 4, [1],
      0x47 :: List.replicate 187 8, []], []) := by decide +kernel

end Mpegts
