import Verif.Model.ReaderOn
import Verif.Spec.AnySource
import Verif.Props.C70_C72

/-! # C128: reading from any implementation of `io::Read` -/

namespace Mpegts
open Spec

namespace TsReader
variable {σ : Type}

theorem honest_taped {rd : TsReadImpl σ} (h : HonestRead rd) (st) (t) (buf : List UInt8) :
    ∃ r : ReadRes σ, taped rd (st, t) buf = .ok ⟨r.res, r.buf, (r.st, t ++ [(r.res, r.buf.take (countOf r.res))])⟩ ∧ r.buf.length = buf.length ∧
      countOf r.res ≤ buf.length ∧ r.buf.drop (countOf r.res) = buf.drop (countOf r.res) := by
  obtain ⟨r, h1, h2, h3, h4⟩ := h st buf
  refine ⟨r, ?_, h2, h3, h4⟩
  have e : got r = r.buf.take (countOf r.res) := by
    unfold got countOf
    cases r.res <;> simp
  simp only [taped, h1, ok_bind, pure_eq_ok, e]

/-- One call. -/
theorem part_step {rd : TsReadImpl σ} (h : HonestRead rd) (st t) (packet : List UInt8) (a b : Nat) (hab : a ≤ b) (hb : b ≤ packet.length) :
    ∃ (res : Except IoError Nat) (buf : List UInt8) (st' : σ) (bytes : List UInt8),
      readPart (taped rd) (st, t) packet a b = .ok ⟨res, buf, (st', t ++ [(res, bytes)])⟩ ∧ buf.length = packet.length ∧ bytes.length = countOf res ∧
      countOf res ≤ b - a ∧
      ∀ more evs, Source.readInto ⟨bytes ++ more, eventOf res :: evs⟩ packet a b = .ok ⟨res, buf, ⟨more, evs⟩⟩ := by
  have hs : slice packet a b = .ok ((packet.take b).drop a) := slice_ok hab hb
  have hl : ((packet.take b).drop a).length = b - a := by simp; omega
  obtain ⟨r, h1, h2, h3, h4⟩ := honest_taped h st t ((packet.take b).drop a)
  rw [hl] at h2 h3
  refine ⟨r.res, packet.take a ++ r.buf ++ packet.drop b, r.st, r.buf.take (countOf r.res), ?_, ?_, ?_, h3, ?_⟩
  · simp only [readPart, hs, ok_bind, h1, pure_eq_ok]
  · simp [h2]; omega
  · simp [h2]; omega
  · intro more evs
    have hb' : r.buf = r.buf.take (countOf r.res) ++ ((packet.take b).drop a).drop (countOf r.res) := by rw [← h4, List.take_append_drop]
    have ht : (packet.take b).drop (a + countOf r.res) ++ packet.drop b = packet.drop (a + countOf r.res) := by
      conv => rhs; rw [← List.take_append_drop b packet]
      rw [List.drop_append_of_le_length (by simp; omega)]
    have hg : (r.buf.take (countOf r.res)).length = countOf r.res := by simp [h2]; omega
    have hbuf : packet.take a ++ r.buf ++ packet.drop b = packet.take a ++ r.buf.take (countOf r.res) ++ packet.drop (a + countOf r.res) := by
      conv => lhs; rw [hb']
      rw [List.drop_drop, ← ht]
      simp only [List.append_assoc]
    rw [hbuf]
    simp only [Source.readInto, hs, ok_bind, hl]
    generalize r.buf.take (countOf r.res) = g at *
    cases hr : r.res with
    | error e =>
      rw [hr] at hg
      have : g = [] := List.eq_nil_of_length_eq_zero hg
      subst this
      simp [eventOf, Source.read, countOf, pure_eq_ok]
    | ok x =>
      rw [hr] at hg h3
      cases x with
      | zero =>
        have : g = [] := List.eq_nil_of_length_eq_zero hg
        subst this
        simp [eventOf, Source.read, countOf, pure_eq_ok]
      | succ n =>
        have hg : g.length = n + 1 := hg
        have h3 : n + 1 ≤ b - a := h3
        have e1 : (g ++ more).take (n + 1) = g := by rw [← hg, List.take_left]
        have e2 : (g ++ more).drop (n + 1) = more := by rw [← hg, List.drop_left]
        simp only [eventOf, Source.read, countOf, Nat.min_eq_right h3, e1, e2, hg, pure_eq_ok]

/-- How a loop of the one reader ends, seen as an end of the other. -/
def sim {τ : Type} (l : LoopOn τ) (more : List UInt8) (evs : List ReadEvent) : LoopRes :=
  match l with
  | .done packet _ => .done packet ⟨more, evs⟩
  | .ret r => .ret ⟨r.res, r.buf, ⟨more, evs⟩⟩

/-- The state after a loop. -/
def LoopOn.state {τ : Type} : LoopOn τ → τ
  | .done _ st => st
  | .ret r => r.st

/-- The buffer after a loop. -/
def LoopOn.buffer {τ : Type} : LoopOn τ → List UInt8
  | .done packet _ => packet
  | .ret r => r.buf

theorem sourceOf_cons (c : Except IoError Nat × List UInt8) (t : List (Except IoError Nat × List UInt8)) (more evs) :
    sourceOf (c :: t) more evs = ⟨c.2 ++ (sourceOf t more evs).data, eventOf c.1 :: (sourceOf t more evs).events⟩ := by
  simp [sourceOf]

theorem isSync_eq {buf : List UInt8} (h : 1 ≤ buf.length) : Ts.isSync buf = .ok (buf.head? == some 0x47) := by
  cases buf with
  | nil => simp at h
  | cons b l => rfl

theorem sync_sim {rd : TsReadImpl σ} (h : HonestRead rd) (fuel : Nat) (st t) (packet : List UInt8) (hp : 1 ≤ packet.length) (l)
    (hl : syncOn (taped rd) fuel (st, t) packet = .ok l) :
    ∃ t1, l.state.2 = t ++ t1 ∧ l.buffer.length = packet.length ∧
      ∀ fuel' more evs, (sourceOf t1 more evs).data.length < fuel' → syncLoop fuel' (sourceOf t1 more evs) packet = .ok (sim l more evs) := by
  induction fuel generalizing st t packet with
  | zero => cases hl
  | succ fuel ih =>
    obtain ⟨res, buf, st', bytes, h1, h2, h3, h4, h5⟩ := part_step h st t packet 0 1 (by omega) hp
    rw [syncOn, h1, ok_bind] at hl
    simp only [] at hl
    have zero : ∀ r, countOf r = 0 → bytes.length = countOf r → bytes = [] := fun r a b => List.eq_nil_of_length_eq_zero (by omega)
    cases res with
    | error e =>
      simp only [pure_eq_ok, Except.ok.injEq] at hl
      subst hl
      refine ⟨[(.error e, bytes)], rfl, h2, ?_⟩
      intro fuel' more evs hf
      obtain ⟨fuel', rfl⟩ : ∃ n, fuel' = n + 1 := ⟨fuel' - 1, by omega⟩
      rw [syncLoop, sourceOf_cons, h5]
      rfl
    | ok x =>
      simp only [] at hl
      by_cases hx : x = 0
      · rw [if_pos hx] at hl
        simp only [pure_eq_ok, Except.ok.injEq] at hl
        subst hl
        refine ⟨[(.ok x, bytes)], rfl, h2, ?_⟩
        intro fuel' more evs hf
        obtain ⟨fuel', rfl⟩ : ∃ n, fuel' = n + 1 := ⟨fuel' - 1, by omega⟩
        rw [syncLoop, sourceOf_cons, h5, ok_bind]
        simp only [hx]
        rfl
      · rw [if_neg hx, isSync_eq (by omega), ok_bind] at hl
        by_cases hs : buf.head? = some 0x47
        · simp only [hs, beq_self_eq_true, if_true, pure_eq_ok, Except.ok.injEq] at hl
          subst hl
          refine ⟨[(.ok x, bytes)], rfl, h2, ?_⟩
          intro fuel' more evs hf
          obtain ⟨fuel', rfl⟩ : ∃ n, fuel' = n + 1 := ⟨fuel' - 1, by omega⟩
          rw [syncLoop, sourceOf_cons, h5, ok_bind]
          simp only [if_neg hx]
          rw [isSync_eq (by omega), ok_bind]
          simp only [hs, beq_self_eq_true, if_true]
          rfl
        · have hs' : (buf.head? == some 0x47) = false := by simpa using hs
          rw [hs'] at hl
          simp only [Bool.false_eq_true, if_false] at hl
          obtain ⟨t1, e1, e2, e3⟩ := ih st' (t ++ [(.ok x, bytes)]) buf (by omega) hl
          refine ⟨(.ok x, bytes) :: t1, by rw [e1]; simp, by omega, ?_⟩
          intro fuel' more evs hf
          obtain ⟨fuel', rfl⟩ : ∃ n, fuel' = n + 1 := ⟨fuel' - 1, by omega⟩
          rw [sourceOf_cons] at hf
          rw [syncLoop, sourceOf_cons, h5, ok_bind]
          simp only [if_neg hx]
          rw [isSync_eq (by omega), ok_bind, hs']
          simp only [Bool.false_eq_true, if_false]
          have hbl : bytes.length = x := h3
          simp only [List.length_append] at hf
          exact e3 fuel' more evs (by omega)

theorem fill_sim (p : Profile) {rd : TsReadImpl σ} (h : HonestRead rd) (fuel : Nat) (st t) (packet : List UInt8) (skip : Nat) (hk : skip ≤ 188)
    (hp : 188 ≤ packet.length) (l) (hl : fillOn p (taped rd) fuel (st, t) packet skip = .ok l) :
    ∃ t1, l.state.2 = t ++ t1 ∧ l.buffer.length = packet.length ∧
      ∀ fuel' more evs, 188 - skip < fuel' → fillLoop fuel' (sourceOf t1 more evs) packet skip = .ok (sim l more evs) := by
  induction fuel generalizing st t packet skip with
  | zero => cases hl
  | succ fuel ih =>
    rw [fillOn] at hl
    by_cases he : skip = Ts.PACKET_SIZE
    · simp only [he, ne_eq, not_true_eq_false, if_false, Except.ok.injEq] at hl
      subst hl
      refine ⟨[], by simp [LoopOn.state], rfl, ?_⟩
      intro fuel' more evs hf
      obtain ⟨fuel', rfl⟩ : ∃ n, fuel' = n + 1 := ⟨fuel' - 1, by omega⟩
      rw [fillLoop]
      simp only [he, ne_eq, not_true_eq_false, if_false]
      rfl
    · obtain ⟨res, buf, st', bytes, h1, h2, h3, h4, h5⟩ := part_step h st t packet skip Ts.PACKET_SIZE hk hp
      have hP : Ts.PACKET_SIZE = 188 := rfl
      simp only [ne_eq, he, not_false_eq_true, if_true] at hl
      rw [h1, ok_bind] at hl
      simp only [] at hl
      cases res with
      | error e =>
        simp only [pure_eq_ok, Except.ok.injEq] at hl
        subst hl
        refine ⟨[(.error e, bytes)], rfl, h2, ?_⟩
        intro fuel' more evs hf
        obtain ⟨fuel', rfl⟩ : ∃ n, fuel' = n + 1 := ⟨fuel' - 1, by omega⟩
        rw [fillLoop, sourceOf_cons]
        simp only [ne_eq, he, not_false_eq_true, if_true]
        rw [h5]
        rfl
      | ok x =>
        have hx' : x ≤ 188 - skip := h4
        simp only [] at hl
        by_cases hx : x = 0
        · rw [if_pos hx] at hl
          simp only [pure_eq_ok, Except.ok.injEq] at hl
          subst hl
          refine ⟨[(.ok x, bytes)], rfl, h2, ?_⟩
          intro fuel' more evs hf
          obtain ⟨fuel', rfl⟩ : ∃ n, fuel' = n + 1 := ⟨fuel' - 1, by omega⟩
          rw [fillLoop, sourceOf_cons]
          simp only [ne_eq, he, not_false_eq_true, if_true]
          rw [h5, ok_bind]
          simp only [hx]
          rfl
        · rw [if_neg hx, if_pos (by omega), ok_bind] at hl
          obtain ⟨t1, e1, e2, e3⟩ := ih st' (t ++ [(.ok x, bytes)]) buf (skip + x) (by omega) (by omega) hl
          refine ⟨(.ok x, bytes) :: t1, by rw [e1]; simp, by omega, ?_⟩
          intro fuel' more evs hf
          obtain ⟨fuel', rfl⟩ : ∃ n, fuel' = n + 1 := ⟨fuel' - 1, by omega⟩
          rw [fillLoop, sourceOf_cons]
          simp only [ne_eq, he, not_false_eq_true, if_true]
          rw [h5, ok_bind]
          simp only [if_neg hx]
          exact e3 fuel' more evs (by omega)

theorem sourceOf_append (t1 t2 : List (Except IoError Nat × List UInt8)) (more evs) :
    sourceOf (t1 ++ t2) more evs = sourceOf t1 (sourceOf t2 more evs).data (sourceOf t2 more evs).events := by
  simp [sourceOf]

theorem getPid_full {packet : List UInt8} (h : 188 ≤ packet.length) : ∃ v, Ts.getPid packet = .ok v := by
  match packet, h with
  | a :: b :: c :: l, _ => exact ⟨_, rfl⟩

end TsReader

/-- C128: whatever a source that keeps to the contract of `Read` does, a call of the reader that comes to an end has the result it has
with the byte stream that the source has delivered, in the same pieces; and it takes nothing else from the source. -/
theorem C128_any {σ : Type} (p : Profile) (rd : TsReadImpl σ) (hrd : HonestRead rd) (fuel : Nat) (st : σ) (packet : List UInt8)
    (r : ReadRes (σ × List (Except IoError Nat × List UInt8))) (h : TsReader.readOn p (taped rd) fuel (st, []) packet = .ok r) (more : List UInt8)
    (evs : List ReadEvent) :
    TsReader.read (sourceOf r.st.2 more evs) packet = .ok ⟨r.res, r.buf, ⟨more, evs⟩⟩ := by
  unfold TsReader.readOn at h
  unfold TsReader.read
  by_cases hp : packet.length ≥ Ts.PACKET_SIZE
  · have hP : Ts.PACKET_SIZE = 188 := rfl
    have ha : assert (packet.length ≥ Ts.PACKET_SIZE) = .ok () := by simp [assert, hp]
    rw [ha, ok_bind] at h
    rw [ha, ok_bind]
    obtain ⟨l, hl, h⟩ := bind_eq_ok.1 h
    obtain ⟨t1, e1, e2, e3⟩ := TsReader.sync_sim hrd fuel st [] packet (by omega) l hl
    cases l with
    | ret r' =>
      simp only [pure_eq_ok, Except.ok.injEq] at h
      subst h
      have e1' : r'.st.2 = t1 := by simpa [TsReader.LoopOn.state] using e1
      rw [e1', e3 _ more evs (Nat.lt_succ_self _), ok_bind]
      rfl
    | done pk st' =>
      obtain ⟨st', t'⟩ := st'
      have e1' : t' = t1 := by simpa [TsReader.LoopOn.state] using e1
      subst e1'
      have e2' : pk.length = packet.length := e2
      simp only [] at h
      obtain ⟨l, hl, h⟩ := bind_eq_ok.1 h
      obtain ⟨t2, f1, f2, f3⟩ := TsReader.fill_sim p hrd fuel st' t' pk 1 (by omega) (by omega) l hl
      have f3' := f3 (Ts.PACKET_SIZE + 1) more evs (by omega)
      cases l with
      | ret r' =>
        simp only [pure_eq_ok, Except.ok.injEq] at h
        subst h
        have f1' : r'.st.2 = t' ++ t2 := f1
        rw [f1', TsReader.sourceOf_append, e3 _ _ _ (Nat.lt_succ_self _), ok_bind]
        simp only [TsReader.sim]
        rw [f3', ok_bind]
        rfl
      | done pk' st'' =>
        have f2' : pk'.length = pk.length := f2
        obtain ⟨v, hv⟩ := TsReader.getPid_full (packet := pk') (by omega)
        simp only [hv, ok_bind, pure_eq_ok, Except.ok.injEq] at h
        subst h
        have f1' : st''.2 = t' ++ t2 := f1
        simp only []
        rw [f1', TsReader.sourceOf_append, e3 _ _ _ (Nat.lt_succ_self _), ok_bind]
        simp only [TsReader.sim]
        rw [f3', ok_bind]
        simp only [TsReader.sim, hv, ok_bind]
        rfl
  · have ha : assert (packet.length ≥ Ts.PACKET_SIZE) = panic := by simp [assert, hp]
    rw [ha] at h
    cases h

namespace TsReader
variable {σ : Type}

theorem sync_endless {rd : TsReadImpl σ} (h : HonestRead rd) (fuel : Nat) (st) (packet : List UInt8) (hp : 1 ≤ packet.length) :
    (Stalls rd fuel st (packet.take 1) ∧ syncOn rd fuel st packet = .error .diverge) ∨
      (¬ Stalls rd fuel st (packet.take 1) ∧ ∃ l, syncOn rd fuel st packet = .ok l ∧ l.buffer.length = packet.length) := by
  induction fuel generalizing st packet with
  | zero => exact .inl ⟨trivial, rfl⟩
  | succ fuel ih =>
    have hs : slice packet 0 1 = .ok (packet.take 1) := by rw [slice_ok (by omega) hp]; rfl
    obtain ⟨r, h1, h2, h3, h4⟩ := h st (packet.take 1)
    have hl : (packet.take 1).length = 1 := by simp; omega
    rw [hl] at h2 h3
    obtain ⟨b, hb⟩ : ∃ b, r.buf = [b] := List.length_eq_one_iff.1 h2
    have hpart : readPart rd st packet 0 1 = .ok ⟨r.res, b :: packet.drop 1, r.st⟩ := by
      simp only [readPart, hs, ok_bind, h1, pure_eq_ok, hb]
      rfl
    have hlen : (b :: packet.drop 1).length = packet.length := by simp; omega
    rw [syncOn, hpart, ok_bind]
    simp only [Stalls, h1]
    cases hres : r.res with
    | error e =>
      refine .inr ⟨?_, _, rfl, hlen⟩
      rintro ⟨r', b', e1, e2, -⟩
      simp only [Except.ok.injEq] at e1
      subst e1
      rw [hres] at e2
      cases e2
    | ok x =>
      rw [hres] at h3
      have h3' : x ≤ 1 := h3
      simp only []
      by_cases hx : x = 0
      · rw [if_pos hx]
        refine .inr ⟨?_, _, rfl, hlen⟩
        rintro ⟨r', b', e1, e2, -⟩
        simp only [Except.ok.injEq] at e1
        subst e1
        rw [hres] at e2
        simp only [Except.ok.injEq] at e2
        omega
      · have hx1 : x = 1 := by omega
        subst hx1
        rw [if_neg hx, isSync_eq (by simp), ok_bind]
        by_cases hb47 : b = 0x47
        · refine .inr ⟨?_, ?_⟩
          · rintro ⟨r', b', e1, e2, e3, e4, -⟩
            simp only [Except.ok.injEq] at e1
            subst e1
            rw [hb] at e3
            simp only [List.cons.injEq, and_true] at e3
            exact e4 (e3 ▸ hb47)
          · subst hb47
            exact ⟨_, rfl, hlen⟩
        · have hne : ((b :: packet.drop 1).head? == some (0x47 : UInt8)) = false := by simpa using hb47
          simp only [hne, Bool.false_eq_true, if_false]
          have ht : (b :: packet.drop 1).take 1 = r.buf := by rw [hb]; rfl
          rcases ih r.st (b :: packet.drop 1) (by simp) with ⟨i1, i2⟩ | ⟨i1, l, i2, i3⟩
          · refine .inl ⟨⟨r, b, rfl, hres, hb, hb47, ?_⟩, i2⟩
            rw [← ht]
            exact i1
          · refine .inr ⟨?_, l, i2, by omega⟩
            rintro ⟨r', b', e1, e2, e3, e4, e5⟩
            simp only [Except.ok.injEq] at e1
            subst e1
            rw [← ht] at e5
            exact i1 e5

theorem fill_ends (p : Profile) {rd : TsReadImpl σ} (h : HonestRead rd) (fuel : Nat) (st) (packet : List UInt8) (skip : Nat) (hk : skip ≤ 188)
    (hf : 188 - skip < fuel) (hp : 188 ≤ packet.length) : ∃ l, fillOn p rd fuel st packet skip = .ok l ∧ l.buffer.length = packet.length := by
  induction fuel generalizing st packet skip with
  | zero => omega
  | succ fuel ih =>
    have hP : Ts.PACKET_SIZE = 188 := rfl
    rw [fillOn]
    by_cases he : skip = Ts.PACKET_SIZE
    · simp only [he, ne_eq, not_true_eq_false, if_false]
      exact ⟨_, rfl, rfl⟩
    · simp only [ne_eq, he, not_false_eq_true, if_true]
      have hs : slice packet skip Ts.PACKET_SIZE = .ok ((packet.take Ts.PACKET_SIZE).drop skip) := slice_ok (by omega) (by omega)
      obtain ⟨r, h1, h2, h3, h4⟩ := h st ((packet.take Ts.PACKET_SIZE).drop skip)
      have hl : ((packet.take Ts.PACKET_SIZE).drop skip).length = 188 - skip := by simp; omega
      rw [hl] at h2 h3
      have hlen : (packet.take skip ++ r.buf ++ packet.drop Ts.PACKET_SIZE).length = packet.length := by simp; omega
      simp only [readPart, hs, ok_bind, h1, pure_eq_ok]
      cases hres : r.res with
      | error e => exact ⟨_, rfl, hlen⟩
      | ok x =>
        rw [hres] at h3
        have h3' : x ≤ 188 - skip := h3
        simp only []
        by_cases hx : x = 0
        · rw [if_pos hx]
          exact ⟨_, rfl, hlen⟩
        · rw [if_neg hx, if_pos (by omega)]
          obtain ⟨l, i1, i2⟩ := ih r.st (packet.take skip ++ r.buf ++ packet.drop Ts.PACKET_SIZE) (skip + x) (by omega) (by omega) (by omega)
          exact ⟨l, i1, by omega⟩

end TsReader

/-- C128: with a source that keeps to the contract, a call goes on for ever exactly while the source, asked for one byte at a time,
delivers bytes none of which is the sync byte; otherwise it returns.  No more than 187 calls follow the sync byte. -/
theorem C128_endless {σ : Type} (p : Profile) (rd : TsReadImpl σ) (hrd : HonestRead rd) (fuel : Nat) (hf : 188 ≤ fuel) (st : σ)
    (packet : List UInt8) (hp : 188 ≤ packet.length) :
    (TsReader.readOn p rd fuel st packet = .error .diverge ↔ Stalls rd fuel st (packet.take 1)) ∧
      (¬ Stalls rd fuel st (packet.take 1) → ∃ r, TsReader.readOn p rd fuel st packet = .ok r ∧ r.buf.length = packet.length) := by
  have hP : Ts.PACKET_SIZE = 188 := rfl
  have ha : assert (packet.length ≥ Ts.PACKET_SIZE) = .ok () := by simp [assert, hP, hp]
  rcases TsReader.sync_endless hrd fuel st packet (by omega) with ⟨h1, h2⟩ | ⟨h1, l, h2, h3⟩
  · unfold TsReader.readOn
    rw [ha, ok_bind, h2]
    exact ⟨⟨fun _ => h1, fun _ => rfl⟩, fun h => (h h1).elim⟩
  · have key : ∃ r, TsReader.readOn p rd fuel st packet = .ok r ∧ r.buf.length = packet.length := by
      unfold TsReader.readOn
      rw [ha, ok_bind, h2, ok_bind]
      cases l with
      | ret r => exact ⟨r, rfl, h3⟩
      | done pk st' =>
        have h3' : pk.length = packet.length := h3
        obtain ⟨l, f1, f2⟩ := TsReader.fill_ends p hrd fuel st' pk 1 (by omega) (by omega) (by omega)
        simp only [f1, ok_bind]
        cases l with
        | ret r =>
          have f2' : r.buf.length = pk.length := f2
          exact ⟨r, rfl, by omega⟩
        | done pk' st'' =>
          have f2' : pk'.length = pk.length := f2
          obtain ⟨v, hv⟩ := TsReader.getPid_full (packet := pk') (by omega)
          simp only [hv, ok_bind]
          exact ⟨_, rfl, by simp only []; omega⟩
    obtain ⟨r, hk, hk'⟩ := key
    refine ⟨⟨fun h => ?_, fun h => (h1 h).elim⟩, fun _ => ⟨r, hk, hk'⟩⟩
    rw [hk] at h
    cases h

namespace TsReader

/-- One call of a scripted source in the fill loop. -/
theorem scripted_part (claim : Nat) (bytes : List UInt8) (rest) (packet : List UInt8) (a b : Nat) (hab : a ≤ b) (hb : b ≤ packet.length)
    (hl : bytes.length ≤ b - a) :
    readPart scripted ((claim, bytes) :: rest) packet a b = .ok ⟨.ok claim, packet.take a ++ bytes ++ packet.drop (a + bytes.length), rest⟩ := by
  have ht : (packet.take b).drop (a + bytes.length) ++ packet.drop b = packet.drop (a + bytes.length) := by
    conv => rhs; rw [← List.take_append_drop b packet]
    rw [List.drop_append_of_le_length (by simp; omega)]
  have h2 : bytes.take ((packet.take b).drop a).length = bytes := List.take_of_length_le (by simp; omega)
  simp only [readPart, slice_ok hab hb, ok_bind, scripted, pure_eq_ok, Except.ok.injEq, h2, List.drop_drop]
  rw [← ht]
  simp only [List.append_assoc]

theorem told_fill (p : Profile) (pieces : List (List UInt8)) (hn : ∀ b ∈ pieces, b ≠ []) (more) (fuel : Nat) (packet : List UInt8) (skip : Nat)
    (hk : skip + pieces.flatten.length ≤ 188) (hp : 188 ≤ packet.length) :
    fillOn p scripted (fuel + pieces.length) (told pieces ++ more) packet skip =
      fillOn p scripted fuel more (packet.take skip ++ pieces.flatten ++ packet.drop (skip + pieces.flatten.length)) (skip + pieces.flatten.length) := by
  induction pieces generalizing packet skip with
  | nil => simp [told]
  | cons b pieces ih =>
    have hb : b ≠ [] := hn b (by simp)
    have hb' : 0 < b.length := List.length_pos_iff.2 hb
    have hP : Ts.PACKET_SIZE = 188 := rfl
    simp only [List.flatten_cons, List.length_append] at hk
    have e : told (b :: pieces) ++ more = (b.length, b) :: (told pieces ++ more) := rfl
    rw [List.length_cons, ← Nat.add_assoc, fillOn, e, scripted_part _ _ _ _ _ _ (by omega) (by omega) (by omega), if_pos (by omega), ok_bind]
    simp only []
    rw [if_neg (by omega), if_pos (by omega), ok_bind, ih (fun x hx => hn x (by simp [hx])) _ _ (by omega) (by simp; omega)]
    have l1 : (packet.take skip ++ b).length = skip + b.length := by simp; omega
    have e1 : (packet.take skip ++ b ++ packet.drop (skip + b.length)).take (skip + b.length) = packet.take skip ++ b := by
      rw [← l1, List.take_left]
    have e2 : (packet.take skip ++ b ++ packet.drop (skip + b.length)).drop (skip + b.length + pieces.flatten.length) =
        packet.drop (skip + b.length + pieces.flatten.length) := by
      rw [← l1, List.drop_append, List.drop_of_length_le (by simp), l1]
      simp [List.drop_drop]
    rw [e1, e2]
    simp only [List.flatten_cons, List.length_append, List.append_assoc, Nat.add_assoc]

/-- From the sync byte to the first lie. -/
theorem told_read (p : Profile) (pieces : List (List UInt8)) (hn : ∀ b ∈ pieces, b ≠ []) (more) (fuel : Nat) (packet : List UInt8)
    (hk : 1 + pieces.flatten.length ≤ 188) (hp : 188 ≤ packet.length) :
    (∀ e, fillOn p scripted (fuel + 1) more (0x47 :: pieces.flatten ++ packet.drop (1 + pieces.flatten.length)) (1 + pieces.flatten.length) = .error e →
      readOn p scripted (fuel + pieces.length + 1) ((1, [0x47]) :: (told pieces ++ more)) packet = .error e) ∧
    (∀ pk st, fillOn p scripted (fuel + 1) more (0x47 :: pieces.flatten ++ packet.drop (1 + pieces.flatten.length)) (1 + pieces.flatten.length) =
        .ok (.done pk st) → 188 ≤ pk.length →
      readOn p scripted (fuel + pieces.length + 1) ((1, [0x47]) :: (told pieces ++ more)) packet = .ok ⟨.ok 188, pk, st⟩) := by
  have hP : Ts.PACKET_SIZE = 188 := rfl
  have ha : assert (packet.length ≥ Ts.PACKET_SIZE) = .ok () := by simp [assert, hP, hp]
  unfold readOn
  rw [ha, ok_bind, syncOn, scripted_part _ _ _ _ _ _ (by omega) (by omega) (by simp), ok_bind]
  have e : packet.take 0 ++ [0x47] ++ packet.drop (0 + [(0x47 : UInt8)].length) = 0x47 :: packet.drop 1 := rfl
  simp only [e]
  rw [if_neg (by omega), isSync_eq (by simp), ok_bind]
  simp only [List.head?_cons, beq_self_eq_true, if_true, pure_eq_ok, ok_bind]
  rw [show fuel + pieces.length + 1 = (fuel + 1) + pieces.length by omega, told_fill p pieces hn more _ _ _ hk (by simp; omega)]
  have e3 : (0x47 :: packet.drop 1).take 1 ++ pieces.flatten ++ (0x47 :: packet.drop 1).drop (1 + pieces.flatten.length) =
      0x47 :: pieces.flatten ++ packet.drop (1 + pieces.flatten.length) := by
    rw [Nat.add_comm 1, List.drop_succ_cons, List.drop_drop, Nat.add_comm 1]
    rfl
  rw [e3]
  refine ⟨fun e he => by rw [he]; rfl, fun pk st he hl => ?_⟩
  obtain ⟨v, hv⟩ := getPid_full hl
  rw [he]
  simp only [ok_bind, hv]
  rfl

end TsReader

/-- C128, a source that breaks the contract: after the sync byte and any pieces, a claim of more bytes than are left of the packet makes
the reader panic.  (Claims so large that the sum passes 2 ^ 64 do so in a debug build.) -/
theorem C128_overlong (p : Profile) (pieces : List (List UInt8)) (hn : ∀ b ∈ pieces, b ≠ []) (claim : Nat) (bytes : List UInt8) (script)
    (fuel : Nat) (packet : List UInt8) (hp : 188 ≤ packet.length) (hk : 1 + pieces.flatten.length < 188)
    (hc : 188 < 1 + pieces.flatten.length + claim) (hb : bytes.length ≤ 188 - (1 + pieces.flatten.length))
    (h64 : 1 + pieces.flatten.length + claim < 2 ^ 64 ∨ p = .debug) :
    TsReader.readOn p scripted (fuel + 1 + pieces.length + 1) ((1, [0x47]) :: (told pieces ++ (claim, bytes) :: script)) packet = panic := by
  have hP : Ts.PACKET_SIZE = 188 := rfl
  refine (TsReader.told_read p pieces hn _ (fuel + 1) _ (by omega) hp).1 .panic ?_
  rw [TsReader.fillOn, if_pos (by omega), TsReader.scripted_part _ _ _ _ _ _ (by omega) (by simp; omega) (by omega), ok_bind]
  simp only []
  rw [if_neg (by omega)]
  by_cases hlt : 1 + pieces.flatten.length + claim < 2 ^ 64
  · rw [if_pos hlt, ok_bind, TsReader.fillOn, if_pos (by omega)]
    have hs : ∀ l : List UInt8, slice l (1 + pieces.flatten.length + claim) Ts.PACKET_SIZE = panic := by
      intro l
      unfold slice
      rw [if_neg (by omega)]
    simp only [TsReader.readPart, hs, panic, error_bind]
  · rcases h64 with h | h
    · exact absurd h hlt
    · subst h
      rw [if_neg hlt]
      rfl

/-- C128 fails for a source that breaks the contract, in a release build: a claim that takes the sum to 2 ^ 64 + k makes the reader go
back to byte k of the buffer, so the packet it returns has the first k bytes it has received followed by what the source delivers next:
with k = 0, 188 bytes without a sync byte. -/
theorem C128_lie_refuted (pieces : List (List UInt8)) (hn : ∀ b ∈ pieces, b ≠ []) (claim : Nat) (bytes : List UInt8) (later : List (List UInt8))
    (hl : ∀ b ∈ later, b ≠ []) (script) (fuel : Nat) (packet : List UInt8) (hp : 188 ≤ packet.length) (k : Nat)
    (hk : 1 + pieces.flatten.length < 188) (hb : bytes.length ≤ 188 - (1 + pieces.flatten.length)) (h64 : claim < 2 ^ 64)
    (hc : 1 + pieces.flatten.length + claim = 2 ^ 64 + k) (hs : k + later.flatten.length = 188) :
    TsReader.readOn .release scripted (fuel + later.length + 1 + pieces.length + 1)
        ((1, [0x47]) :: (told pieces ++ (claim, bytes) :: (told later ++ script))) packet =
      .ok ⟨.ok 188, (0x47 :: pieces.flatten).take k ++ later.flatten ++ packet.drop 188, script⟩ := by
  have hP : Ts.PACKET_SIZE = 188 := rfl
  have h63 : 188 < 2 ^ 64 := by decide
  refine (TsReader.told_read .release pieces hn _ (fuel + later.length + 1) _ (by omega) hp).2 _ _ ?_ ?_
  · rw [TsReader.fillOn, if_pos (by omega), TsReader.scripted_part _ _ _ _ _ _ (by omega) (by simp; omega) (by omega), ok_bind]
    simp only []
    rw [if_neg (by omega), if_neg (by omega)]
    have ho : Profile.release.overflow ((1 + pieces.flatten.length + claim) % 2 ^ 64) = .ok k := by
      rw [hc, Nat.add_mod_left, Nat.mod_eq_of_lt (by omega)]
      rfl
    rw [ho, ok_bind, show fuel + later.length + 1 = (fuel + 1) + later.length by omega,
      TsReader.told_fill .release later hl script _ _ k (by omega) (by simp; omega), hs, TsReader.fillOn, if_neg (by omega)]
    have hj : (0x47 :: pieces.flatten).length = 1 + pieces.flatten.length := by rw [List.length_cons]; omega
    rw [← hj] at hk hb hc ⊢
    generalize 0x47 :: pieces.flatten = q at hk hb hc ⊢
    have e1 : (q ++ packet.drop q.length).take q.length = q := List.take_left
    have e2 : (q ++ packet.drop q.length).drop (q.length + bytes.length) = packet.drop (q.length + bytes.length) := by
      rw [List.drop_append, List.drop_of_length_le (by omega), List.drop_drop]
      simp
    rw [e1, e2, List.append_assoc q, List.take_append_of_le_length (by omega), List.drop_append, List.drop_of_length_le (by omega), List.drop_append,
      List.drop_of_length_le (by omega), List.drop_drop, List.nil_append, List.nil_append,
      show q.length + bytes.length + (188 - q.length - bytes.length) = 188 by omega]
  · simp only [List.length_append, List.length_take, List.length_cons, List.length_drop]
    omega

namespace TsReader
variable {σ : Type}

/-- A loop's end without the record. -/
def untape {τ : Type} : LoopOn (σ × τ) → LoopOn σ
  | .done packet st => .done packet st.1
  | .ret r => .ret ⟨r.res, r.buf, r.st.1⟩

theorem part_tape (rd : TsReadImpl σ) (st t) (packet : List UInt8) (a b : Nat) :
    (∃ e, readPart rd st packet a b = .error e ∧ readPart (taped rd) (st, t) packet a b = .error e) ∨
      (∃ res buf st' t', readPart rd st packet a b = .ok ⟨res, buf, st'⟩ ∧ readPart (taped rd) (st, t) packet a b = .ok ⟨res, buf, (st', t')⟩) := by
  unfold readPart taped
  cases h1 : slice packet a b with
  | error e => exact .inl ⟨e, rfl, rfl⟩
  | ok x =>
    simp only [ok_bind]
    cases h2 : rd st x with
    | error e => exact .inl ⟨e, rfl, rfl⟩
    | ok r => exact .inr ⟨_, _, _, _, rfl, rfl⟩

theorem sync_tape (rd : TsReadImpl σ) (fuel : Nat) (st t) (packet : List UInt8) :
    syncOn rd fuel st packet = (syncOn (taped rd) fuel (st, t) packet).map untape := by
  induction fuel generalizing st t packet with
  | zero => rfl
  | succ fuel ih =>
    rw [syncOn, syncOn]
    rcases part_tape rd st t packet 0 1 with ⟨e, h1, h2⟩ | ⟨res, buf, st', t', h1, h2⟩
    · rw [h1, h2]
      rfl
    · rw [h1, h2, ok_bind, ok_bind]
      simp only []
      cases res with
      | error e => rfl
      | ok x =>
        simp only []
        by_cases hx : x = 0
        · rw [if_pos hx, if_pos hx]
          rfl
        · rw [if_neg hx, if_neg hx]
          cases Ts.isSync buf with
          | error e => rfl
          | ok b =>
            simp only [ok_bind]
            cases b with
            | true => rfl
            | false =>
              simp only [Bool.false_eq_true, if_false]
              exact ih st' t' buf

theorem fill_tape (p : Profile) (rd : TsReadImpl σ) (fuel : Nat) (st t) (packet : List UInt8) (skip : Nat) :
    fillOn p rd fuel st packet skip = (fillOn p (taped rd) fuel (st, t) packet skip).map untape := by
  induction fuel generalizing st t packet skip with
  | zero => rfl
  | succ fuel ih =>
    rw [fillOn, fillOn]
    by_cases he : skip ≠ Ts.PACKET_SIZE
    · rw [if_pos he, if_pos he]
      rcases part_tape rd st t packet skip Ts.PACKET_SIZE with ⟨e, h1, h2⟩ | ⟨res, buf, st', t', h1, h2⟩
      · rw [h1, h2]
        rfl
      · rw [h1, h2, ok_bind, ok_bind]
        simp only []
        cases res with
        | error e => rfl
        | ok x =>
          simp only []
          by_cases hx : x = 0
          · rw [if_pos hx, if_pos hx]
            rfl
          · rw [if_neg hx, if_neg hx]
            by_cases h64 : skip + x < 2 ^ 64
            · rw [if_pos h64, if_pos h64, ok_bind, ok_bind]
              exact ih st' t' buf _
            · rw [if_neg h64, if_neg h64]
              cases p with
              | debug => rfl
              | release => exact ih st' t' buf _
    · rw [if_neg he, if_neg he]
      rfl

theorem map_bind_untape {α β γ : Type} (x : R α) (f : α → β) (g : β → R γ) : (x.map f >>= g) = (x >>= fun a => g (f a)) := by
  cases x <;> rfl

end TsReader

/-- C128: keeping a record of the source's calls changes nothing else. -/
theorem C128_tape {σ : Type} (p : Profile) (rd : TsReadImpl σ) (fuel : Nat) (st : σ) (record) (packet : List UInt8) :
    TsReader.readOn p rd fuel st packet =
      (TsReader.readOn p (taped rd) fuel (st, record) packet).map fun r => ⟨r.res, r.buf, r.st.1⟩ := by
  unfold TsReader.readOn
  cases assert (packet.length ≥ Ts.PACKET_SIZE) with
  | error e => rfl
  | ok u =>
    simp only [ok_bind]
    rw [TsReader.sync_tape rd fuel st record packet, TsReader.map_bind_untape]
    cases TsReader.syncOn (taped rd) fuel (st, record) packet with
    | error e => rfl
    | ok l =>
      cases l with
      | ret r => rfl
      | done pk st' =>
        obtain ⟨st', t'⟩ := st'
        simp only [ok_bind, TsReader.untape]
        rw [TsReader.fill_tape p rd fuel st' t' pk 1, TsReader.map_bind_untape]
        cases TsReader.fillOn p (taped rd) fuel (st', t') pk 1 with
        | error e => rfl
        | ok l =>
          cases l with
          | ret r => rfl
          | done pk' st'' =>
            simp only [ok_bind, TsReader.untape]
            cases Ts.getPid pk' with
            | error e => rfl
            | ok v => rfl

namespace TsReader

theorem source_read_le (s : Source) (n : Nat) (bytes s') (h : s.read n = (.ok bytes, s')) : bytes.length ≤ n := by
  unfold Source.read at h
  split at h <;> simp only [Prod.mk.injEq, Except.ok.injEq, reduceCtorEq, false_and] at h
  · rw [← h.1]; simp
  · rw [← h.1]; simp
  · rw [← h.1]; simp

theorem source_part (s : Source) (packet : List UInt8) (a b : Nat) : readPart sourceRead s packet a b = s.readInto packet a b := by
  unfold readPart Source.readInto
  by_cases h : a ≤ b ∧ b ≤ packet.length
  · have ht : ∀ n ≤ b - a, (packet.take b).drop (a + n) ++ packet.drop b = packet.drop (a + n) := by
      intro n hn
      conv => rhs; rw [← List.take_append_drop b packet]
      rw [List.drop_append_of_le_length (by simp; omega)]
    rw [slice_ok h.1 h.2, ok_bind, ok_bind]
    unfold sourceRead
    cases hr : s.read ((packet.take b).drop a).length with
    | mk res s' =>
      cases res with
      | error e =>
        simp only [ok_bind, pure_eq_ok, Except.ok.injEq, ReadRes.mk.injEq, true_and, and_true]
        rw [List.append_assoc, show (packet.take b).drop a = (packet.take b).drop (a + 0) from rfl, ht 0 (by omega), Nat.add_zero, List.take_append_drop]
      | ok bytes =>
        have hl := source_read_le _ _ _ _ hr
        simp only [ok_bind, pure_eq_ok, Except.ok.injEq, ReadRes.mk.injEq, true_and, and_true]
        simp only [List.length_drop, List.length_take] at hl
        rw [List.drop_drop, List.append_assoc, List.append_assoc, ht _ (by omega), List.append_assoc]
  · have hs : slice packet a b = panic := by unfold slice; rw [if_neg h]
    rw [hs]
    rfl

/-- The end of a loop of the model of byte streams, as an end of the other. -/
def lift : LoopRes → LoopOn Source
  | .done packet src => .done packet src
  | .ret r => .ret r

theorem sync_source (fuel : Nat) (s : Source) (packet : List UInt8) : syncOn sourceRead fuel s packet = (syncLoop fuel s packet).map lift := by
  induction fuel generalizing s packet with
  | zero => rfl
  | succ fuel ih =>
    rw [syncOn, syncLoop, source_part]
    cases s.readInto packet 0 1 with
    | error e => rfl
    | ok r =>
      simp only [ok_bind]
      cases r.res with
      | error e => rfl
      | ok x =>
        simp only []
        by_cases hx : x = 0
        · rw [if_pos hx, if_pos hx]
          rfl
        · rw [if_neg hx, if_neg hx]
          cases Ts.isSync r.buf with
          | error e => rfl
          | ok b =>
            simp only [ok_bind]
            cases b with
            | true => rfl
            | false =>
              simp only [Bool.false_eq_true, if_false]
              exact ih _ _

theorem readInto_le (s : Source) (packet : List UInt8) (a b : Nat) (r) (x : Nat) (h : s.readInto packet a b = .ok r) (hx : r.res = .ok x) : x ≤ b - a := by
  unfold Source.readInto at h
  obtain ⟨t, ht, h⟩ := bind_eq_ok.1 h
  have htl : t.length ≤ b - a := by
    unfold slice at ht
    split at ht
    · simp only [Except.ok.injEq] at ht
      rw [← ht]
      simp
      omega
    · cases ht
  split at h
  · simp only [pure_eq_ok, Except.ok.injEq] at h
    subst h
    cases hx
  · next hr =>
    have := source_read_le _ _ _ _ hr
    simp only [pure_eq_ok, Except.ok.injEq] at h
    subst h
    simp only [Except.ok.injEq] at hx
    omega

theorem fill_source (p : Profile) (fuel : Nat) (s : Source) (packet : List UInt8) (skip : Nat) (hk : skip ≤ 188) :
    fillOn p sourceRead fuel s packet skip = (fillLoop fuel s packet skip).map lift := by
  induction fuel generalizing s packet skip with
  | zero => rfl
  | succ fuel ih =>
    have hP : Ts.PACKET_SIZE = 188 := rfl
    rw [fillOn, fillLoop]
    by_cases he : skip ≠ Ts.PACKET_SIZE
    · rw [if_pos he, if_pos he, source_part]
      cases hr : s.readInto packet skip Ts.PACKET_SIZE with
      | error e => rfl
      | ok r =>
        simp only [ok_bind]
        cases hres : r.res with
        | error e => rfl
        | ok x =>
          have hle := readInto_le _ _ _ _ _ _ hr hres
          simp only []
          by_cases hx : x = 0
          · rw [if_pos hx, if_pos hx]
            rfl
          · rw [if_neg hx, if_neg hx, if_pos (by omega)]
            exact ih _ _ _ (by omega)
    · rw [if_neg he, if_neg he]
      rfl

theorem sync_more {f g : Nat} (hfg : f ≤ g) (s : Source) (packet : List UInt8) (l) (h : syncLoop f s packet = .ok l) : syncLoop g s packet = .ok l := by
  induction f generalizing g s packet with
  | zero => cases h
  | succ f ih =>
    obtain ⟨g, rfl⟩ : ∃ n, g = n + 1 := ⟨g - 1, by omega⟩
    rw [syncLoop] at h ⊢
    obtain ⟨r, h1, h⟩ := bind_eq_ok.1 h
    rw [h1, ok_bind]
    cases hr : r.res with
    | error e => rw [hr] at h; exact h
    | ok x =>
      rw [hr] at h
      simp only [] at h ⊢
      by_cases hx : x = 0
      · rw [if_pos hx] at h ⊢
        exact h
      · rw [if_neg hx] at h ⊢
        obtain ⟨b, h2, h⟩ := bind_eq_ok.1 h
        rw [h2, ok_bind]
        cases b with
        | true => exact h
        | false => exact ih (by omega) _ _ h

theorem fill_more {f g : Nat} (hfg : f ≤ g) (s : Source) (packet : List UInt8) (skip : Nat) (l) (h : fillLoop f s packet skip = .ok l) :
    fillLoop g s packet skip = .ok l := by
  induction f generalizing g s packet skip with
  | zero => cases h
  | succ f ih =>
    obtain ⟨g, rfl⟩ : ∃ n, g = n + 1 := ⟨g - 1, by omega⟩
    rw [fillLoop] at h ⊢
    by_cases he : skip ≠ Ts.PACKET_SIZE
    · rw [if_pos he] at h ⊢
      obtain ⟨r, h1, h⟩ := bind_eq_ok.1 h
      rw [h1, ok_bind]
      cases hr : r.res with
      | error e => rw [hr] at h; exact h
      | ok x =>
        rw [hr] at h
        simp only [] at h ⊢
        by_cases hx : x = 0
        · rw [if_pos hx] at h ⊢
          exact h
        · rw [if_neg hx] at h ⊢
          exact ih (by omega) _ _ _ h
    · rw [if_neg he] at h ⊢
      exact h

end TsReader

/-- C128: the byte streams of C70 to C73 and C82 are sources that keep to the contract, and with them the reader does what those say. -/
theorem C128_source :
    HonestRead sourceRead ∧
      ∀ (p : Profile) (s : Source) (fuel : Nat) (packet : List UInt8), s.data.length < fuel → 188 < fuel →
        TsReader.readOn p sourceRead fuel s packet = TsReader.read s packet := by
  constructor
  · intro s buf
    unfold sourceRead
    cases hr : s.read buf.length with
    | mk res s' =>
      cases res with
      | error e => exact ⟨_, rfl, rfl, by simp [countOf], rfl⟩
      | ok bytes =>
        have hl := TsReader.source_read_le _ _ _ _ hr
        refine ⟨_, rfl, by simp; omega, hl, ?_⟩
        simp only [countOf]
        rw [List.drop_left]
  · intro p s fuel packet h1 h2
    have hP : Ts.PACKET_SIZE = 188 := rfl
    unfold TsReader.readOn TsReader.read
    by_cases hp : packet.length ≥ Ts.PACKET_SIZE
    · have ha : assert (packet.length ≥ Ts.PACKET_SIZE) = .ok () := by simp [assert, hp]
      rw [ha, ok_bind, ok_bind, TsReader.sync_source]
      have hs : ∃ l, TsReader.syncLoop (s.data.length + 1) s packet = .ok l ∧ ∀ pk s', l = .done pk s' → pk.length = packet.length := by
        rcases syncLoop_spec (s.data.length + 1) s packet (by omega) (by omega) with ⟨_, _, s', h, _⟩ | ⟨_, _, _, s', _, h, _⟩
        · refine ⟨_, h, ?_⟩
          intro pk s'' e
          cases e
          simp
          omega
        · exact ⟨_, h, fun _ _ e => by cases e⟩
      obtain ⟨l, hl, hl'⟩ := hs
      rw [TsReader.sync_more (by omega) s packet l hl, hl]
      simp only [Except.map, ok_bind]
      cases l with
      | ret r => rfl
      | done pk s' =>
        have hpk := hl' pk s' rfl
        simp only [TsReader.lift]
        rw [TsReader.fill_source p fuel s' pk 1 (by omega)]
        have hf : ∃ l, TsReader.fillLoop (Ts.PACKET_SIZE + 1) s' pk 1 = .ok l := by
          rcases fillLoop_spec (Ts.PACKET_SIZE + 1) s' pk 1 (by omega) (by omega) (by omega) with ⟨_, _, _, h, _⟩ | ⟨_, _, _, _, h, _⟩ <;> exact ⟨_, h⟩
        obtain ⟨l, hl⟩ := hf
        rw [TsReader.fill_more (by omega) s' pk 1 l hl, hl]
        simp only [Except.map, ok_bind]
        cases l with
        | ret r => rfl
        | done pk' s'' => rfl
    · have ha : assert (packet.length ≥ Ts.PACKET_SIZE) = panic := by simp [assert, hp]
      rw [ha]
      rfl

/-! ## Cases -/

/-- A source that fills every buffer with one byte. -/
def same (b : UInt8) : TsReadImpl Unit := fun _ buf => .ok ⟨.ok buf.length, List.replicate buf.length b, ()⟩

theorem same_honest (b : UInt8) : HonestRead (same b) := by
  intro st buf
  exact ⟨_, rfl, by simp, by simp [countOf], by simp [countOf]⟩

theorem same_stalls (n : Nat) (b : UInt8) (hb : b ≠ 0x47) : ∀ c : UInt8, Stalls (same b) n () [c] := by
  induction n with
  | zero => intro c; trivial
  | succ n ih => intro c; exact ⟨_, b, rfl, rfl, rfl, hb, ih b⟩

/-- A source of zeros keeps the reader busy for ever. -/
example (p : Profile) (fuel : Nat) (hf : 188 ≤ fuel) :
    TsReader.readOn p (same 0) fuel () (List.replicate 188 0) = .error .diverge :=
  (C128_endless p (same 0) (same_honest 0) fuel hf () _ (Nat.le_of_eq List.length_replicate.symm)).1.2 (same_stalls fuel 0 (by decide) 0)

/-- A source of sync bytes does not, and what the reader returns is what it returns for that byte stream. -/
example (p : Profile) : ∃ r, TsReader.readOn p (taped (same 0x47)) 188 ((), []) (List.replicate 188 0) = .ok r ∧
    ∀ more evs, TsReader.read (sourceOf r.st.2 more evs) (List.replicate 188 0) = .ok ⟨r.res, r.buf, ⟨more, evs⟩⟩ := by
  obtain ⟨r, h, -⟩ := (C128_endless p (same 0x47) (same_honest 0x47) 188 (by omega) () (List.replicate 188 0)
    (Nat.le_of_eq List.length_replicate.symm)).2 (by
    rintro ⟨r, b, h1, h2, h3, h4, -⟩
    simp only [same, Except.ok.injEq] at h1
    subst h1
    exact h4 (by simpa using h3.symm))
  rw [C128_tape p (same 0x47) 188 () [] (List.replicate 188 0)] at h
  cases hr : TsReader.readOn p (taped (same 0x47)) 188 ((), []) (List.replicate 188 0) with
  | error e => rw [hr] at h; cases h
  | ok r' => exact ⟨r', rfl, fun more evs => C128_any p (same 0x47) (same_honest 0x47) 188 () _ r' hr more evs⟩

/-- A claim of 200 bytes right after the sync byte, and 2 ^ 64 - 1 in a debug build: a panic. -/
example (p : Profile) : TsReader.readOn p scripted 2 [(1, [0x47]), (200, [1, 2, 3])] (List.replicate 188 0) = panic :=
  C128_overlong p [] (by simp) 200 [1, 2, 3] [] 0 (List.replicate 188 0) (Nat.le_of_eq List.length_replicate.symm) (by simp) (by simp) (by simp) (.inl (by simp))
example : TsReader.readOn .debug scripted 2 [(1, [0x47]), (2 ^ 64 - 1, [])] (List.replicate 188 0) = panic :=
  C128_overlong .debug [] (by simp) (2 ^ 64 - 1) [] [] 0 (List.replicate 188 0) (Nat.le_of_eq List.length_replicate.symm) (by simp) (by simp) (by simp) (.inr rfl)

/-- In a release build the reader then returns 188 zeros as a packet. -/
example : TsReader.readOn .release scripted 3 [(1, [0x47]), (2 ^ 64 - 1, []), (188, List.replicate 188 0)] (List.replicate 188 1) =
    .ok ⟨.ok 188, List.replicate 188 0, []⟩ := by
  have h := C128_lie_refuted [] (by simp) (2 ^ 64 - 1) [] [List.replicate 188 0]
    (fun b hb => by rw [List.mem_singleton.1 hb]; exact List.cons_ne_nil _ _) [] 0 (List.replicate 188 1) (Nat.le_of_eq List.length_replicate.symm) 0
    (by simp) (by simp) (by decide) (by simp) (by rw [List.flatten_singleton, List.length_replicate])
  rw [List.drop_of_length_le (Nat.le_of_eq List.length_replicate), List.flatten_singleton, List.append_nil, List.take_zero, List.nil_append,
    List.append_nil] at h
  rw [← h, told, told, List.map_cons, List.length_replicate]
  rfl

end Mpegts
