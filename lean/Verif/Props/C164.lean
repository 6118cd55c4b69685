import Verif.Spec.Stack
import Verif.Props.C128

/-! # C164: readers on drains -/

namespace Mpegts
open Spec

namespace Stacked

/-- One call of the source does not depend on what is in the buffer. -/
theorem part_same (s : Source) (a b : Nat) (hab : a ≤ b) : ∃ res st bytes, bytes.length ≤ b - a ∧ (∀ x, res = .ok x → x = bytes.length) ∧
    ((∃ e, res = .error e) → bytes = []) ∧
    ∀ packet : List UInt8, b ≤ packet.length →
      s.readInto packet a b = .ok ⟨res, packet.take a ++ bytes ++ packet.drop (a + bytes.length), st⟩ := by
  have hs : ∀ packet : List UInt8, b ≤ packet.length → slice packet a b = .ok ((packet.take b).drop a) ∧ ((packet.take b).drop a).length = b - a :=
    fun packet hb => ⟨slice_ok hab hb, by simp; omega⟩
  have hle : ∀ bytes s', s.read (b - a) = (.ok bytes, s') → bytes.length ≤ b - a := by
    intro bytes s' h
    unfold Source.read at h
    split at h
    · cases h; rw [List.length_take]; omega
    · cases h; rw [List.length_take]; omega
    · cases h; simp
    · cases h
  cases hr : s.read (b - a) with
  | mk out s' =>
    cases out with
    | error e =>
      refine ⟨.error e, s', [], by simp, by simp, fun _ => rfl, fun packet hb => ?_⟩
      rw [Source.readInto, (hs packet hb).1, ok_bind, (hs packet hb).2, hr]
      simp [pure_eq_ok]
    | ok bytes =>
      refine ⟨.ok bytes.length, s', bytes, hle _ _ hr, fun x h => by cases h; rfl, by simp, fun packet hb => ?_⟩
      rw [Source.readInto, (hs packet hb).1, ok_bind, (hs packet hb).2, hr]
      rfl

/-- A call that ends without a packet. -/
def Ends (res : Except IoError Nat) : Prop := res = .ok 0 ∨ ∃ e, res = .error e

theorem sync_same (fuel : Nat) (s : Source) :
    (∃ res st, Ends res ∧ ∀ packet : List UInt8, 188 ≤ packet.length → ∃ buf, TsReader.syncLoop fuel s packet = .ok (.ret ⟨res, buf, st⟩) ∧ buf.length = packet.length) ∨
    (∃ st, ∀ packet : List UInt8, 188 ≤ packet.length → TsReader.syncLoop fuel s packet = .ok (.done (0x47 :: packet.drop 1) st)) ∨
    (∀ packet : List UInt8, 188 ≤ packet.length → TsReader.syncLoop fuel s packet = .error .diverge) := by
  induction fuel generalizing s with
  | zero => exact .inr (.inr fun packet _ => rfl)
  | succ fuel ih =>
    obtain ⟨res, st, bytes, h1, h2, h3, h4⟩ := part_same s 0 1 (by omega)
    cases res with
    | error e =>
      refine .inl ⟨.error e, st, .inr ⟨e, rfl⟩, fun packet hp => ⟨_, by rw [TsReader.syncLoop, h4 packet (by omega)]; rfl, ?_⟩⟩
      rw [h3 ⟨e, rfl⟩]; simp
    | ok x =>
      have hx := h2 x rfl
      by_cases h0 : x = 0
      · refine .inl ⟨.ok 0, st, .inl rfl, fun packet hp => ⟨_, by rw [TsReader.syncLoop, h4 packet (by omega), ok_bind]; simp only [if_pos h0]; rfl, ?_⟩⟩
        rw [show bytes = [] from List.eq_nil_of_length_eq_zero (by omega)]; simp
      · obtain ⟨b, rfl⟩ : ∃ b, bytes = [b] := List.length_eq_one_iff.1 (by omega)
        have hstep : ∀ packet : List UInt8, 188 ≤ packet.length → TsReader.syncLoop (fuel + 1) s packet =
            if b = 0x47 then .ok (.done (b :: packet.drop 1) st) else TsReader.syncLoop fuel st (b :: packet.drop 1) := by
          intro packet hp
          rw [TsReader.syncLoop, h4 packet (by omega), ok_bind]
          simp only [if_neg h0, List.take_zero, List.nil_append, List.length_singleton, Nat.zero_add, List.singleton_append]
          by_cases hb : b = 0x47
          · rw [if_pos hb, hb]; rfl
          · rw [if_neg hb, TsReader.isSync_eq (by simp)]
            simp [hb, ok_bind]
        by_cases hb : b = 0x47
        · exact .inr (.inl ⟨st, fun packet hp => by rw [hstep packet hp, if_pos hb, hb]⟩)
        · rcases ih st with ⟨res, st', he, h⟩ | ⟨st', h⟩ | h
          · refine .inl ⟨res, st', he, fun packet hp => ?_⟩
            obtain ⟨buf, g1, g2⟩ := h (b :: packet.drop 1) (by simp; omega)
            exact ⟨buf, by rw [hstep packet hp, if_neg hb, g1], by rw [g2]; simp; omega⟩
          · exact .inr (.inl ⟨st', fun packet hp => by rw [hstep packet hp, if_neg hb, h _ (by simp; omega)]; simp⟩)
          · exact .inr (.inr fun packet hp => by rw [hstep packet hp, if_neg hb, h _ (by simp; omega)])

theorem fill_same (fuel : Nat) (s : Source) (g : List UInt8) (hg : g.length ≤ 188) :
    (∃ res st, Ends res ∧ ∀ packet : List UInt8, 188 ≤ packet.length → packet.take g.length = g →
      ∃ buf, TsReader.fillLoop fuel s packet g.length = .ok (.ret ⟨res, buf, st⟩) ∧ buf.length = packet.length) ∨
    (∃ st g', g'.length = 188 ∧ g'.take g.length = g ∧ ∀ packet : List UInt8, 188 ≤ packet.length → packet.take g.length = g →
      TsReader.fillLoop fuel s packet g.length = .ok (.done (g' ++ packet.drop 188) st)) ∨
    (∀ packet : List UInt8, 188 ≤ packet.length → packet.take g.length = g → TsReader.fillLoop fuel s packet g.length = .error .diverge) := by
  induction fuel generalizing s g with
  | zero => exact .inr (.inr fun packet _ _ => rfl)
  | succ fuel ih =>
    by_cases hk : g.length = 188
    · refine .inr (.inl ⟨s, g, hk, by simp, fun packet hp ht => ?_⟩)
      rw [TsReader.fillLoop, if_neg (by simp [hk, Ts.PACKET_SIZE])]
      rw [hk] at ht
      conv => lhs; rw [← List.take_append_drop 188 packet, ht]
    obtain ⟨res, st, bytes, h1, h2, h3, h4⟩ := part_same s g.length 188 hg
    have hstep : ∀ packet : List UInt8, TsReader.fillLoop (fuel + 1) s packet g.length = (do
        let r ← s.readInto packet g.length 188
        match r.res with
        | .error e => return .ret ⟨.error e, r.buf, r.st⟩
        | .ok x =>
          if x = 0 then return .ret ⟨.ok 0, r.buf, r.st⟩
          TsReader.fillLoop fuel r.st r.buf (g.length + x)) := by
      intro packet
      rw [TsReader.fillLoop, if_pos (by simpa [Ts.PACKET_SIZE] using hk)]; rfl
    cases res with
    | error e =>
      refine .inl ⟨.error e, st, .inr ⟨e, rfl⟩, fun packet hp ht => ⟨_, by rw [hstep, h4 packet hp]; rfl, ?_⟩⟩
      rw [h3 ⟨e, rfl⟩]; simp
    | ok x =>
      have hx := h2 x rfl
      by_cases h0 : x = 0
      · refine .inl ⟨.ok 0, st, .inl rfl, fun packet hp ht => ⟨_, by rw [hstep, h4 packet hp, ok_bind]; simp only [if_pos h0]; rfl, ?_⟩⟩
        rw [show bytes = [] from List.eq_nil_of_length_eq_zero (by omega)]; simp
      · have hgb : (g ++ bytes).length = g.length + x := by simp; omega
        have hs' : ∀ packet : List UInt8, 188 ≤ packet.length → packet.take g.length = g →
            TsReader.fillLoop (fuel + 1) s packet g.length =
              TsReader.fillLoop fuel st (g ++ bytes ++ packet.drop (g.length + bytes.length)) (g ++ bytes).length := by
          intro packet hp ht
          rw [hstep, h4 packet hp, ok_bind]
          simp only [if_neg h0, hgb, ht]
        have hnew : ∀ packet : List UInt8, 188 ≤ packet.length → 188 ≤ (g ++ bytes ++ packet.drop (g.length + bytes.length)).length ∧
            (g ++ bytes ++ packet.drop (g.length + bytes.length)).length = packet.length ∧
            (g ++ bytes ++ packet.drop (g.length + bytes.length)).take (g ++ bytes).length = g ++ bytes ∧
            (g ++ bytes ++ packet.drop (g.length + bytes.length)).drop 188 = packet.drop 188 := by
          intro packet hp
          have hl : (g ++ bytes ++ packet.drop (g.length + bytes.length)).length = packet.length := by simp; omega
          refine ⟨by omega, hl, List.take_left, ?_⟩
          rw [List.drop_append, List.drop_eq_nil_of_le (by simp; omega), List.nil_append, List.drop_drop]
          congr 1
          simp; omega
        rcases ih st (g ++ bytes) (by omega) with ⟨res, st', he, h⟩ | ⟨st', g', k1, k2, h⟩ | h
        · refine .inl ⟨res, st', he, fun packet hp ht => ?_⟩
          obtain ⟨n1, n2, n3, n4⟩ := hnew packet hp
          obtain ⟨buf, e1, e2⟩ := h _ n1 n3
          exact ⟨buf, by rw [hs' packet hp ht, e1], by rw [e2, n2]⟩
        · refine .inr (.inl ⟨st', g', k1, ?_, fun packet hp ht => ?_⟩)
          · have := congrArg (List.take g.length) k2
            rwa [List.take_take, List.take_left, Nat.min_eq_left (by simp)] at this
          · obtain ⟨n1, n2, n3, n4⟩ := hnew packet hp
            rw [hs' packet hp ht, h _ n1 n3, n4]
        · refine .inr (.inr fun packet hp ht => ?_)
          obtain ⟨n1, n2, n3, n4⟩ := hnew packet hp
          rw [hs' packet hp ht, h _ n1 n3]

/-- What two packet readers have in common when they cannot be told apart: whatever is in the buffers, related states give the same results and
bytes and related states again; a packet begins with the sync byte. -/
def Alike {σ τ : Type} (rd : TsReadImpl σ) (rd' : TsReadImpl τ) (rel : σ → τ → Prop) : Prop :=
  ∀ st st', rel st st' → ∀ b b' : List UInt8, 188 ≤ b.length → 188 ≤ b'.length → ∃ r r', rd st b = .ok r ∧ rd' st' b' = .ok r' ∧
    r.buf.length = b.length ∧ r.res = r'.res ∧ got r = got r' ∧ rel r.st r'.st ∧
    (Ends r.res ∨ (r.res = .ok 188 ∧ (got r).head? = some 0x47))

theorem reader_alike : Alike TsReader.read TsReader.read Eq := by
  rintro s _ rfl b b' hb hb'
  have hread : ∀ packet : List UInt8, 188 ≤ packet.length → TsReader.read s packet = (do
      match ← TsReader.syncLoop (s.data.length + 1) s packet with
      | .ret r => return r
      | .done packet src =>
        match ← TsReader.fillLoop 189 src packet 1 with
        | .ret r => return r
        | .done packet src =>
          let _ ← Ts.getPid packet
          return ⟨.ok 188, packet, src⟩) := by
    intro packet hp
    rw [TsReader.read]
    have : assert (packet.length ≥ Ts.PACKET_SIZE) = .ok () := by
      rw [assert, if_pos]; simpa [Ts.PACKET_SIZE] using hp
    rw [this, ok_bind]; rfl
  obtain ⟨r0, -, -, -, hok, -⟩ := C72_outcome s b hb
  rcases sync_same (s.data.length + 1) s with ⟨res, st, he, h⟩ | ⟨st, h⟩ | h
  · obtain ⟨buf, g1, g2⟩ := h b hb
    obtain ⟨buf', g1', g2'⟩ := h b' hb'
    refine ⟨⟨res, buf, st⟩, ⟨res, buf', st⟩, by rw [hread b hb, g1]; rfl, by rw [hread b' hb', g1']; rfl, g2, rfl, ?_, rfl, .inl he⟩
    rcases he with rfl | ⟨e, rfl⟩ <;> rfl
  · have h1 : ∀ packet : List UInt8, 188 ≤ packet.length → 188 ≤ (0x47 :: packet.drop 1 : List UInt8).length ∧
        (0x47 :: packet.drop 1 : List UInt8).take ([0x47] : List UInt8).length = [0x47] ∧
        (0x47 :: packet.drop 1 : List UInt8).drop 188 = packet.drop 188 ∧ (0x47 :: packet.drop 1 : List UInt8).length = packet.length := by
      intro packet hp
      refine ⟨by simp; omega, rfl, by simp, by simp; omega⟩
    rcases fill_same 189 st [0x47] (by decide) with ⟨res, st', he, k⟩ | ⟨st', g', k1, k2, k⟩ | k
    · obtain ⟨buf, g1, g2⟩ := k _ (h1 b hb).1 (h1 b hb).2.1
      obtain ⟨buf', g1', g2'⟩ := k _ (h1 b' hb').1 (h1 b' hb').2.1
      simp only [List.length_singleton] at g1 g1'
      refine ⟨⟨res, buf, st'⟩, ⟨res, buf', st'⟩, ?_, ?_, by rw [g2]; exact (h1 b hb).2.2.2, rfl, ?_, rfl, .inl he⟩
      · rw [hread b hb, h b hb]; simp only [ok_bind, g1]; rfl
      · rw [hread b' hb', h b' hb']; simp only [ok_bind, g1']; rfl
      · rcases he with rfl | ⟨e, rfl⟩ <;> rfl
    · have g1 := k _ (h1 b hb).1 (h1 b hb).2.1
      have g1' := k _ (h1 b' hb').1 (h1 b' hb').2.1
      rw [(h1 b hb).2.2.1] at g1
      rw [(h1 b' hb').2.2.1] at g1'
      simp only [List.length_singleton] at g1 g1' k2
      have hpid : ∀ l : List UInt8, ∃ q, Ts.getPid (g' ++ l) = .ok q := by
        intro l
        obtain ⟨hd, hv, he⟩ := header_complete (g' ++ l) (by simp; omega)
        rw [he]
        obtain ⟨-, -, -, ⟨q, h4, -⟩, -⟩ := C04_header_fields hd hv ((g' ++ l).drop 4)
        exact ⟨q, h4⟩
      obtain ⟨q, hq⟩ := hpid (b.drop 188)
      obtain ⟨q', hq'⟩ := hpid (b'.drop 188)
      refine ⟨⟨.ok 188, g' ++ b.drop 188, st'⟩, ⟨.ok 188, g' ++ b'.drop 188, st'⟩, ?_, ?_, by simp; omega, rfl, ?_, rfl, .inr ⟨rfl, ?_⟩⟩
      · rw [hread b hb, h b hb]; simp only [ok_bind, g1, hq]; rfl
      · rw [hread b' hb', h b' hb']; simp only [ok_bind, g1', hq']; rfl
      · simp [got, ← k1]
      · simp only [got, ← k1, List.take_left]
        cases g' with
        | nil => simp at k1
        | cons x l => simp at k2; simp [k2]
    · rw [hread b hb, h b hb] at hok
      simp only [ok_bind] at hok
      have := k _ (h1 b hb).1 (h1 b hb).2.1
      simp only [List.length_singleton] at this
      rw [this] at hok
      cases hok
  · rw [hread b hb, h b hb] at hok
    cases hok

/-- A reader on a drain on a packet reader is like that packet reader. -/
theorem step_alike {σ τ : Type} (p : Profile) (rd : TsReadImpl σ) (rd' : TsReadImpl τ) (rel : σ → τ → Prop) (h : Alike rd rd' rel) (fuel : Nat)
    (hf : 2 ≤ fuel) : Alike (TsReader.readOn p (fun (d : TsDrain σ) buf => d.read rd buf) fuel) rd'
      (fun d st => d.pos = 0 ∧ d.buf.length = 188 ∧ rel d.inner st) := by
  rintro ⟨inner, dbuf, pos⟩ st' ⟨rfl, hd, hrel⟩ b b' hb hb'
  dsimp only at hd hrel
  obtain ⟨r, r', h1, h2, h3, h4, h5, h6, h7⟩ := h inner st' hrel dbuf b' (by omega) hb'
  obtain ⟨fuel, rfl⟩ : ∃ n, fuel = n + 2 := ⟨fuel - 2, by omega⟩
  obtain ⟨c, cs, rfl⟩ : ∃ c cs, b = c :: cs := by
    cases b with
    | nil => simp at hb
    | cons c cs => exact ⟨c, cs, rfl⟩
  have hass : assert ((c :: cs).length ≥ Ts.PACKET_SIZE) = .ok () := by
    rw [assert, if_pos]; simpa [Ts.PACKET_SIZE] using hb
  have hslice : slice (c :: cs) 0 1 = .ok [c] := by rw [slice_ok (by omega) (by simp)]; rfl
  rcases h7 with he | ⟨hr, hhead⟩
  · have hdr : TsDrain.read rd (⟨inner, dbuf, 0⟩ : TsDrain σ) [c] = .ok ⟨r.res, [c], ⟨r.st, r.buf, 0⟩⟩ := by
      rw [TsDrain.read, if_pos rfl, if_neg (by simp [Ts.PACKET_SIZE])]
      rw [h1, ok_bind]
      rcases he with he | ⟨e, he⟩ <;> simp only [he] <;> rfl
    refine ⟨⟨r.res, c :: cs, ⟨r.st, r.buf, 0⟩⟩, r', ?_, h2, rfl, h4, ?_, ⟨rfl, h3.trans hd, h6⟩, .inl he⟩
    · rw [TsReader.readOn, hass, ok_bind, TsReader.syncOn, TsReader.readPart, hslice]
      simp only [ok_bind, hdr, pure_eq_ok]
      rcases he with he | ⟨e, he⟩ <;> simp [he, ok_bind]
    · rw [← h5, got, got]
      rcases he with he | ⟨e, he⟩ <;> simp [he]
  · obtain ⟨t, ht⟩ : ∃ t, r.buf = 0x47 :: t := by
      cases hbuf : r.buf with
      | nil => rw [hbuf] at h3; simp at h3; omega
      | cons x l => rw [got, hr, hbuf] at hhead; simp at hhead; exact ⟨l, by rw [hhead]⟩
    have htl : t.length = 187 := by have := h3; rw [ht, List.length_cons] at this; omega
    have hdr : TsDrain.read rd (⟨inner, dbuf, 0⟩ : TsDrain σ) [c] = .ok ⟨.ok 1, [0x47], ⟨r.st, r.buf, 1⟩⟩ := by
      rw [TsDrain.read, if_pos rfl, if_neg (by simp [Ts.PACKET_SIZE])]
      rw [h1, ok_bind]
      simp only [hr]
      rw [if_neg (by decide), TsDrain.copyOut, ht]
      simp [sliceFrom, ok_bind, pure_eq_ok, Ts.PACKET_SIZE]
    have hslice2 : slice (0x47 :: cs) 1 188 = .ok (cs.take 187) := by rw [slice_ok (by omega) (by simpa using hb)]; rfl
    have hcs : (cs.take 187).length = 187 := by rw [List.length_take]; simp at hb; omega
    have hdr2 : TsDrain.read rd (⟨r.st, r.buf, 1⟩ : TsDrain σ) (cs.take 187) = .ok ⟨.ok 187, t, ⟨r.st, r.buf, 0⟩⟩ := by
      rw [TsDrain.read, if_neg (by simp), TsDrain.copyOut]
      simp only [ht, sliceFrom_succ, sliceFrom_zero, ok_bind, htl, hcs, pure_eq_ok, Nat.min_self]
      rw [List.take_of_length_le (by omega), List.drop_eq_nil_of_le (by omega), List.append_nil]
      rfl
    have hpid : ∃ q, Ts.getPid (0x47 :: t ++ cs.drop 187) = .ok q := by
      obtain ⟨hd, hv, he⟩ := header_complete (0x47 :: t ++ cs.drop 187) (by simp; omega)
      rw [he]
      obtain ⟨-, -, -, ⟨q, h4, -⟩, -⟩ := C04_header_fields hd hv ((0x47 :: t ++ cs.drop 187).drop 4)
      exact ⟨q, h4⟩
    obtain ⟨q, hq⟩ := hpid
    refine ⟨⟨.ok 188, 0x47 :: t ++ cs.drop 187, ⟨r.st, r.buf, 0⟩⟩, r', ?_, h2, by simp at hb ⊢; omega, by rw [← h4, hr], ?_, ⟨rfl, h3.trans hd, h6⟩,
      .inr ⟨rfl, by simp [got]⟩⟩
    · rw [TsReader.readOn, hass, ok_bind, TsReader.syncOn, TsReader.readPart, hslice]
      simp only [ok_bind, hdr, pure_eq_ok]
      have e1 : List.take 0 (c :: cs) ++ [0x47] ++ List.drop 1 (c :: cs) = 0x47 :: cs := rfl
      rw [e1, if_neg (by decide), TsReader.isSync_eq (by simp), ok_bind, if_pos (by rfl)]
      simp only [ok_bind, TsReader.fillOn, TsReader.readPart, Ts.PACKET_SIZE, hslice2, hdr2, pure_eq_ok]
      have e2 : List.take 1 (0x47 :: cs) ++ t ++ List.drop 188 (0x47 :: cs) = 0x47 :: t ++ cs.drop 187 := rfl
      simp only [e2]
      simp only [List.cons_append] at hq ⊢
      simp [hq, ok_bind]
    · rw [← h5, got, got, hr, ht]
      simp [← htl]

theorem reports_alike {σ τ : Type} (rd : TsReadImpl σ) (rd' : TsReadImpl τ) (rel : σ → τ → Prop) (h1 : Alike rd rd' rel)
    (bufs bufs' : List (List UInt8)) (hb : ∀ b ∈ bufs, 188 ≤ b.length) (hb' : ∀ b ∈ bufs', 188 ≤ b.length) (hl : bufs.length = bufs'.length)
    (st : σ) (st' : τ) (h2 : rel st st') : ∃ l, reports rd st bufs = .ok l ∧ reports rd' st' bufs' = .ok l := by
  induction bufs generalizing st st' bufs' with
  | nil =>
    obtain rfl : bufs' = [] := by cases bufs' <;> simp_all
    exact ⟨[], rfl, rfl⟩
  | cons b bufs ih =>
    cases bufs' with
    | nil => simp at hl
    | cons b' bufs' =>
      obtain ⟨r, r', g1, g2, -, g4, g5, g6, -⟩ := h1 st st' h2 b b' (hb b (by simp)) (hb' b' (by simp))
      obtain ⟨l, k1, k2⟩ := ih bufs' (fun x hx => hb x (List.mem_cons_of_mem _ hx)) (fun x hx => hb' x (List.mem_cons_of_mem _ hx))
        (by simpa using hl) r.st r'.st g6
      exact ⟨(r.res, got r) :: l, by rw [reports, g1, ok_bind, k1]; rfl, by rw [reports, g2, ok_bind, k2, g4, g5]; rfl⟩

theorem stack_alike (p : Profile) (fuel : Nat) (hf : 2 ≤ fuel) (garbage : Nat → Nat → UInt8) (src : Source) (n : Nat) :
    ∃ rel : Stack n → Source → Prop, Alike (stackRead p fuel n) TsReader.read rel ∧ rel (stackNew garbage src n) src := by
  induction n with
  | zero => exact ⟨Eq, reader_alike, rfl⟩
  | succ n ih =>
    obtain ⟨rel, h1, h2⟩ := ih
    exact ⟨_, step_alike p _ _ rel h1 fuel hf, rfl, by simp [stackNew, TsDrain.new, Ts.PACKET_SIZE], h2⟩

end Stacked

/-- C164: whatever the source does (short reads, pauses, errors), any number of readers on drains on a reader report, call by call, exactly what
the innermost reader alone reports: the same results and the same bytes, whatever the memory of the drains and the buffers contained. -/
theorem C164_stack (p : Profile) (n : Nat) (garbage : Nat → Nat → UInt8) (src : Source) (fuel : Nat) (hf : 2 ≤ fuel)
    (bufs bufs' : List (List UInt8)) (hb : ∀ b ∈ bufs, 188 ≤ b.length) (hb' : ∀ b ∈ bufs', 188 ≤ b.length) (hl : bufs.length = bufs'.length) :
    ∃ l, reports (stackRead p fuel n) (stackNew garbage src n) bufs = .ok l ∧ reports TsReader.read src bufs' = .ok l := by
  obtain ⟨rel, h1, h2⟩ := Stacked.stack_alike p fuel hf garbage src n
  exact Stacked.reports_alike _ _ rel h1 bufs bufs' hb hb' hl _ _ h2

/-- C164: over a source that keeps delivering, the calls report the packets of the stream one by one, each as 188 bytes, and `Ok(0)` from then
on, at whatever depth. -/
theorem C164_packets (p : Profile) (n : Nat) (garbage : Nat → Nat → UInt8) (src : Source) (hs : Steady src) (fuel : Nat) (hf : 2 ≤ fuel)
    (bufs : List (List UInt8)) (hb : ∀ b ∈ bufs, 188 ≤ b.length) :
    reports (stackRead p fuel n) (stackNew garbage src n) bufs =
      .ok (((packetsOf src.data).map fun pk => ((.ok 188 : Except IoError Nat), pk)) ++ List.replicate bufs.length ((.ok 0 : Except IoError Nat), []) |>.take bufs.length) := by
  obtain ⟨l, h1, h2⟩ := C164_stack p n garbage src fuel hf bufs bufs hb hb rfl
  rw [h1]
  clear h1
  rw [← h2]
  clear h2 l
  induction bufs generalizing src with
  | nil => simp [reports]
  | cons b bufs ih =>
    have hb1 := hb b (by simp)
    have ih := fun src hs => ih src hs (fun x hx => hb x (List.mem_cons_of_mem _ hx))
    have hread := C70_read src hs b hb1
    rw [packetsOf]
    split
    · next h =>
      obtain ⟨buf', evs, hr, -, he⟩ := hread.2 h
      rw [reports, hr, ok_bind]
      simp only [ih ⟨[], evs⟩ he, ok_bind, pure_eq_ok]
      rw [packetsOf]
      split
      · simp [got, List.replicate_succ]
      · next h => simp [nextPacket] at h
    · next pk rest h =>
      obtain ⟨evs, hr, he⟩ := hread.1 pk rest h
      have hl : pk.length = 188 := by
        simp only [nextPacket] at h
        split at h
        · cases h; rw [List.length_take]; omega
        · cases h
      rw [reports, hr, ok_bind]
      simp only [ih ⟨rest, evs⟩ he, ok_bind, pure_eq_ok]
      simp only [got, List.map_cons, List.cons_append, List.length_cons, List.take_succ_cons]
      rw [show (pk ++ b.drop 188).take 188 = pk by rw [← hl, List.take_left]]
      rw [List.replicate_succ']
      congr 2
      rw [← List.append_assoc]
      exact (List.take_append_of_le_length (by simp)).symm

namespace Stacked

theorem copyOut_alike {σ τ : Type} (d : TsDrain σ) (d' : TsDrain τ) (hp : d.pos = d'.pos) (hlt : d.pos < 188) (hb : d.buf = d'.buf)
    (hl : d.buf.length = 188) (b b' : List UInt8) (hbb : b.length = b'.length) :
    ∃ r r', d.copyOut b = .ok r ∧ d'.copyOut b' = .ok r' ∧ r.res = r'.res ∧ got r = got r' ∧ r.st.pos = r'.st.pos ∧ r.st.pos < 188 ∧
      r.st.buf = d.buf ∧ r'.st.buf = d.buf ∧ r.st.inner = d.inner ∧ r'.st.inner = d'.inner := by
  refine ⟨_, _, by rw [TsDrain.copyOut, sliceFrom_ok (by omega)]; rfl, by rw [TsDrain.copyOut, sliceFrom_ok (by rw [← hb]; omega)]; rfl, ?_, ?_, ?_, ?_, rfl,
    hb.symm, rfl, rfl⟩
  · simp only [hb, hp, hbb]
  · simp only [got, hb, hp, hbb]
    rw [List.take_left' (by rw [List.length_take]; omega), List.take_left' (by rw [List.length_take]; omega)]
  · simp only [hb, hp, hbb]
  · exact Nat.mod_lt _ (by decide)

/-- Drains on packet readers that cannot be told apart cannot be told apart. -/
theorem drain_alike {σ τ : Type} (rd : TsReadImpl σ) (rd' : TsReadImpl τ) (rel : σ → τ → Prop) (h : Alike rd rd' rel)
    (hlen : ∀ st b r, 188 ≤ b.length → rd' st b = .ok r → r.buf.length = b.length)
    (bufs bufs' : List (List UInt8)) (hl : bufs.map List.length = bufs'.map List.length) (d : TsDrain σ) (d' : TsDrain τ)
    (hp : d.pos = d'.pos) (hlt : d.pos < 188) (hb : d.pos ≠ 0 → d.buf = d'.buf) (hl1 : d.buf.length = 188) (hl2 : d'.buf.length = 188)
    (hr : rel d.inner d'.inner) :
    ∃ l, reports (fun d b => TsDrain.read rd d b) d bufs = .ok l ∧ reports (fun d b => TsDrain.read rd' d b) d' bufs' = .ok l := by
  induction bufs generalizing d d' bufs' with
  | nil =>
    obtain rfl : bufs' = [] := by cases bufs' <;> simp_all
    exact ⟨[], rfl, rfl⟩
  | cons b bufs ih =>
    cases bufs' with
    | nil => simp at hl
    | cons b' bufs' =>
      simp only [List.map_cons, List.cons.injEq] at hl
      obtain ⟨hbb, hl⟩ := hl
      suffices hs : ∃ r r', TsDrain.read rd d b = .ok r ∧ TsDrain.read rd' d' b' = .ok r' ∧ r.res = r'.res ∧ got r = got r' ∧
          r.st.pos = r'.st.pos ∧ r.st.pos < 188 ∧ (r.st.pos ≠ 0 → r.st.buf = r'.st.buf) ∧ r.st.buf.length = 188 ∧ r'.st.buf.length = 188 ∧
          rel r.st.inner r'.st.inner by
        obtain ⟨r, r', g1, g2, g3, g4, g5, g6, g7, g8, g9, g10⟩ := hs
        obtain ⟨l, k1, k2⟩ := ih bufs' hl r.st r'.st g5 g6 g7 g8 g9 g10
        exact ⟨(r.res, got r) :: l, by rw [reports, g1, ok_bind, k1]; rfl, by rw [reports, g2, ok_bind, k2, g3, g4]; rfl⟩
      by_cases h0 : d.pos = 0
      · by_cases hbig : 188 ≤ b.length
        · obtain ⟨r, r', e1, e2, e3, e4, e5, e6, -⟩ := h d.inner d'.inner hr b b' hbig (by omega)
          refine ⟨⟨r.res, r.buf, { d with inner := r.st }⟩, ⟨r'.res, r'.buf, { d' with inner := r'.st }⟩, ?_, ?_, e4, e5, hp, hlt, hb, hl1, hl2, e6⟩
          · rw [TsDrain.read, if_pos h0, if_pos (by simpa [Ts.PACKET_SIZE] using hbig), e1]; rfl
          · rw [TsDrain.read, if_pos (hp ▸ h0), if_pos (by simp only [Ts.PACKET_SIZE]; omega), e2]; rfl
        · obtain ⟨r, r', e1, e2, e3, e4, e5, e6, e7⟩ := h d.inner d'.inner hr d.buf d'.buf (by omega) (by omega)
          have e3' := hlen _ _ _ (by omega) e2
          have hd : TsDrain.read rd d b = (match r.res with
              | .error e => .ok ⟨.error e, b, { d with inner := r.st, buf := r.buf }⟩
              | .ok x => if x = 0 then .ok ⟨.ok 0, b, { d with inner := r.st, buf := r.buf }⟩
                else TsDrain.copyOut { d with inner := r.st, buf := r.buf } b) := by
            rw [TsDrain.read, if_pos h0, if_neg (by simp only [Ts.PACKET_SIZE]; omega), e1]; rfl
          have hd' : TsDrain.read rd' d' b' = (match r'.res with
              | .error e => .ok ⟨.error e, b', { d' with inner := r'.st, buf := r'.buf }⟩
              | .ok x => if x = 0 then .ok ⟨.ok 0, b', { d' with inner := r'.st, buf := r'.buf }⟩
                else TsDrain.copyOut { d' with inner := r'.st, buf := r'.buf } b') := by
            rw [TsDrain.read, if_pos (hp ▸ h0), if_neg (by simp only [Ts.PACKET_SIZE]; omega), e2]; rfl
          rw [hd, hd', ← e4]
          rcases e7 with (he | ⟨e, he⟩) | ⟨he, -⟩
          · rw [he]
            exact ⟨_, _, rfl, rfl, rfl, by simp [got], hp, hlt, fun hn => absurd h0 hn, e3.trans hl1, e3'.trans hl2, e6⟩
          · rw [he]
            exact ⟨_, _, rfl, rfl, rfl, by simp [got], hp, hlt, fun hn => absurd h0 hn, e3.trans hl1, e3'.trans hl2, e6⟩
          · have hbuf : r.buf = r'.buf := by
              rw [got, got, ← e4, he] at e5
              dsimp only at e5
              rwa [List.take_of_length_le (by omega), List.take_of_length_le (by omega)] at e5
            rw [he]
            obtain ⟨q, q', f1, f2, f3, f4, f5, f6, f7, f8, f9, f10⟩ := copyOut_alike ({ d with inner := r.st, buf := r.buf } : TsDrain σ)
              ({ d' with inner := r'.st, buf := r'.buf } : TsDrain τ) hp hlt hbuf (e3.trans hl1) b b' hbb
            refine ⟨q, q', by simpa using f1, by simpa using f2, f3, f4, f5, f6, fun _ => f7.trans f8.symm, by rw [f7]; exact e3.trans hl1,
              by rw [f8]; exact e3.trans hl1, by rw [f9, f10]; exact e6⟩
      · obtain ⟨q, q', f1, f2, f3, f4, f5, f6, f7, f8, f9, f10⟩ := copyOut_alike d d' hp hlt (hb h0) hl1 b b' hbb
        refine ⟨q, q', by rw [TsDrain.read, if_neg h0, f1], by rw [TsDrain.read, if_neg (hp ▸ h0), f2], f3, f4, f5, f6, fun _ => f7.trans f8.symm,
          by rw [f7, hl1], by rw [f8, hl1], by rw [f9, f10]; exact hr⟩

end Stacked

/-- C164: a drain on any number of readers on drains hands out, call by call and for buffers of any sizes, exactly what a drain on the innermost
reader alone hands out.  (At depth 0: neither the uninitialised memory nor the contents of the buffers have an effect.) -/
theorem C164_drain (p : Profile) (n : Nat) (garbage garbage' : Nat → Nat → UInt8) (src : Source) (fuel : Nat) (hf : 2 ≤ fuel)
    (bufs bufs' : List (List UInt8)) (hl : bufs.map List.length = bufs'.map List.length) :
    ∃ l, reports (fun d b => TsDrain.read (stackRead p fuel n) d b) (TsDrain.new (stackNew garbage src n) (garbage n)) bufs = .ok l ∧
      reports (fun d b => TsDrain.read TsReader.read d b) (TsDrain.new src (garbage' 0)) bufs' = .ok l := by
  obtain ⟨rel, h1, h2⟩ := Stacked.stack_alike p fuel hf garbage src n
  refine Stacked.drain_alike _ _ rel h1 ?_ bufs bufs' hl _ _ rfl (by simp [TsDrain.new]) (by simp [TsDrain.new])
    (by simp [TsDrain.new, Ts.PACKET_SIZE]) (by simp [TsDrain.new, Ts.PACKET_SIZE]) h2
  intro st b r hb hr
  obtain ⟨r0, -, -, -, hok, -, -, -, hlen, -⟩ := C72_outcome st b hb
  rw [hr] at hok
  cases hok
  exact hlen

namespace Stacked

theorem plain_alike {σ : Type} (rd : TsReadImpl σ) (h : PlainTsRead rd) : Alike rd rd Eq := by
  rintro st _ rfl b b' hb hb'
  obtain ⟨res, bytes, st', hc, h1⟩ := h st
  obtain ⟨r, e1, e2, e3, e4, e5⟩ := h1 b hb
  obtain ⟨r', f1, f2, f3, f4, f5⟩ := h1 b' hb'
  refine ⟨r, r', e1, f1, e5, e2.trans f2.symm, e3.trans f3.symm, e4.trans f4.symm, ?_⟩
  rw [e2, e3]
  rcases hc with ⟨h1, -, h2⟩ | ⟨h1, -⟩ | ⟨h1, -⟩
  · exact .inr ⟨h1, h2⟩
  · exact .inl (.inl h1)
  · exact .inl (.inr h1)

end Stacked

/-- C164: a reader on a drain on a user's own packet source reports, call by call, what the source itself reports. -/
theorem C164_own {σ : Type} (p : Profile) (rd : TsReadImpl σ) (h : PlainTsRead rd) (st : σ) (garbage : Nat → UInt8) (fuel : Nat) (hf : 2 ≤ fuel)
    (bufs bufs' : List (List UInt8)) (hb : ∀ b ∈ bufs, 188 ≤ b.length) (hb' : ∀ b ∈ bufs', 188 ≤ b.length) (hl : bufs.length = bufs'.length) :
    ∃ l, reports (TsReader.readOn p (fun (d : TsDrain σ) b => d.read rd b) fuel) (TsDrain.new st garbage) bufs = .ok l ∧ reports rd st bufs' = .ok l :=
  Stacked.reports_alike _ _ _ (Stacked.step_alike p rd rd Eq (Stacked.plain_alike rd h) fuel hf) bufs bufs' hb hb' hl _ _
    ⟨rfl, by simp [TsDrain.new, Ts.PACKET_SIZE], rfl⟩

/-! ## A concrete case -/

/-- Three readers on two drains; the source hands out 100 bytes, fails, hands out the rest of a packet after some noise. -/
def stackSource : Source :=
  ⟨[1, 2] ++ (0x47 :: List.replicate 187 9) ++ (0x47 :: List.replicate 187 8), [.chunk 1, .chunk 1, .err 5]⟩

example : ((reports (stackRead .debug 2 2) (stackNew (fun i j => UInt8.ofNat (i + j)) stackSource 2) (List.replicate 4 (List.replicate 200 0))).toOption.map
    fun l => l.map fun x => (x.1.toOption, x.2.length, x.2[1]?)) =
    some [(none, 0, none), (some 188, 188, some 9), (some 188, 188, some 8), (some 0, 0, none)] := by decide +kernel

example : ((reports (fun d b => TsDrain.read (stackRead .debug 2 1) d b) (TsDrain.new (stackNew (fun i j => UInt8.ofNat (i + j)) stackSource 1) fun _ => 3)
    [[0], List.replicate 100 0, List.replicate 90 0, List.replicate 200 0, [1, 2, 3]]).toOption.map fun l => l.map fun x => (x.1.toOption, x.2.length, x.2[0]?)) =
    some [(none, 0, none), (some 100, 100, some 0x47), (some 88, 88, some 9), (some 188, 188, some 0x47), (some 0, 0, none)] := by decide +kernel

example : (∀ b ∈ List.replicate 4 (List.replicate 200 (0 : UInt8)), 188 ≤ b.length) ∧ Steady ⟨stackSource.data, [.chunk 1, .chunk 1]⟩ := by
  refine ⟨by intro b hb; rw [List.eq_of_mem_replicate hb, List.length_replicate]; omega, ?_⟩
  intro e he
  simp at he
  exact ⟨1, he⟩

/-- A source that has its packets in memory is such a source, as long as they are packets. -/
example : PlainTsRead (fun (st : List {pk : List UInt8 // pk.length = 188 ∧ pk.head? = some 0x47}) buf =>
    (fromMemory (st.map (·.1)) buf).map fun r => (⟨r.res, r.buf, st.tail⟩ : ReadRes _)) := by
  intro st
  cases st with
  | nil => exact ⟨.ok 0, [], [], .inr (.inl ⟨rfl, rfl⟩), fun b hb => ⟨_, rfl, rfl, rfl, rfl, rfl⟩⟩
  | cons pk l =>
    obtain ⟨pk, h1, h2⟩ := pk
    refine ⟨.ok 188, pk, l, .inl ⟨rfl, h1, h2⟩, fun b hb => ⟨_, rfl, by simp [h1], ?_, rfl, by simp [h1]; omega⟩⟩
    simp only [got, List.take_left]

end Mpegts
