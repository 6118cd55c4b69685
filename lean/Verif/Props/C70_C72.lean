import Verif.Spec.Reader
import Verif.Lemmas.PsiDemux

/-! # C70, C71, C72: the packet reader -/

namespace Mpegts
open Spec

/-! ## One call of the source -/

theorem _root_.Spec.Chunks.nil : Chunks [] := by intro e h; cases h
theorem _root_.Spec.Chunks.append {a b : List ReadEvent} (ha : Chunks a) (hb : Chunks b) : Chunks (a ++ b) := by
  intro e h
  rcases List.mem_append.1 h with h | h
  · exact ha e h
  · exact hb e h
theorem _root_.Spec.Chunks.one (n : Nat) : Chunks [.chunk n] := by
  intro e h
  exact ⟨n, List.mem_singleton.1 h⟩

theorem _root_.Spec.Stop.append {res : Except IoError Nat} {st : Source} {a b : List ReadEvent} (ha : Chunks a) (h : Stop res st b) :
    Stop res st (a ++ b) := by
  rcases h with ⟨h1, h2, h3⟩ | ⟨h1, cs, h2, h3⟩ | ⟨e, cs, h1, h2, h3⟩
  · exact .inl ⟨h1, h2, ha.append h3⟩
  · exact .inr (.inl ⟨h1, a ++ cs, by rw [h2, List.append_assoc], ha.append h3⟩)
  · exact .inr (.inr ⟨e, a ++ cs, h1, by rw [h2, List.append_assoc], ha.append h3⟩)

theorem _root_.Spec.Delivered.trans {a b c : Source} {x y : List UInt8} {u v : List ReadEvent} (h1 : Delivered a b x u)
    (h2 : Delivered b c y v) : Delivered a c (x ++ y) (u ++ v) :=
  ⟨by rw [h1.1, h2.1, List.append_assoc], by rw [h1.2, h2.2, List.append_assoc]⟩

theorem readInto_spec (s : Source) (packet : List UInt8) (a b : Nat) (hab : a < b) (hb : b ≤ packet.length) :
    ∃ bytes s' evs, Delivered s s' bytes evs ∧ bytes.length ≤ b - a ∧
      ((bytes ≠ [] ∧ Chunks evs ∧
          s.readInto packet a b = .ok ⟨.ok bytes.length, packet.take a ++ bytes ++ packet.drop (a + bytes.length), s'⟩) ∨
       (bytes = [] ∧ ∃ res, Stop res s' evs ∧ s.readInto packet a b = .ok ⟨res, packet, s'⟩)) := by
  obtain ⟨data, events⟩ := s
  have hs : slice packet a b = .ok ((packet.take b).drop a) := slice_ok (by omega) hb
  have hl : ((packet.take b).drop a).length = b - a := by simp; omega
  have stop : ∀ (es evs : List ReadEvent) (res : Except IoError Nat) (d' : List UInt8), Stop res ⟨d', es⟩ evs → d' = data → events = evs ++ es →
      Source.readInto ⟨data, events⟩ packet a b = .ok ⟨res, packet, ⟨d', es⟩⟩ → ∃ bytes s' evs, Delivered ⟨data, events⟩ s' bytes evs ∧ bytes.length ≤ b - a ∧
      ((bytes ≠ [] ∧ Chunks evs ∧
          Source.readInto ⟨data, events⟩ packet a b = .ok ⟨.ok bytes.length, packet.take a ++ bytes ++ packet.drop (a + bytes.length), s'⟩) ∨
       (bytes = [] ∧ ∃ res, Stop res s' evs ∧ Source.readInto ⟨data, events⟩ packet a b = .ok ⟨res, packet, s'⟩)) := by
    intro es evs res d' h1 h2 h3 h4
    exact ⟨[], ⟨d', es⟩, evs, ⟨h2.symm, h3⟩, by simp, .inr ⟨rfl, res, h1, h4⟩⟩
  have deliver : ∀ (es evs : List ReadEvent) (m : Nat), 0 < m → m ≤ b - a → events = evs ++ es → Chunks evs →
      Source.readInto ⟨data, events⟩ packet a b = .ok ⟨.ok (data.take m).length, packet.take a ++ data.take m ++ packet.drop (a + (data.take m).length), ⟨data.drop m, es⟩⟩ →
      ∃ bytes s' evs, Delivered ⟨data, events⟩ s' bytes evs ∧ bytes.length ≤ b - a ∧
      ((bytes ≠ [] ∧ Chunks evs ∧
          Source.readInto ⟨data, events⟩ packet a b = .ok ⟨.ok bytes.length, packet.take a ++ bytes ++ packet.drop (a + bytes.length), s'⟩) ∨
       (bytes = [] ∧ ∃ res, Stop res s' evs ∧ Source.readInto ⟨data, events⟩ packet a b = .ok ⟨res, packet, s'⟩)) := by
    intro es evs m hm hm' he hc h
    by_cases hd : data = []
    · subst hd
      refine stop es evs (.ok 0) [] (.inl ⟨rfl, rfl, hc⟩) rfl he ?_
      rw [h]
      simp
    · refine ⟨_, _, evs, ⟨(List.take_append_drop m data).symm, he⟩, by simp; omega, .inl ⟨?_, hc, h⟩⟩
      intro h0
      have := congrArg List.length h0
      have : data.length ≠ 0 := fun h => hd (List.length_eq_zero_iff.1 h)
      simp only [List.length_take, List.length_nil] at *
      omega
  cases events with
  | nil =>
    refine deliver [] [] (b - a) (by omega) (by omega) rfl Chunks.nil ?_
    simp only [Source.readInto, hs, ok_bind, Source.read, hl, pure_eq_ok]
  | cons e es =>
    cases e with
    | chunk n =>
      refine deliver es [.chunk n] (min (b - a) (n + 1)) (by omega) (by omega) rfl (Chunks.one n) ?_
      simp only [Source.readInto, hs, ok_bind, Source.read, hl, pure_eq_ok]
    | zero =>
      refine stop es [.zero] (.ok 0) data (.inr (.inl ⟨rfl, [], rfl, Chunks.nil⟩)) rfl rfl ?_
      simp only [Source.readInto, hs, ok_bind, Source.read, hl, pure_eq_ok]
      simp
    | err e =>
      refine stop es [.err e] (.error e) data (.inr (.inr ⟨e, [], rfl, rfl, Chunks.nil⟩)) rfl rfl ?_
      simp only [Source.readInto, hs, ok_bind, Source.read, hl, pure_eq_ok]

/-! ## The two loops -/

theorem fillLoop_spec (fuel : Nat) (src : Source) (packet : List UInt8) (skip : Nat) (h1 : skip ≤ 188) (h2 : 188 - skip < fuel)
    (h3 : 188 ≤ packet.length) :
    (∃ part evs src', TsReader.fillLoop fuel src packet skip = .ok (.done (packet.take skip ++ part ++ packet.drop 188) src') ∧
      part.length = 188 - skip ∧ Delivered src src' part evs ∧ Chunks evs) ∨
    (∃ part evs res src', TsReader.fillLoop fuel src packet skip =
        .ok (.ret ⟨res, packet.take skip ++ part ++ packet.drop (skip + part.length), src'⟩) ∧
      part.length < 188 - skip ∧ Delivered src src' part evs ∧ Stop res src' evs) := by
  induction fuel generalizing src packet skip with
  | zero => omega
  | succ fuel ih =>
    by_cases hk : skip = 188
    · subst hk
      left
      refine ⟨[], [], src, ?_, rfl, ⟨rfl, rfl⟩, Chunks.nil⟩
      simp [TsReader.fillLoop, Ts.PACKET_SIZE]
    · obtain ⟨bytes, s', evs, hd, hl, h⟩ := readInto_spec src packet skip 188 (by omega) h3
      rcases h with ⟨hne, hc, hr⟩ | ⟨rfl, res, hst, hr⟩
      · have hpos : 0 < bytes.length := List.length_pos_iff.2 hne
        generalize hp : packet.take skip ++ bytes ++ packet.drop (skip + bytes.length) = packet' at hr
        have htk : packet'.take (skip + bytes.length) = packet.take skip ++ bytes := by
          rw [← hp, List.take_append_of_le_length (by simp; omega), List.take_of_length_le (by simp)]
        have hdr : ∀ k, packet'.drop (skip + bytes.length + k) = packet.drop (skip + bytes.length + k) := by
          intro k
          rw [← hp, List.drop_append, List.drop_of_length_le (by simp; omega), List.nil_append, List.drop_drop]
          congr 1
          simp
          omega
        have hlen : packet'.length = packet.length := by
          rw [← hp]; simp; omega
        have e : TsReader.fillLoop (fuel + 1) src packet skip = TsReader.fillLoop fuel s' packet' (skip + bytes.length) := by
          rw [TsReader.fillLoop, if_pos (show skip ≠ Ts.PACKET_SIZE from hk)]
          simp only [Ts.PACKET_SIZE, hr, ok_bind, if_neg (Nat.ne_of_gt hpos)]
        rw [e]
        rcases ih s' packet' (skip + bytes.length) (by omega) (by omega) (by omega) with
          ⟨part, evs', src', h, hpl, hd', hc'⟩ | ⟨part, evs', res, src', h, hpl, hd', hst⟩
        · left
          refine ⟨bytes ++ part, evs ++ evs', src', ?_, by simp; omega, hd.trans hd', hc.append hc'⟩
          have h188 := hdr (188 - (skip + bytes.length))
          rw [show skip + bytes.length + (188 - (skip + bytes.length)) = 188 by omega] at h188
          rw [h, htk, h188]
          simp only [List.append_assoc]
        · right
          refine ⟨bytes ++ part, evs ++ evs', res, src', ?_, by simp; omega, hd.trans hd', hst.append hc⟩
          rw [h, htk, hdr]
          simp only [List.append_assoc, List.length_append, Nat.add_assoc]
      · right
        refine ⟨[], evs, res, s', ?_, by simp; omega, hd, hst⟩
        rw [TsReader.fillLoop, if_pos (show skip ≠ Ts.PACKET_SIZE from hk)]
        simp only [Ts.PACKET_SIZE, hr, ok_bind, List.append_nil, List.length_nil, Nat.add_zero, List.take_append_drop]
        rcases hst with ⟨rfl, -⟩ | ⟨rfl, -⟩ | ⟨e, cs, rfl, -⟩ <;> rfl

theorem syncLoop_spec (fuel : Nat) (src : Source) (packet : List UInt8) (h2 : src.data.length < fuel) (h3 : 1 ≤ packet.length) :
    (∃ skipped evs src', TsReader.syncLoop fuel src packet = .ok (.done (0x47 :: packet.drop 1) src') ∧
      0x47 ∉ skipped ∧ Delivered src src' (skipped ++ [0x47]) evs ∧ Chunks evs) ∨
    (∃ skipped evs res src' b, TsReader.syncLoop fuel src packet = .ok (.ret ⟨res, b :: packet.drop 1, src'⟩) ∧
      0x47 ∉ skipped ∧ Delivered src src' skipped evs ∧ Stop res src' evs) := by
  induction fuel generalizing src packet with
  | zero => omega
  | succ fuel ih =>
    obtain ⟨x, xs, rfl⟩ : ∃ x xs, packet = x :: xs := by
      cases packet with
      | nil => simp at h3
      | cons x xs => exact ⟨x, xs, rfl⟩
    obtain ⟨bytes, s', evs, hd, hl, h⟩ := readInto_spec src (x :: xs) 0 1 (by omega) h3
    rcases h with ⟨hne, hc, hr⟩ | ⟨rfl, res, hst, hr⟩
    · obtain ⟨b, rfl⟩ : ∃ b, bytes = [b] := by
        match bytes, hne, hl with
        | [b], _, _ => exact ⟨b, rfl⟩
      have hstep : TsReader.syncLoop (fuel + 1) src (x :: xs) =
          if b = 0x47 then .ok (.done (b :: xs) s') else TsReader.syncLoop fuel s' (b :: xs) := by
        rw [TsReader.syncLoop, hr]
        simp only [ok_bind, List.length_singleton, List.take_zero, List.nil_append, List.singleton_append]
        rw [if_neg (by decide)]
        simp only [Nat.zero_add, List.drop_succ_cons, List.drop_zero]
        have hi : Ts.isSync (b :: xs) = .ok (b == 0x47) := rfl
        simp only [hi, ok_bind, pure_eq_ok, beq_iff_eq]
      rw [hstep]
      by_cases hb : b = 0x47
      · left
        subst hb
        exact ⟨[], evs, s', by simp, by simp, hd, hc⟩
      · rw [if_neg hb]
        have hlt : s'.data.length < fuel := by
          have := congrArg List.length hd.1
          simp at this
          omega
        rcases ih s' (b :: xs) hlt (by simp) with ⟨sk, evs', src', h, hn, hd', hc'⟩ | ⟨sk, evs', res, src', c, h, hn, hd', hc'⟩
        · left
          refine ⟨b :: sk, evs ++ evs', src', by rw [h]; rfl, ?_, hd.trans hd', hc.append hc'⟩
          simp only [List.mem_cons, not_or]
          exact ⟨fun h => hb h.symm, hn⟩
        · right
          refine ⟨b :: sk, evs ++ evs', res, src', c, by rw [h]; rfl, ?_, hd.trans hd', hc'.append hc⟩
          simp only [List.mem_cons, not_or]
          exact ⟨fun h => hb h.symm, hn⟩
    · right
      refine ⟨[], evs, res, s', x, ?_, by simp, hd, hst⟩
      rw [TsReader.syncLoop, hr]
      rcases hst with ⟨rfl, -⟩ | ⟨rfl, -⟩ | ⟨e, cs, rfl, -⟩ <;> rfl

/-! ## C72: one call of the reader, for every source -/

/-- C72: whatever the source does, a call of the reader with a buffer of at least 188 bytes returns (it does not panic),
leaves the buffer after byte 188 alone, and takes from the source some bytes that are not 0x47 followed by either nothing or
bytes that begin with 0x47.  It reports 188 exactly when these are 188 bytes, and then they are the first 188 bytes of the
buffer; otherwise it reports `Ok(0)` because the source ended or said `Ok(0)`, or the error of the source. -/
theorem C72_outcome (s : Source) (buf : List UInt8) (hb : 188 ≤ buf.length) :
    ∃ r skipped part evs, TsReader.read s buf = .ok r ∧ Delivered s r.st (skipped ++ part) evs ∧ 0x47 ∉ skipped ∧
      (part = [] ∨ part.head? = some 0x47) ∧ r.buf.length = buf.length ∧ r.buf.drop 188 = buf.drop 188 ∧
      ((r.res = .ok 188 ∧ part.length = 188 ∧ r.buf.take 188 = part ∧ Chunks evs) ∨
       (part.length < 188 ∧ Stop r.res r.st evs)) := by
  have hassert : assert (buf.length ≥ Ts.PACKET_SIZE) = .ok () := by
    exact if_pos (decide_eq_true hb)
  obtain ⟨x, xs, rfl⟩ : ∃ x xs, buf = x :: xs := by
    cases buf with
    | nil => simp at hb
    | cons x xs => exact ⟨x, xs, rfl⟩
  unfold TsReader.read
  rw [hassert]
  simp only [ok_bind]
  rcases syncLoop_spec (s.data.length + 1) s (x :: xs) (by omega) (by simp) with
    ⟨sk, evs, src', h, hn, hd, hc⟩ | ⟨sk, evs, res, src', c, h, hn, hd, hst⟩
  · simp only [h, ok_bind, List.drop_succ_cons, List.drop_zero]
    rcases fillLoop_spec (Ts.PACKET_SIZE + 1) src' (0x47 :: xs) 1 (by omega) (by decide) (by simpa using hb) with
      ⟨part, evs', src'', h', hpl, hd', hc'⟩ | ⟨part, evs', res, src'', h', hpl, hd', hst⟩
    · simp only [h', ok_bind, List.take_succ_cons, List.take_zero, List.drop_succ_cons, List.cons_append, List.nil_append]
      obtain ⟨p1, p2, ps, rfl⟩ : ∃ p1 p2 ps, part = p1 :: p2 :: ps := by
        match part, hpl with
        | p1 :: p2 :: ps, _ => exact ⟨p1, p2, ps, rfl⟩
      have hg : ∃ v, Ts.getPid (0x47 :: (p1 :: p2 :: ps ++ List.drop 187 xs)) = .ok v := ⟨_, rfl⟩
      obtain ⟨v, hg⟩ := hg
      simp only [hg, ok_bind, pure_eq_ok]
      refine ⟨_, sk, 0x47 :: p1 :: p2 :: ps, evs ++ evs', rfl, ?_, hn, .inr rfl, ?_, ?_, .inl ⟨rfl, ?_, ?_, hc.append hc'⟩⟩
      · have := hd.trans hd'
        rwa [List.append_assoc] at this
      · simp at hpl hb ⊢; omega
      · rw [← List.cons_append, List.drop_append_of_le_length (by simp at hpl ⊢; omega),
          List.drop_of_length_le (by simp at hpl ⊢; omega)]
        rfl
      · simp at hpl ⊢; omega
      · rw [← List.cons_append, List.take_append_of_le_length (by simp at hpl ⊢; omega),
          List.take_of_length_le (by simp at hpl ⊢; omega)]
    · simp only [h', ok_bind, List.take_succ_cons, List.take_zero, List.drop_succ_cons, List.cons_append, List.nil_append, pure_eq_ok]
      refine ⟨_, sk, 0x47 :: part, evs ++ evs', rfl, ?_, hn, .inr rfl, ?_, ?_, .inr ⟨by simp; omega, hst.append hc⟩⟩
      · have := hd.trans hd'
        rwa [List.append_assoc] at this
      · simp at hpl hb ⊢; omega
      · rw [Nat.add_comm 1, List.drop_succ_cons, List.drop_append, List.drop_of_length_le (by omega), List.drop_succ_cons,
          List.drop_drop, List.nil_append]
        congr 1
        omega
  · simp only [h, ok_bind, pure_eq_ok, List.drop_succ_cons, List.drop_zero]
    exact ⟨_, sk, [], evs, rfl, by rwa [List.append_nil], hn, .inl rfl, by simp, by simp, .inr ⟨by simp, hst⟩⟩

/-- C72: a buffer shorter than a packet panics, before anything is read. -/
theorem C72_short (s : Source) (buf : List UInt8) (hb : buf.length < 188) : TsReader.read s buf = panic := by
  have hassert : assert (buf.length ≥ Ts.PACKET_SIZE) = panic := by
    refine if_neg (fun h => ?_)
    have : 188 ≤ buf.length := of_decide_eq_true h
    omega
  unfold TsReader.read
  rw [hassert]
  rfl

/-! ## C70: independence of the chunking -/

theorem split_unique {a b rest : List UInt8} (ha : 0x47 ∉ a) (hb : b = [] ∨ b.head? = some 0x47) (h : b = [] → rest = []) :
    (a ++ (b ++ rest)).dropWhile (· != 0x47) = b ++ rest := by
  induction a with
  | nil =>
    rcases hb with rfl | hb
    · simp [h rfl]
    · cases b with
      | nil => cases hb
      | cons x xs => simp at hb; subst hb; simp
  | cons x xs ih =>
    simp only [List.mem_cons, not_or] at ha
    rw [List.cons_append, List.dropWhile_cons_of_pos (by simp; exact fun h => ha.1 h.symm)]
    exact ih ha.2

theorem steady_next {s s' : Source} {bytes : List UInt8} {evs : List ReadEvent} (hs : Steady s) (h : Delivered s s' bytes evs) : Steady s' := by
  intro e he
  exact hs e (by rw [h.2]; exact List.mem_append_right _ he)

theorem steady_stop {s s' : Source} {bytes : List UInt8} {evs : List ReadEvent} {res : Except IoError Nat} (hs : Steady s)
    (h : Delivered s s' bytes evs) (hst : Stop res s' evs) : res = .ok 0 ∧ s'.data = [] := by
  have hall : Chunks evs := fun e he => hs e (by rw [h.2]; exact List.mem_append_left _ he)
  rcases hst with ⟨h1, h2, -⟩ | ⟨h1, cs, rfl, -⟩ | ⟨e, cs, h1, rfl, -⟩
  · exact ⟨h1, h2⟩
  · obtain ⟨n, hn⟩ := hall .zero (by simp)
    cases hn
  · obtain ⟨n, hn⟩ := hall (.err e) (by simp)
    cases hn

/-- C70: as long as the source keeps delivering, in pieces of any size, one call of the reader returns the next packet of the
stream in the first 188 bytes of the buffer and leaves the source right behind it; if the stream has no further complete
packet, the call returns `Ok(0)` and the source is at its end. -/
theorem C70_read (s : Source) (hs : Steady s) (buf : List UInt8) (hb : 188 ≤ buf.length) :
    (∀ pk rest, nextPacket s.data = some (pk, rest) → ∃ evs, TsReader.read s buf = .ok ⟨.ok 188, pk ++ buf.drop 188, ⟨rest, evs⟩⟩ ∧
      Steady ⟨rest, evs⟩) ∧
    (nextPacket s.data = none → ∃ buf' evs, TsReader.read s buf = .ok ⟨.ok 0, buf', ⟨[], evs⟩⟩ ∧ buf'.length = buf.length ∧
      Steady ⟨[], evs⟩) := by
  obtain ⟨⟨res, buf', ⟨d', es'⟩⟩, sk, part, evs, hr, hd, hn, hpart, hlen, hdrop, hcase⟩ := C72_outcome s buf hb
  have hst' := steady_next hs hd
  rcases hcase with ⟨h1, hpl, htake, -⟩ | ⟨hpl, hstop⟩
  · have hdw := split_unique (rest := d') hn hpart (by intro h; rw [h] at hpl; simp at hpl)
    have hnp : nextPacket s.data = some (part, d') := by
      simp only [nextPacket]
      rw [hd.1, List.append_assoc, hdw, if_pos (by simp; omega), List.take_append_of_le_length (by omega), List.take_of_length_le (by omega),
        List.drop_append_of_le_length (by omega), List.drop_of_length_le (by omega)]
      rfl
    refine ⟨?_, fun h => by rw [hnp] at h; cases h⟩
    intro pk rest h
    rw [hnp] at h
    injection h with h; injection h with h2 h3
    subst h2; subst h3
    have hbuf : buf' = part ++ buf.drop 188 := by
      rw [← hdrop, ← htake, List.take_append_drop]
    simp only at h1
    rw [h1, hbuf] at hr
    exact ⟨es', hr, hst'⟩
  · obtain ⟨h0, hnil⟩ := steady_stop hs hd hstop
    simp only at h0 hnil
    subst h0 hnil
    have hdw := split_unique (rest := []) hn hpart (fun _ => rfl)
    have hnp : nextPacket s.data = none := by
      simp only [nextPacket]
      rw [hd.1, List.append_assoc, hdw, if_neg (by simp; omega)]
    refine ⟨fun pk rest h => (by rw [hnp] at h; cases h), fun _ => ⟨buf', es', hr, hlen, hst'⟩⟩

theorem nextPacket_length {data pk rest : List UInt8} (h : nextPacket data = some (pk, rest)) : pk.length = 188 := by
  simp only [nextPacket] at h
  split at h
  · injection h with h; injection h with h1 h2
    rw [← h1, List.length_take]; omega
  · cases h

/-- C70: the packets read from a source that keeps delivering depend only on its bytes: they are the packets of the stream,
for every way of splitting the reads and whatever the buffer (of at least 188 bytes) contained. -/
theorem C70_all (fuel : Nat) (s : Source) (hs : Steady s) (buf : List UInt8) (hb : 188 ≤ buf.length) (hf : s.data.length < fuel) :
    readAll fuel s buf = .ok (packetsOf s.data) := by
  induction fuel generalizing s buf with
  | zero => omega
  | succ fuel ih =>
    have hread := C70_read s hs buf hb
    rw [packetsOf]
    split
    · next h =>
      obtain ⟨buf', evs, hr, -, -⟩ := hread.2 h
      rw [readAll, hr]
      rfl
    · next pk rest h =>
      obtain ⟨evs, hr, hst⟩ := hread.1 pk rest h
      have hpk := nextPacket_length h
      have hlt := nextPacket_lt h
      rw [readAll, hr]
      simp only [ok_bind]
      rw [ih ⟨rest, evs⟩ hst (pk ++ buf.drop 188) (by simp; omega) (by simp only; omega)]
      simp only [ok_bind, pure_eq_ok, List.take_append_of_le_length (Nat.le_of_eq hpk.symm), List.take_of_length_le (Nat.le_of_eq hpk)]

/-- C70: two sources with the same bytes, however they split their reads, give the same packets. -/
theorem C70_chunking (s₁ s₂ : Source) (h₁ : Steady s₁) (h₂ : Steady s₂) (buf₁ buf₂ : List UInt8) (hb₁ : 188 ≤ buf₁.length)
    (hb₂ : 188 ≤ buf₂.length) (hd : s₁.data = s₂.data) (fuel₁ fuel₂ : Nat) (hf₁ : s₁.data.length < fuel₁) (hf₂ : s₂.data.length < fuel₂) :
    readAll fuel₁ s₁ buf₁ = readAll fuel₂ s₂ buf₂ := by
  rw [C70_all fuel₁ s₁ h₁ buf₁ hb₁ hf₁, C70_all fuel₂ s₂ h₂ buf₂ hb₂ hf₂, hd]

/-! ## C71: the packets are synchronised slices of the stream -/

theorem nextPacket_gap {gap pk rest : List UInt8} (hg : 0x47 ∉ gap) (hl : pk.length = 188) (hp : pk.head? = some 0x47) :
    nextPacket (gap ++ pk ++ rest) = some (pk, rest) := by
  simp only [nextPacket]
  rw [List.append_assoc, split_unique hg (.inr hp) (by intro h; rw [h] at hl; simp at hl), if_pos (by simp; omega),
    List.take_append_of_le_length (by omega), List.take_of_length_le (by omega), List.drop_append_of_le_length (by omega),
    List.drop_of_length_le (by omega)]
  rfl

theorem not_mem_takeWhile (data : List UInt8) : 0x47 ∉ data.takeWhile (· != 0x47) := by
  induction data with
  | nil => simp
  | cons x xs ih =>
    by_cases hx : x = 0x47
    · simp [hx]
    · rw [List.takeWhile_cons_of_pos (by simpa using hx), List.mem_cons, not_or]
      exact ⟨fun h => hx h.symm, ih⟩

theorem nextPacket_none {data : List UInt8} (h : nextPacket data = none) :
    ∃ gap part, data = gap ++ part ∧ 0x47 ∉ gap ∧ (part = [] ∨ part.head? = some 0x47) ∧ part.length < 188 := by
  simp only [nextPacket] at h
  refine ⟨data.takeWhile (· != 0x47), data.dropWhile (· != 0x47), List.takeWhile_append_dropWhile.symm, ?_, ?_, ?_⟩
  · exact not_mem_takeWhile data
  · by_cases hd : data.dropWhile (· != 0x47) = []
    · exact .inl hd
    · right
      have := List.head_dropWhile_not (· != 0x47) hd
      rw [List.head?_eq_some_head hd]
      simp at this
      rw [this]
  · by_contra hge
    rw [if_pos (by omega)] at h
    cases h

/-- C71: from a stream that consists of packets, each after bytes that are not 0x47, and of a tail without a complete packet,
the reader returns exactly these packets, each unchanged. -/
theorem C71_stream (l : List (List UInt8 × List UInt8)) (hl : ∀ x ∈ l, 0x47 ∉ x.1 ∧ x.2.length = 188 ∧ x.2.head? = some 0x47)
    (gap part : List UInt8) (hg : 0x47 ∉ gap) (hp : part = [] ∨ part.head? = some 0x47) (hlen : part.length < 188)
    (evs : List ReadEvent) (he : Chunks evs) (buf : List UInt8) (hb : 188 ≤ buf.length) (fuel : Nat)
    (hf : (interleave l ++ (gap ++ part)).length < fuel) :
    readAll fuel ⟨interleave l ++ (gap ++ part), evs⟩ buf = .ok (l.map (·.2)) := by
  rw [C70_all fuel ⟨interleave l ++ (gap ++ part), evs⟩ he buf hb hf]
  refine congrArg Except.ok ?_
  clear hf
  simp only
  induction l with
  | nil =>
    rw [packetsOf]
    split
    · rfl
    · next pk rest h =>
      have hdw := split_unique (rest := []) hg hp (fun _ => rfl)
      simp only [List.append_nil] at hdw
      rw [interleave, List.nil_append] at h
      have hnone : nextPacket (gap ++ part) = none := by
        simp only [nextPacket]
        rw [hdw, if_neg (by omega)]
      rw [hnone] at h
      cases h
  | cons x l ih =>
    obtain ⟨g, pk⟩ := x
    obtain ⟨h1, h2, h3⟩ := hl (g, pk) (by simp)
    have hn : nextPacket (interleave ((g, pk) :: l) ++ (gap ++ part)) = some (pk, interleave l ++ (gap ++ part)) := by
      rw [interleave, List.append_assoc]
      exact nextPacket_gap h1 h2 h3
    rw [packetsOf]
    split
    · next h => rw [hn] at h; cases h
    · next pk' rest' h =>
      rw [hn] at h
      injection h with h; injection h with ha hb'
      subst ha; subst hb'
      rw [ih (fun x hx => hl x (List.mem_cons_of_mem _ hx))]
      rfl

/-- C71: every stream is of that form: packets that begin with 0x47, each after bytes that are not 0x47, and a tail without a
complete packet; the reader returns the packets of that decomposition. -/
theorem C71_slices (s : Source) (hs : Steady s) (buf : List UInt8) (hb : 188 ≤ buf.length) (fuel : Nat) (hf : s.data.length < fuel) :
    ∃ (l : List (List UInt8 × List UInt8)) (gap part : List UInt8), s.data = interleave l ++ (gap ++ part) ∧
      (∀ x ∈ l, 0x47 ∉ x.1 ∧ x.2.length = 188 ∧ x.2.head? = some 0x47) ∧ 0x47 ∉ gap ∧
      (part = [] ∨ part.head? = some 0x47) ∧ part.length < 188 ∧ readAll fuel s buf = .ok (l.map (·.2)) := by
  have key : ∀ n (data : List UInt8), data.length ≤ n → ∃ (l : List (List UInt8 × List UInt8)) (gap part : List UInt8),
      data = interleave l ++ (gap ++ part) ∧
      (∀ x ∈ l, 0x47 ∉ x.1 ∧ x.2.length = 188 ∧ x.2.head? = some 0x47) ∧ 0x47 ∉ gap ∧
      (part = [] ∨ part.head? = some 0x47) ∧ part.length < 188 := by
    intro n
    induction n with
    | zero =>
      intro data h
      have : data = [] := List.length_eq_zero_iff.1 (by omega)
      subst this
      exact ⟨[], [], [], rfl, by simp, by simp, .inl rfl, by simp⟩
    | succ n ih =>
      intro data h
      by_cases hd : 188 ≤ (data.dropWhile (· != 0x47)).length
      · have hle := (List.dropWhile_sublist (l := data) (· != 0x47)).length_le
        obtain ⟨l, gap, part, e, h1, h2, h3, h4⟩ := ih ((data.dropWhile (· != 0x47)).drop 188) (by simp; omega)
        refine ⟨(data.takeWhile (· != 0x47), (data.dropWhile (· != 0x47)).take 188) :: l, gap, part, ?_, ?_, h2, h3, h4⟩
        · rw [interleave, List.append_assoc, ← e, List.append_assoc, List.take_append_drop, List.takeWhile_append_dropWhile]
        · intro x hx
          rcases List.mem_cons.1 hx with rfl | hx
          · refine ⟨?_, by simp; omega, ?_⟩
            · intro h
              exact not_mem_takeWhile data h
            · have hne : data.dropWhile (· != 0x47) ≠ [] := by intro h; rw [h] at hd; simp at hd
              have := List.head_dropWhile_not (· != 0x47) hne
              rw [List.head?_take, if_neg (by decide), List.head?_eq_some_head hne]
              simp at this
              rw [this]
          · exact h1 x hx
      · obtain ⟨gap, part, h1, h2, h3, h4⟩ := nextPacket_none (data := data) (by simp only [nextPacket]; rw [if_neg hd])
        exact ⟨[], gap, part, h1, by simp, h2, h3, h4⟩
  obtain ⟨l, gap, part, e, h1, h2, h3, h4⟩ := key _ s.data (Nat.le_refl _)
  refine ⟨l, gap, part, e, h1, h2, h3, h4, ?_⟩
  obtain ⟨data, evs⟩ := s
  simp only at e
  subst e
  exact C71_stream l h1 gap part h2 h3 h4 evs hs buf hb fuel hf

/-- C71: a stream of well-formed packets is returned unchanged, packet by packet. -/
theorem C71_packets (pks : List (List UInt8)) (hp : ∀ pk ∈ pks, pk.length = 188 ∧ pk.head? = some 0x47) (evs : List ReadEvent)
    (he : Chunks evs) (buf : List UInt8) (hb : 188 ≤ buf.length) (fuel : Nat) (hf : 188 * pks.length < fuel) :
    readAll fuel ⟨pks.flatten, evs⟩ buf = .ok pks := by
  have hi : ∀ l : List (List UInt8), interleave (l.map (fun pk => ([], pk))) = l.flatten := by
    intro l
    induction l with
    | nil => rfl
    | cons a l ih => rw [List.map_cons, interleave, ih]; rfl
  have hlen : ∀ l : List (List UInt8), (∀ pk ∈ l, pk.length = 188) → l.flatten.length = 188 * l.length := by
    intro l h
    induction l with
    | nil => rfl
    | cons a l ih =>
      rw [List.flatten_cons, List.length_append, ih (fun pk hp => h pk (List.mem_cons_of_mem _ hp)), h a (by simp), List.length_cons]
      omega
  have h := C71_stream (pks.map (fun pk => ([], pk))) (by
      intro x hx
      obtain ⟨pk, hpk, rfl⟩ := List.mem_map.1 hx
      exact ⟨by simp, hp pk hpk⟩) [] [] (by simp) (.inl rfl) (by decide) evs he buf hb fuel (by
      rw [hi]; simp only [List.append_nil]; rw [hlen pks (fun pk h => (hp pk h).1)]; exact hf)
  rw [hi] at h
  simp only [List.append_nil, List.map_map] at h
  rw [h]
  refine congrArg Except.ok ?_
  conv_rhs => rw [← List.map_id pks]
  rfl

/-! ## C82: interrupted reads -/

/-- C82 (partial): if the source fails or says `Ok(0)` before the sync byte of the next packet has been delivered, the next
call can go on: the next packet of the remaining bytes is the one it was.  Missing: an interruption after the sync byte,
see `C82_interrupted_refuted`. -/
theorem C82_interrupted_partial (s : Source) (buf : List UInt8) (hb : 188 ≤ buf.length) :
    ∃ r bytes evs, TsReader.read s buf = .ok r ∧ Delivered s r.st bytes evs ∧
      (0x47 ∉ bytes → nextPacket r.st.data = nextPacket s.data ∧ Stop r.res r.st evs) := by
  obtain ⟨r, sk, part, evs, hr, hd, hn, hpart, hlen, hdrop, hcase⟩ := C72_outcome s buf hb
  refine ⟨r, sk ++ part, evs, hr, hd, fun h => ?_⟩
  have hp : part = [] := by
    rcases hpart with h' | h'
    · exact h'
    · exfalso
      apply h
      refine List.mem_append_right _ ?_
      cases part with
      | nil => cases h'
      | cons x xs => simp at h'; simp [h']
  subst hp
  rcases hcase with ⟨-, h1, -⟩ | ⟨-, h1⟩
  · simp at h1
  · refine ⟨?_, h1⟩
    have hdw : ∀ (a b : List UInt8), 0x47 ∉ a → (a ++ b).dropWhile (· != 0x47) = b.dropWhile (· != 0x47) := by
      intro a b ha
      induction a with
      | nil => rfl
      | cons x xs ih =>
        simp only [List.mem_cons, not_or] at ha
        rw [List.cons_append, List.dropWhile_cons_of_pos (by simp; exact fun h => ha.1 h.symm)]
        exact ih ha.2
    simp only [nextPacket]
    rw [hd.1, List.append_nil, hdw _ _ hn]

/-- C82 (refuted): an error, or `Ok(0)`, of the source (a timeout, say) inside a packet loses the part of the packet already
delivered: after the sync byte and `k + 1` more bytes of any packet, the interrupted call has taken these bytes from the
source, and the next call starts looking for a sync byte in the middle of that packet. -/
theorem C82_interrupted_refuted (pk rest : List UInt8) (hl : pk.length = 188) (hp : pk.head? = some 0x47) (k : Nat) (hk : k < 186)
    (ev : ReadEvent) (hev : ∀ n, ev ≠ .chunk n) (es : List ReadEvent) (buf : List UInt8) (hb : 188 ≤ buf.length) :
    ∃ r, TsReader.read ⟨pk ++ rest, .chunk 0 :: .chunk k :: ev :: es⟩ buf = .ok r ∧
      r.res = reported ev ∧ r.st = ⟨pk.drop (k + 2) ++ rest, es⟩ := by
  obtain ⟨x, xs, rfl⟩ : ∃ x xs, buf = x :: xs := by
    cases buf with
    | nil => simp at hb
    | cons x xs => exact ⟨x, xs, rfl⟩
  obtain ⟨ps, rfl⟩ : ∃ ps, pk = 0x47 :: ps := by
    cases pk with
    | nil => cases hp
    | cons y ps => simp at hp; exact ⟨ps, by rw [hp]⟩
  have hassert : assert ((x :: xs).length ≥ Ts.PACKET_SIZE) = .ok () := if_pos (decide_eq_true hb)
  have hsync : TsReader.syncLoop ((0x47 :: ps ++ rest).length + 1) ⟨0x47 :: ps ++ rest, .chunk 0 :: .chunk k :: ev :: es⟩ (x :: xs) =
      .ok (.done (0x47 :: xs) ⟨ps ++ rest, .chunk k :: ev :: es⟩) := by
    rw [TsReader.syncLoop]
    simp only [Source.readInto, slice_ok (show 0 ≤ 1 by decide) (show 1 ≤ (x :: xs).length by simp), ok_bind, Source.read]
    simp [Ts.isSync, idx]
  simp only [List.length_cons] at hl hb
  have hbl : 188 ≤ (0x47 :: xs : List UInt8).length := by simpa using hb
  have h1 : Source.readInto ⟨ps ++ rest, .chunk k :: ev :: es⟩ (0x47 :: xs) 1 188 =
      .ok ⟨.ok (k + 1), 0x47 :: (ps.take (k + 1) ++ xs.drop (k + 1)), ⟨ps.drop (k + 1) ++ rest, ev :: es⟩⟩ := by
    have hm : min (((0x47 :: xs : List UInt8).take 188).drop 1).length (k + 1) = k + 1 := by simp; omega
    have ht : (ps ++ rest).take (k + 1) = ps.take (k + 1) := List.take_append_of_le_length (by omega)
    have hd : (ps ++ rest).drop (k + 1) = ps.drop (k + 1) ++ rest := List.drop_append_of_le_length (by omega)
    have hlen : (ps.take (k + 1)).length = k + 1 := by simp; omega
    simp only [Source.readInto, slice_ok (show 1 ≤ 188 by decide) hbl, ok_bind, Source.read, hm, ht, hd, hlen]
    simp only [pure_eq_ok, Nat.add_comm 1 (k + 1), List.drop_succ_cons, List.take_succ_cons, List.take_zero, List.cons_append, List.nil_append]
  generalize hpkt : (0x47 :: (ps.take (k + 1) ++ xs.drop (k + 1)) : List UInt8) = packet at h1
  have hplen : packet.length = xs.length + 1 := by rw [← hpkt]; simp; omega
  have h2 : Source.readInto ⟨ps.drop (k + 1) ++ rest, ev :: es⟩ packet (1 + (k + 1)) 188 =
      .ok ⟨reported ev, packet, ⟨ps.drop (k + 1) ++ rest, es⟩⟩ := by
    simp only [Source.readInto, slice_ok (show 1 + (k + 1) ≤ 188 by omega) (show 188 ≤ packet.length by omega), ok_bind, Source.read]
    cases ev with
    | chunk n => exact absurd rfl (hev n)
    | zero => simp [reported]
    | err e => rfl
  have hfill : TsReader.fillLoop (Ts.PACKET_SIZE + 1) ⟨ps ++ rest, .chunk k :: ev :: es⟩ (0x47 :: xs) 1 =
      .ok (.ret ⟨reported ev, packet, ⟨ps.drop (k + 1) ++ rest, es⟩⟩) := by
    rw [TsReader.fillLoop, if_pos (by decide)]
    simp only [Ts.PACKET_SIZE] at h1 h2 ⊢
    rw [h1]
    simp only [ok_bind]
    rw [if_neg (by omega), TsReader.fillLoop, if_pos (show 1 + (k + 1) ≠ Ts.PACKET_SIZE by simp only [Ts.PACKET_SIZE]; omega)]
    simp only [Ts.PACKET_SIZE]
    rw [h2]
    cases ev with
    | chunk n => exact absurd rfl (hev n)
    | zero => rfl
    | err e => rfl
  refine ⟨⟨reported ev, packet, ⟨ps.drop (k + 1) ++ rest, es⟩⟩, ?_, rfl, ?_⟩
  · unfold TsReader.read
    rw [hassert]
    simp only [ok_bind, hsync, hfill, pure_eq_ok]
  · rw [show k + 2 = (k + 1) + 1 from rfl, List.drop_succ_cons]

/-! ## Concrete cases -/

/-- Two packets, the second after two stray bytes, and an incomplete third. -/
def sampleStream : List UInt8 :=
  [1, 2] ++ (0x47 :: List.replicate 187 3) ++ [5, 6] ++ (0x47 :: List.replicate 187 0x47) ++ (0x47 :: List.replicate 20 8)

example : readAll 1000 ⟨sampleStream, [.chunk 7, .chunk 0, .chunk 500]⟩ (List.replicate 200 0) =
    .ok [0x47 :: List.replicate 187 3, 0x47 :: List.replicate 187 0x47] := by decide +kernel
example : Steady ⟨sampleStream, [.chunk 7, .chunk 0, .chunk 500]⟩ := by intro e h; simp at h; rcases h with rfl | rfl | rfl <;> exact ⟨_, rfl⟩
example : sampleStream.length < 1000 := by decide +kernel
/-- The hypotheses of `C71_stream` hold of that stream. -/
example : sampleStream = interleave [([1, 2], 0x47 :: List.replicate 187 3), ([5, 6], 0x47 :: List.replicate 187 0x47)] ++
    ([] ++ (0x47 :: List.replicate 20 8)) := by decide +kernel
example : ∀ x ∈ [(([1, 2] : List UInt8), (0x47 :: List.replicate 187 3 : List UInt8)), ([5, 6], 0x47 :: List.replicate 187 0x47)],
    0x47 ∉ x.1 ∧ x.2.length = 188 ∧ x.2.head? = some 0x47 := by decide +kernel
/-- A source that fails in the middle of a packet: the error is passed on, and the rest of the packet is lost. -/
example : readAll 1000 ⟨0x47 :: List.replicate 187 3, [.chunk 0, .chunk 99, .err 5]⟩ (List.replicate 188 0) = .ok [] := by decide +kernel
example : (TsReader.read ⟨0x47 :: List.replicate 187 3, [.chunk 0, .chunk 99, .err 5]⟩ (List.replicate 188 0)).map (fun r => (r.res, r.st.data.length)) =
    .ok (.error 5, 87) := by decide +kernel

end Mpegts
