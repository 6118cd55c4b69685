import Verif.Lemmas.PsiDemux

/-! # C40, C42: packetisation of sections -/

namespace Mpegts
open Spec

/-- C40, C42: `demux` appends exactly the packets of the section and advances the counter by their number. -/
theorem C40_demux (p : Profile) (s : Psi) (dst : List UInt8) (h0 : 0 < s.size) (hb : s.size ≤ s.buffer.length)
    (hp : s.pid.toNat < 8192) (hc : s.cc.toNat < 16) :
    s.demux p dst = .ok
      ({ s with cc := UInt8.ofNat ((s.cc.toNat + packetCount s.size) % 16) },
       dst ++ (packets s.pid.toNat s.cc.toNat (s.buffer.take s.size)).flatten) := by
  have hlen : (s.buffer.take s.size).length = s.size := by rw [List.length_take]; omega
  have hcount : packetCount s.size < s.size + 1 := by unfold packetCount; omega
  obtain ⟨Q, r, hQ, hr, hloop⟩ := demuxLoop_eq p s.buffer s.size s.pid s.cc.toNat hp h0 hb (packetCount s.size) 0
    (s.size + 1) dst s.cc (by omega) hcount (by omega)
  have hz : min (184 * 0 - 1) s.size = 0 := by omega
  rw [hz] at hloop
  have hts : (s.size + 1 + 183) / 184 = packetCount s.size := rfl
  unfold Psi.demux
  simp only [hts, resize_extend, hloop, ok_bind]
  rw [usizeSub_ok p (by simp only [List.length_append, List.length_replicate]; omega), ok_bind]
  have hrem : (dst ++ Q ++ List.replicate r (0 : UInt8)).length - (dst ++ Q).length = r := by
    simp only [List.length_append, List.length_replicate]; omega
  have hres : packets s.pid.toNat s.cc.toNat (s.buffer.take s.size) =
      (List.range' 0 (packetCount s.size)).map (packetAt s.pid.toNat s.cc.toNat (s.buffer.take s.size)) := by
    rw [packets, hlen, List.range_eq_range']
  rw [hrem, hres, ← hQ]
  by_cases hr0 : r = 0
  · subst hr0; simp
  · rw [if_pos (by omega)]
    have hfill : sliceTo Ts.FILL_PACKET r = .ok (List.replicate r 0xFF) := by
      unfold sliceTo Ts.FILL_PACKET
      rw [List.length_replicate, if_pos (by omega), List.take_replicate, Nat.min_eq_left (by omega)]
    rw [hfill, ok_bind]
    have hcs := copySlice_append (dst ++ Q) (List.replicate r (0 : UInt8)) [] (List.replicate r 0xFF) (by simp only [List.length_replicate])
    rw [List.append_nil, List.append_nil] at hcs
    have hl2 : (dst ++ Q ++ List.replicate r (0 : UInt8)).length = (dst ++ Q).length + (List.replicate r (0 : UInt8)).length := by
      rw [List.length_append (as := dst ++ Q)]
    rw [hl2, hcs, ok_bind, pure_eq_ok, List.append_assoc, Nat.add_zero]

/-- What those packets look like: each is 188 bytes with exactly the stated header fields (sync 0x47, the PID,
payload flag, PUSI in the first only, no error/priority/scrambling/adaptation bits, counters counting up modulo 16),
and behind the 4-byte headers stands one zero pointer byte, the section and less than 184 bytes of 0xFF stuffing. -/
theorem packets_structure (pid cc : Nat) (sec : List UInt8) :
    (packets pid cc sec).length = (sec.length + 1 + 183) / 184 ∧
    (∀ pk ∈ packets pid cc sec, pk.length = 188) ∧
    (∀ i (hi : i < (packets pid cc sec).length), ∃ rest, (packets pid cc sec)[i] =
      (Header.mk 0x47 false (decide (i = 0)) false pid 0 false true ((cc + i) % 16)).encode ++ rest) ∧
    ∃ k, k < 184 ∧ ((packets pid cc sec).map (·.drop 4)).flatten = 0x00 :: sec ++ List.replicate k 0xFF := by
  refine ⟨by simp [packets, packetCount], ?_, ?_, ?_⟩
  · intro pk hpk
    obtain ⟨i, -, rfl⟩ := List.mem_map.1 hpk
    exact packetAt_length pid cc sec i
  · intro i hi
    simp only [packets, List.getElem_map, List.getElem_range, packetAt, payloadPacket, List.append_assoc]
    exact ⟨_, rfl⟩
  · have key : ∀ n i, i + n = packetCount sec.length → ∃ k, k < 184 ∧
        (((List.range' i n).map (packetAt pid cc sec)).map (·.drop 4)).flatten =
          (0x00 :: sec).drop (184 * i) ++ List.replicate k 0xFF := by
      intro n
      induction n with
      | zero =>
        intro i hn
        refine ⟨0, by omega, ?_⟩
        rw [List.drop_of_length_le (by simp; unfold packetCount at hn; omega)]
        rfl
      | succ n ih =>
        intro i hn
        obtain ⟨k, hk, he⟩ := ih (i + 1) (by omega)
        have hdrop : (packetAt pid cc sec i).drop 4 = ((0x00 :: sec).drop (184 * i)).take 184 ++
            List.replicate (184 - (((0x00 :: sec).drop (184 * i)).take 184).length) 0xFF := by
          rw [packetAt, payloadPacket_eq, List.append_assoc, List.drop_append, encode_length,
            List.drop_of_length_le (by rw [encode_length])]
          rfl
        simp only [List.range'_succ, List.map_cons, List.flatten_cons, hdrop, he]
        by_cases hl : n = 0
        · subst hl
          refine ⟨184 - (((0x00 :: sec).drop (184 * i)).take 184).length, ?_, ?_⟩
          · simp; unfold packetCount at hn; omega
          · have : (0x00 :: sec).drop (184 * i) = ((0x00 :: sec).drop (184 * i)).take 184 := by
              rw [List.take_of_length_le]; simp; unfold packetCount at hn; omega
            simp only [List.range'_zero, List.map_nil, List.flatten_nil] at he
            rw [← he, List.append_nil, ← this]
        · refine ⟨k, hk, ?_⟩
          have hfull : (((0x00 :: sec).drop (184 * i)).take 184).length = 184 := by
            simp; unfold packetCount at hn; omega
          rw [hfull, Nat.sub_self, List.replicate_zero, List.append_nil, ← List.append_assoc,
            show 184 * (i + 1) = 184 * i + 184 by omega, ← List.drop_drop, List.take_append_drop]
    obtain ⟨k, hk, he⟩ := key (packetCount sec.length) 0 (by omega)
    refine ⟨k, hk, ?_⟩
    rw [packets, List.range_eq_range', he]
    simp

/-- C40, in terms of the bytes: the packets appended are as many as the section and a pointer byte need, each is 188 bytes with exactly
the stated header fields (sync 0x47, the PID, payload flag, PUSI in the first only, no error/priority/scrambling/adaptation bits, counters
counting up modulo 16), and behind the 4-byte headers stands one zero pointer byte, the section and less than 184 bytes of 0xFF stuffing. -/
theorem C40_packets (p : Profile) (s : Psi) (dst : List UInt8) (h0 : 0 < s.size) (hb : s.size ≤ s.buffer.length)
    (hp : s.pid.toNat < 8192) (hc : s.cc.toNat < 16) :
    ∃ pks : List (List UInt8), s.demux p dst = .ok ({ s with cc := UInt8.ofNat ((s.cc.toNat + pks.length) % 16) }, dst ++ pks.flatten) ∧
      pks.length = (s.size + 1 + 183) / 184 ∧ (∀ pk ∈ pks, pk.length = 188) ∧
      (∀ i (hi : i < pks.length), ∃ rest, pks[i] =
        (Header.mk 0x47 false (decide (i = 0)) false s.pid.toNat 0 false true ((s.cc.toNat + i) % 16)).encode ++ rest) ∧
      ∃ k, k < 184 ∧ (pks.map (·.drop 4)).flatten = 0x00 :: s.buffer.take s.size ++ List.replicate k 0xFF := by
  have hlen : (s.buffer.take s.size).length = s.size := by rw [List.length_take]; omega
  obtain ⟨h1, h2, h3, h4⟩ := packets_structure s.pid.toNat s.cc.toNat (s.buffer.take s.size)
  rw [hlen] at h1
  refine ⟨packets s.pid.toNat s.cc.toNat (s.buffer.take s.size), ?_, h1, h2, h3, h4⟩
  rw [C40_demux p s dst h0 hb hp hc, h1]
  rfl

/-- C40, boundary: an empty section appends one packet of 188 bytes 0xFF, and the counter stays. -/
theorem C40_empty (p : Profile) (s : Psi) (dst : List UInt8) (h0 : s.size = 0) :
    s.demux p dst = .ok (s, dst ++ List.replicate 188 0xFF) := by
  unfold Psi.demux
  simp only [h0]
  have h1 : (0 + 1 + 183) / 184 = 1 := rfl
  rw [h1, resize_extend, Psi.demuxLoop, if_neg (by omega), ok_bind]
  simp only []
  rw [usizeSub_ok p (by simp only [List.length_append]; omega), ok_bind]
  have : (dst ++ List.replicate (188 * 1) (0 : UInt8)).length - dst.length = 188 := by
    rw [List.length_append, List.length_replicate]; omega
  rw [this, if_pos (by omega)]
  have hfill : sliceTo Ts.FILL_PACKET 188 = .ok (List.replicate 188 0xFF) := by
    unfold sliceTo Ts.FILL_PACKET
    rw [List.length_replicate, if_pos (by omega), List.take_replicate, Nat.min_self]
  rw [hfill, ok_bind]
  have hcs := copySlice_append dst (List.replicate 188 (0 : UInt8)) [] (List.replicate 188 0xFF) (by simp only [List.length_replicate])
  rw [List.append_nil, List.append_nil, List.length_replicate] at hcs
  have hl : (dst ++ List.replicate (188 * 1) (0 : UInt8)).length = dst.length + 188 := by
    rw [List.length_append, List.length_replicate]
  rw [hl, show 188 * 1 = 188 from rfl, hcs, ok_bind, pure_eq_ok]
  cases s; subst h0; rfl

/-- C42: packetising two sections one after the other gives gapless counters: the second continues where the first
stopped. -/
theorem C42_chaining (p : Profile) (s t : Psi) (dst : List UInt8) (hs : 0 < s.size) (hsb : s.size ≤ s.buffer.length)
    (ht : 0 < t.size) (htb : t.size ≤ t.buffer.length) (hp : s.pid.toNat < 8192) (hc : s.cc.toNat < 16) :
    ∃ s' t', (do
      let (s, dst) ← s.demux p dst
      let (t, dst) ← { t with pid := s.pid, cc := s.cc }.demux p dst
      pure (s, t, dst)) = .ok (s', t', dst ++ (packets s.pid.toNat s.cc.toNat (s.buffer.take s.size)).flatten ++
        (packets s.pid.toNat (s.cc.toNat + packetCount s.size) (t.buffer.take t.size)).flatten) ∧
      t'.cc.toNat = (s.cc.toNat + packetCount s.size + packetCount t.size) % 16 := by
  have e1 := C40_demux p s dst hs hsb hp hc
  have hmod : ∀ a n : Nat, packetAt n (a % 16) (t.buffer.take t.size) = packetAt n a (t.buffer.take t.size) := by
    intro a n; funext i; unfold packetAt; rw [Nat.mod_add_mod]
  have hcc : (UInt8.ofNat ((s.cc.toNat + packetCount s.size) % 16)).toNat = (s.cc.toNat + packetCount s.size) % 16 := by
    rw [UInt8.toNat_ofNat']; omega
  have e2 := C40_demux p { t with pid := s.pid, cc := UInt8.ofNat ((s.cc.toNat + packetCount s.size) % 16) }
    (dst ++ (packets s.pid.toNat s.cc.toNat (s.buffer.take s.size)).flatten) ht htb hp (by simp only [hcc]; omega)
  simp only [hcc] at e2
  refine ⟨{ s with cc := UInt8.ofNat ((s.cc.toNat + packetCount s.size) % 16) },
    { t with pid := s.pid, cc := UInt8.ofNat (((s.cc.toNat + packetCount s.size) % 16 + packetCount t.size) % 16) },
    ?_, ?_⟩
  · rw [e1, ok_bind]
    simp only [e2, ok_bind, pure_eq_ok]
    simp only [packets, hmod]
  · simp only [UInt8.toNat_ofNat']; omega

/-- C42, any number of sections: each given the counter the one before left, all packets are numbered in order, without a gap. -/
theorem C42_list (p : Profile) (l : List Psi) (hl : ∀ s ∈ l, 0 < s.size ∧ s.size ≤ s.buffer.length) (pid : UInt16) (hp : pid.toNat < 8192)
    (cc : UInt8) (hc : cc.toNat < 16) (dst : List UInt8) :
    ∃ pks : List (List UInt8), l.foldlM (fun (x : UInt8 × List UInt8) s => do
        let (s, dst) ← { s with pid := pid, cc := x.1 }.demux p x.2
        pure (s.cc, dst)) (cc, dst) = .ok (UInt8.ofNat ((cc.toNat + pks.length) % 16), dst ++ pks.flatten) ∧
      pks.length = (l.map fun s => (s.size + 1 + 183) / 184).sum ∧
      ∀ i (hi : i < pks.length), ∃ pusi rest, pks[i] =
        (Header.mk 0x47 false pusi false pid.toNat 0 false true ((cc.toNat + i) % 16)).encode ++ rest := by
  induction l generalizing cc dst with
  | nil =>
    refine ⟨[], ?_, rfl, fun i hi => absurd hi (Nat.not_lt_zero _)⟩
    have : UInt8.ofNat (cc.toNat % 16) = cc := by rw [Nat.mod_eq_of_lt hc, UInt8.ofNat_toNat]
    simp [pure_eq_ok, this]
  | cons s r ih =>
    obtain ⟨h0, hb⟩ := hl s List.mem_cons_self
    obtain ⟨a, e, hn, -, hh, -⟩ := C40_packets p { s with pid := pid, cc := cc } dst h0 hb hp hc
    have ht : (UInt8.ofNat ((cc.toNat + a.length) % 16)).toNat = (cc.toNat + a.length) % 16 := by rw [UInt8.toNat_ofNat']; omega
    obtain ⟨b, e2, hn2, hh2⟩ := ih (fun x hx => hl x (List.mem_cons_of_mem _ hx)) (UInt8.ofNat ((cc.toNat + a.length) % 16)) (by rw [ht]; omega)
      (dst ++ a.flatten)
    rw [ht] at e2 hh2
    refine ⟨a ++ b, ?_, ?_, ?_⟩
    · rw [List.foldlM_cons, e]
      simp only [ok_bind, pure_eq_ok]
      refine e2.trans ?_
      rw [List.flatten_append, List.append_assoc, List.length_append, Nat.mod_add_mod, Nat.add_assoc]
    · rw [List.length_append, List.map_cons, List.sum_cons, hn, hn2]
    · intro i hi
      rw [List.getElem_append]
      split
      · rename_i h1
        obtain ⟨rest, h2⟩ := hh i h1
        exact ⟨_, rest, h2⟩
      · rename_i h1
        rw [List.length_append] at hi
        obtain ⟨u, rest, h2⟩ := hh2 (i - a.length) (by omega)
        refine ⟨u, rest, ?_⟩
        rw [h2, Nat.mod_add_mod, show cc.toNat + a.length + (i - a.length) = cc.toNat + i by omega]

/-! Concrete cases. -/
example : (Psi.demux .debug { Psi.default with buffer := [1, 2, 3], size := 3, pid := 17, cc := 15 } []) =
    .ok ({ Psi.default with buffer := [1, 2, 3], size := 3, pid := 17, cc := 0 },
      [0x47, 0x40, 0x11, 0x1F, 0, 1, 2, 3] ++ List.replicate 180 0xFF) := by decide +kernel
example (p : Profile) := C42_list p [{ Psi.default with buffer := [1, 2, 3], size := 3 }, { Psi.default with buffer := List.replicate 200 7, size := 200 }]
  (by decide +kernel) 17 (by decide) 15 (by decide) [9]

end Mpegts
