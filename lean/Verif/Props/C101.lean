import Verif.Lemmas.PsiDemuxWide
import Verif.Props.C40_C42
import Verif.Model.Pat
import Verif.Model.Pmt
import Verif.Model.Nit
import Verif.Model.Sdt
import Verif.Model.Tdt
import Verif.Model.Eit

/-! # C101: packetising with any PID, counter and section state -/

namespace Mpegts
open Spec

/-! ## Results that are either a value or a panic -/

/-- The computation returns or panics. -/
def OkOrPanic {α : Type} (x : R α) : Prop := x = panic ∨ ∃ a, x = .ok a

theorem OkOrPanic.bind {α β : Type} {x : R α} {f : α → R β} (hx : OkOrPanic x) (hf : ∀ a, OkOrPanic (f a)) :
    OkOrPanic (x >>= f) := by
  rcases hx with rfl | ⟨a, rfl⟩
  · exact .inl rfl
  · rw [ok_bind]; exact hf a

theorem OkOrPanic.ok {α : Type} (a : α) : OkOrPanic (.ok a : R α) := .inr ⟨a, rfl⟩
theorem OkOrPanic.panic {α : Type} : OkOrPanic (Mpegts.panic : R α) := .inl rfl

theorem OkOrPanic.of_ne {α : Type} {x : R α} (hx : OkOrPanic x) (h : ∀ a, x ≠ .ok a) : x = Mpegts.panic :=
  hx.resolve_right fun ⟨a, e⟩ => h a e

theorem okOrPanic_setIdx (l : List UInt8) (i : Nat) (v : UInt8) : OkOrPanic (setIdx l i v) := by
  unfold setIdx; split
  · exact .ok _
  · exact .panic
theorem okOrPanic_idx {α : Type} (l : List α) (i : Nat) : OkOrPanic (idx l i) := by
  by_cases h : i < l.length
  · rw [idx_ok h]; exact .ok _
  · rw [idx_panic (by omega)]; exact .panic
theorem okOrPanic_slice {α : Type} (l : List α) (a b : Nat) : OkOrPanic (slice l a b) := by
  unfold slice; split
  · exact .ok _
  · exact .panic
theorem okOrPanic_copySlice {α : Type} (l : List α) (a b : Nat) (src : List α) : OkOrPanic (copySlice l a b src) := by
  unfold copySlice; split
  · exact .ok _
  · exact .panic
theorem okOrPanic_atOff (l : List UInt8) (n : Nat) (f : List UInt8 → R (List UInt8)) (hf : ∀ l, OkOrPanic (f l)) :
    OkOrPanic (atOff l n f) := by
  unfold atOff sliceFrom
  refine .bind ?_ fun t => .bind (hf t) fun _ => .ok _
  split
  · exact .ok _
  · exact .panic
theorem okOrPanic_debugAssert (p : Profile) (c : Bool) : OkOrPanic (debugAssert p c) := by
  cases p <;> cases c
  · exact .panic
  all_goals exact .ok _
theorem okOrPanic_addU8 (p : Profile) (a b : UInt8) : OkOrPanic (addU8 p a b) := by
  unfold addU8; split
  · exact .ok _
  · cases p
    · exact .panic
    · exact .ok _
theorem okOrPanic_setPid (p : Profile) (l : List UInt8) (pid : UInt16) : OkOrPanic (Ts.setPid p l pid) :=
  .bind (okOrPanic_debugAssert _ _) fun _ => .bind (okOrPanic_idx _ _) fun _ => .bind (okOrPanic_setIdx _ _ _) fun _ =>
    okOrPanic_setIdx _ _ _
theorem okOrPanic_setCc (p : Profile) (l : List UInt8) (cc : UInt8) : OkOrPanic (Ts.setCc p l cc) :=
  .bind (okOrPanic_debugAssert _ _) fun _ => .bind (okOrPanic_idx _ _) fun _ => okOrPanic_setIdx _ _ _
theorem okOrPanic_setPayload1 (l : List UInt8) : OkOrPanic (Ts.setPayload1 l) :=
  .bind (okOrPanic_idx _ _) fun _ => okOrPanic_setIdx _ _ _
theorem okOrPanic_setPusi1 (l : List UInt8) : OkOrPanic (Ts.setPusi1 l) :=
  .bind (okOrPanic_idx _ _) fun _ => okOrPanic_setIdx _ _ _

theorem okOrPanic_loopStep (p : Profile) (buffer : List UInt8) (size : Nat) (pid : UInt16) (dst : List UInt8)
    (dstSkip psiSkip : Nat) (cc : UInt8) : OkOrPanic (loopStep p buffer size pid dst dstSkip psiSkip cc) := by
  unfold loopStep
  refine .bind (okOrPanic_setIdx _ _ _) fun _ => .bind (okOrPanic_atOff _ _ _ fun _ => okOrPanic_setPid _ _ _) fun _ =>
    .bind (okOrPanic_atOff _ _ _ okOrPanic_setPayload1) fun _ =>
    .bind (okOrPanic_atOff _ _ _ fun _ => okOrPanic_setCc _ _ _) fun _ => .bind (okOrPanic_addU8 _ _ _) fun _ => ?_
  dsimp only
  split
  · exact .bind (okOrPanic_atOff _ _ _ okOrPanic_setPusi1) fun _ => .bind (.ok _) fun _ =>
      .bind (okOrPanic_slice _ _ _) fun _ => .bind (okOrPanic_copySlice _ _ _ _) fun _ => .ok _
  · exact .bind (.ok _) fun _ => .bind (okOrPanic_slice _ _ _) fun _ => .bind (okOrPanic_copySlice _ _ _ _) fun _ => .ok _

/-- What a successful step tells: the bytes it copied were there, and a debug build accepted PID and counter. -/
theorem loopStep_ok {p : Profile} {buffer : List UInt8} {size : Nat} {pid : UInt16} {dst : List UInt8}
    {dstSkip psiSkip : Nat} {cc : UInt8} {r : List UInt8 × Nat × Nat × UInt8}
    (h : loopStep p buffer size pid dst dstSkip psiSkip cc = .ok r) (hs : psiSkip < size) :
    psiSkip < r.2.2.1 ∧ r.2.2.1 ≤ buffer.length ∧ (p = .debug → pid.toNat < 8192 ∧ cc.toNat < 16) := by
  unfold loopStep at h
  obtain ⟨d1, -, h⟩ := bind_eq_ok.1 h
  obtain ⟨d2, h2, h⟩ := bind_eq_ok.1 h
  obtain ⟨d3, -, h⟩ := bind_eq_ok.1 h
  obtain ⟨d4, h4, h⟩ := bind_eq_ok.1 h
  obtain ⟨c, -, h⟩ := bind_eq_ok.1 h
  dsimp only at h
  have key : ∀ (d5 : List UInt8) (hl : Nat), hl ≤ 5 → (do
      let src ← slice buffer psiSkip (psiSkip + min (size - psiSkip) (188 - hl))
      let dst ← copySlice d5 (dstSkip + hl) (dstSkip + hl + min (size - psiSkip) (188 - hl)) src
      pure (dst, dstSkip + hl + min (size - psiSkip) (188 - hl), psiSkip + min (size - psiSkip) (188 - hl), c &&& 0x0F)) =
        Except.ok r → psiSkip < r.2.2.1 ∧ r.2.2.1 ≤ buffer.length := by
    intro d5 hl hle h
    obtain ⟨src, h6, h⟩ := bind_eq_ok.1 h
    obtain ⟨d6, -, h⟩ := bind_eq_ok.1 h
    simp only [pure_eq_ok, Except.ok.injEq] at h
    subst h
    refine ⟨by simp only []; omega, ?_⟩
    unfold slice at h6
    split at h6
    · rename_i hc; exact hc.2
    · cases h6
  have key' : psiSkip < r.2.2.1 ∧ r.2.2.1 ≤ buffer.length := by
    split at h
    · obtain ⟨d5, -, h⟩ := bind_eq_ok.1 h
      exact key d5 5 (by omega) h
    · exact key d4 4 (by omega) h
  refine ⟨key'.1, key'.2, ?_⟩
  rintro rfl
  constructor
  · by_contra hp
    unfold atOff at h2
    obtain ⟨t, -, h2⟩ := bind_eq_ok.1 h2
    simp only [C02_set_pid_debug_panics t pid (by omega)] at h2
    cases h2
  · by_contra hp
    unfold atOff at h4
    obtain ⟨t, -, h4⟩ := bind_eq_ok.1 h4
    have : decide (cc < 16) = false := by simpa [UInt8.le_iff_toNat_le] using hp
    simp only [Ts.setCc, this] at h4
    cases h4

theorem demuxLoop_short (p : Profile) (buffer : List UInt8) (size : Nat) (pid : UInt16) (hb : buffer.length < size)
    (fuel : Nat) (dst : List UInt8) (dstSkip psiSkip : Nat) (cc : UInt8) (h : psiSkip ≤ buffer.length)
    (hf : size - psiSkip < fuel) : Psi.demuxLoop p buffer size pid fuel dst dstSkip psiSkip cc = panic := by
  induction fuel generalizing dst dstSkip psiSkip cc with
  | zero => omega
  | succ f ih =>
    rw [demuxLoop_step _ _ _ _ _ _ _ _ _ (by omega)]
    rcases okOrPanic_loopStep p buffer size pid dst dstSkip psiSkip cc with e | ⟨⟨d, ds, ps, c⟩, e⟩
    · rw [e]; rfl
    · obtain ⟨h1, h2, -⟩ := loopStep_ok e (by omega)
      simp only at h1 h2
      rw [e, ok_bind]
      exact ih d ds ps c h2 (by omega)

theorem demuxLoop_refused (buffer : List UInt8) (size : Nat) (pid : UInt16) (h0 : 0 < size)
    (fuel : Nat) (dst : List UInt8) (dstSkip : Nat) (cc : UInt8) (h : 8192 ≤ pid.toNat ∨ 16 ≤ cc.toNat) :
    Psi.demuxLoop .debug buffer size pid (fuel + 1) dst dstSkip 0 cc = panic := by
  rw [demuxLoop_step _ _ _ _ _ _ _ _ _ h0]
  rcases okOrPanic_loopStep .debug buffer size pid dst dstSkip 0 cc with e | ⟨r, e⟩
  · rw [e]; rfl
  · have := (loopStep_ok e h0).2.2 rfl
    omega

/-! ## One section -/

/-- C101: the packets `demux` appends for any PID and counter it does not refuse. -/
theorem demux_spill (p : Profile) (s : Psi) (dst : List UInt8) (h0 : 0 < s.size) (hb : s.size ≤ s.buffer.length)
    (hf : p = .release ∨ s.pid.toNat < 8192 ∧ s.cc.toNat < 16) :
    s.demux p dst = .ok
      ({ s with cc := UInt8.ofNat ((s.cc.toNat + packetCount s.size) % 16) },
       dst ++ (spillPackets s.pid.toNat s.cc.toNat (s.buffer.take s.size)).flatten) := by
  have hlen : (s.buffer.take s.size).length = s.size := by rw [List.length_take]; omega
  have hcount : packetCount s.size < s.size + 1 := by unfold packetCount; omega
  obtain ⟨Q, r, hQ, hr, hloop⟩ := spillLoop_eq p s.buffer s.size s.pid s.cc.toNat (hf.imp id (·.1)) h0 hb
    (packetCount s.size) 0 (s.size + 1) dst s.cc (by omega) hcount (by omega) (hf.imp id (·.2)) (by omega)
  have hz : min (184 * 0 - 1) s.size = 0 := by omega
  rw [hz] at hloop
  have hts : (s.size + 1 + 183) / 184 = packetCount s.size := rfl
  unfold Psi.demux
  simp only [hts, resize_extend, hloop, ok_bind]
  rw [usizeSub_ok p (by simp only [List.length_append, List.length_replicate]; omega), ok_bind]
  have hrem : (dst ++ Q ++ List.replicate r (0 : UInt8)).length - (dst ++ Q).length = r := by
    simp only [List.length_append, List.length_replicate]; omega
  have hres : spillPackets s.pid.toNat s.cc.toNat (s.buffer.take s.size) =
      (List.range' 0 (packetCount s.size)).map (spillPacketAt s.pid.toNat s.cc.toNat (s.buffer.take s.size)) := by
    rw [spillPackets, hlen, List.range_eq_range']
  rw [hrem, hres, ← hQ]
  by_cases hr0 : r = 0
  · subst hr0; simp
  · rw [if_pos (by omega)]
    have hfill : sliceTo Ts.FILL_PACKET r = .ok (List.replicate r 0xFF) := by
      unfold sliceTo Ts.FILL_PACKET
      rw [List.length_replicate, if_pos (by omega), List.take_replicate, Nat.min_eq_left (by omega)]
    rw [hfill, ok_bind]
    have hcs := copySlice_append (dst ++ Q) (List.replicate r (0 : UInt8)) [] (List.replicate r 0xFF) (by simp only [List.length_replicate])
    rw [List.append_nil, List.append_nil] at hcs
    have hl2 : (dst ++ Q ++ List.replicate r (0 : UInt8)).length = (dst ++ Q).length + (List.replicate r (0 : UInt8)).length := by
      rw [List.length_append (as := dst ++ Q)]
    rw [hl2, hcs, ok_bind, pure_eq_ok, List.append_assoc, Nat.add_zero]

/-- C101: `demux` panics exactly for an unfinished section (fewer bytes than its size says) and, in a debug build, for a
PID of 8192 or more or a counter of 16 or more. -/
theorem C101_panic (p : Profile) (s : Psi) (dst : List UInt8) :
    s.demux p dst = panic ↔
      0 < s.size ∧ (s.buffer.length < s.size ∨ p = .debug ∧ (8192 ≤ s.pid.toNat ∨ 16 ≤ s.cc.toNat)) := by
  constructor
  · intro h
    have h0 : 0 < s.size := by
      by_contra h0
      rw [C40_empty p s dst (by omega)] at h
      cases h
    refine ⟨h0, ?_⟩
    by_contra hn
    simp only [not_or, not_and, Nat.not_lt, Nat.not_le] at hn
    rw [demux_spill p s dst h0 hn.1 (by cases p; exact .inr (hn.2 rfl); exact .inl rfl)] at h
    cases h
  · rintro ⟨h0, h | ⟨rfl, h⟩⟩
    · unfold Psi.demux
      simp only []
      rw [demuxLoop_short p _ _ _ h _ _ _ _ _ (by omega) (by omega)]
      rfl
    · unfold Psi.demux
      simp only []
      rw [demuxLoop_refused _ _ _ h0 _ _ _ _ h]
      rfl

/-- C101: a release build takes the counter modulo 16: for a valid PID the packets are the proper ones. -/
theorem C101_counter (s : Psi) (dst : List UInt8) (h0 : 0 < s.size) (hb : s.size ≤ s.buffer.length)
    (hp : s.pid.toNat < 8192) :
    s.demux .release dst = .ok
      ({ s with cc := UInt8.ofNat ((s.cc.toNat + packetCount s.size) % 16) },
       dst ++ (packets s.pid.toNat (s.cc.toNat % 16) (s.buffer.take s.size)).flatten) := by
  rw [demux_spill .release s dst h0 hb (.inl rfl)]
  refine congrArg (fun x => Except.ok (_, dst ++ List.flatten x)) ?_
  unfold spillPackets packets
  refine List.map_congr_left fun i _ => ?_
  have e : (s.cc.toNat % 16 + i) % 16 = (s.cc.toNat + i) % 16 := by omega
  rw [packetAt, payloadPacket_eq, spillPacketAt, e, ← spillHeader_small _ hp (Nat.mod_lt _ (by decide)),
    spillHeader_cc _ (Nat.mod_mod _ _)]

/-- C101, refuted for a release build: a PID of 8192 or more is not refused but written, its excess bits changing the
error, PUSI and priority flags of every packet (`spillHeader`). -/
theorem C101_spill_refuted (s : Psi) (dst : List UInt8) (h0 : 0 < s.size) (hb : s.size ≤ s.buffer.length) :
    s.demux .release dst = .ok
      ({ s with cc := UInt8.ofNat ((s.cc.toNat + packetCount s.size) % 16) },
       dst ++ (spillPackets s.pid.toNat s.cc.toNat (s.buffer.take s.size)).flatten) :=
  demux_spill .release s dst h0 hb (.inl rfl)

/-! ## Tables -/

theorem spill_append (pid : Nat) (a b : List UInt8) (h : a.length % 188 = 0) :
    spill pid (a ++ b) = spill pid a ++ spill pid b := by
  unfold spill
  rw [List.mapIdx_append]
  refine congrArg _ ?_
  congr 1
  funext i x
  rw [Nat.add_mod, h, Nat.add_zero, Nat.mod_mod]

theorem spill_small (pid : Nat) (a : List UInt8) (h : pid < 8192) : spill pid a = a := by
  unfold spill
  have : pid / 2 ^ 13 = 0 := by omega
  rw [this]
  refine List.ext_getElem (by simp) fun i h1 h2 => ?_
  rw [List.getElem_mapIdx]
  split
  · exact UInt8.or_zero
  · rfl

theorem or_flags (w : Nat) (hw : w < 8) (q : Nat) (hq : q < 32) (first : Bool) :
    UInt8.ofNat (bit false * 128 + bit first * 64 + bit false * 32 + q) ||| UInt8.ofNat (w * 2 ^ 5) =
      UInt8.ofNat (bit (decide (w / 4 % 2 = 1)) * 128 + bit (first || decide (w / 2 % 2 = 1)) * 64 +
        bit (decide (w % 2 = 1)) * 32 + q) := by
  have key : ∀ w : Fin 8, ∀ q : Fin 32, ∀ first : Bool,
      UInt8.ofNat (bit false * 128 + bit first * 64 + bit false * 32 + q.val) ||| UInt8.ofNat (w.val * 2 ^ 5) =
      UInt8.ofNat (bit (decide (w.val / 4 % 2 = 1)) * 128 + bit (first || decide (w.val / 2 % 2 = 1)) * 64 +
        bit (decide (w.val % 2 = 1)) * 32 + q.val) := by decide +kernel
  exact key ⟨w, hw⟩ ⟨q, hq⟩ first

theorem spill_packetAt (pid cc cc' : Nat) (sec : List UInt8) (i : Nat) (hp : pid < 65536) (hc : cc % 16 = cc' % 16) :
    spill pid (packetAt (pid % 8192) cc sec i) = spillPacketAt pid cc' sec i := by
  have hl := packetAt_length (pid % 8192) cc sec i
  rw [packetAt, payloadPacket_eq] at hl ⊢
  rw [spillPacketAt]
  simp only [List.append_assoc] at hl ⊢
  have hv : (secHdr (pid % 8192) ((cc + i) % 16) (decide (i = 0))).Valid :=
    secHdr_valid (Nat.mod_lt _ (by decide)) (Nat.mod_lt _ (by decide))
  rw [header_encode hv] at hl ⊢
  rw [header_encode (spillHeader_valid _ _ _)]
  generalize ((0x00 :: sec).drop (184 * i)).take 184 ++ List.replicate
    (184 - (((0x00 :: sec).drop (184 * i)).take 184).length) 0xFF = rest at *
  have hr : rest.length = 184 := by simpa using hl
  have hrest : rest.mapIdx (fun j b => if (j + 4) % 188 = 1 then b ||| UInt8.ofNat (pid / 2 ^ 13 * 2 ^ 5) else b) = rest := by
    refine List.ext_getElem (by simp) fun j h1 h2 => ?_
    rw [List.getElem_mapIdx, if_neg (by omega)]
  have h1 : hdr1 (secHdr (pid % 8192) ((cc + i) % 16) (decide (i = 0))) ||| UInt8.ofNat (pid / 2 ^ 13 * 2 ^ 5) =
      hdr1 (spillHeader pid (cc' + i) (decide (i = 0))) := by
    have := or_flags (pid / 2 ^ 13) (by omega) (pid % 8192 / 256) (by omega) (decide (i = 0))
    have e1 : pid / 2 ^ 13 / 4 = pid / 2 ^ 15 := by omega
    have e2 : pid / 2 ^ 13 / 2 = pid / 2 ^ 14 := by omega
    rw [e1, e2] at this
    exact this
  have h3 : hdr3 (secHdr (pid % 8192) ((cc + i) % 16) (decide (i = 0))) =
      hdr3 (spillHeader pid (cc' + i) (decide (i = 0))) := by
    have : (cc + i) % 16 = (cc' + i) % 2 ^ 4 := by omega
    simp only [hdr3, secHdr, spillHeader, this]
  unfold spill
  simp only [List.cons_append, List.nil_append, List.mapIdx_cons, Nat.zero_add, Nat.reduceAdd, Nat.add_assoc]
  rw [hrest, if_neg (by decide), if_pos (by decide), if_neg (by decide), if_neg (by decide), h1, h3]
  rfl

theorem spill_packets (pid cc cc' : Nat) (sec : List UInt8) (hp : pid < 65536) (hc : cc % 16 = cc' % 16) :
    spill pid (packets (pid % 8192) cc sec).flatten = (spillPackets pid cc' sec).flatten := by
  unfold packets spillPackets
  induction List.range (packetCount sec.length) with
  | nil => rfl
  | cons i l ih =>
    rw [List.map_cons, List.map_cons, List.flatten_cons, List.flatten_cons,
      spill_append _ _ _ (by rw [packetAt_length]), ih, spill_packetAt pid cc cc' sec i hp hc]

theorem packets_flatten_length (pid cc : Nat) (sec : List UInt8) :
    (packets pid cc sec).flatten.length = 188 * packetCount sec.length := by
  unfold packets
  rw [List.length_flatten, List.map_map,
    List.map_congr_left (f := List.length ∘ packetAt pid cc sec) (g := fun _ => 188) fun i _ => packetAt_length pid cc sec i]
  rw [List.map_const', List.sum_replicate_nat, List.length_range, Nat.mul_comm]

theorem and13 (pid : UInt16) : (pid &&& 0x1FFF).toNat = pid.toNat % 8192 := by
  rw [UInt16.toNat_and]
  exact Nat.and_two_pow_sub_one_eq_mod _ 13

theorem and4 (cc : UInt8) : (cc &&& 0x0F).toNat = cc.toNat % 16 := mask0F cc

theorem and13_idem (pid : UInt16) : (pid &&& 0x1FFF) &&& 0x1FFF = pid &&& 0x1FFF :=
  UInt16.toNat_inj.1 (by rw [and13, and13, Nat.mod_mod])

theorem and4_small (cc : UInt8) (h : cc.toNat < 16) : cc &&& 0x0F = cc :=
  UInt8.toNat_inj.1 (by rw [and4, Nat.mod_eq_of_lt h])

/-- One finished section: wide and masked arguments side by side. -/
theorem demux_both (s : Psi) (pid : UInt16) (cc : UInt8) (h0 : 0 < s.size) :
    (∀ dst, { s with pid := pid, cc := cc }.demux .release dst = panic) ∧
      (∀ dst, { s with pid := pid &&& 0x1FFF, cc := cc &&& 0x0F }.demux .release dst = panic) ∨
    ∃ P c, P ≠ [] ∧ P.length % 188 = 0 ∧ c &&& 0x0F = c ∧
      (∀ dst, { s with pid := pid, cc := cc }.demux .release dst =
        .ok ({ s with pid := pid, cc := c }, dst ++ spill pid.toNat P)) ∧
      (∀ dst, { s with pid := pid &&& 0x1FFF, cc := cc &&& 0x0F }.demux .release dst =
        .ok ({ s with pid := pid &&& 0x1FFF, cc := c }, dst ++ P)) := by
  by_cases hb : s.size ≤ s.buffer.length
  · refine .inr ⟨(packets (pid.toNat % 8192) (cc.toNat % 16) (s.buffer.take s.size)).flatten,
      UInt8.ofNat ((cc.toNat + packetCount s.size) % 16), ?_, ?_, ?_, ?_, ?_⟩
    · intro h
      have := packets_flatten_length (pid.toNat % 8192) (cc.toNat % 16) (s.buffer.take s.size)
      rw [h] at this
      simp only [packetCount, List.length_nil] at this
      omega
    · rw [packets_flatten_length]; omega
    · exact and4_small _ (by rw [UInt8.toNat_ofNat']; omega)
    · intro dst
      rw [demux_spill .release _ dst (by exact h0) (by exact hb) (.inl rfl),
        spill_packets _ _ cc.toNat _ pid.toNat_lt (Nat.mod_mod _ _)]
    · intro dst
      rw [C40_demux .release _ dst (by exact h0) (by exact hb) (by simp only [and13]; omega) (by simp only [and4]; omega)]
      simp only [and13, and4, Nat.mod_add_mod]
  · exact .inl ⟨fun dst => (C101_panic _ _ _).2 ⟨h0, .inl (by simp only []; omega)⟩,
      fun dst => (C101_panic _ _ _).2 ⟨h0, .inl (by simp only []; omega)⟩⟩

theorem setU32At_pos {b r : List UInt8} {n : Nat} {v : UInt32} (h : setU32At b n v = .ok r) : 0 < r.length := by
  unfold setU32At atOff at h
  obtain ⟨t, -, h⟩ := bind_eq_ok.1 h
  obtain ⟨u, h2, h⟩ := bind_eq_ok.1 h
  replace h2 : setU32 t v = .ok u := h2
  simp only [pure_eq_ok, Except.ok.injEq] at h
  by_cases ht : 4 ≤ t.length
  · rw [setU32_ok v ht] at h2
    cases h2
    rw [← h]
    simp [beBytes]
  · rw [setU32_short v (by omega)] at h2
    cases h2

theorem finalize_pos {p : Profile} {s s' : Psi} (h : s.finalize p = .ok s') : 0 < s'.size ∧ 0 < s'.buffer.length := by
  unfold Psi.finalize at h
  have key : ∀ t : Psi, 0 < t.size → (do
      let skip ← usizeSub p t.size 4
      let x ← crc32b (← sliceTo t.buffer skip)
      let buffer ← setU32At t.buffer skip x
      return { t with buffer := buffer }) = Except.ok s' → 0 < s'.size ∧ 0 < s'.buffer.length := by
    intro t h0 h
    obtain ⟨skip, h1, h⟩ := bind_eq_ok.1 h
    obtain ⟨y, h2, h⟩ := bind_eq_ok.1 h
    obtain ⟨x, -, h⟩ := bind_eq_ok.1 h
    obtain ⟨b, h3, h⟩ := bind_eq_ok.1 h
    simp only [pure_eq_ok, Except.ok.injEq] at h
    subst h
    exact ⟨h0, setU32At_pos h3⟩
  dsimp only at h
  split at h
  · obtain ⟨b1, -, h⟩ := bind_eq_ok.1 h
    obtain ⟨b2, -, h⟩ := bind_eq_ok.1 h
    rw [pure_eq_ok, ok_bind] at h
    exact key _ (by simp only []; omega) h
  · rename_i h0
    rw [pure_eq_ok, ok_bind] at h
    exact key _ (by omega) h

/-- The result for wide arguments `pid`, `cc` and buffer `dst` from the result for the masked arguments and an empty
buffer. -/
def widen (pid : UInt16) (cc : UInt8) (dst : List UInt8) (r : R (UInt8 × List UInt8)) : R (UInt8 × List UInt8) := do
  let (c, D) ← r
  pure (if D = [] then cc else c, dst ++ spill pid.toNat D)

theorem spill_masked (pid : UInt16) (D : List UInt8) : spill (pid &&& 0x1FFF).toNat D = D :=
  spill_small _ _ (by rw [and13]; omega)

/-- The step of both loops. -/
theorem widen_step (s : Psi) (pid : UInt16) (cc : UInt8) (dst : List UInt8) (h0 : 0 < s.size)
    (f : UInt16 → UInt8 → List UInt8 → R (UInt8 × List UInt8))
    (ih : ∀ pid cc dst, f pid cc dst = widen pid cc dst (f (pid &&& 0x1FFF) (cc &&& 0x0F) [])) :
    (do
      let (psi, dst) ← { s with pid := pid, cc := cc }.demux .release dst
      f pid psi.cc dst) =
    widen pid cc dst (do
      let (psi, dst) ← { s with pid := pid &&& 0x1FFF, cc := cc &&& 0x0F }.demux .release []
      f (pid &&& 0x1FFF) psi.cc dst) := by
  rcases demux_both s pid cc h0 with ⟨h1, h2⟩ | ⟨P, c, hP, hl, hc, h1, h2⟩
  · rw [h1, h2]; rfl
  · rw [h1, h2, ok_bind, ok_bind]
    simp only [List.nil_append]
    rw [ih pid c, ih (pid &&& 0x1FFF) c P, and13_idem, hc]
    cases f (pid &&& 0x1FFF) c [] with
    | error e => rfl
    | ok r =>
      obtain ⟨c', D⟩ := r
      simp only [widen, ok_bind, pure_eq_ok, spill_masked]
      rw [if_neg (c := P ++ D = []) (by simp [hP]), spill_append _ _ _ hl, List.append_assoc]

theorem psiDemuxLoop_widen (last : UInt8) (L : List Psi) (n : Nat) (pid : UInt16) (cc : UInt8) (dst : List UInt8) :
    psiDemuxLoop .release pid last n L cc dst =
      widen pid cc dst (psiDemuxLoop .release (pid &&& 0x1FFF) last n L (cc &&& 0x0F) []) := by
  induction L generalizing n pid cc dst with
  | nil => simp [psiDemuxLoop, widen, spill]
  | cons s r ih =>
    rw [psiDemuxLoop, psiDemuxLoop]
    rcases h1 : setIdx s.buffer 6 (UInt8.ofNat n) with e | b1
    · rfl
    rcases h2 : setIdx b1 7 last with e | b2
    · simp only [ok_bind, h2]; rfl
    rcases h3 : Psi.finalize .release { s with buffer := b2 } with e | t
    · simp only [ok_bind, h2, h3]; rfl
    simp only [ok_bind, h2, h3]
    exact widen_step t pid cc dst (finalize_pos h3).1 (fun pid cc dst => psiDemuxLoop .release pid last (n + 1) r cc dst)
      fun pid cc dst => ih (n + 1) pid cc dst

theorem psiDemux_widen (L : List Psi) (pid : UInt16) (cc : UInt8) (dst : List UInt8) :
    psiDemux .release L pid cc dst = widen pid cc dst (psiDemux .release L (pid &&& 0x1FFF) (cc &&& 0x0F) []) := by
  unfold psiDemux
  split
  · simp [widen, spill]
  · exact psiDemuxLoop_widen ..

theorem eitLoop_widen (L : List Psi) (h : ∀ s ∈ L, 0 < s.size) (pid : UInt16) (cc : UInt8) (dst : List UInt8) :
    Eit.demuxLoop .release pid L cc dst = widen pid cc dst (Eit.demuxLoop .release (pid &&& 0x1FFF) L (cc &&& 0x0F) []) := by
  induction L generalizing pid cc dst with
  | nil => simp [Eit.demuxLoop, widen, spill]
  | cons s r ih =>
    rw [Eit.demuxLoop, Eit.demuxLoop]
    exact widen_step s pid cc dst (h s List.mem_cons_self) (fun pid cc dst => Eit.demuxLoop .release pid r cc dst)
      fun pid cc dst => ih (fun s hs => h s (List.mem_cons_of_mem _ hs)) pid cc dst

theorem pfLoop_pos (p : Profile) (t : Eit) (last : UInt8) (n : Nat) (items : List EitItem) (L : List Psi)
    (h : Eit.pfLoop p t last n items = .ok L) : ∀ s ∈ L, 0 < s.size := by
  induction items generalizing n L with
  | nil =>
    rw [Eit.pfLoop] at h
    cases h
    simp
  | cons i r ih =>
    rw [Eit.pfLoop] at h
    obtain ⟨_, -, h⟩ := bind_eq_ok.1 h
    obtain ⟨_, -, h⟩ := bind_eq_ok.1 h
    obtain ⟨_, -, h⟩ := bind_eq_ok.1 h
    obtain ⟨_, -, h⟩ := bind_eq_ok.1 h
    obtain ⟨_, -, h⟩ := bind_eq_ok.1 h
    obtain ⟨_, -, h⟩ := bind_eq_ok.1 h
    obtain ⟨psi, hf, h⟩ := bind_eq_ok.1 h
    obtain ⟨tail, ht, h⟩ := bind_eq_ok.1 h
    cases h
    rintro s (_ | ⟨_, hs⟩)
    · exact (finalize_pos hf).1
    · exact ih _ _ ht s hs

theorem numberLoop_pos (p : Profile) (lt : UInt8) (l : List Psi) (a b : UInt8) (L : List Psi)
    (h : Eit.numberLoop p lt l a b = .ok L) : ∀ s ∈ L, 0 < s.size := by
  induction l generalizing a b L with
  | nil =>
    rw [Eit.numberLoop] at h
    cases h
    simp
  | cons i r ih =>
    rw [Eit.numberLoop] at h
    obtain ⟨_, -, h⟩ := bind_eq_ok.1 h
    obtain ⟨_, -, h⟩ := bind_eq_ok.1 h
    dsimp only at h
    obtain ⟨_, -, h⟩ := bind_eq_ok.1 h
    obtain ⟨_, -, h⟩ := bind_eq_ok.1 h
    obtain ⟨_, -, h⟩ := bind_eq_ok.1 h
    obtain ⟨psi, hf, h⟩ := bind_eq_ok.1 h
    obtain ⟨tail, ht, h⟩ := bind_eq_ok.1 h
    cases h
    rintro s (_ | ⟨_, hs⟩)
    · exact (finalize_pos hf).1
    · exact ih _ _ _ ht s hs

theorem eitAssemble_pos (p : Profile) (t : Eit) (L : List Psi) (h : t.psiListAssemble p = .ok L) : ∀ s ∈ L, 0 < s.size := by
  unfold Eit.psiListAssemble at h
  split at h
  · split at h
    · exact pfLoop_pos _ _ _ _ _ _ h
    · unfold Eit.scheduleAssemble at h
      dsimp only at h
      obtain ⟨_, -, h⟩ := bind_eq_ok.1 h
      obtain ⟨_, -, h⟩ := bind_eq_ok.1 h
      obtain ⟨_, -, h⟩ := bind_eq_ok.1 h
      obtain ⟨_, -, h⟩ := bind_eq_ok.1 h
      obtain ⟨_, -, h⟩ := bind_eq_ok.1 h
      obtain ⟨_, -, h⟩ := bind_eq_ok.1 h
      obtain ⟨_, -, h⟩ := bind_eq_ok.1 h
      obtain ⟨_, -, h⟩ := bind_eq_ok.1 h
      obtain ⟨_, -, h⟩ := bind_eq_ok.1 h
      obtain ⟨rev, hr, h⟩ := bind_eq_ok.1 h
      cases h
      intro s hs
      exact numberLoop_pos _ _ _ _ _ _ hr s (List.mem_reverse.1 hs)
  · cases h
    simp

/-- Every kind of table, for the statements below: its `demux`. -/
inductive AnyTable where
  | pat (t : Pat) | pmt (t : Pmt) | nit (t : Nit) | sdt (t : Sdt) | eit (t : Eit) | tdt (t : Tdt) | tot (t : Tot)

/-- `PsiDemux::demux` of each table. -/
def AnyTable.demux (p : Profile) : AnyTable → UInt16 → UInt8 → List UInt8 → R (UInt8 × List UInt8)
  | .pat t => t.demux p | .pmt t => t.demux p | .nit t => t.demux p | .sdt t => t.demux p | .eit t => t.demux p
  | .tdt t => t.demux p | .tot t => t.demux p

theorem tdt_pos {p : Profile} {t : Tdt} {s : Psi} (h : t.psiAssemble p = .ok s) : 0 < s.buffer.length := by
  unfold Tdt.psiAssemble at h
  obtain ⟨_, -, h⟩ := bind_eq_ok.1 h
  obtain ⟨_, -, h⟩ := bind_eq_ok.1 h
  dsimp only at h
  obtain ⟨_, -, h⟩ := bind_eq_ok.1 h
  obtain ⟨_, -, h⟩ := bind_eq_ok.1 h
  obtain ⟨_, -, h⟩ := bind_eq_ok.1 h
  obtain ⟨b, hb, h⟩ := bind_eq_ok.1 h
  cases h
  unfold setU24At atOff at hb
  obtain ⟨u, h1, hb⟩ := bind_eq_ok.1 hb
  obtain ⟨v, -, hb⟩ := bind_eq_ok.1 hb
  cases hb
  unfold sliceFrom at h1
  split at h1
  · simp only [List.length_append, List.length_take]; omega
  · cases h1

theorem single_widen (s : Psi) (h0 : 0 < s.size) (pid : UInt16) (cc : UInt8) (dst : List UInt8) :
    (do
      let (psi, dst) ← { s with pid := pid, cc := cc }.demux .release dst
      pure (psi.cc, dst)) =
    widen pid cc dst (do
      let (psi, dst) ← { s with pid := pid &&& 0x1FFF, cc := cc &&& 0x0F }.demux .release []
      pure (psi.cc, dst)) :=
  widen_step s pid cc dst h0 (fun _ cc dst => pure (cc, dst)) fun pid cc dst => by simp [widen, spill]

/-- C101, refuted for a release build: for every table, sending with any PID and counter gives the packets that the low
13 bits of the PID and the low 4 bits of the counter give, with the excess bits of the PID or-ed into the flags of every
packet.  (`D = []` is the table without a section: nothing is sent and the counter stays.) -/
theorem C101_tables_refuted (t : AnyTable) (pid : UInt16) (cc : UInt8) (dst : List UInt8) :
    t.demux .release pid cc dst = (do
      let (c, D) ← t.demux .release (pid &&& 0x1FFF) (cc &&& 0x0F) []
      pure (if D = [] then cc else c, dst ++ spill pid.toNat D)) := by
  have lift : ∀ {α : Type} (x : R α) (f : α → UInt16 → UInt8 → List UInt8 → R (UInt8 × List UInt8)),
      (∀ a, x = .ok a → ∀ pid cc dst, f a pid cc dst = widen pid cc dst (f a (pid &&& 0x1FFF) (cc &&& 0x0F) [])) →
      (x >>= fun a => f a pid cc dst) = widen pid cc dst (x >>= fun a => f a (pid &&& 0x1FFF) (cc &&& 0x0F) []) := by
    intro α x f h
    cases x with
    | error e => rfl
    | ok a => exact h a rfl pid cc dst
  cases t with
  | pat t => exact lift _ (psiDemux .release) fun a _ => psiDemux_widen a
  | pmt t => exact lift _ (psiDemux .release) fun a _ => psiDemux_widen a
  | nit t => exact lift _ (psiDemux .release) fun a _ => psiDemux_widen a
  | sdt t => exact lift _ (psiDemux .release) fun a _ => psiDemux_widen a
  | eit t =>
    refine lift _ (fun L pid cc dst => if L.isEmpty then pure (cc, dst) else Eit.demuxLoop .release pid L cc dst) ?_
    intro L hL pid cc dst
    split
    · simp [widen, spill]
    · exact eitLoop_widen L (eitAssemble_pos _ t L hL) pid cc dst
  | tdt t =>
    refine lift (t.psiAssemble .release) (fun (psi : Psi) pid cc dst => do
      let (psi, dst) ← { psi with pid := pid, cc := cc, size := psi.buffer.length }.demux .release dst
      pure (psi.cc, dst)) ?_
    intro s hs pid cc dst
    exact single_widen { s with size := s.buffer.length } (tdt_pos hs) pid cc dst
  | tot t =>
    have e : ∀ pid cc dst, t.demux .release pid cc dst = ((t.psiAssemble .release >>= fun s => s.finalize .release) >>=
        fun (psi : Psi) => do
          let (psi, dst) ← { psi with pid := pid, cc := cc, size := psi.buffer.length }.demux .release dst
          pure (psi.cc, dst)) := by
      intro pid cc dst
      rw [bind_assoc]
      rfl
    show t.demux .release pid cc dst = widen pid cc dst (t.demux .release (pid &&& 0x1FFF) (cc &&& 0x0F) [])
    rw [e, e]
    refine lift (t.psiAssemble .release >>= fun s => s.finalize .release) (fun (psi : Psi) pid cc dst => do
      let (psi, dst) ← { psi with pid := pid, cc := cc, size := psi.buffer.length }.demux .release dst
      pure (psi.cc, dst)) ?_
    intro s hs pid cc dst
    obtain ⟨u, -, hs⟩ := bind_eq_ok.1 hs
    exact single_widen { s with size := s.buffer.length } (finalize_pos hs).2 pid cc dst

theorem psiDemux_debug (L : List Psi) (pid : UInt16) (cc : UInt8) (dst : List UInt8)
    (h : 8192 ≤ pid.toNat ∨ 16 ≤ cc.toNat) (c : UInt8) (D : List UInt8)
    (hok : psiDemux .debug L (pid &&& 0x1FFF) (cc &&& 0x0F) [] = .ok (c, D)) (hD : D ≠ []) :
    psiDemux .debug L pid cc dst = panic := by
  unfold psiDemux at hok ⊢
  split at hok
  · cases hok; exact absurd rfl hD
  · rename_i hne
    rw [if_neg hne]
    cases L with
    | nil => simp at hne
    | cons s r =>
      rw [psiDemuxLoop] at hok ⊢
      obtain ⟨b1, h1, hok⟩ := bind_eq_ok.1 hok
      obtain ⟨b2, h2, hok⟩ := bind_eq_ok.1 hok
      obtain ⟨t, h3, hok⟩ := bind_eq_ok.1 hok
      rw [h1, ok_bind, h2, ok_bind, h3, ok_bind]
      dsimp only
      rw [(C101_panic .debug { t with pid := pid, cc := cc } dst).2 ⟨(finalize_pos h3).1, .inr ⟨rfl, h⟩⟩]
      rfl

/-- C101: in a debug build, whenever the masked PID and counter would have sent anything, a PID of 8192 or more or a
counter of 16 or more panics, for every table. -/
theorem C101_tables_debug (t : AnyTable) (pid : UInt16) (cc : UInt8) (dst : List UInt8)
    (h : 8192 ≤ pid.toNat ∨ 16 ≤ cc.toNat) (c : UInt8) (D : List UInt8)
    (hok : t.demux .debug (pid &&& 0x1FFF) (cc &&& 0x0F) [] = .ok (c, D)) (hD : D ≠ []) :
    t.demux .debug pid cc dst = panic := by
  have lift : ∀ x : R (List Psi), (x >>= fun L => psiDemux .debug L (pid &&& 0x1FFF) (cc &&& 0x0F) []) = .ok (c, D) →
      (x >>= fun L => psiDemux .debug L pid cc dst) = panic := by
    intro x hx
    obtain ⟨L, rfl, hx⟩ := bind_eq_ok.1 hx
    exact psiDemux_debug L pid cc dst h c D hx hD
  have one : ∀ s : Psi, 0 < s.size → (do
      let (psi, dst) ← { s with pid := pid, cc := cc }.demux .debug dst
      pure (psi.cc, dst)) = panic := by
    intro s h0
    rw [(C101_panic .debug { s with pid := pid, cc := cc } dst).2 ⟨h0, .inr ⟨rfl, h⟩⟩]
    rfl
  cases t with
  | pat t => exact lift _ hok
  | pmt t => exact lift _ hok
  | nit t => exact lift _ hok
  | sdt t => exact lift _ hok
  | eit t =>
    obtain ⟨L, hL, hok⟩ := bind_eq_ok.1 hok
    show (t.psiListAssemble .debug >>= fun L => if L.isEmpty then pure (cc, dst) else Eit.demuxLoop .debug pid L cc dst) = panic
    rw [hL, ok_bind]
    split at hok
    · cases hok; exact absurd rfl hD
    · rename_i hne
      rw [if_neg hne]
      cases L with
      | nil => simp at hne
      | cons s r =>
        rw [Eit.demuxLoop]
        dsimp only
        rw [(C101_panic .debug { s with pid := pid, cc := cc } dst).2
          ⟨eitAssemble_pos _ t _ hL s List.mem_cons_self, .inr ⟨rfl, h⟩⟩]
        rfl
  | tdt t =>
    obtain ⟨s, hs, hok⟩ := bind_eq_ok.1 hok
    show (t.psiAssemble .debug >>= fun (psi : Psi) => do
      let (psi, dst) ← { psi with pid := pid, cc := cc, size := psi.buffer.length }.demux .debug dst
      pure (psi.cc, dst)) = panic
    rw [hs, ok_bind]
    exact one { s with size := s.buffer.length } (tdt_pos hs)
  | tot t =>
    obtain ⟨s, hs, hok⟩ := bind_eq_ok.1 hok
    obtain ⟨u, hu, hok⟩ := bind_eq_ok.1 hok
    show (t.psiAssemble .debug >>= fun s => s.finalize .debug >>= fun (psi : Psi) => do
      let (psi, dst) ← { psi with pid := pid, cc := cc, size := psi.buffer.length }.demux .debug dst
      pure (psi.cc, dst)) = panic
    rw [hs, ok_bind, hu, ok_bind]
    exact one { u with size := u.buffer.length } (finalize_pos hu).2

/-! ## Examples -/

/-- A finished section with a PID and a counter that do not fit. -/
def sampleWide : Psi := { Psi.default with buffer := List.replicate 200 0x11, size := 200, pid := 0x4012, cc := 0x1E }

example : 0 < sampleWide.size ∧ sampleWide.size ≤ sampleWide.buffer.length ∧ 8192 ≤ sampleWide.pid.toNat ∧
    16 ≤ sampleWide.cc.toNat := by decide +kernel

/-- Both packets claim to start a section, and the counters continue from 14. -/
example : (spillPackets 0x4012 0x1E (List.replicate 200 0x11)).map (·.take 5) =
    [[0x47, 0x40, 0x12, 0x1E, 0x00], [0x47, 0x40, 0x12, 0x1F, 0x11]] := by decide +kernel

example : ((sampleWide.demux .release []).toOption.map fun r => (r.1.cc, r.2.take 5, (r.2.drop 188).take 5)) =
    some (0, [0x47, 0x40, 0x12, 0x1E, 0x00], [0x47, 0x40, 0x12, 0x1F, 0x11]) := by decide +kernel

/-- The hypotheses of `C101_tables_debug` for a PAT. -/
example : ∃ c D, (AnyTable.pat ⟨3, 7, [⟨1, 0x100⟩]⟩).demux .debug (0x2000 &&& 0x1FFF) (0x10 &&& 0x0F) [] = .ok (c, D) ∧
    D ≠ [] := by
  have key : ((AnyTable.pat ⟨3, 7, [⟨1, 0x100⟩]⟩).demux .debug (0x2000 &&& 0x1FFF) (0x10 &&& 0x0F) []).toOption.map
      (·.2.length) = some 188 := by decide +kernel
  cases h : (AnyTable.pat ⟨3, 7, [⟨1, 0x100⟩]⟩).demux .debug (0x2000 &&& 0x1FFF) (0x10 &&& 0x0F) [] with
  | error e => rw [h] at key; cases key
  | ok r =>
    refine ⟨r.1, r.2, rfl, fun h0 => ?_⟩
    rw [h] at key
    simp [Except.toOption, h0] at key

end Mpegts
