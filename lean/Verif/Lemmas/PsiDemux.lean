import Verif.Props.C02_C05
import Verif.Model.Psi
import Verif.Spec.Section

/-! # Helper lemmas: packetisation -/

namespace Mpegts
open Spec

theorem atOff_zero (l : List UInt8) (f : List UInt8 → R (List UInt8)) : atOff l 0 f = f l := by
  unfold atOff
  rw [sliceFrom_zero, ok_bind]
  cases f l <;> simp

theorem atOff_len (a l : List UInt8) (f : List UInt8 → R (List UInt8)) :
    atOff (a ++ l) a.length f = (a ++ ·) <$> f l := by
  have := atOff_append a l 0 f
  rwa [Nat.add_zero, atOff_zero] at this

theorem slice_ok {α : Type} {l : List α} {a b : Nat} (h1 : a ≤ b) (h2 : b ≤ l.length) :
    slice l a b = .ok ((l.take b).drop a) := by simp [slice, h1, h2]

theorem slice_panic {α : Type} {l : List α} {a b : Nat} (h : ¬ (a ≤ b ∧ b ≤ l.length)) :
    slice l a b = panic := by simp only [slice]; rw [if_neg h]

theorem copySlice_append {α : Type} (a b c src : List α) (h : src.length = b.length) :
    copySlice (a ++ b ++ c) a.length (a.length + b.length) src = .ok (a ++ src ++ c) := by
  simp [copySlice, h, List.take_append, List.drop_append]

/-- The header fields of a packet written by `demux`. -/
def secHdr (pid cc : Nat) (pusi : Bool) : Header := ⟨0x47, false, pusi, false, pid, 0, false, true, cc⟩

theorem secHdr_valid {pid cc : Nat} {pusi : Bool} (h1 : pid < 8192) (h2 : cc < 16) : (secHdr pid cc pusi).Valid :=
  ⟨by simp [secHdr], h1, by simp [secHdr], h2⟩

theorem encode_length (h : Header) : h.encode.length = 4 := by simp [Header.encode]

theorem addU8_one (p : Profile) (cc : UInt8) (h : cc.toNat < 255) : addU8 p cc 1 = .ok (cc + 1) := by
  simp only [addU8]
  have : (1 : UInt8).toNat = 1 := rfl
  rw [this, if_pos (by omega)]

theorem cc_next (cc : UInt8) (h : cc.toNat < 16) : ((cc + 1) &&& 0x0F).toNat = (cc.toNat + 1) % 16 := by
  rw [mask0F, UInt8.toNat_add]
  have : (1 : UInt8).toNat = 1 := rfl
  omega

theorem cc_next' (cc : UInt8) : ((cc + 1) &&& 0x0F).toNat = (cc.toNat + 1) % 16 := by
  rw [mask0F, UInt8.toNat_add]
  have : (1 : UInt8).toNat = 1 := rfl
  omega

/-- Writing the header of one packet into zeroed space. -/
theorem write_header (p : Profile) (D rest : List UInt8) (pid : UInt16) (cc : UInt8) (hp : pid.toNat < 8192)
    (hc : cc.toNat < 16) :
    (do
      let dst ← setIdx (D ++ ([0, 0, 0, 0] ++ rest)) D.length 0x47
      let dst ← atOff dst D.length (Ts.setPid p · pid)
      let dst ← atOff dst D.length Ts.setPayload1
      atOff dst D.length (Ts.setCc p · cc)) = .ok (D ++ ((secHdr pid.toNat cc.toNat false).encode ++ rest)) := by
  let h0 : Header := ⟨0x47, false, false, false, 0, 0, false, false, 0⟩
  have e0 : setIdx (D ++ ([0, 0, 0, 0] ++ rest)) D.length 0x47 = .ok (D ++ (h0.encode ++ rest)) := by
    have := setIdx_append D 0 (0 :: 0 :: 0 :: rest) 0x47
    have hE : h0.encode = [0x47, 0, 0, 0] := by decide
    rw [hE]
    simpa using this
  have v0 : h0.Valid := by decide
  have v1 : ({ h0 with pid := pid.toNat } : Header).Valid := ⟨v0.1, hp, v0.2.2.1, v0.2.2.2⟩
  have v2 : ({ h0 with pid := pid.toNat, payload := true } : Header).Valid := ⟨v0.1, hp, v0.2.2.1, v0.2.2.2⟩
  rw [e0, ok_bind, atOff_len, (C02_set_pid p h0 v0 rest pid hp).1, map_ok, ok_bind, atOff_len,
    (C03_set_flags _ v1 rest).1, map_ok, ok_bind, atOff_len, (C03_set_cc p _ v2 rest cc hc).1, map_ok]
  rfl

theorem write_pusi (D rest : List UInt8) (pid cc : Nat) (hp : pid < 8192) (hc : cc < 16) :
    atOff (D ++ ((secHdr pid cc false).encode ++ rest)) D.length Ts.setPusi1 =
      .ok (D ++ ((secHdr pid cc true).encode ++ rest)) := by
  rw [atOff_len, (C03_set_flags _ (secHdr_valid hp hc) rest).2.2.1, map_ok]
  rfl

theorem payloadPacket_eq (pid cc : Nat) (pusi : Bool) (body : List UInt8) :
    payloadPacket pid cc pusi body = (secHdr pid cc pusi).encode ++ body ++ List.replicate (184 - body.length) 0xFF := rfl

theorem payloadPacket_length (pid cc : Nat) (pusi : Bool) (body : List UInt8) (h : body.length ≤ 184) :
    (payloadPacket pid cc pusi body).length = 188 := by
  simp [payloadPacket_eq, encode_length]; omega

theorem packetAt_length (pid cc : Nat) (sec : List UInt8) (i : Nat) : (packetAt pid cc sec i).length = 188 :=
  payloadPacket_length _ _ _ _ (by simp)

theorem rep_add {α : Type} (n m : Nat) (a : α) : List.replicate (n + m) a = List.replicate n a ++ List.replicate m a :=
  List.replicate_append_replicate.symm

theorem replicate_split (m : Nat) (h : 4 ≤ m) :
    List.replicate m (0 : UInt8) = [0, 0, 0, 0] ++ List.replicate (m - 4) 0 := by
  obtain ⟨k, rfl⟩ := Nat.exists_eq_add_of_le h
  rw [Nat.add_sub_cancel_left, rep_add]; rfl

/-- Header and body of one packet, in the form the loop produces it. -/
def loopStep (p : Profile) (buffer : List UInt8) (size : Nat) (pid : UInt16) (dst : List UInt8) (dstSkip psiSkip : Nat)
    (cc : UInt8) : R (List UInt8 × Nat × Nat × UInt8) := do
  let dst ← setIdx dst dstSkip 0x47
  let dst ← atOff dst dstSkip (Ts.setPid p · pid)
  let dst ← atOff dst dstSkip Ts.setPayload1
  let dst ← atOff dst dstSkip (Ts.setCc p · cc)
  let cc := (← addU8 p cc 1) &&& 0x0F
  let (dst, hdrLen) ←
    if psiSkip = 0 then do
      let dst ← atOff dst dstSkip Ts.setPusi1
      pure (dst, 5)
    else pure (dst, 4)
  let dstSkip := dstSkip + hdrLen
  let cpyLen := min (size - psiSkip) (188 - hdrLen)
  let src ← slice buffer psiSkip (psiSkip + cpyLen)
  let dst ← copySlice dst dstSkip (dstSkip + cpyLen) src
  return (dst, dstSkip + cpyLen, psiSkip + cpyLen, cc)

theorem demuxLoop_step (p : Profile) (buffer : List UInt8) (size : Nat) (pid : UInt16) (fuel : Nat) (dst : List UInt8)
    (dstSkip psiSkip : Nat) (cc : UInt8) (h : psiSkip < size) :
    Psi.demuxLoop p buffer size pid (fuel + 1) dst dstSkip psiSkip cc =
      (do
        let (dst, dstSkip, psiSkip, cc) ← loopStep p buffer size pid dst dstSkip psiSkip cc
        Psi.demuxLoop p buffer size pid fuel dst dstSkip psiSkip cc) := by
  by_cases h0 : psiSkip = 0 <;>
    simp only [Psi.demuxLoop, h, h0, if_true, if_false, loopStep, bind_assoc, pure_eq_ok, ok_bind]
  rw [h0] at h; simp only [h, if_true]

theorem loopStep_eq (p : Profile) (buffer : List UInt8) (size : Nat) (pid : UInt16) (D : List UInt8) (m psiSkip : Nat)
    (cc : UInt8) (hp : pid.toNat < 8192) (hc : cc.toNat < 16) (hs : psiSkip < size) (hb : size ≤ buffer.length)
    (hm : 188 ≤ m) :
    ∃ body, body = (if psiSkip = 0 then (0x00 :: buffer.take size).take 184
        else ((buffer.take size).drop psiSkip).take 184) ∧
      loopStep p buffer size pid (D ++ List.replicate m 0) D.length psiSkip cc =
        .ok (D ++ ((secHdr pid.toNat cc.toNat (decide (psiSkip = 0))).encode ++ body) ++
            List.replicate (m - 4 - body.length) 0,
          (D ++ ((secHdr pid.toNat cc.toNat (decide (psiSkip = 0))).encode ++ body)).length,
          psiSkip + (if psiSkip = 0 then body.length - 1 else body.length), (cc + 1) &&& 0x0F) := by
  refine ⟨_, rfl, ?_⟩
  have hw := write_header p D (List.replicate (m - 4) 0) pid cc hp hc
  rw [replicate_split m (by omega)]
  unfold loopStep
  have : ∀ (k : List UInt8 → R (List UInt8 × Nat × Nat × UInt8)), (do
      let dst ← setIdx (D ++ ([0, 0, 0, 0] ++ List.replicate (m - 4) 0)) D.length 0x47
      let dst ← atOff dst D.length (Ts.setPid p · pid)
      let dst ← atOff dst D.length Ts.setPayload1
      let dst ← atOff dst D.length (Ts.setCc p · cc)
      k dst) = k (D ++ ((secHdr pid.toNat cc.toNat false).encode ++ List.replicate (m - 4) 0)) := by
    intro k
    rw [← ok_bind (D ++ ((secHdr pid.toNat cc.toNat false).encode ++ List.replicate (m - 4) 0)) k, ← hw]
    simp only [bind_assoc]
  rw [this, addU8_one p cc (by omega), ok_bind]
  by_cases h0 : psiSkip = 0
  · subst h0
    simp only [if_true, write_pusi D _ _ _ hp hc, ok_bind, pure_eq_ok, decide_true, Nat.sub_zero, Nat.zero_add,
      Nat.reduceSub]
    generalize hL : min size 183 = L
    have hL1 : L ≤ size := by omega
    rw [slice_ok (by omega) (by omega), ok_bind, List.drop_zero]
    have hbl : (buffer.take L).length = L := by rw [List.length_take]; omega
    have hbody : (0x00 :: buffer.take size).take 184 = 0x00 :: buffer.take L := by
      rw [List.take_succ_cons, List.take_take, Nat.min_comm, hL]
    rw [hbody]
    have hsplit : D ++ ((secHdr pid.toNat cc.toNat true).encode ++ List.replicate (m - 4) 0) =
        (D ++ ((secHdr pid.toNat cc.toNat true).encode ++ [0])) ++ List.replicate L 0 ++ List.replicate (m - 5 - L) 0 := by
      have h1 : m - 4 = 1 + (L + (m - 5 - L)) := by omega
      rw [h1, rep_add, rep_add]
      simp
    have hlen : (D ++ ((secHdr pid.toNat cc.toNat true).encode ++ [(0 : UInt8)])).length = D.length + 5 := by
      simp [encode_length]
    rw [hsplit]
    have hcs := copySlice_append (D ++ ((secHdr pid.toNat cc.toNat true).encode ++ [(0 : UInt8)])) (List.replicate L 0)
      (List.replicate (m - 5 - L) 0) (buffer.take L) (by rw [hbl, List.length_replicate])
    rw [hlen, List.length_replicate] at hcs
    rw [hcs, ok_bind]
    simp only [List.length_cons, List.length_append, encode_length, hbl, Nat.add_sub_cancel]
    rw [show m - 4 - (L + 1) = m - 5 - L by omega, show D.length + 5 + L = D.length + (4 + (L + 1)) by omega]
    simp
  · simp only [h0, if_false, ok_bind, pure_eq_ok, decide_false, Nat.reduceSub]
    generalize hL : min (size - psiSkip) 184 = L
    have hL1 : psiSkip + L ≤ size := by omega
    rw [slice_ok (by omega) (by omega), ok_bind]
    have hbl : ((buffer.take (psiSkip + L)).drop psiSkip).length = L := by
      rw [List.length_drop, List.length_take]; omega
    have hbody : ((buffer.take size).drop psiSkip).take 184 = (buffer.take (psiSkip + L)).drop psiSkip := by
      rw [List.take_drop, List.take_take]
      by_cases hq : size - psiSkip ≤ 184
      · rw [Nat.min_eq_right (by omega)]; congr 2; omega
      · rw [Nat.min_eq_left (by omega)]; congr 2; omega
    rw [hbody]
    have hsplit : D ++ ((secHdr pid.toNat cc.toNat false).encode ++ List.replicate (m - 4) 0) =
        (D ++ (secHdr pid.toNat cc.toNat false).encode) ++ List.replicate L 0 ++ List.replicate (m - 4 - L) 0 := by
      have h1 : m - 4 = L + (m - 4 - L) := by omega
      conv_lhs => rw [h1, rep_add]
      simp
    have hlen : (D ++ (secHdr pid.toNat cc.toNat false).encode).length = D.length + 4 := by
      simp [encode_length]
    rw [hsplit]
    have hcs := copySlice_append (D ++ (secHdr pid.toNat cc.toNat false).encode) (List.replicate L 0)
      (List.replicate (m - 4 - L) 0) ((buffer.take (psiSkip + L)).drop psiSkip) (by rw [hbl, List.length_replicate])
    rw [hlen, List.length_replicate] at hcs
    rw [hcs, ok_bind]
    simp only [List.length_append, encode_length, hbl]
    rw [show D.length + 4 + L = D.length + (4 + L) by omega]
    simp

/-- The whole loop: the packets, except that the stuffing of the last one is still zero. -/
theorem demuxLoop_eq (p : Profile) (buffer : List UInt8) (size : Nat) (pid : UInt16) (cc0 : Nat)
    (hp : pid.toNat < 8192) (h0 : 0 < size) (hb : size ≤ buffer.length) (n i fuel : Nat) (D : List UInt8) (cc : UInt8)
    (hn : i + n = packetCount size) (hf : n < fuel) (hc : cc.toNat = (cc0 + i) % 16) :
    ∃ Q r, Q ++ List.replicate r 0xFF =
        ((List.range' i n).map (packetAt pid.toNat cc0 (buffer.take size))).flatten ∧ r < 188 ∧
      Psi.demuxLoop p buffer size pid fuel (D ++ List.replicate (188 * n) 0) D.length (min (184 * i - 1) size) cc =
        .ok (D ++ Q ++ List.replicate r 0, (D ++ Q).length, UInt8.ofNat ((cc0 + i + n) % 16)) := by
  induction n generalizing i fuel D cc with
  | zero =>
    refine ⟨[], 0, by simp, by omega, ?_⟩
    obtain ⟨f, rfl⟩ : ∃ f, fuel = f + 1 := ⟨fuel - 1, by omega⟩
    have hns : ¬ min (184 * i - 1) size < size := by unfold packetCount at hn; omega
    rw [Psi.demuxLoop, if_neg hns]
    have : cc = UInt8.ofNat ((cc0 + i + 0) % 16) := by
      apply UInt8.toNat_inj.1; rw [hc, UInt8.toNat_ofNat']; omega
    rw [← this]
    simp
  | succ n ih =>
    obtain ⟨f, rfl⟩ : ∃ f, fuel = f + 1 := ⟨fuel - 1, by omega⟩
    have hlt : 184 * i < size + 1 := by unfold packetCount at hn; omega
    have hmin : min (184 * i - 1) size = 184 * i - 1 := by omega
    have hlt2 : 184 * i - 1 < size := by omega
    rw [hmin, demuxLoop_step _ _ _ _ _ _ _ _ _ hlt2]
    obtain ⟨body, hbody, hstep⟩ := loopStep_eq p buffer size pid D (188 * (n + 1)) (184 * i - 1) cc hp
      (by rw [hc]; omega) hlt2 hb (by omega)
    rw [hstep, ok_bind]
    have hdec : decide (184 * i - 1 = 0) = decide (i = 0) := by congr 1; simp only [eq_iff_iff]; omega
    have hbody' : body = ((0x00 :: buffer.take size).drop (184 * i)).take 184 := by
      rw [hbody]
      by_cases hi : i = 0
      · subst hi; simp
      · rw [if_neg (by omega)]
        obtain ⟨k, hk⟩ : ∃ k, 184 * i = k + 1 := ⟨184 * i - 1, by omega⟩
        rw [hk, List.drop_succ_cons, Nat.add_sub_cancel]
    have hblen : body.length = min (size + 1 - 184 * i) 184 := by
      rw [hbody', List.length_take, List.length_drop, List.length_cons, List.length_take, Nat.min_eq_left hb]
      omega
    have hnext : 184 * i - 1 + (if 184 * i - 1 = 0 then body.length - 1 else body.length) =
        min (184 * (i + 1) - 1) size := by
      rw [hblen]; split <;> omega
    simp only [hdec, hnext, hc]
    have hpk : packetAt pid.toNat cc0 (buffer.take size) i =
        (secHdr pid.toNat ((cc0 + i) % 16) (decide (i = 0))).encode ++ body ++ List.replicate (184 - body.length) 0xFF := by
      rw [packetAt, ← hbody', payloadPacket_eq]
    rw [List.range'_succ, List.map_cons, List.flatten_cons, hpk]
    generalize hE : (secHdr pid.toNat ((cc0 + i) % 16) (decide (i = 0))).encode = E
    have hEl : E.length = 4 := by rw [← hE, encode_length]
    by_cases hlast : n = 0
    · subst hlast
      obtain ⟨f', rfl⟩ : ∃ f', f = f' + 1 := ⟨f - 1, by omega⟩
      have hns : ¬ min (184 * (i + 1) - 1) size < size := by unfold packetCount at hn; omega
      refine ⟨E ++ body, 184 - body.length, by simp, by omega, ?_⟩
      rw [Psi.demuxLoop, if_neg hns]
      have e1 : (cc + 1) &&& 0x0F = UInt8.ofNat ((cc0 + i + (0 + 1)) % 16) := by
        apply UInt8.toNat_inj.1; rw [cc_next', hc, UInt8.toNat_ofNat']; omega
      rw [e1, show 188 * (0 + 1) - 4 - body.length = 184 - body.length by omega]
    · have hfull : body.length = 184 := by unfold packetCount at hn; omega
      obtain ⟨Q, r, hQ, hr, hloop⟩ := ih (i + 1) f (D ++ (E ++ body)) ((cc + 1) &&& 0x0F) (by omega) (by omega)
        (by rw [cc_next', hc]; omega)
      refine ⟨E ++ body ++ Q, r, ?_, hr, ?_⟩
      · rw [List.append_assoc, hQ, hfull]; simp
      · rw [hfull, show 188 * (n + 1) - 4 - 184 = 188 * n by omega, hloop]
        have e2 : cc0 + (i + 1) + n = cc0 + i + (n + 1) := by omega
        rw [e2]
        simp

end Mpegts
