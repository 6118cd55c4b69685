import Verif.Lemmas.PsiDemux
import Verif.Spec.WidePacket

/-! # Helper lemmas: packetisation with any PID and counter -/

namespace Mpegts
open Spec

theorem spillHeader_valid (pid cc : Nat) (first : Bool) : (spillHeader pid cc first).Valid :=
  ⟨by simp [spillHeader], by simp only [spillHeader]; omega, by simp [spillHeader], by simp only [spillHeader]; omega⟩

theorem spillHeader_small {pid cc : Nat} (first : Bool) (hp : pid < 8192) (hc : cc < 16) :
    spillHeader pid cc first = secHdr pid cc first := by
  have e1 : pid / 2 ^ 15 % 2 = 0 := by omega
  have e2 : pid / 2 ^ 14 % 2 = 0 := by omega
  have e3 : pid / 2 ^ 13 % 2 = 0 := by omega
  have e4 : pid % 2 ^ 13 = pid := by omega
  have e5 : cc % 2 ^ 4 = cc := by omega
  simp only [spillHeader, secHdr, e1, e2, e3, e4, e5]
  simp

theorem spillHeader_cc {pid a b : Nat} (first : Bool) (h : a % 16 = b % 16) :
    spillHeader pid a first = spillHeader pid b first := by
  have : a % 2 ^ 4 = b % 2 ^ 4 := h
  simp only [spillHeader, this]

theorem addU8_spill (p : Profile) (cc : UInt8) (h : p = .release ∨ cc.toNat < 16) : addU8 p cc 1 = .ok (cc + 1) := by
  rcases h with rfl | h
  · simp [addU8, Profile.overflow]
  · exact addU8_one p cc (by omega)

theorem spill_header (p : Profile) (D rest : List UInt8) (pid : UInt16) (cc : UInt8)
    (hf : p = .release ∨ pid.toNat < 8192 ∧ cc.toNat < 16) :
    (do
      let dst ← setIdx (D ++ ([0, 0, 0, 0] ++ rest)) D.length 0x47
      let dst ← atOff dst D.length (Ts.setPid p · pid)
      let dst ← atOff dst D.length Ts.setPayload1
      atOff dst D.length (Ts.setCc p · cc)) = .ok (D ++ ((spillHeader pid.toNat cc.toNat false).encode ++ rest)) := by
  by_cases hs : pid.toNat < 8192 ∧ cc.toNat < 16
  · rw [write_header p D rest pid cc hs.1 hs.2, spillHeader_small _ hs.1 hs.2]
  have hp : p = .release := hf.resolve_right hs
  subst hp
  let h0 : Header := ⟨0x47, false, false, false, 0, 0, false, false, 0⟩
  have e0 : setIdx (D ++ ([0, 0, 0, 0] ++ rest)) D.length 0x47 = .ok (D ++ (h0.encode ++ rest)) := by
    have := setIdx_append D 0 (0 :: 0 :: 0 :: rest) 0x47
    have hE : h0.encode = [0x47, 0, 0, 0] := by decide
    rw [hE]
    simpa using this
  have v0 : h0.Valid := by decide
  rw [e0, ok_bind, atOff_len, C02_set_pid_release h0 v0 rest pid, map_ok, ok_bind, atOff_len]
  have v1 : ∀ t u v : Bool, (Header.mk 0x47 t u v (pid.toNat % 8192) 0 false false 0).Valid := fun t u v =>
    ⟨by simp, by simp only []; omega, by simp, by simp⟩
  have v2 : ∀ t u v : Bool, (Header.mk 0x47 t u v (pid.toNat % 8192) 0 false true 0).Valid := fun t u v =>
    ⟨by simp, by simp only []; omega, by simp, by simp⟩
  rw [(C03_set_flags _ (v1 _ _ _) rest).1, map_ok, ok_bind, atOff_len]
  by_cases hc : cc.toNat < 16
  · rw [(C03_set_cc .release _ (v2 _ _ _) rest cc hc).1, map_ok]
    have e5 : cc.toNat % 2 ^ 4 = cc.toNat := by omega
    simp only [spillHeader, e5]
    rfl
  · rw [(C03_set_cc_out_of_range _ (v2 _ _ _) rest cc (by omega)).2, map_ok]
    rfl

theorem spill_pusi (D rest : List UInt8) (pid cc : Nat) :
    atOff (D ++ ((spillHeader pid cc false).encode ++ rest)) D.length Ts.setPusi1 =
      .ok (D ++ ((spillHeader pid cc true).encode ++ rest)) := by
  rw [atOff_len, (C03_set_flags _ (spillHeader_valid pid cc false) rest).2.2.1, map_ok]
  rfl

theorem spillStep_eq (p : Profile) (buffer : List UInt8) (size : Nat) (pid : UInt16) (D : List UInt8) (m psiSkip : Nat)
    (cc : UInt8) (hf : p = .release ∨ pid.toNat < 8192 ∧ cc.toNat < 16) (hs : psiSkip < size) (hb : size ≤ buffer.length)
    (hm : 188 ≤ m) :
    ∃ body, body = (if psiSkip = 0 then (0x00 :: buffer.take size).take 184
        else ((buffer.take size).drop psiSkip).take 184) ∧
      loopStep p buffer size pid (D ++ List.replicate m 0) D.length psiSkip cc =
        .ok (D ++ ((spillHeader pid.toNat cc.toNat (decide (psiSkip = 0))).encode ++ body) ++
            List.replicate (m - 4 - body.length) 0,
          (D ++ ((spillHeader pid.toNat cc.toNat (decide (psiSkip = 0))).encode ++ body)).length,
          psiSkip + (if psiSkip = 0 then body.length - 1 else body.length), (cc + 1) &&& 0x0F) := by
  refine ⟨_, rfl, ?_⟩
  have hw := spill_header p D (List.replicate (m - 4) 0) pid cc hf
  rw [replicate_split m (by omega)]
  unfold loopStep
  have : ∀ (k : List UInt8 → R (List UInt8 × Nat × Nat × UInt8)), (do
      let dst ← setIdx (D ++ ([0, 0, 0, 0] ++ List.replicate (m - 4) 0)) D.length 0x47
      let dst ← atOff dst D.length (Ts.setPid p · pid)
      let dst ← atOff dst D.length Ts.setPayload1
      let dst ← atOff dst D.length (Ts.setCc p · cc)
      k dst) = k (D ++ ((spillHeader pid.toNat cc.toNat false).encode ++ List.replicate (m - 4) 0)) := by
    intro k
    rw [← ok_bind (D ++ ((spillHeader pid.toNat cc.toNat false).encode ++ List.replicate (m - 4) 0)) k, ← hw]
    simp only [bind_assoc]
  rw [this, addU8_spill p cc (hf.imp id (·.2)), ok_bind]
  by_cases h0 : psiSkip = 0
  · subst h0
    simp only [if_true, spill_pusi D, ok_bind, pure_eq_ok, decide_true, Nat.sub_zero, Nat.zero_add,
      Nat.reduceSub]
    generalize hL : min size 183 = L
    have hL1 : L ≤ size := by omega
    rw [slice_ok (by omega) (by omega), ok_bind, List.drop_zero]
    have hbl : (buffer.take L).length = L := by rw [List.length_take]; omega
    have hbody : (0x00 :: buffer.take size).take 184 = 0x00 :: buffer.take L := by
      rw [List.take_succ_cons, List.take_take, Nat.min_comm, hL]
    rw [hbody]
    have hsplit : D ++ ((spillHeader pid.toNat cc.toNat true).encode ++ List.replicate (m - 4) 0) =
        (D ++ ((spillHeader pid.toNat cc.toNat true).encode ++ [0])) ++ List.replicate L 0 ++ List.replicate (m - 5 - L) 0 := by
      have h1 : m - 4 = 1 + (L + (m - 5 - L)) := by omega
      rw [h1, rep_add, rep_add]
      simp
    have hlen : (D ++ ((spillHeader pid.toNat cc.toNat true).encode ++ [(0 : UInt8)])).length = D.length + 5 := by
      simp [encode_length]
    rw [hsplit]
    have hcs := copySlice_append (D ++ ((spillHeader pid.toNat cc.toNat true).encode ++ [(0 : UInt8)])) (List.replicate L 0)
      (List.replicate (m - 5 - L) 0) (buffer.take L) (by rw [hbl, List.length_replicate])
    rw [hlen, List.length_replicate] at hcs
    rw [hcs, ok_bind]
    simp only [List.length_cons, List.length_append, encode_length, hbl, Nat.add_sub_cancel]
    rw [show m - 4 - (L + 1) = m - 5 - L by omega, show D.length + 5 + L = D.length + (4 + (L + 1)) by omega]
    simp
  · simp only [h0, if_false, ok_bind, pure_eq_ok, decide_false, Nat.reduceSub]
    generalize hL : min (size - psiSkip) 184 = L
    have hL1 : psiSkip + L ≤ size := by omega
    rw [slice_ok (by omega) (by omega), ok_bind]
    have hbl : ((buffer.take (psiSkip + L)).drop psiSkip).length = L := by
      rw [List.length_drop, List.length_take]; omega
    have hbody : ((buffer.take size).drop psiSkip).take 184 = (buffer.take (psiSkip + L)).drop psiSkip := by
      rw [List.take_drop, List.take_take]
      by_cases hq : size - psiSkip ≤ 184
      · rw [Nat.min_eq_right (by omega)]; congr 2; omega
      · rw [Nat.min_eq_left (by omega)]; congr 2; omega
    rw [hbody]
    have hsplit : D ++ ((spillHeader pid.toNat cc.toNat false).encode ++ List.replicate (m - 4) 0) =
        (D ++ (spillHeader pid.toNat cc.toNat false).encode) ++ List.replicate L 0 ++ List.replicate (m - 4 - L) 0 := by
      have h1 : m - 4 = L + (m - 4 - L) := by omega
      conv_lhs => rw [h1, rep_add]
      simp
    have hlen : (D ++ (spillHeader pid.toNat cc.toNat false).encode).length = D.length + 4 := by
      simp [encode_length]
    rw [hsplit]
    have hcs := copySlice_append (D ++ (spillHeader pid.toNat cc.toNat false).encode) (List.replicate L 0)
      (List.replicate (m - 4 - L) 0) ((buffer.take (psiSkip + L)).drop psiSkip) (by rw [hbl, List.length_replicate])
    rw [hlen, List.length_replicate] at hcs
    rw [hcs, ok_bind]
    simp only [List.length_append, encode_length, hbl]
    rw [show D.length + 4 + L = D.length + (4 + L) by omega]
    simp

/-- The whole loop: the packets, except that the stuffing of the last one is still zero. -/
theorem spillLoop_eq (p : Profile) (buffer : List UInt8) (size : Nat) (pid : UInt16) (cc0 : Nat)
    (hp : p = .release ∨ pid.toNat < 8192) (h0 : 0 < size) (hb : size ≤ buffer.length) (n i fuel : Nat) (D : List UInt8) (cc : UInt8)
    (hn : i + n = packetCount size) (hf : n < fuel) (hc : cc.toNat % 16 = (cc0 + i) % 16) (hcp : p = .release ∨ cc.toNat < 16) (hci : 0 < i → cc.toNat < 16) :
    ∃ Q r, Q ++ List.replicate r 0xFF =
        ((List.range' i n).map (spillPacketAt pid.toNat cc0 (buffer.take size))).flatten ∧ r < 188 ∧
      Psi.demuxLoop p buffer size pid fuel (D ++ List.replicate (188 * n) 0) D.length (min (184 * i - 1) size) cc =
        .ok (D ++ Q ++ List.replicate r 0, (D ++ Q).length, UInt8.ofNat ((cc0 + i + n) % 16)) := by
  induction n generalizing i fuel D cc with
  | zero =>
    refine ⟨[], 0, by simp, by omega, ?_⟩
    obtain ⟨f, rfl⟩ : ∃ f, fuel = f + 1 := ⟨fuel - 1, by omega⟩
    have hns : ¬ min (184 * i - 1) size < size := by unfold packetCount at hn; omega
    rw [Psi.demuxLoop, if_neg hns]
    have : cc = UInt8.ofNat ((cc0 + i + 0) % 16) := by
      apply UInt8.toNat_inj.1
      have := hci (by unfold packetCount at hn; omega)
      rw [UInt8.toNat_ofNat']; omega
    rw [← this]
    simp
  | succ n ih =>
    obtain ⟨f, rfl⟩ : ∃ f, fuel = f + 1 := ⟨fuel - 1, by omega⟩
    have hlt : 184 * i < size + 1 := by unfold packetCount at hn; omega
    have hmin : min (184 * i - 1) size = 184 * i - 1 := by omega
    have hlt2 : 184 * i - 1 < size := by omega
    rw [hmin, demuxLoop_step _ _ _ _ _ _ _ _ _ hlt2]
    obtain ⟨body, hbody, hstep⟩ := spillStep_eq p buffer size pid D (188 * (n + 1)) (184 * i - 1) cc
      (by rcases hp with h | h <;> rcases hcp with h' | h' <;> simp_all) hlt2 hb (by omega)
    rw [hstep, ok_bind]
    have hdec : decide (184 * i - 1 = 0) = decide (i = 0) := by congr 1; simp only [eq_iff_iff]; omega
    have hbody' : body = ((0x00 :: buffer.take size).drop (184 * i)).take 184 := by
      rw [hbody]
      by_cases hi : i = 0
      · subst hi; simp
      · rw [if_neg (by omega)]
        obtain ⟨k, hk⟩ : ∃ k, 184 * i = k + 1 := ⟨184 * i - 1, by omega⟩
        rw [hk, List.drop_succ_cons, Nat.add_sub_cancel]
    have hblen : body.length = min (size + 1 - 184 * i) 184 := by
      rw [hbody', List.length_take, List.length_drop, List.length_cons, List.length_take, Nat.min_eq_left hb]
      omega
    have hnext : 184 * i - 1 + (if 184 * i - 1 = 0 then body.length - 1 else body.length) =
        min (184 * (i + 1) - 1) size := by
      rw [hblen]; split <;> omega
    simp only [hdec, hnext, spillHeader_cc (pid := pid.toNat) (decide (i = 0)) hc]
    have hpk : spillPacketAt pid.toNat cc0 (buffer.take size) i =
        (spillHeader pid.toNat (cc0 + i) (decide (i = 0))).encode ++ body ++ List.replicate (184 - body.length) 0xFF := by
      rw [spillPacketAt, ← hbody']
    rw [List.range'_succ, List.map_cons, List.flatten_cons, hpk]
    generalize hE : (spillHeader pid.toNat (cc0 + i) (decide (i = 0))).encode = E
    have hEl : E.length = 4 := by rw [← hE, encode_length]
    by_cases hlast : n = 0
    · subst hlast
      obtain ⟨f', rfl⟩ : ∃ f', f = f' + 1 := ⟨f - 1, by omega⟩
      have hns : ¬ min (184 * (i + 1) - 1) size < size := by unfold packetCount at hn; omega
      refine ⟨E ++ body, 184 - body.length, by simp, by omega, ?_⟩
      rw [Psi.demuxLoop, if_neg hns]
      have e1 : (cc + 1) &&& 0x0F = UInt8.ofNat ((cc0 + i + (0 + 1)) % 16) := by
        apply UInt8.toNat_inj.1; rw [cc_next', UInt8.toNat_ofNat']; omega
      rw [e1, show 188 * (0 + 1) - 4 - body.length = 184 - body.length by omega]
    · have hfull : body.length = 184 := by unfold packetCount at hn; omega
      obtain ⟨Q, r, hQ, hr, hloop⟩ := ih (i + 1) f (D ++ (E ++ body)) ((cc + 1) &&& 0x0F) (by omega) (by omega)
        (by rw [cc_next']; omega) (.inr (by rw [cc_next']; omega)) (fun _ => by rw [cc_next']; omega)
      refine ⟨E ++ body ++ Q, r, ?_, hr, ?_⟩
      · rw [List.append_assoc, hQ, hfull]; simp
      · rw [hfull, show 188 * (n + 1) - 4 - 184 = 188 * n by omega, hloop]
        have e2 : cc0 + (i + 1) + n = cc0 + i + (n + 1) := by omega
        rw [e2]
        simp

end Mpegts
