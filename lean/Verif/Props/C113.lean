import Verif.Props.C112
import Verif.Props.C83_C86

/-! # C113: damaged, scrambled and foreign packets -/

namespace Spec

/-- A packet with other header bits that do not concern the framing of its payload: the sync byte, transport_error_indicator (1 bit),
transport_priority (1), PID (13) and transport_scrambling_control (2).  payload_unit_start_indicator, adaptation_field_control,
continuity_counter and all bytes after the header stay. -/
def disguise (sync tei priority pid scrambling : Nat) (pk : List UInt8) : List UInt8 :=
  [UInt8.ofNat sync, UInt8.ofNat (tei % 2 * 128 + (pk.getD 1 0).toNat / 64 % 2 * 64 + priority % 2 * 32 + pid / 256 % 32), UInt8.ofNat pid,
    UInt8.ofNat (scrambling % 4 * 64 + (pk.getD 3 0).toNat % 64)] ++ pk.drop 4

example : disguise 0x47 1 0 0x1FFF 2 [0x47, 0x40, 0x11, 0x1A, 9, 8] = [0x47, 0xDF, 0xFF, 0x9A, 9, 8] := by decide

end Spec

namespace Mpegts
open Spec Spec.Table

theorem mux_congr (p : Profile) (s : Psi) (a b : List UInt8) (h1 : Ts.isPayload a = Ts.isPayload b) (h2 : Ts.isAdaptation a = Ts.isAdaptation b)
    (h3 : Ts.getCc a = Ts.getCc b) (h4 : Ts.isPusi a = Ts.isPusi b) (hl : a.length = b.length) (hd : a.drop 4 = b.drop 4)
    (ho : ∀ o, Ts.getPayloadOffset p b = .ok o → 4 ≤ o.toNat) : s.mux p a = s.mux p b := by
  have hi : ∀ n, 4 ≤ n → idx a n = idx b n := by
    intro n hn
    have e : a[n]? = b[n]? := by
      rw [show n = 4 + (n - 4) by omega, ← List.getElem?_drop, ← List.getElem?_drop, hd]
    unfold idx; rw [e]
  have hg : Ts.getPayloadOffset p a = Ts.getPayloadOffset p b := by
    unfold Ts.getPayloadOffset Ts.getAdaptationSize
    rw [h2, hi 4 (by omega)]
  have hs : ∀ m n, 4 ≤ m → slice a m n = slice b m n := by
    intro m n hm
    have e : (a.take n).drop m = (b.take n).drop m := by
      rw [List.drop_take, List.drop_take, show m = 4 + (m - 4) by omega, ← List.drop_drop, ← List.drop_drop, hd]
    unfold slice; rw [hl, e]
  unfold Psi.mux
  rw [h1, hg, h3, h4]
  cases hof : Ts.getPayloadOffset p b with
  | error e => rfl
  | ok o =>
    have h4o := ho o hof
    simp only [ok_bind]
    rw [hi o.toNat h4o, hs o.toNat 188 h4o, hs (o.toNat + 1) 188 (by omega)]
    have : ∀ pf : UInt8, slice a (o.toNat + 1 + pf.toNat) 188 = slice b (o.toNat + 1 + pf.toNat) 188 := fun pf => hs _ _ (by omega)
    simp only [this]

theorem disguise_bits : ∀ (b : UInt8) (tei pr hi : Nat), tei < 2 → pr < 2 → hi < 32 →
    (UInt8.ofNat (tei * 128 + b.toNat / 64 % 2 * 64 + pr * 32 + hi) &&& 0x40) = b &&& 0x40 := by
  intro b tei pr hi h1 h2 h3
  have key : ∀ b x : UInt8, x.toNat / 64 % 2 = b.toNat / 64 % 2 → x &&& 0x40 = b &&& 0x40 := by decide +kernel
  apply key
  rw [UInt8.toNat_ofNat']; omega

theorem disguise_low : ∀ (b : UInt8) (sc : Nat), sc < 4 → ∀ m : UInt8, m.toNat < 64 → UInt8.ofNat (sc * 64 + b.toNat % 64) &&& m = b &&& m := by
  intro b sc h m hm
  apply UInt8.toNat_inj.1
  have e : ∀ x : UInt8, (x &&& m).toNat = x.toNat % 64 &&& m.toNat := by
    intro x
    rw [UInt8.toNat_and]
    apply Nat.eq_of_testBit_eq
    intro i
    rw [Nat.testBit_and, Nat.testBit_and, show (64 : Nat) = 2 ^ 6 from rfl, Nat.testBit_mod_two_pow]
    by_cases hi : i < 6
    · simp [hi]
    · have : m.toNat.testBit i = false := Nat.testBit_lt_two_pow (Nat.lt_of_lt_of_le hm (Nat.pow_le_pow_right (n := 2) (by decide) (by omega : 6 ≤ i)))
      simp [this]
  rw [e, e, UInt8.toNat_ofNat']
  congr 1
  omega

/-- C113: apart from the start flag, the presence flags of adaptation field and payload and the continuity counter, nothing in the header of a packet changes
what the reassembler does with it: not the sync byte, the PID, the error flag, the priority or the scrambling control. -/
theorem C113_header (p : Profile) (s : Psi) (sync tei priority pid scrambling : Nat) (pk : List UInt8) (h : IsPacket pk) :
    s.mux p (disguise sync tei priority pid scrambling pk) = s.mux p pk := by
  match pk, h with
  | b0 :: b1 :: b2 :: b3 :: rest, h =>
    have hb1 := disguise_bits b1 (tei % 2) (priority % 2) (pid / 256 % 32) (by omega) (by omega) (by omega)
    have hb3 := disguise_low b3 (scrambling % 4) (by omega)
    have e : disguise sync tei priority pid scrambling (b0 :: b1 :: b2 :: b3 :: rest) = UInt8.ofNat sync ::
        UInt8.ofNat (tei % 2 * 128 + b1.toNat / 64 % 2 * 64 + priority % 2 * 32 + pid / 256 % 32) :: UInt8.ofNat pid ::
        UInt8.ofNat (scrambling % 4 * 64 + b3.toNat % 64) :: rest := rfl
    rw [e]
    refine mux_congr p s _ _ ?_ ?_ ?_ ?_ rfl rfl ?_
    · exact congrArg (fun x : UInt8 => (.ok (x != 0x00) : R Bool)) (hb3 0x10 (by decide))
    · exact congrArg (fun x : UInt8 => (.ok (x != 0x00) : R Bool)) (hb3 0x20 (by decide))
    · exact congrArg (fun x : UInt8 => (.ok x : R UInt8)) (hb3 0x0F (by decide))
    · exact congrArg (fun x : UInt8 => (.ok (x != 0x00) : R Bool)) hb1
    · intro o ho
      unfold Ts.getPayloadOffset at ho
      obtain ⟨x, hx, ho⟩ := bind_eq_ok.1 ho
      cases x with
      | false => cases ho; decide
      | true =>
        obtain ⟨hl, ha⟩ := h
        match rest, hl with
        | b4 :: rest, hl =>
          have hle : b4.toNat ≤ 250 := ha (by
            have : (b3 &&& 0x20 != 0) = true := Except.ok.inj hx
            have key : ∀ b : UInt8, (b &&& 0x20 != 0) = true → b.toNat / 32 % 2 = 1 := by decide +kernel
            simpa [hasAdaptation] using key b3 this)
          have ho : addU8 p 5 b4 = .ok o := ho
          have h5 : (5 : UInt8).toNat = 5 := rfl
          rw [addU8, if_pos (by omega)] at ho
          cases ho
          rw [UInt8.toNat_add]
          omega

/-- Receiving packets with other values in these bits, for each packet its own, gives the same. -/
theorem C113_received {α : Type} (parse : α → Psi → R α) (p : Profile) (t : α) (s : Psi) (pks : List (List UInt8)) (h : ∀ pk ∈ pks, IsPacket pk)
    (f : List UInt8 → Nat × Nat × Nat × Nat × Nat) :
    receive parse p t s (pks.map fun pk => disguise (f pk).1 (f pk).2.1 (f pk).2.2.1 (f pk).2.2.2.1 (f pk).2.2.2.2 pk) = receive parse p t s pks := by
  induction pks generalizing t s with
  | nil => rfl
  | cons pk r ih =>
    unfold receive at ih ⊢
    rw [List.map_cons, List.foldlM_cons, List.foldlM_cons, C113_header p s _ _ _ _ _ pk (h pk List.mem_cons_self)]
    cases hx : s.mux p pk with
    | error e => rfl
    | ok s' =>
      simp only [ok_bind]
      cases parse t s' with
      | error e => rfl
      | ok t' => exact ih t' s' fun pk hpk => h pk (List.mem_cons_of_mem _ hpk)

theorem stream_isPacket (pid cc : Nat) (hp : pid < 8192) (secs : List (List UInt8)) : ∀ pk ∈ stream pid cc secs, IsPacket pk := by
  induction secs generalizing cc with
  | nil => intro pk h; cases h
  | cons s r ih =>
    intro pk h
    rcases List.mem_append.1 h with h | h
    · obtain ⟨i, -, rfl⟩ := List.mem_map.1 h
      exact (packetAt_fields pid cc hp s i).1
    · exact ih _ pk h

/-- C113 fails: packets that are marked as damaged (`tei` 1) or scrambled (`scrambling` not 0) are assembled like any others; here for the
services of another sender. -/
theorem C113_refuted (p : Profile) (t : Sdt) (s : Foreign.Sdt) (h : s.Ok) (pid cc : Nat) (hp : pid < 8192) (s0 : Psi) (scrambling : Nat) :
    ∃ s', receive (Sdt.parse p) p t s0 ((stream pid cc [complete s.body]).map (disguise 0x47 1 0 pid scrambling)) = (fun u => (u, s')) <$> Sdt.take p t s := by
  obtain ⟨s1, r1⟩ := Sdt.C111_sdt p t [s] (by simpa using h) pid cc hp s0
  rw [foldlM_one] at r1
  refine ⟨s1, ?_⟩
  rw [← r1]
  exact C113_received _ p t s0 _ (fun pk hpk => stream_isPacket pid cc hp _ pk hpk) fun _ => (0x47, 1, 0, pid, scrambling)

/-- The hypotheses are met: the packets of a section, marked as damaged and scrambled. -/
example (p : Profile) (s0 : Psi) :
    ∃ s', receive (Sdt.parse p) p Sdt.default s0 ((stream 0x11 3 [complete foreignSdt.body]).map (disguise 0x47 1 0 0x11 3)) =
      (fun u => (u, s')) <$> Sdt.take p Sdt.default foreignSdt :=
  C113_refuted p Sdt.default foreignSdt foreignSdt_ok 0x11 3 (by decide) s0 3

end Mpegts
