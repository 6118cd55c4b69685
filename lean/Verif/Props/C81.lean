import Verif.Props.C32_C33

/-! # C81: decoding descriptors encoded by the standard

For each kind, parsing the encoding of arbitrary field values gives a descriptor with these values in the documented
units. -/

namespace Mpegts
open Spec

/-! ## Dispatch on the tag -/

section
variable (p : Profile) (r : List UInt8)
theorem parse_09 : Desc.parse p (0x09 :: r) =
    (do if ← Desc09.check (0x09 :: r) then Desc.d09 <$> Desc09.parse (0x09 :: r) else Desc.parseRaw (0x09 :: r)) := by
  simp [Desc.parse]
theorem parse_0A : Desc.parse p (0x0A :: r) =
    (do if ← Desc0A.check (0x0A :: r) then Desc.d0A <$> Desc0A.parse (0x0A :: r) else Desc.parseRaw (0x0A :: r)) := by
  simp [Desc.parse]
theorem parse_0E : Desc.parse p (0x0E :: r) =
    (do if ← Desc0E.check (0x0E :: r) then Desc.d0E <$> Desc0E.parse (0x0E :: r) else Desc.parseRaw (0x0E :: r)) := by
  simp [Desc.parse]
theorem parse_40 : Desc.parse p (0x40 :: r) =
    (do if ← Desc40.check (0x40 :: r) then Desc.d40 <$> Desc40.parse (0x40 :: r) else Desc.parseRaw (0x40 :: r)) := by
  simp [Desc.parse]
theorem parse_41 : Desc.parse p (0x41 :: r) =
    (do if ← Desc41.check (0x41 :: r) then Desc.d41 <$> Desc41.parse (0x41 :: r) else Desc.parseRaw (0x41 :: r)) := by
  simp [Desc.parse]
theorem parse_43 : Desc.parse p (0x43 :: r) =
    (do if ← Desc43.check (0x43 :: r) then Desc.d43 <$> Desc43.parse p (0x43 :: r) else Desc.parseRaw (0x43 :: r)) := by
  simp [Desc.parse]
theorem parse_44 : Desc.parse p (0x44 :: r) =
    (do if ← Desc44.check (0x44 :: r) then Desc.d44 <$> Desc44.parse p (0x44 :: r) else Desc.parseRaw (0x44 :: r)) := by
  simp [Desc.parse]
theorem parse_48 : Desc.parse p (0x48 :: r) =
    (do if ← Desc48.check (0x48 :: r) then Desc.d48 <$> Desc48.parse (0x48 :: r) else Desc.parseRaw (0x48 :: r)) := by
  simp [Desc.parse]
theorem parse_4D : Desc.parse p (0x4D :: r) =
    (do if ← Desc4D.check (0x4D :: r) then Desc.d4D <$> Desc4D.parse (0x4D :: r) else Desc.parseRaw (0x4D :: r)) := by
  simp [Desc.parse]
theorem parse_4E : Desc.parse p (0x4E :: r) =
    (do if ← Desc4E.check (0x4E :: r) then Desc.d4E <$> Desc4E.parse (0x4E :: r) else Desc.parseRaw (0x4E :: r)) := by
  simp [Desc.parse]
theorem parse_52 : Desc.parse p (0x52 :: r) =
    (do if ← Desc52.check (0x52 :: r) then Desc.d52 <$> Desc52.parse (0x52 :: r) else Desc.parseRaw (0x52 :: r)) := by
  simp [Desc.parse]
theorem parse_58 : Desc.parse p (0x58 :: r) =
    (do if ← Desc58.check (0x58 :: r) then Desc.d58 <$> Desc58.parse p (0x58 :: r) else Desc.parseRaw (0x58 :: r)) := by
  simp [Desc.parse]
theorem parse_5A : Desc.parse p (0x5A :: r) =
    (do if ← Desc5A.check (0x5A :: r) then Desc.d5A <$> Desc5A.parse p (0x5A :: r) else Desc.parseRaw (0x5A :: r)) := by
  simp [Desc.parse]
theorem parse_83 : Desc.parse p (0x83 :: r) =
    (do if ← Desc83.check (0x83 :: r) then Desc.d83 <$> Desc83.parse (0x83 :: r) else Desc.parseRaw (0x83 :: r)) := by
  simp [Desc.parse]
end

theorem b2_eq (v : Nat) : beBytes 2 v = [UInt8.ofNat (v / 256 ^ 1), UInt8.ofNat (v / 256 ^ 0)] := rfl
theorem b3_eq (v : Nat) : beBytes 3 v = [UInt8.ofNat (v / 256 ^ 2), UInt8.ofNat (v / 256 ^ 1), UInt8.ofNat (v / 256 ^ 0)] := rfl
theorem b4_eq (v : Nat) : beBytes 4 v = [UInt8.ofNat (v / 256 ^ 3), UInt8.ofNat (v / 256 ^ 2), UInt8.ofNat (v / 256 ^ 1),
    UInt8.ofNat (v / 256 ^ 0)] := rfl

/-! ## Fixed fields -/

/-- C81: conditional access. -/
theorem C81_conditional_access (p : Profile) (caid pid : Nat) (priv : List UInt8) (h1 : caid < 2 ^ 16) (h2 : pid < 2 ^ 13) :
    Desc.parse p (Descriptor.conditionalAccess caid pid priv) =
      .ok (.d09 { caid := UInt16.ofNat caid, pid := UInt16.ofNat pid, data := priv }) := by
  have w : beBytes 4 (Descriptor.pack [(16, caid), (3, 0b111), (13, pid)]) = beBytes 2 caid ++ beBytes 2 (7 * 2 ^ 13 + pid) := by
    have := beBytes_pack 2 2 [(16, caid)] [(3, 0b111), (13, pid)] rfl (by
      simp only [List.mem_cons, List.not_mem_nil, or_false]
      rintro x (rfl | rfl) <;> simp only <;> omega)
    simpa [Descriptor.pack] using this
  have m : UInt16.ofNat (7 * 2 ^ 13 + pid) &&& 0x1FFF = UInt16.ofNat pid := by
    refine UInt16.toNat_inj.1 ?_
    rw [UInt16.toNat_and, UInt16.toNat_ofNat', UInt16.toNat_ofNat', show (0x1FFF : UInt16).toNat = 2 ^ 13 - 1 by decide,
      Nat.and_two_pow_sub_one_eq_mod]
    omega
  have e : Descriptor.conditionalAccess caid pid priv = 0x09 :: UInt8.ofNat (4 + priv.length) ::
      UInt8.ofNat (caid / 256 ^ 1) :: UInt8.ofNat (caid / 256 ^ 0) :: UInt8.ofNat ((7 * 2 ^ 13 + pid) / 256 ^ 1) ::
      UInt8.ofNat ((7 * 2 ^ 13 + pid) / 256 ^ 0) :: priv := by
    rw [Descriptor.conditionalAccess, w, Descriptor.descriptor]
    simp only [List.length_append, beBytes_length, b2_eq]; rfl
  rw [e, parse_09]
  simp only [Desc09.check, pure_eq_ok, ok_bind, List.length_cons]
  rw [if_pos (by simp)]
  simp only [Desc09.parse, getU16At_succ, getU16At_cons, sliceFrom_succ, sliceFrom_zero, ok_bind, m, pure_eq_ok, map_ok]

/-- C81: maximum bitrate. -/
theorem C81_maximum_bitrate (p : Profile) (rate : Nat) (h : rate < 2 ^ 22) :
    Desc.parse p (Descriptor.maximumBitrate rate) = .ok (.d0E { bitrate := UInt32.ofNat rate }) := by
  have e : Descriptor.maximumBitrate rate = 0x0E :: 3 :: beBytes 3 (3 * 2 ^ 22 + rate) := by
    simp only [Descriptor.maximumBitrate, Descriptor.descriptor, beBytes_length, Descriptor.pack, List.foldl_cons, List.foldl_nil,
      Nat.zero_mul, Nat.zero_add]
    rfl
  have m : UInt32.ofNat ((3 * 2 ^ 22 + rate) % 2 ^ 24) &&& 0x003FFFFF = UInt32.ofNat rate := by
    refine UInt32.toNat_inj.1 ?_
    rw [UInt32.toNat_and, UInt32.toNat_ofNat', UInt32.toNat_ofNat', show (0x003FFFFF : UInt32).toNat = 2 ^ 22 - 1 by decide,
      Nat.and_two_pow_sub_one_eq_mod]
    omega
  rw [e, parse_0E]
  simp only [Desc0E.check, pure_eq_ok, ok_bind, List.length_cons, beBytes_length]
  rw [if_pos (by rfl)]
  have g := getU24At_beBytes (3 * 2 ^ 22 + rate) []
  rw [List.append_nil] at g
  simp only [Desc0E.parse, getU24At_succ, g, ok_bind, m, pure_eq_ok, map_ok]

/-- C81: network name. -/
theorem C81_network_name (p : Profile) (name : List UInt8) :
    Desc.parse p (Descriptor.networkName name) = .ok (.d40 { name := StringDVB.ofBytes name }) := by
  rw [show Descriptor.networkName name = 0x40 :: UInt8.ofNat name.length :: name from rfl, parse_40]
  simp [Desc40.check, Desc40.parse]

/-- C81: stream identifier. -/
theorem C81_stream_identifier (p : Profile) (tag : Nat) :
    Desc.parse p (Descriptor.streamIdentifier tag) = .ok (.d52 { tag := UInt8.ofNat tag }) := by
  rw [show Descriptor.streamIdentifier tag = 0x52 :: 1 :: beBytes 1 tag from rfl, parse_52]
  simp [Desc52.check, Desc52.parse, beBytes]

/-! ## Delivery systems -/

theorem fromBcd32_bcd (p : Profile) (k n : Nat) (hk : k ≤ 8) (hn : n < 10 ^ k) :
    fromBcd32 p (UInt32.ofNat (bcd k n)) = .ok (UInt32.ofNat n) := by
  have hp : (10 : Nat) ^ k ≤ 10 ^ 8 := Nat.pow_le_pow_right (by omega) hk
  have e : bcd k n = bcd 8 n := by
    have a := bcd_add (8 - k) k n
    rw [Nat.sub_add_cancel hk] at a
    rw [a, Nat.div_eq_of_lt hn]
    have : ∀ j, bcd j 0 = 0 := by intro j; induction j with | zero => rfl | succ j ih => simp [bcd, ih]
    rw [this, Nat.zero_mul, Nat.zero_add]
  rw [e]
  have b := bcd_lt 8 n
  have t : (UInt32.ofNat (bcd 8 n)).toNat = bcd 8 n := by
    rw [UInt32.toNat_ofNat', Nat.mod_eq_of_lt (by omega)]
  obtain ⟨v, h1, h2⟩ := fromBcd32_ok p (UInt32.ofNat (bcd 8 n)) (by rw [t]; exact validBcd_bcd 8 n)
  rw [h1]
  refine congrArg _ (UInt32.toNat_inj.1 ?_)
  rw [h2, t, unbcd_bcd, UInt32.toNat_ofNat']
  omega

theorem fromBcd16_bcd (p : Profile) (n : Nat) (hn : n < 10 ^ 4) :
    fromBcd16 p (UInt16.ofNat (bcd 4 n)) = .ok (UInt16.ofNat n) := by
  have b := bcd_lt 4 n
  have t : (UInt16.ofNat (bcd 4 n)).toNat = bcd 4 n := by
    rw [UInt16.toNat_ofNat', Nat.mod_eq_of_lt (by omega)]
  obtain ⟨v, h1, h2⟩ := fromBcd16_ok p (UInt16.ofNat (bcd 4 n)) (by rw [t]; exact validBcd_bcd 4 n)
  rw [h1]
  refine congrArg _ (UInt16.toNat_inj.1 ?_)
  rw [h2, t, unbcd_bcd, UInt16.toNat_ofNat']
  omega

theorem mulU32_lit (p : Profile) (a b : Nat) (h : a * b < 2 ^ 32) (ha : a < 2 ^ 32) (hb : b < 2 ^ 32) :
    mulU32 p (UInt32.ofNat a) (UInt32.ofNat b) = .ok (UInt32.ofNat (a * b)) := by
  have e1 : (UInt32.ofNat a).toNat = a := by rw [UInt32.toNat_ofNat']; exact Nat.mod_eq_of_lt ha
  have e2 : (UInt32.ofNat b).toNat = b := by rw [UInt32.toNat_ofNat']; exact Nat.mod_eq_of_lt hb
  rw [mulU32, e1, e2, if_pos h]
  refine congrArg _ (UInt32.toNat_inj.1 ?_)
  rw [UInt32.toNat_mul, e1, e2, UInt32.toNat_ofNat']

theorem mulU16_lit (p : Profile) (a b : Nat) (h : a * b < 2 ^ 16) (ha : a < 2 ^ 16) (hb : b < 2 ^ 16) :
    mulU16 p (UInt16.ofNat a) (UInt16.ofNat b) = .ok (UInt16.ofNat (a * b)) := by
  have e1 : (UInt16.ofNat a).toNat = a := by rw [UInt16.toNat_ofNat']; exact Nat.mod_eq_of_lt ha
  have e2 : (UInt16.ofNat b).toNat = b := by rw [UInt16.toNat_ofNat']; exact Nat.mod_eq_of_lt hb
  rw [mulU16, e1, e2, if_pos (by omega)]
  refine congrArg _ (UInt16.toNat_inj.1 ?_)
  rw [UInt16.toNat_mul, e1, e2, UInt16.toNat_ofNat']

/-- Byte fields as the code extracts them. -/
theorem field43 : ∀ b : UInt8, ((b &&& 0b10000000) >>> 7).toNat = b.toNat / 128 ∧ ((b &&& 0b01100000) >>> 5).toNat = b.toNat / 32 % 4 ∧
    ((b &&& 0b00011000) >>> 3).toNat = b.toNat / 8 % 4 ∧ ((b &&& 0b00000100) >>> 2).toNat = b.toNat / 4 % 2 ∧
    (b &&& 0b00000011).toNat = b.toNat % 4 := by decide +kernel
theorem field_low4 : ∀ b : UInt8, (b &&& 0x0F).toNat = b.toNat % 16 := by decide +kernel
theorem field5A : ∀ b : UInt8, ((b &&& 0b11100000) >>> 5).toNat = b.toNat / 32 ∧ ((b &&& 0b00010000) >>> 4).toNat = b.toNat / 16 % 2 ∧
    ((b &&& 0b00001000) >>> 3).toNat = b.toNat / 8 % 2 ∧ ((b &&& 0b00000100) >>> 2).toNat = b.toNat / 4 % 2 ∧
    ((b &&& 0b11000000) >>> 6).toNat = b.toNat / 64 ∧ ((b &&& 0b00111000) >>> 3).toNat = b.toNat / 8 % 8 ∧
    (b &&& 0b00000111).toNat = b.toNat % 8 ∧ ((b &&& 0b00011000) >>> 3).toNat = b.toNat / 8 % 4 ∧
    ((b &&& 0b00000110) >>> 1).toNat = b.toNat / 2 % 4 ∧ (b &&& 0b00000001).toNat = b.toNat % 2 := by decide +kernel

theorem u8_eq_ofNat {x : UInt8} {n : Nat} (h : x.toNat = n) : x = UInt8.ofNat n := by
  rw [← h]; simp

/-- C81: satellite delivery system.  The stored frequency is 10 times the coded one, the orbital position 6 times; of the
seven digits of the symbol rate the last one is dropped. -/
theorem C81_satellite (p : Profile) (f o a b c d e s fec : Nat) (hf : f < 10 ^ 8) (ho : o < 10 ^ 4) (ha : a < 2) (hb : b < 4)
    (hc : c < 4) (hd : d < 2) (he : e < 4) (hs : s < 10 ^ 7) (hfec : fec < 16) :
    Desc.parse p (Descriptor.satellite f o a b c d e s fec) = .ok (.d43
      { frequency := UInt32.ofNat (f * 10), orbitalPosition := UInt16.ofNat (o * 6), westEastFlag := UInt8.ofNat a
        polarization := UInt8.ofNat b, rof := UInt8.ofNat c, s2 := UInt8.ofNat d, modulation := UInt8.ofNat e
        symbolRate := UInt32.ofNat (s / 10), fec := UInt8.ofNat fec }) := by
  rw [satellite_bytes f o a b c d e s fec ha hb hc hd he hfec]
  have b6 := bcd_lt 6 (s / 10)
  generalize hX : UInt8.ofNat (Descriptor.pack [(1, a), (2, b), (2, c), (1, d), (2, e)]) = X
  have tX : X.toNat = a * 128 + b * 32 + c * 8 + d * 4 + e := by
    rw [← hX, UInt8.toNat_ofNat']
    simp only [Descriptor.pack, List.foldl_cons, List.foldl_nil]; omega
  generalize hY : UInt8.ofNat (s % 10 * 16 + fec) = Y
  have tY : Y.toNat = s % 10 * 16 + fec := by rw [← hY, UInt8.toNat_ofNat']; omega
  obtain ⟨g1, g2, g3, g4, g5⟩ := field43 X
  have g6 := field_low4 Y
  rw [tX] at g1 g2 g3 g4 g5
  rw [tY] at g6
  simp only [List.cons_append, List.nil_append, b4_eq, b2_eq, b3_eq]
  rw [parse_43]
  simp only [Desc43.check, pure_eq_ok, ok_bind, List.length_cons, List.length_nil]
  rw [if_pos (by rfl)]
  simp only [Desc43.parse, getU32At_succ, getU32At_cons, getU16At_succ, getU16At_cons, getU24At_succ, getU24At_cons, ok_bind,
    idx_succ, idx_zero]
  have q1 := fromBcd32_bcd p 8 f (by omega) hf
  have q2 := fromBcd16_bcd p o ho
  have q3 := fromBcd32_bcd p 6 (s / 10) (by omega) (by omega)
  have q4 := Nat.mod_eq_of_lt (by omega : bcd 6 (s / 10) < 2 ^ 24)
  have m1 := mulU32_lit p f 10 (by omega) (by omega) (by omega)
  have m2 := mulU16_lit p o 6 (by omega) (by omega) (by omega)
  rw [show (UInt32.ofNat 10) = 10 from rfl] at m1
  rw [show (UInt16.ofNat 6) = 6 from rfl] at m2
  simp only [q1, q2, q4, q3, m1, m2, ok_bind, pure_eq_ok, map_ok]
  refine congrArg (fun x => Except.ok (Desc.d43 x)) ?_
  rw [Desc43.mk.injEq]
  refine ⟨rfl, rfl, u8_eq_ofNat ?_, u8_eq_ofNat ?_, u8_eq_ofNat ?_, u8_eq_ofNat ?_, u8_eq_ofNat ?_, rfl, u8_eq_ofNat ?_⟩ <;> omega

/-- C81: cable delivery system, for frequencies below 2^32 Hz. -/
theorem C81_cable_partial (p : Profile) (f o m s fec : Nat) (hf : f < 10 ^ 8) (ho : o < 16) (hm : m < 256) (hs : s < 10 ^ 7)
    (hfec : fec < 16) (hr : f * 100 < 2 ^ 32) :
    Desc.parse p (Descriptor.cable f o m s fec) = .ok (.d44
      { frequency := UInt32.ofNat (f * 100), fecOuter := UInt8.ofNat o, modulation := UInt8.ofNat m
        symbolRate := UInt32.ofNat (s / 10), fec := UInt8.ofNat fec }) := by
  rw [cable_bytes f o m s fec ho hm hfec]
  have b6 := bcd_lt 6 (s / 10)
  generalize hX : UInt8.ofNat (0xF0 + o) = X
  have tX : X.toNat = 0xF0 + o := by rw [← hX, UInt8.toNat_ofNat']; omega
  generalize hY : UInt8.ofNat (s % 10 * 16 + fec) = Y
  have tY : Y.toNat = s % 10 * 16 + fec := by rw [← hY, UInt8.toNat_ofNat']; omega
  have g1 := field_low4 X
  have g6 := field_low4 Y
  rw [tX] at g1
  rw [tY] at g6
  simp only [List.cons_append, List.nil_append, b4_eq, b2_eq, b3_eq]
  rw [parse_44]
  simp only [Desc44.check, pure_eq_ok, ok_bind, List.length_cons, List.length_nil]
  rw [if_pos (by rfl)]
  simp only [Desc44.parse, getU32At_succ, getU32At_cons, getU24At_succ, getU24At_cons, ok_bind, idx_succ, idx_zero]
  have q1 := fromBcd32_bcd p 8 f (by omega) hf
  have q3 := fromBcd32_bcd p 6 (s / 10) (by omega) (by omega)
  have q4 := Nat.mod_eq_of_lt (by omega : bcd 6 (s / 10) < 2 ^ 24)
  have m1 := mulU32_lit p f 100 hr (by omega) (by omega)
  rw [show (UInt32.ofNat 100) = 100 from rfl] at m1
  simp only [q1, q4, q3, m1, ok_bind, pure_eq_ok, map_ok]
  refine congrArg (fun x => Except.ok (Desc.d44 x)) ?_
  rw [Desc44.mk.injEq]
  refine ⟨rfl, u8_eq_ofNat ?_, rfl, rfl, u8_eq_ofNat ?_⟩ <;> omega

/-- C81 fails for cable frequencies of 2^32 Hz and more: panic with overflow checks, a wrong frequency without. -/
theorem C81_cable_refuted (f o m s fec : Nat) (hf : f < 10 ^ 8) (ho : o < 16) (hm : m < 256) (hs : s < 10 ^ 7)
    (hfec : fec < 16) (hr : 2 ^ 32 ≤ f * 100) :
    Desc.parse .debug (Descriptor.cable f o m s fec) = panic ∧
    Desc.parse .release (Descriptor.cable f o m s fec) = .ok (.d44
      { frequency := UInt32.ofNat (f * 100 % 2 ^ 32), fecOuter := UInt8.ofNat o, modulation := UInt8.ofNat m
        symbolRate := UInt32.ofNat (s / 10), fec := UInt8.ofNat fec }) := by
  rw [cable_bytes f o m s fec ho hm hfec]
  have b6 := bcd_lt 6 (s / 10)
  generalize hX : UInt8.ofNat (0xF0 + o) = X
  have tX : X.toNat = 0xF0 + o := by rw [← hX, UInt8.toNat_ofNat']; omega
  generalize hY : UInt8.ofNat (s % 10 * 16 + fec) = Y
  have tY : Y.toNat = s % 10 * 16 + fec := by rw [← hY, UInt8.toNat_ofNat']; omega
  have g1 := field_low4 X
  have g6 := field_low4 Y
  rw [tX] at g1
  rw [tY] at g6
  have e1 : (UInt32.ofNat f).toNat = f := by rw [UInt32.toNat_ofNat']; exact Nat.mod_eq_of_lt (by omega)
  have e2 : (100 : UInt32).toNat = 100 := rfl
  have m1 (p : Profile) : mulU32 p (UInt32.ofNat f) 100 = p.overflow (UInt32.ofNat f * 100) := by
    rw [mulU32, e1, e2, if_neg (by omega)]
  simp only [List.cons_append, List.nil_append, b4_eq, b2_eq, b3_eq]
  rw [parse_44, parse_44]
  simp only [Desc44.check, pure_eq_ok, ok_bind, List.length_cons, List.length_nil]
  rw [if_pos (by rfl), if_pos (by rfl)]
  simp only [Desc44.parse, getU32At_succ, getU32At_cons, getU24At_succ, getU24At_cons, ok_bind, idx_succ, idx_zero]
  rw [fromBcd32_bcd _ 8 f (by omega) hf, ok_bind, fromBcd32_bcd _ 8 f (by omega) hf, ok_bind, m1, m1]
  refine ⟨rfl, ?_⟩
  rw [Nat.mod_eq_of_lt (by omega : bcd 6 (s / 10) < 2 ^ 24), fromBcd32_bcd _ 6 (s / 10) (by omega) (by omega)]
  simp only [Profile.overflow, ok_bind, pure_eq_ok, map_ok]
  refine congrArg (fun x => Except.ok (Desc.d44 x)) ?_
  rw [Desc44.mk.injEq]
  refine ⟨?_, u8_eq_ofNat ?_, rfl, rfl, u8_eq_ofNat ?_⟩
  · refine UInt32.toNat_inj.1 ?_
    rw [UInt32.toNat_mul, e1, e2, UInt32.toNat_ofNat', Nat.mod_mod]
  all_goals omega

/-- The result of reading a terrestrial delivery system, by the result of the multiplication in it. -/
theorem parse_terrestrial (p : Profile) (f a b c d e g i j k l m : Nat) (ha : a < 8) (hb : b < 2)
    (hc : c < 2) (hd : d < 2) (he : e < 4) (hg : g < 8) (hi : i < 8) (hj : j < 8) (hk : k < 4) (hl : l < 4) (hm : m < 2)
    (r : UInt32) (h : mulU32 p (UInt32.ofNat f) 10 = .ok r) :
    Desc.parse p (Descriptor.terrestrial f a b c d e g i j k l m) = .ok (.d5A
      { frequency := r, bandwidth := UInt8.ofNat a, priority := UInt8.ofNat b, timeSlicing := UInt8.ofNat c
        mpeFec := UInt8.ofNat d, modulation := UInt8.ofNat e, hierarchy := UInt8.ofNat g, codeRateHp := UInt8.ofNat i
        codeRateLp := UInt8.ofNat j, guardInterval := UInt8.ofNat k, transmission := UInt8.ofNat l
        otherFrequencyFlag := UInt8.ofNat m }) := by
  rw [terrestrial_bytes f a b c d e g i j k l m ha hb hc hd he hg hi hj hk hl hm]
  generalize hX : UInt8.ofNat (Descriptor.pack [(3, a), (1, b), (1, c), (1, d), (2, 3)]) = X
  generalize hY : UInt8.ofNat (Descriptor.pack [(2, e), (3, g), (3, i)]) = Y
  generalize hZ : UInt8.ofNat (Descriptor.pack [(3, j), (2, k), (2, l), (1, m)]) = Z
  have tX : X.toNat = a * 32 + b * 16 + c * 8 + d * 4 + 3 := by
    rw [← hX, UInt8.toNat_ofNat']; simp only [Descriptor.pack, List.foldl_cons, List.foldl_nil]; omega
  have tY : Y.toNat = e * 64 + g * 8 + i := by
    rw [← hY, UInt8.toNat_ofNat']; simp only [Descriptor.pack, List.foldl_cons, List.foldl_nil]; omega
  have tZ : Z.toNat = j * 32 + k * 8 + l * 2 + m := by
    rw [← hZ, UInt8.toNat_ofNat']; simp only [Descriptor.pack, List.foldl_cons, List.foldl_nil]; omega
  obtain ⟨x1, x2, x3, x4, -⟩ := field5A X
  obtain ⟨-, -, -, -, y1, y2, y3, -⟩ := field5A Y
  obtain ⟨z1, -, -, -, -, -, -, z2, z3, z4⟩ := field5A Z
  rw [tX] at x1 x2 x3 x4
  rw [tY] at y1 y2 y3
  rw [tZ] at z1 z2 z3 z4
  simp only [List.cons_append, List.nil_append, b4_eq]
  rw [parse_5A]
  simp only [Desc5A.check, pure_eq_ok, ok_bind, List.length_cons, List.length_nil]
  rw [if_pos (by rfl)]
  simp only [Desc5A.parse, getU32At_succ, getU32At_cons, ok_bind, idx_succ, idx_zero]
  rw [h, ok_bind, pure_eq_ok, map_ok]
  refine congrArg (fun x => Except.ok (Desc.d5A x)) ?_
  rw [Desc5A.mk.injEq]
  clear h hX hY hZ tX tY tZ
  exact ⟨rfl, u8_eq_ofNat (x1.trans (by omega)), u8_eq_ofNat (x2.trans (by omega)), u8_eq_ofNat (x3.trans (by omega)),
    u8_eq_ofNat (x4.trans (by omega)), u8_eq_ofNat (y1.trans (by omega)), u8_eq_ofNat (y2.trans (by omega)),
    u8_eq_ofNat (y3.trans (by omega)), u8_eq_ofNat (z1.trans (by omega)), u8_eq_ofNat (z2.trans (by omega)),
    u8_eq_ofNat (z3.trans (by omega)), u8_eq_ofNat (z4.trans (by omega))⟩

/-- C81: terrestrial delivery system, for frequencies below 2^32 Hz. -/
theorem C81_terrestrial_partial (p : Profile) (f a b c d e g i j k l m : Nat) (hf : f < 2 ^ 32) (ha : a < 8) (hb : b < 2)
    (hc : c < 2) (hd : d < 2) (he : e < 4) (hg : g < 8) (hi : i < 8) (hj : j < 8) (hk : k < 4) (hl : l < 4) (hm : m < 2)
    (hr : f * 10 < 2 ^ 32) :
    Desc.parse p (Descriptor.terrestrial f a b c d e g i j k l m) = .ok (.d5A
      { frequency := UInt32.ofNat (f * 10), bandwidth := UInt8.ofNat a, priority := UInt8.ofNat b, timeSlicing := UInt8.ofNat c
        mpeFec := UInt8.ofNat d, modulation := UInt8.ofNat e, hierarchy := UInt8.ofNat g, codeRateHp := UInt8.ofNat i
        codeRateLp := UInt8.ofNat j, guardInterval := UInt8.ofNat k, transmission := UInt8.ofNat l
        otherFrequencyFlag := UInt8.ofNat m }) := by
  refine parse_terrestrial p f a b c d e g i j k l m ha hb hc hd he hg hi hj hk hl hm _ ?_
  have m1 := mulU32_lit p f 10 hr hf (by omega)
  rwa [show (UInt32.ofNat 10) = 10 from rfl] at m1

/-- C81 fails for terrestrial frequencies of 2^32 Hz and more: panic with overflow checks, another frequency without. -/
theorem C81_terrestrial_refuted (f a b c d e g i j k l m : Nat) (hf : f < 2 ^ 32) (ha : a < 8) (hb : b < 2)
    (hc : c < 2) (hd : d < 2) (he : e < 4) (hg : g < 8) (hi : i < 8) (hj : j < 8) (hk : k < 4) (hl : l < 4) (hm : m < 2)
    (hr : 2 ^ 32 ≤ f * 10) :
    Desc.parse .debug (Descriptor.terrestrial f a b c d e g i j k l m) = panic ∧
    Desc.parse .release (Descriptor.terrestrial f a b c d e g i j k l m) = .ok (.d5A
      { frequency := UInt32.ofNat (f * 10 % 2 ^ 32), bandwidth := UInt8.ofNat a, priority := UInt8.ofNat b, timeSlicing := UInt8.ofNat c
        mpeFec := UInt8.ofNat d, modulation := UInt8.ofNat e, hierarchy := UInt8.ofNat g, codeRateHp := UInt8.ofNat i
        codeRateLp := UInt8.ofNat j, guardInterval := UInt8.ofNat k, transmission := UInt8.ofNat l
        otherFrequencyFlag := UInt8.ofNat m }) ∧
    f * 10 % 2 ^ 32 ≠ f * 10 := by
  have e1 : (UInt32.ofNat f).toNat = f := by rw [UInt32.toNat_ofNat']; exact Nat.mod_eq_of_lt (by omega)
  have e2 : (10 : UInt32).toNat = 10 := rfl
  have m1 (p : Profile) : mulU32 p (UInt32.ofNat f) 10 = p.overflow (UInt32.ofNat f * 10) := by
    rw [mulU32, e1, e2, if_neg (by omega)]
  refine ⟨?_, ?_, by omega⟩
  · rw [terrestrial_bytes f a b c d e g i j k l m ha hb hc hd he hg hi hj hk hl hm]
    simp only [List.cons_append, List.nil_append, b4_eq]
    rw [parse_5A]
    simp only [Desc5A.check, pure_eq_ok, ok_bind, List.length_cons, List.length_nil]
    rw [if_pos (by rfl)]
    simp only [Desc5A.parse, getU32At_succ, getU32At_cons, ok_bind, idx_succ, idx_zero, m1]
    rfl
  · refine parse_terrestrial .release f a b c d e g i j k l m ha hb hc hd he hg hi hj hk hl hm _ ?_
    rw [m1, Profile.overflow]
    refine congrArg Except.ok (UInt32.toNat.inj ?_)
    rw [UInt32.toNat_mul, e1, e2, UInt32.toNat_ofNat']
    exact (Nat.mod_mod _ _).symm

/-! ## Lists -/

theorem d0A_parseLoop (items : List (List UInt8 × Nat)) (h : ∀ i ∈ items, i.1.length = 3) (pre : List UInt8) (fuel : Nat)
    (hf : items.length < fuel) (out : List Desc0Ai) :
    Desc0A.parseLoop (pre ++ items.flatMap fun i => i.1 ++ beBytes 1 i.2) fuel pre.length out =
      .ok (out ++ items.map fun i => { code := StringDVB.ofBytes i.1, audioType := UInt8.ofNat i.2 }) := by
  induction items generalizing pre fuel out with
  | nil =>
    obtain ⟨f, rfl⟩ : ∃ f, fuel = f + 1 := ⟨fuel - 1, by simp at hf; omega⟩
    simp [Desc0A.parseLoop]
  | cons i r ih =>
    obtain ⟨f, rfl⟩ : ∃ f, fuel = f + 1 := ⟨fuel - 1, by simp at hf; omega⟩
    obtain ⟨c, t⟩ := i
    have h3 : c.length = 3 := h _ List.mem_cons_self
    rw [List.flatMap_cons]
    simp only
    generalize hR : (r.flatMap fun i => i.1 ++ beBytes 1 i.2) = R at *
    have ih := ih (fun x hx => h x (List.mem_cons_of_mem _ hx)) (pre ++ c ++ [UInt8.ofNat t]) f (by simp at hf; omega)
      (out ++ [{ code := StringDVB.ofBytes c, audioType := UInt8.ofNat t }])
    have e : pre ++ (c ++ beBytes 1 t ++ R) = pre ++ c ++ [UInt8.ofNat t] ++ R := by simp [beBytes]
    have s1 : slice (pre ++ (c ++ beBytes 1 t ++ R)) pre.length (pre.length + 3) = .ok c := by
      have := slice_append pre c (beBytes 1 t ++ R)
      rw [h3] at this; simpa using this
    have s2 : idx (pre ++ (c ++ beBytes 1 t ++ R)) (pre.length + 3) = .ok (UInt8.ofNat t) := by
      have := idx_append_add (pre ++ c) (UInt8.ofNat t :: R) 0
      rw [List.length_append, h3, idx_zero] at this
      simpa [beBytes] using this
    rw [Desc0A.parseLoop, if_pos (by simp), s1, ok_bind, s2, ok_bind, e]
    rw [List.length_append, List.length_append, h3, List.length_singleton] at ih
    rw [show pre.length + 4 = pre.length + 3 + 1 from rfl, ih]
    simp

/-- C81: languages. -/
theorem C81_language (p : Profile) (items : List (List UInt8 × Nat)) (h : ∀ i ∈ items, i.1.length = 3) :
    Desc.parse p (Descriptor.language items) =
      .ok (.d0A { items := items.map fun i => { code := StringDVB.ofBytes i.1, audioType := UInt8.ofNat i.2 } }) := by
  have l : (items.flatMap fun i => i.1 ++ beBytes 1 i.2).length = items.length * 4 :=
    flatMap_length _ _ 4 fun i hi => by simp [h i hi]
  have e : Descriptor.language items = [0x0A, UInt8.ofNat (items.length * 4)] ++ items.flatMap fun i => i.1 ++ beBytes 1 i.2 := by
    rw [Descriptor.language, Descriptor.descriptor, l]; rfl
  have len : (Descriptor.language items).length = 2 + items.length * 4 := by
    rw [e, List.length_append, l]; rfl
  have := d0A_parseLoop items h [0x0A, UInt8.ofNat (items.length * 4)] ((Descriptor.language items).length + 1)
    (by rw [len]; omega) []
  rw [show [0x0A, UInt8.ofNat (items.length * 4)].length = 2 from rfl, ← e] at this
  have q : Desc.parse p (Descriptor.language items) = (do if ← Desc0A.check (Descriptor.language items) then
    Desc.d0A <$> Desc0A.parse (Descriptor.language items) else Desc.parseRaw (Descriptor.language items)) := parse_0A p _
  rw [q]
  simp only [Desc0A.check, pure_eq_ok, ok_bind, len]
  rw [if_pos (by simp), Desc0A.parse, this]
  simp

theorem getU16At_at (pre : List UInt8) (v : Nat) (l : List UInt8) :
    getU16At (pre ++ (beBytes 2 v ++ l)) pre.length = .ok (UInt16.ofNat v) := by
  have := getU16At_append pre (beBytes 2 v ++ l) 0
  rw [Nat.add_zero] at this
  rw [this, getU16At_beBytes]

theorem idx_at (pre : List UInt8) (b : UInt8) (l : List UInt8) : idx (pre ++ b :: l) pre.length = .ok b := by
  have := idx_append_add pre (b :: l) 0
  rw [Nat.add_zero] at this
  rw [this, idx_zero]

theorem service_bytes (a b : Nat) (hb : b < 256) :
    beBytes 3 (Descriptor.pack [(16, a), (8, b)]) = beBytes 2 a ++ [UInt8.ofNat b] := by
  have := beBytes_pack 2 1 [(16, a)] [(8, b)] rfl (by
      simp only [List.mem_cons, List.not_mem_nil, or_false]
      rintro x rfl; exact hb)
  simpa [Descriptor.pack, beBytes] using this

theorem d41_parseLoop (items : List (Nat × Nat)) (h : ∀ i ∈ items, i.2 < 256) (pre : List UInt8) (fuel : Nat)
    (hf : items.length < fuel) (out : List Desc41i) :
    Desc41.parseLoop (pre ++ items.flatMap fun i => beBytes 3 (Descriptor.pack [(16, i.1), (8, i.2)])) fuel pre.length out =
      .ok (out ++ items.map fun i => { serviceId := UInt16.ofNat i.1, serviceType := UInt8.ofNat i.2 }) := by
  induction items generalizing pre fuel out with
  | nil =>
    obtain ⟨f, rfl⟩ : ∃ f, fuel = f + 1 := ⟨fuel - 1, by simp at hf; omega⟩
    simp [Desc41.parseLoop]
  | cons i r ih =>
    obtain ⟨f, rfl⟩ : ∃ f, fuel = f + 1 := ⟨fuel - 1, by simp at hf; omega⟩
    obtain ⟨c, t⟩ := i
    have h3 : t < 256 := h _ List.mem_cons_self
    rw [List.flatMap_cons]
    simp only
    generalize hR : (r.flatMap fun i => beBytes 3 (Descriptor.pack [(16, i.1), (8, i.2)])) = R at *
    have ih := ih (fun x hx => h x (List.mem_cons_of_mem _ hx)) (pre ++ beBytes 2 c ++ [UInt8.ofNat t]) f (by simp at hf; omega)
      (out ++ [{ serviceId := UInt16.ofNat c, serviceType := UInt8.ofNat t }])
    have s1 := getU16At_at pre c ([UInt8.ofNat t] ++ R)
    have s2 := idx_at (pre ++ beBytes 2 c) (UInt8.ofNat t) R
    rw [List.length_append, beBytes_length] at s2
    simp only [List.length_append, beBytes_length, List.length_singleton] at ih
    simp only [List.append_assoc, List.cons_append, List.nil_append] at s1 s2 ih ⊢
    rw [service_bytes c t h3, Desc41.parseLoop, if_pos (by simp)]
    simp only [List.append_assoc, List.cons_append, List.nil_append]
    rw [s1, ok_bind, s2, ok_bind, show pre.length + 3 = pre.length + (2 + 1) from rfl, ih]
    simp

/-- C81: service list. -/
theorem C81_service_list (p : Profile) (items : List (Nat × Nat)) (h : ∀ i ∈ items, i.1 < 2 ^ 16 ∧ i.2 < 256) :
    Desc.parse p (Descriptor.serviceList items) =
      .ok (.d41 { items := items.map fun i => { serviceId := UInt16.ofNat i.1, serviceType := UInt8.ofNat i.2 } }) := by
  have l : (items.flatMap fun i => beBytes 3 (Descriptor.pack [(16, i.1), (8, i.2)])).length = items.length * 3 :=
    flatMap_length _ _ 3 fun i hi => by simp
  have e : Descriptor.serviceList items = [0x41, UInt8.ofNat (items.length * 3)] ++ items.flatMap fun i =>
      beBytes 3 (Descriptor.pack [(16, i.1), (8, i.2)]) := by
    rw [Descriptor.serviceList, Descriptor.descriptor, l]; rfl
  have len : (Descriptor.serviceList items).length = 2 + items.length * 3 := by
    rw [e, List.length_append, l]; rfl
  have := d41_parseLoop items (fun i hi => (h i hi).2) [0x41, UInt8.ofNat (items.length * 3)]
    ((Descriptor.serviceList items).length + 1) (by rw [len]; omega) []
  rw [show [0x41, UInt8.ofNat (items.length * 3)].length = 2 from rfl, ← e] at this
  have q : Desc.parse p (Descriptor.serviceList items) = (do if ← Desc41.check (Descriptor.serviceList items) then
    Desc.d41 <$> Desc41.parse (Descriptor.serviceList items) else Desc.parseRaw (Descriptor.serviceList items)) := parse_41 p _
  rw [q]
  simp only [Desc41.check, pure_eq_ok, ok_bind, len]
  rw [if_pos (by simp), Desc41.parse, this]
  simp

theorem d83_parseLoop (items : List (Nat × Nat × Nat)) (h : ∀ i ∈ items, i.2.1 < 2 ∧ i.2.2 < 2 ^ 10) (pre : List UInt8)
    (fuel : Nat) (hf : items.length < fuel) (out : List Desc83i) :
    Desc83.parseLoop (pre ++ items.flatMap fun i => beBytes 4 (Descriptor.pack [(16, i.1), (1, i.2.1), (5, 0b11111), (10, i.2.2)]))
      fuel pre.length out = .ok (out ++ items.map fun i =>
        { serviceId := UInt16.ofNat i.1, visible := UInt8.ofNat i.2.1, lcn := UInt16.ofNat i.2.2 }) := by
  induction items generalizing pre fuel out with
  | nil =>
    obtain ⟨f, rfl⟩ : ∃ f, fuel = f + 1 := ⟨fuel - 1, by simp at hf; omega⟩
    simp [Desc83.parseLoop]
  | cons i r ih =>
    obtain ⟨f, rfl⟩ : ∃ f, fuel = f + 1 := ⟨fuel - 1, by simp at hf; omega⟩
    obtain ⟨c, v, n⟩ := i
    obtain ⟨h1, h2⟩ := h _ List.mem_cons_self
    simp only at h1 h2
    rw [List.flatMap_cons]
    simp only
    generalize hR : (r.flatMap fun i => beBytes 4 (Descriptor.pack [(16, i.1), (1, i.2.1), (5, 0b11111), (10, i.2.2)])) = R at *
    generalize hW : v * 2 ^ 15 + 31 * 2 ^ 10 + n = W
    have ih := ih (fun x hx => h x (List.mem_cons_of_mem _ hx)) (pre ++ beBytes 2 c ++ beBytes 2 W) f (by simp at hf; omega)
      (out ++ [{ serviceId := UInt16.ofNat c, visible := UInt8.ofNat v, lcn := UInt16.ofNat n }])
    have s1 := getU16At_at pre c (beBytes 2 W ++ R)
    have s2 := getU16At_at (pre ++ beBytes 2 c) W R
    have s3 := idx_at (pre ++ beBytes 2 c) (UInt8.ofNat (W / 256 ^ 1)) (UInt8.ofNat (W / 256 ^ 0) :: R)
    rw [List.length_append, beBytes_length] at s2 s3
    have b := b2_eq W
    have m1 : UInt8.ofNat (W / 256 ^ 1) >>> 7 = UInt8.ofNat v := by
      refine UInt8.toNat_inj.1 ?_
      rw [UInt8.toNat_shiftRight, UInt8.toNat_ofNat', UInt8.toNat_ofNat', show (7 : UInt8).toNat % 8 = 7 from rfl,
        Nat.shiftRight_eq_div_pow]; omega
    have m2 : UInt16.ofNat W &&& 0x03FF = UInt16.ofNat n := by
      refine UInt16.toNat_inj.1 ?_
      rw [UInt16.toNat_and, UInt16.toNat_ofNat', UInt16.toNat_ofNat', show (0x03FF : UInt16).toNat = 2 ^ 10 - 1 by decide,
        Nat.and_two_pow_sub_one_eq_mod]; omega
    have s3 : idx (pre ++ beBytes 2 c ++ (beBytes 2 W ++ R)) (pre.length + 2) = .ok (UInt8.ofNat (W / 256 ^ 1)) := by
      rw [b]; exact s3
    simp only [List.length_append, beBytes_length] at ih
    simp only [List.append_assoc] at s1 s2 s3 ih ⊢
    rw [lcn_bytes c v n h1 h2, hW, Desc83.parseLoop, if_pos (by simp only [List.length_append, beBytes_length]; omega)]
    simp only [List.append_assoc]
    rw [s1, ok_bind, s3, ok_bind, s2, ok_bind, m1, m2, show pre.length + 4 = pre.length + (2 + 2) from rfl, ih]
    simp

/-- C81: logical channel numbers. -/
theorem C81_logical_channels (p : Profile) (items : List (Nat × Nat × Nat))
    (h : ∀ i ∈ items, i.1 < 2 ^ 16 ∧ i.2.1 < 2 ∧ i.2.2 < 2 ^ 10) :
    Desc.parse p (Descriptor.logicalChannels items) = .ok (.d83 { items := items.map fun i =>
      { serviceId := UInt16.ofNat i.1, visible := UInt8.ofNat i.2.1, lcn := UInt16.ofNat i.2.2 } }) := by
  have l : (items.flatMap fun i => beBytes 4 (Descriptor.pack [(16, i.1), (1, i.2.1), (5, 0b11111), (10, i.2.2)])).length =
      items.length * 4 := flatMap_length _ _ 4 fun i hi => by simp
  have e : Descriptor.logicalChannels items = [0x83, UInt8.ofNat (items.length * 4)] ++ items.flatMap fun i =>
      beBytes 4 (Descriptor.pack [(16, i.1), (1, i.2.1), (5, 0b11111), (10, i.2.2)]) := by
    rw [Descriptor.logicalChannels, Descriptor.descriptor, l]; rfl
  have len : (Descriptor.logicalChannels items).length = 2 + items.length * 4 := by
    rw [e, List.length_append, l]; rfl
  have := d83_parseLoop items (fun i hi => (h i hi).2) [0x83, UInt8.ofNat (items.length * 4)]
    ((Descriptor.logicalChannels items).length + 1) (by rw [len]; omega) []
  rw [show [0x83, UInt8.ofNat (items.length * 4)].length = 2 from rfl, ← e] at this
  have q : Desc.parse p (Descriptor.logicalChannels items) = (do if ← Desc83.check (Descriptor.logicalChannels items) then
    Desc.d83 <$> Desc83.parse (Descriptor.logicalChannels items) else Desc.parseRaw (Descriptor.logicalChannels items)) :=
    parse_83 p _
  rw [q]
  simp only [Desc83.check, pure_eq_ok, ok_bind, len]
  rw [if_pos (by simp), Desc83.parse, this]
  simp

/-! ## Texts -/

theorem slice_at (a b c : List UInt8) (m n : Nat) (hm : m = a.length) (hn : n = a.length + b.length) :
    slice (a ++ (b ++ c)) m n = .ok b := by
  rw [hm, hn, ← List.append_assoc]; exact slice_append a b c

theorem idx_at' (a : List UInt8) (b : UInt8) (c : List UInt8) (m : Nat) (hm : m = a.length) :
    idx (a ++ b :: c) m = .ok b := by rw [hm]; exact idx_at a b c

theorem u8_ofNat_toNat (n : Nat) (h : n < 256) : (UInt8.ofNat n).toNat = n := by
  rw [UInt8.toNat_ofNat']; exact Nat.mod_eq_of_lt h

/-- C81: service. -/
theorem C81_service (p : Profile) (type : Nat) (provider name : List UInt8) (h : 3 + provider.length + name.length ≤ 255) :
    Desc.parse p (Descriptor.service type provider name) = .ok (.d48
      { serviceType := UInt8.ofNat type, provider := StringDVB.ofBytes provider, name := StringDVB.ofBytes name }) := by
  have e : Descriptor.service type provider name = [0x48, UInt8.ofNat (3 + provider.length + name.length), UInt8.ofNat type,
      UInt8.ofNat provider.length] ++ (provider ++ UInt8.ofNat name.length :: name) := by
    simp only [Descriptor.service, Descriptor.descriptor, Descriptor.sized, List.length_append, beBytes_length, List.length_cons]
    rw [show 1 + (provider.length + 1) + (name.length + 1) = 3 + provider.length + name.length by omega]
    simp [beBytes]
  generalize hs : Descriptor.service type provider name = s at *
  have i1 : idx s 1 = .ok (UInt8.ofNat (3 + provider.length + name.length)) := by rw [e]; rfl
  have i2 : idx s 2 = .ok (UInt8.ofNat type) := by rw [e]; rfl
  have i3 : idx s 3 = .ok (UInt8.ofNat provider.length) := by rw [e]; rfl
  have i4 : idx s (4 + provider.length) = .ok (UInt8.ofNat name.length) := by
    rw [e, ← List.append_assoc]; exact idx_at' _ _ _ _ (by rw [List.length_append]; rfl)
  have s1 : slice s 4 (4 + provider.length) = .ok provider := by
    rw [e]; exact slice_at _ _ _ _ _ rfl rfl
  have s2 : slice s (4 + provider.length + 1) (4 + provider.length + 1 + name.length) = .ok name := by
    have := slice_at ([0x48, UInt8.ofNat (3 + provider.length + name.length), UInt8.ofNat type,
      UInt8.ofNat provider.length] ++ provider ++ [UInt8.ofNat name.length]) name [] (4 + provider.length + 1)
      (4 + provider.length + 1 + name.length) (by simp; omega) (by simp; omega)
    rw [e]; simpa using this
  have t1 := u8_ofNat_toNat _ (by omega : provider.length < 256)
  have t2 := u8_ofNat_toNat _ (by omega : name.length < 256)
  have t3 := u8_ofNat_toNat _ (by omega : 3 + provider.length + name.length < 256)
  have len : s.length = 5 + provider.length + name.length := by rw [e]; simp; omega
  have q : Desc.parse p s = (do if ← Desc48.check s then Desc.d48 <$> Desc48.parse s else Desc.parseRaw s) := by
    rw [e]; exact parse_48 p _
  have c : Desc48.check s = .ok true := by
    simp only [Desc48.check]
    rw [if_neg (by omega)]
    simp [i1, i3, t1, i4, t2]
    omega
  rw [q, c]
  simp [Desc48.parse, i2, i3, t1, i4, t2, s1, s2]

/-- C81: short event. -/
theorem C81_short_event (p : Profile) (lang name txt : List UInt8) (hl : lang.length = 3)
    (h : 5 + name.length + txt.length ≤ 255) :
    Desc.parse p (Descriptor.shortEvent lang name txt) = .ok (.d4D
      { lang := StringDVB.ofBytes lang, name := StringDVB.ofBytes name, text := StringDVB.ofBytes txt }) := by
  have e : Descriptor.shortEvent lang name txt = [0x4D, UInt8.ofNat (5 + name.length + txt.length)] ++ (lang ++
      UInt8.ofNat name.length :: (name ++ UInt8.ofNat txt.length :: txt)) := by
    simp only [Descriptor.shortEvent, Descriptor.descriptor, Descriptor.sized, List.length_append, List.length_cons, hl]
    rw [show 3 + (name.length + 1) + (txt.length + 1) = 5 + name.length + txt.length by omega]
    simp
  generalize hs : Descriptor.shortEvent lang name txt = s at *
  have i1 : idx s 1 = .ok (UInt8.ofNat (5 + name.length + txt.length)) := by rw [e]; rfl
  have s0 : slice s 2 5 = .ok lang := by
    rw [e]; exact slice_at _ _ _ _ _ rfl (by simp [hl])
  have i3 : idx s 5 = .ok (UInt8.ofNat name.length) := by
    rw [e, ← List.append_assoc]; exact idx_at' _ _ _ _ (by simp [hl])
  have s1 : slice s 6 (6 + name.length) = .ok name := by
    have := slice_at ([0x4D, UInt8.ofNat (5 + name.length + txt.length)] ++ lang ++ [UInt8.ofNat name.length]) name
      (UInt8.ofNat txt.length :: txt) 6 (6 + name.length) (by simp [hl]) (by simp [hl])
    rw [e]; simpa using this
  have i4 : idx s (6 + name.length) = .ok (UInt8.ofNat txt.length) := by
    have := idx_at' ([0x4D, UInt8.ofNat (5 + name.length + txt.length)] ++ lang ++ [UInt8.ofNat name.length] ++ name)
      (UInt8.ofNat txt.length) txt (6 + name.length) (by simp [hl]; omega)
    rw [e]; simpa using this
  have s2 : slice s (6 + name.length + 1) (6 + name.length + 1 + txt.length) = .ok txt := by
    have := slice_at ([0x4D, UInt8.ofNat (5 + name.length + txt.length)] ++ lang ++ [UInt8.ofNat name.length] ++ name ++
      [UInt8.ofNat txt.length]) txt [] (6 + name.length + 1) (6 + name.length + 1 + txt.length) (by simp [hl]; omega)
      (by simp [hl]; omega)
    rw [e]; simpa using this
  have t1 := u8_ofNat_toNat _ (by omega : name.length < 256)
  have t2 := u8_ofNat_toNat _ (by omega : txt.length < 256)
  have t3 := u8_ofNat_toNat _ (by omega : 5 + name.length + txt.length < 256)
  have len : s.length = 7 + name.length + txt.length := by rw [e]; simp [hl]; omega
  have q : Desc.parse p s = (do if ← Desc4D.check s then Desc.d4D <$> Desc4D.parse s else Desc.parseRaw s) := by
    rw [e]; exact parse_4D p _
  have c : Desc4D.check s = .ok true := by
    simp only [Desc4D.check]
    rw [if_neg (by omega)]
    simp [i1, i3, t1, i4, t2]
    omega
  rw [q, c]
  simp [Desc4D.parse, i3, t1, i4, t2, s0, s1, s2]

theorem d4E_parseLoop (items : List (List UInt8 × List UInt8)) (h : ∀ i ∈ items, i.1.length < 256 ∧ i.2.length < 256)
    (pre post : List UInt8) (itemsE : Nat)
    (hE : itemsE = pre.length + (items.flatMap fun i => Descriptor.sized i.1 ++ Descriptor.sized i.2).length) (fuel : Nat)
    (hf : items.length < fuel) (out : List (StringDVB × StringDVB)) :
    Desc4E.parseLoop (pre ++ ((items.flatMap fun i => Descriptor.sized i.1 ++ Descriptor.sized i.2) ++ post)) itemsE fuel
      pre.length out = .ok (out ++ items.map fun i => (StringDVB.ofBytes i.1, StringDVB.ofBytes i.2)) := by
  induction items generalizing pre fuel out with
  | nil =>
    obtain ⟨f, rfl⟩ : ∃ f, fuel = f + 1 := ⟨fuel - 1, by simp at hf; omega⟩
    simp at hE
    simp [Desc4E.parseLoop, hE]
  | cons i r ih =>
    obtain ⟨f, rfl⟩ : ∃ f, fuel = f + 1 := ⟨fuel - 1, by simp at hf; omega⟩
    obtain ⟨c, t⟩ := i
    obtain ⟨h1, h2⟩ := h _ List.mem_cons_self
    simp only at h1 h2
    rw [List.flatMap_cons] at hE ⊢
    simp only at hE ⊢
    generalize hR : (r.flatMap fun i => Descriptor.sized i.1 ++ Descriptor.sized i.2) = R at *
    have ih := ih (fun x hx => h x (List.mem_cons_of_mem _ hx))
      (pre ++ [UInt8.ofNat c.length] ++ c ++ [UInt8.ofNat t.length] ++ t)
      (by rw [hE]; simp [Descriptor.sized]; omega) f (by simp at hf; omega)
      (out ++ [(StringDVB.ofBytes c, StringDVB.ofBytes t)])
    generalize hs : pre ++ (Descriptor.sized c ++ Descriptor.sized t ++ R ++ post) = s
    have e : s = pre ++ [UInt8.ofNat c.length] ++ c ++ [UInt8.ofNat t.length] ++ t ++ (R ++ post) := by
      rw [← hs]; simp [Descriptor.sized]
    rw [← e] at ih
    have i1 : idx s pre.length = .ok (UInt8.ofNat c.length) := by
      have := idx_at' pre (UInt8.ofNat c.length) (c ++ [UInt8.ofNat t.length] ++ t ++ (R ++ post)) pre.length rfl
      rw [e]; simpa using this
    have i2 : idx s (pre.length + 1 + c.length) = .ok (UInt8.ofNat t.length) := by
      have := idx_at' (pre ++ [UInt8.ofNat c.length] ++ c) (UInt8.ofNat t.length) (t ++ (R ++ post)) (pre.length + 1 + c.length)
        (by simp; omega)
      rw [e]; simpa using this
    have s1 : slice s (pre.length + 1) (pre.length + 1 + c.length) = .ok c := by
      have := slice_at (pre ++ [UInt8.ofNat c.length]) c ([UInt8.ofNat t.length] ++ t ++ (R ++ post)) (pre.length + 1)
        (pre.length + 1 + c.length) (by simp) (by simp)
      rw [e]; simpa using this
    have s2 : slice s (pre.length + 1 + c.length + 1) (pre.length + 1 + c.length + 1 + t.length) = .ok t := by
      have := slice_at (pre ++ [UInt8.ofNat c.length] ++ c ++ [UInt8.ofNat t.length]) t (R ++ post)
        (pre.length + 1 + c.length + 1) (pre.length + 1 + c.length + 1 + t.length) (by simp; omega) (by simp; omega)
      rw [e]; simpa using this
    have t1 := u8_ofNat_toNat _ h1
    have t2 := u8_ofNat_toNat _ h2
    rw [Desc4E.parseLoop, if_pos (by rw [hE]; simp [Descriptor.sized])]
    simp only [i1, ok_bind, t1, i2, t2, s1, s2]
    have l : (pre ++ [UInt8.ofNat c.length] ++ c ++ [UInt8.ofNat t.length] ++ t).length =
      pre.length + 1 + c.length + 1 + t.length := by simp; omega
    rw [l] at ih
    rw [ih]
    simp

theorem sum_ge_length (items : List (List UInt8 × List UInt8)) :
    items.length ≤ (items.flatMap fun i => Descriptor.sized i.1 ++ Descriptor.sized i.2).length := by
  induction items with
  | nil => simp
  | cons i r ih => rw [List.flatMap_cons, List.length_append, List.length_cons]; simp [Descriptor.sized] at ih ⊢; omega

theorem item_lt (items : List (List UInt8 × List UInt8)) (i : List UInt8 × List UInt8) (hi : i ∈ items) :
    i.1.length + i.2.length < (items.flatMap fun i => Descriptor.sized i.1 ++ Descriptor.sized i.2).length := by
  induction items with
  | nil => cases hi
  | cons a r ih =>
    rw [List.flatMap_cons, List.length_append]
    rcases List.mem_cons.1 hi with rfl | h
    · simp [Descriptor.sized]; omega
    · have := ih h; omega

/-- C81: extended event, items included. -/
theorem C81_extended_event (p : Profile) (number last : Nat) (lang : List UInt8) (items : List (List UInt8 × List UInt8))
    (txt : List UInt8) (h1 : number < 16) (h2 : last < 16) (hl : lang.length = 3)
    (h : 6 + (items.flatMap fun i => Descriptor.sized i.1 ++ Descriptor.sized i.2).length + txt.length ≤ 255) :
    Desc.parse p (Descriptor.extendedEvent number last lang items txt) = .ok (.d4E
      { number := UInt8.ofNat number, lastNumber := UInt8.ofNat last, lang := StringDVB.ofBytes lang
        items := items.map fun i => (StringDVB.ofBytes i.1, StringDVB.ofBytes i.2), text := StringDVB.ofBytes txt }) := by
  have hm : ∀ i ∈ items, i.1.length < 256 ∧ i.2.length < 256 := by
    intro i hi; have := item_lt items i hi; omega
  have hlen := sum_ge_length items
  have hloop := d4E_parseLoop items hm
  generalize hF : (items.flatMap fun i => Descriptor.sized i.1 ++ Descriptor.sized i.2) = F at *
  generalize hB : UInt8.ofNat (Descriptor.pack [(4, number), (4, last)]) = B
  have tB : B.toNat = number * 16 + last := by
    rw [← hB, UInt8.toNat_ofNat']; simp only [Descriptor.pack, List.foldl_cons, List.foldl_nil]; omega
  have e : Descriptor.extendedEvent number last lang items txt = [0x4E, UInt8.ofNat (6 + F.length + txt.length), B] ++ (lang ++
      UInt8.ofNat F.length :: (F ++ UInt8.ofNat txt.length :: txt)) := by
    rw [Descriptor.extendedEvent, hF]
    simp only [Descriptor.descriptor, Descriptor.sized, List.length_append, List.length_cons, hl, beBytes_length]
    rw [show 1 + 3 + (F.length + 1) + (txt.length + 1) = 6 + F.length + txt.length by omega, ← hB]
    simp [beBytes]
  generalize hs : Descriptor.extendedEvent number last lang items txt = s at *
  have i1 : idx s 1 = .ok (UInt8.ofNat (6 + F.length + txt.length)) := by rw [e]; rfl
  have i2 : idx s 2 = .ok B := by rw [e]; rfl
  have s0 : slice s 3 6 = .ok lang := by
    rw [e]; exact slice_at _ _ _ _ _ rfl (by simp [hl])
  have i3 : idx s 6 = .ok (UInt8.ofNat F.length) := by
    rw [e, ← List.append_assoc]; exact idx_at' _ _ _ _ (by simp [hl])
  have i4 : idx s (7 + F.length) = .ok (UInt8.ofNat txt.length) := by
    have := idx_at' ([0x4E, UInt8.ofNat (6 + F.length + txt.length), B] ++ lang ++ [UInt8.ofNat F.length] ++ F)
      (UInt8.ofNat txt.length) txt (7 + F.length) (by simp [hl]; omega)
    rw [e]; simpa using this
  have s2 : slice s (7 + F.length + 1) (7 + F.length + 1 + txt.length) = .ok txt := by
    have := slice_at ([0x4E, UInt8.ofNat (6 + F.length + txt.length), B] ++ lang ++ [UInt8.ofNat F.length] ++ F ++
      [UInt8.ofNat txt.length]) txt [] (7 + F.length + 1) (7 + F.length + 1 + txt.length) (by simp [hl]; omega)
      (by simp [hl]; omega)
    rw [e]; simpa using this
  have t1 := u8_ofNat_toNat _ (by omega : F.length < 256)
  have t2 := u8_ofNat_toNat _ (by omega : txt.length < 256)
  have t3 := u8_ofNat_toNat _ (by omega : 6 + F.length + txt.length < 256)
  have len : s.length = 8 + F.length + txt.length := by rw [e]; simp [hl]; omega
  have lp : Desc4E.parseLoop s (7 + F.length) (s.length + 1) 7 [] =
      .ok (items.map fun i => (StringDVB.ofBytes i.1, StringDVB.ofBytes i.2)) := by
    have := hloop ([0x4E, UInt8.ofNat (6 + F.length + txt.length), B] ++ lang ++ [UInt8.ofNat F.length])
      (UInt8.ofNat txt.length :: txt) (7 + F.length) (by simp [hl]) (s.length + 1) (by omega) []
    have l7 : ([0x4E, UInt8.ofNat (6 + F.length + txt.length), B] ++ lang ++ [UInt8.ofNat F.length]).length = 7 := by simp [hl]
    rw [l7] at this
    have e' : s = [0x4E, UInt8.ofNat (6 + F.length + txt.length), B] ++ lang ++ [UInt8.ofNat F.length] ++
      (F ++ UInt8.ofNat txt.length :: txt) := by rw [e]; simp
    rw [← e'] at this
    simpa using this
  have q : Desc.parse p s = (do if ← Desc4E.check s then Desc.d4E <$> Desc4E.parse s else Desc.parseRaw s) := by
    rw [e]; exact parse_4E p _
  have c : Desc4E.check s = .ok true := by
    simp only [Desc4E.check]
    rw [if_neg (by omega)]
    simp [i1, i3, t1, i4, t2]
    omega
  have n1 : B >>> 4 = UInt8.ofNat number := by
    refine UInt8.toNat_inj.1 ?_
    rw [UInt8.toNat_shiftRight, tB, UInt8.toNat_ofNat', show (4 : UInt8).toNat % 8 = 4 from rfl, Nat.shiftRight_eq_div_pow]; omega
  have n2 : B &&& 0x0F = UInt8.ofNat last := u8_eq_ofNat (by rw [field_low4, tB]; omega)
  rw [q, c]
  simp [Desc4E.parse, i2, i3, t1, i4, t2, s0, s2, lp, n1, n2]

/-! ## Local time offsets -/

theorem fromBcdTime16_hhmm (p : Profile) (m : Nat) (h : m < 300) :
    fromBcdTime16 p (UInt16.ofNat (Descriptor.hhmm m)) = .ok (UInt16.ofNat m) := by
  have r := C21_round_trip_partial p (UInt16.ofNat m) (by rw [UInt16.toNat_ofNat']; omega)
  obtain ⟨v, h1, h2⟩ := C21_to_bcd_time p (UInt16.ofNat m)
  rw [h1, ok_bind] at r
  rw [UInt16.toNat_ofNat', show m % 2 ^ 16 % 1440 = m by omega, ← bcd_hhmm] at h2
  have : v = UInt16.ofNat (Descriptor.hhmm m) := by rw [← h2]; simp
  rw [← this]; exact r

theorem fromBcdTime16_hhmm_late (m : Nat) (h : 300 ≤ m) (hm : m < 1440) :
    fromBcdTime16 .debug (UInt16.ofNat (Descriptor.hhmm m)) = panic ∧
    fromBcdTime16 .release (UInt16.ofNat (Descriptor.hhmm m)) = .ok (UInt16.ofNat (m / 60 * 60 % 256 + m % 60)) := by
  have e : (UInt16.ofNat (Descriptor.hhmm m)).toNat = bcd 4 (m / 60 * 100 + m % 60) := by
    rw [UInt16.toNat_ofNat']; exact Nat.mod_eq_of_lt (bcd4_lt _)
  have s := bcd4_split (m / 60 * 100 + m % 60)
  have b1 := bcd2_lt ((m / 60 * 100 + m % 60) / 100)
  have b2 := bcd2_lt ((m / 60 * 100 + m % 60) % 100)
  have d1 : unbcd 2 ((UInt16.ofNat (Descriptor.hhmm m)).toNat / 256) = m / 60 := by
    rw [e, s, show (bcd 2 ((m / 60 * 100 + m % 60) / 100) * 256 + bcd 2 ((m / 60 * 100 + m % 60) % 100)) / 256 =
      bcd 2 ((m / 60 * 100 + m % 60) / 100) by omega, unbcd_bcd]; omega
  have d2 : unbcd 2 ((UInt16.ofNat (Descriptor.hhmm m)).toNat % 256) = m % 60 := by
    rw [e, s, show (bcd 2 ((m / 60 * 100 + m % 60) / 100) * 256 + bcd 2 ((m / 60 * 100 + m % 60) % 100)) % 256 =
      bcd 2 ((m / 60 * 100 + m % 60) % 100) by omega, unbcd_bcd]; omega
  obtain ⟨h1, v, h2, h3⟩ := C21_from_bcd_time_refuted (UInt16.ofNat (Descriptor.hhmm m))
    (by rw [e]; exact validBcd_bcd 4 _) (by rw [d1]; omega)
  refine ⟨h1, ?_⟩
  rw [h2]
  rw [d1, d2] at h3
  rw [← h3]; simp

theorem fromMjd_at (p : Profile) (t : Nat) (h : unixEpochMjd + t / 86400 < 2 ^ 16) :
    fromMjd p (UInt16.ofNat (unixEpochMjd + t / 86400)) = .ok (UInt64.ofNat (t / 86400 * 86400)) := by
  have e : (UInt16.ofNat (unixEpochMjd + t / 86400)).toNat = unixEpochMjd + t / 86400 := by
    rw [UInt16.toNat_ofNat']; exact Nat.mod_eq_of_lt h
  obtain ⟨v, h1, h2⟩ := C22_from_mjd p (UInt16.ofNat (unixEpochMjd + t / 86400)) (by omega)
  rw [h1]
  refine congrArg _ (UInt64.toNat_inj.1 ?_)
  rw [h2, e, UInt64.toNat_ofNat']
  unfold unixEpochMjd at *
  omega

theorem fromBcdTime32_at (p : Profile) (s : Nat) (h : s < 86400) :
    fromBcdTime32 p (UInt32.ofNat (Descriptor.hhmmss s % 2 ^ 24)) = .ok (UInt32.ofNat s) := by
  have r := C20_round_trip p (UInt32.ofNat s) (by rw [UInt32.toNat_ofNat']; omega)
  obtain ⟨v, h1, h2⟩ := C20_to_bcd_time p (UInt32.ofNat s)
  rw [h1, ok_bind] at r
  rw [UInt32.toNat_ofNat', show s % 2 ^ 32 % 86400 = s by omega, ← bcd_hhmmss] at h2
  have b := bcd_lt 6 (s / 3600 * 10000 + s / 60 % 60 * 100 + s % 60)
  have b : Descriptor.hhmmss s < 16 ^ 6 := b
  have : v = UInt32.ofNat (Descriptor.hhmmss s % 2 ^ 24) := by
    rw [Nat.mod_eq_of_lt (by omega), ← h2]; simp
  rw [← this]; exact r

/-- The value an item is decoded to. -/
def decoded58 (i : Descriptor.Offset) : Desc58i :=
  { countryCode := StringDVB.ofBytes i.country, regionId := UInt8.ofNat i.region, offsetPolarity := UInt8.ofNat i.polarity
    offset := UInt16.ofNat i.offset, timeOfChange := UInt64.ofNat i.time, nextOffset := UInt16.ofNat i.next }

/-- The bytes of an item. -/
def bytes58 (i : Descriptor.Offset) : List UInt8 :=
  i.country ++ beBytes 1 (Descriptor.pack [(6, i.region), (1, 1), (1, i.polarity)]) ++ beBytes 2 (Descriptor.hhmm i.offset) ++
    Descriptor.utc i.time ++ beBytes 2 (Descriptor.hhmm i.next)

/-- An item the standard can express. -/
def Valid58 (i : Descriptor.Offset) : Prop :=
  i.country.length = 3 ∧ i.region < 64 ∧ i.polarity < 2 ∧ i.offset < 1440 ∧ unixEpochMjd + i.time / 86400 < 2 ^ 16 ∧ i.next < 1440

theorem read58 (p : Profile) (i : Descriptor.Offset) (h : Valid58 i) (pre R : List UInt8) (fuel : Nat) (out : List Desc58i) :
    Desc58.parseLoop p (pre ++ (bytes58 i ++ R)) (fuel + 1) pre.length out =
      (do let o ← fromBcdTime16 p (UInt16.ofNat (Descriptor.hhmm i.offset))
          let n ← fromBcdTime16 p (UInt16.ofNat (Descriptor.hhmm i.next))
          Desc58.parseLoop p (pre ++ bytes58 i ++ R) fuel (pre ++ bytes58 i).length
            (out ++ [{ decoded58 i with
              offset := o
              nextOffset := n }])) := by
  obtain ⟨h1, h2, h3, h4, h5, h6⟩ := h
  obtain ⟨c, g, q, o, t, n⟩ := i
  simp only [bytes58, decoded58] at *
  generalize hB : UInt8.ofNat (Descriptor.pack [(6, g), (1, 1), (1, q)]) = B
  have tB : B.toNat = g * 4 + 2 + q := by
    rw [← hB, UInt8.toNat_ofNat']; simp only [Descriptor.pack, List.foldl_cons, List.foldl_nil]; omega
  have hB1 : beBytes 1 (Descriptor.pack [(6, g), (1, 1), (1, q)]) = [B] := by rw [← hB]; simp [beBytes]
  rw [hB1]
  generalize hs : pre ++ (c ++ [B] ++ beBytes 2 (Descriptor.hhmm o) ++ Descriptor.utc t ++ beBytes 2 (Descriptor.hhmm n) ++ R) = s
  have es : pre ++ (c ++ [B] ++ beBytes 2 (Descriptor.hhmm o) ++ Descriptor.utc t ++ beBytes 2 (Descriptor.hhmm n)) ++ R = s := by
    rw [← hs]; simp
  rw [es]
  have l : (pre ++ (c ++ [B] ++ beBytes 2 (Descriptor.hhmm o) ++ Descriptor.utc t ++ beBytes 2 (Descriptor.hhmm n))).length =
      pre.length + 13 := by simp [h1, Descriptor.utc]
  rw [l]
  have s1 : slice s pre.length (pre.length + 3) = .ok c := by
    have := slice_at pre c ([B] ++ beBytes 2 (Descriptor.hhmm o) ++ Descriptor.utc t ++ beBytes 2 (Descriptor.hhmm n) ++ R)
      pre.length (pre.length + 3) rfl (by rw [h1])
    rw [← hs]; simpa using this
  have s2 : idx s (pre.length + 3) = .ok B := by
    have := idx_at' (pre ++ c) B (beBytes 2 (Descriptor.hhmm o) ++ Descriptor.utc t ++ beBytes 2 (Descriptor.hhmm n) ++ R)
      (pre.length + 3) (by simp [h1])
    rw [← hs]; simpa using this
  have s3 : getU16At s (pre.length + 4) = .ok (UInt16.ofNat (Descriptor.hhmm o)) := by
    have := getU16At_at (pre ++ c ++ [B]) (Descriptor.hhmm o) (Descriptor.utc t ++ beBytes 2 (Descriptor.hhmm n) ++ R)
    rw [show (pre ++ c ++ [B]).length = pre.length + 4 by simp [h1]] at this
    rw [← hs]; simpa using this
  have s4 : getU16At s (pre.length + 6) = .ok (UInt16.ofNat (unixEpochMjd + t / 86400)) := by
    have := getU16At_at (pre ++ c ++ [B] ++ beBytes 2 (Descriptor.hhmm o)) (unixEpochMjd + t / 86400)
      (beBytes 3 (Descriptor.hhmmss (t % 86400)) ++ beBytes 2 (Descriptor.hhmm n) ++ R)
    rw [show (pre ++ c ++ [B] ++ beBytes 2 (Descriptor.hhmm o)).length = pre.length + 6 by simp [h1]] at this
    rw [← hs]; simpa [Descriptor.utc] using this
  have s5 : getU24At s (pre.length + 8) = .ok (UInt32.ofNat (Descriptor.hhmmss (t % 86400) % 2 ^ 24)) := by
    have := getU24At_append (pre ++ c ++ [B] ++ beBytes 2 (Descriptor.hhmm o) ++ beBytes 2 (unixEpochMjd + t / 86400))
      (beBytes 3 (Descriptor.hhmmss (t % 86400)) ++ (beBytes 2 (Descriptor.hhmm n) ++ R)) 0
    rw [show (pre ++ c ++ [B] ++ beBytes 2 (Descriptor.hhmm o) ++ beBytes 2 (unixEpochMjd + t / 86400)).length + 0 =
      pre.length + 8 by simp [h1], getU24At_beBytes] at this
    rw [← hs]; simpa [Descriptor.utc] using this
  have s6 : getU16At s (pre.length + 11) = .ok (UInt16.ofNat (Descriptor.hhmm n)) := by
    have := getU16At_at (pre ++ c ++ [B] ++ beBytes 2 (Descriptor.hhmm o) ++ Descriptor.utc t) (Descriptor.hhmm n) R
    rw [show (pre ++ c ++ [B] ++ beBytes 2 (Descriptor.hhmm o) ++ Descriptor.utc t).length = pre.length + 11 by
      simp [h1, Descriptor.utc]] at this
    rw [← hs]; simpa using this
  have n1 : B >>> 2 = UInt8.ofNat g := by
    refine UInt8.toNat_inj.1 ?_
    rw [UInt8.toNat_shiftRight, tB, UInt8.toNat_ofNat', show (2 : UInt8).toNat % 8 = 2 from rfl, Nat.shiftRight_eq_div_pow]; omega
  have n2 : B &&& 0x01 = UInt8.ofNat q := u8_eq_ofNat (by rw [((field5A B).2.2.2.2.2.2.2.2).2, tB]; omega)
  have a : addU64 p (UInt64.ofNat (t / 86400 * 86400)) (UInt32.ofNat (t % 86400)).toUInt64 = .ok (UInt64.ofNat t) := by
    have u1 : (UInt64.ofNat (t / 86400 * 86400)).toNat = t / 86400 * 86400 := by
      rw [UInt64.toNat_ofNat']; unfold unixEpochMjd at h5; omega
    have u2 : (UInt32.ofNat (t % 86400)).toUInt64.toNat = t % 86400 := by
      rw [UInt32.toNat_toUInt64, UInt32.toNat_ofNat']; omega
    rw [addU64, u1, u2, if_pos (by unfold unixEpochMjd at h5; omega)]
    refine congrArg _ (UInt64.toNat_inj.1 ?_)
    rw [UInt64.toNat_add, u1, u2, UInt64.toNat_ofNat']
    omega
  rw [Desc58.parseLoop, if_pos (by rw [← hs]; simp)]
  simp only [s1, s2, s3, s4, s5, s6, ok_bind, fromMjd_at p t h5, fromBcdTime32_at p (t % 86400) (by omega), a, n1, n2]

theorem d58_parseLoop (p : Profile) (items : List Descriptor.Offset)
    (h : ∀ i ∈ items, Valid58 i ∧ i.offset < 300 ∧ i.next < 300) (pre : List UInt8) (fuel : Nat) (hf : items.length < fuel)
    (out : List Desc58i) :
    Desc58.parseLoop p (pre ++ items.flatMap bytes58) fuel pre.length out = .ok (out ++ items.map decoded58) := by
  induction items generalizing pre fuel out with
  | nil =>
    obtain ⟨f, rfl⟩ : ∃ f, fuel = f + 1 := ⟨fuel - 1, by simp at hf; omega⟩
    simp [Desc58.parseLoop]
  | cons i r ih =>
    obtain ⟨f, rfl⟩ : ∃ f, fuel = f + 1 := ⟨fuel - 1, by simp at hf; omega⟩
    obtain ⟨h1, h2, h3⟩ := h _ List.mem_cons_self
    rw [List.flatMap_cons, read58 p i h1, fromBcdTime16_hhmm p _ h2, ok_bind, fromBcdTime16_hhmm p _ h3, ok_bind,
      ih (fun x hx => h x (List.mem_cons_of_mem _ hx)) _ _ (by simp at hf; omega)]
    simp [decoded58]

theorem bytes58_length (i : Descriptor.Offset) (h : i.country.length = 3) : (bytes58 i).length = 13 := by
  simp [bytes58, h, Descriptor.utc]

theorem localTimeOffset_eq (items : List Descriptor.Offset) (h : ∀ i ∈ items, i.country.length = 3) :
    Descriptor.localTimeOffset items = [0x58, UInt8.ofNat (items.length * 13)] ++ items.flatMap bytes58 := by
  have l : (items.flatMap bytes58).length = items.length * 13 := flatMap_length _ _ 13 fun i hi => bytes58_length i (h i hi)
  rw [← l]; rfl

/-- C81: local time offsets of less than five hours. -/
theorem C81_local_time_offset_partial (p : Profile) (items : List Descriptor.Offset)
    (h : ∀ i ∈ items, Valid58 i ∧ i.offset < 300 ∧ i.next < 300) :
    Desc.parse p (Descriptor.localTimeOffset items) = .ok (.d58 { items := items.map fun i =>
      { countryCode := StringDVB.ofBytes i.country, regionId := UInt8.ofNat i.region, offsetPolarity := UInt8.ofNat i.polarity
        offset := UInt16.ofNat i.offset, timeOfChange := UInt64.ofNat i.time, nextOffset := UInt16.ofNat i.next } }) := by
  have e := localTimeOffset_eq items fun i hi => (h i hi).1.1
  have l : (items.flatMap bytes58).length = items.length * 13 :=
    flatMap_length _ _ 13 fun i hi => bytes58_length i (h i hi).1.1
  have len : (Descriptor.localTimeOffset items).length = 2 + items.length * 13 := by rw [e, List.length_append, l]; rfl
  have := d58_parseLoop p items h [0x58, UInt8.ofNat (items.length * 13)] ((Descriptor.localTimeOffset items).length + 1)
    (by rw [len]; omega) []
  rw [show [0x58, UInt8.ofNat (items.length * 13)].length = 2 from rfl, ← e] at this
  have q : Desc.parse p (Descriptor.localTimeOffset items) = (do if ← Desc58.check (Descriptor.localTimeOffset items) then
    Desc.d58 <$> Desc58.parse p (Descriptor.localTimeOffset items) else Desc.parseRaw (Descriptor.localTimeOffset items)) :=
    parse_58 p _
  rw [q]
  simp only [Desc58.check, pure_eq_ok, ok_bind, len]
  rw [if_pos (by simp), Desc58.parse, this]
  simp [decoded58]

/-- What is left of `m` minutes when the hours are converted to minutes in eight bits. -/
def wrapMinutes (m : Nat) : Nat := m / 60 * 60 % 256 + m % 60

theorem wrapMinutes_of_lt (m : Nat) (h : m < 300) : wrapMinutes m = m := by unfold wrapMinutes; omega
theorem wrapMinutes_ne (m : Nat) (h : 300 ≤ m) : wrapMinutes m ≠ m := by unfold wrapMinutes; omega

theorem fromBcdTime16_hhmm_release (m : Nat) (h : m < 1440) :
    fromBcdTime16 .release (UInt16.ofNat (Descriptor.hhmm m)) = .ok (UInt16.ofNat (wrapMinutes m)) := by
  by_cases h5 : m < 300
  · rw [fromBcdTime16_hhmm _ _ h5, wrapMinutes_of_lt _ h5]
  · exact (fromBcdTime16_hhmm_late m (by omega) h).2

theorem d58_parseLoop_release (items : List Descriptor.Offset) (h : ∀ i ∈ items, Valid58 i) (pre : List UInt8) (fuel : Nat)
    (hf : items.length < fuel) (out : List Desc58i) :
    Desc58.parseLoop .release (pre ++ items.flatMap bytes58) fuel pre.length out = .ok (out ++ items.map fun i =>
      { decoded58 i with
        offset := UInt16.ofNat (wrapMinutes i.offset)
        nextOffset := UInt16.ofNat (wrapMinutes i.next) }) := by
  induction items generalizing pre fuel out with
  | nil =>
    obtain ⟨f, rfl⟩ : ∃ f, fuel = f + 1 := ⟨fuel - 1, by simp at hf; omega⟩
    simp [Desc58.parseLoop]
  | cons i r ih =>
    obtain ⟨f, rfl⟩ : ∃ f, fuel = f + 1 := ⟨fuel - 1, by simp at hf; omega⟩
    have h1 := h _ List.mem_cons_self
    obtain ⟨-, -, -, h2, -, h3⟩ := id h1
    rw [List.flatMap_cons, read58 _ i h1, fromBcdTime16_hhmm_release _ h2, ok_bind, fromBcdTime16_hhmm_release _ h3, ok_bind,
      ih (fun x hx => h x (List.mem_cons_of_mem _ hx)) _ _ (by simp at hf; omega)]
    simp [decoded58]

theorem d58_parseLoop_debug (items : List Descriptor.Offset) (h : ∀ i ∈ items, Valid58 i) (pre : List UInt8) (fuel : Nat)
    (hf : items.length < fuel) (out : List Desc58i) (hb : ∃ i ∈ items, 300 ≤ i.offset ∨ 300 ≤ i.next) :
    Desc58.parseLoop .debug (pre ++ items.flatMap bytes58) fuel pre.length out = panic := by
  induction items generalizing pre fuel out with
  | nil => obtain ⟨i, hi, _⟩ := hb; cases hi
  | cons i r ih =>
    obtain ⟨f, rfl⟩ : ∃ f, fuel = f + 1 := ⟨fuel - 1, by simp at hf; omega⟩
    have h1 := h _ List.mem_cons_self
    obtain ⟨-, -, -, h2, -, h3⟩ := id h1
    rw [List.flatMap_cons, read58 _ i h1]
    by_cases c1 : 300 ≤ i.offset
    · rw [(fromBcdTime16_hhmm_late _ c1 h2).1]; rfl
    rw [fromBcdTime16_hhmm _ _ (by omega), ok_bind]
    by_cases c2 : 300 ≤ i.next
    · rw [(fromBcdTime16_hhmm_late _ c2 h3).1]; rfl
    rw [fromBcdTime16_hhmm _ _ (by omega), ok_bind]
    refine ih (fun x hx => h x (List.mem_cons_of_mem _ hx)) _ _ (by simp at hf; omega) _ ?_
    obtain ⟨x, hx, hb⟩ := hb
    rcases List.mem_cons.1 hx with rfl | hx
    · omega
    · exact ⟨x, hx, hb⟩

theorem parse_localTimeOffset (p : Profile) (items : List Descriptor.Offset) (h : ∀ i ∈ items, Valid58 i) :
    Desc.parse p (Descriptor.localTimeOffset items) = (fun l => Desc.d58 { items := l }) <$>
      Desc58.parseLoop p ([0x58, UInt8.ofNat (items.length * 13)] ++ items.flatMap bytes58) (2 + items.length * 13 + 1)
        [0x58, UInt8.ofNat (items.length * 13)].length [] := by
  have e := localTimeOffset_eq items fun i hi => (h i hi).1
  have l : (items.flatMap bytes58).length = items.length * 13 := flatMap_length _ _ 13 fun i hi => bytes58_length i (h i hi).1
  have len : (Descriptor.localTimeOffset items).length = 2 + items.length * 13 := by rw [e, List.length_append, l]; rfl
  have q : Desc.parse p (Descriptor.localTimeOffset items) = (do if ← Desc58.check (Descriptor.localTimeOffset items) then
    Desc.d58 <$> Desc58.parse p (Descriptor.localTimeOffset items) else Desc.parseRaw (Descriptor.localTimeOffset items)) :=
    parse_58 p _
  rw [q]
  simp only [Desc58.check, pure_eq_ok, ok_bind, len]
  rw [if_pos (by simp), Desc58.parse, len, ← e]
  show Desc.d58 <$> (do let l ← Desc58.parseLoop p (Descriptor.localTimeOffset items) (2 + items.length * 13 + 1) 2 []
                        pure { items := l }) = _
  show _ = (fun l => Desc.d58 { items := l }) <$> Desc58.parseLoop p (Descriptor.localTimeOffset items) (2 + items.length * 13 + 1) 2 []
  cases Desc58.parseLoop p (Descriptor.localTimeOffset items) (2 + items.length * 13 + 1) 2 [] <;> rfl

/-- C81 fails for local time offsets of five hours and more: panic with overflow checks, a wrong offset without. -/
theorem C81_local_time_offset_refuted (items : List Descriptor.Offset) (h : ∀ i ∈ items, Valid58 i) :
    ((∃ i ∈ items, 300 ≤ i.offset ∨ 300 ≤ i.next) →
      Desc.parse .debug (Descriptor.localTimeOffset items) = panic) ∧
    Desc.parse .release (Descriptor.localTimeOffset items) = .ok (.d58 { items := items.map fun i =>
      { countryCode := StringDVB.ofBytes i.country, regionId := UInt8.ofNat i.region, offsetPolarity := UInt8.ofNat i.polarity
        offset := UInt16.ofNat (i.offset / 60 * 60 % 256 + i.offset % 60), timeOfChange := UInt64.ofNat i.time
        nextOffset := UInt16.ofNat (i.next / 60 * 60 % 256 + i.next % 60) } }) ∧
    ∀ m, 300 ≤ m → m / 60 * 60 % 256 + m % 60 ≠ m := by
  refine ⟨?_, ?_, fun m hm => wrapMinutes_ne m hm⟩
  · intro hb
    rw [parse_localTimeOffset _ _ h, d58_parseLoop_debug items h _ _ (by omega) _ hb]; rfl
  · rw [parse_localTimeOffset _ _ h, d58_parseLoop_release items h _ _ (by omega), List.nil_append]; rfl

/-! ### Concrete cases -/

example : Valid58 ⟨[0x47, 0x42, 0x52], 1, 0, 60, 1700000000, 120⟩ := by
  refine ⟨rfl, ?_, ?_, ?_, ?_, ?_⟩ <;> simp [unixEpochMjd]
example : Valid58 ⟨[0x49, 0x4E, 0x44], 0, 0, 330, 1700000000, 120⟩ := by
  refine ⟨rfl, ?_, ?_, ?_, ?_, ?_⟩ <;> simp [unixEpochMjd]
/-- A satellite descriptor whose symbol rate uses the seventh digit. -/
example : Desc.parse .debug (Descriptor.satellite 1176600 192 1 0 0 0 1 275005 3) =
    .ok (.d43 ⟨11766000, 1152, 1, 0, 0, 0, 1, 27500, 3⟩) := by decide +kernel

end Mpegts
