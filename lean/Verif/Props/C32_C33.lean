import Verif.Lemmas.Bits
import Verif.Props.DescWire
import Verif.Props.C19_C22
import Verif.Lemmas.Desc

/-! # C32, C33: assembling descriptors -/

namespace Mpegts
open Spec

/-! ## Per kind -/

theorem u8_eta (x : UInt8) : UInt8.ofNat x.toNat = x := by simp

theorem raw_assemble (d : DescRaw) (buf : List UInt8) (h : d.data.length ≤ 255) :
    d.assemble buf = .ok (buf ++ (Desc.raw d).wire) := by
  rw [DescRaw.assemble, if_neg (by omega)]
  simp [Desc.wire, Descriptor.descriptor]

theorem d09_assemble (d : Desc09) (buf : List UInt8) (h1 : d.pid.toNat < 2 ^ 13) :
    d.assemble buf = .ok (buf ++ (Desc.d09 d).wire) := by
  have e : ((0xE000 : UInt16) ||| d.pid).toNat = 7 * 2 ^ 13 + d.pid.toNat := by
    rw [u16_or_disjoint _ _ 13 (by decide) h1]; rfl
  have w : beBytes 4 (Descriptor.pack [(16, d.caid.toNat), (3, 0b111), (13, d.pid.toNat)]) =
      beBytes 2 d.caid.toNat ++ beBytes 2 (7 * 2 ^ 13 + d.pid.toNat) := by
    have := beBytes_pack 2 2 [(16, d.caid.toNat)] [(3, 0b111), (13, d.pid.toNat)] rfl (by
      simp only [List.mem_cons, List.not_mem_nil, or_false]
      rintro x (rfl | rfl) <;> simp only <;> omega)
    simpa [Descriptor.pack] using this
  simp only [Desc09.assemble, resize_extend, Desc09.size, show List.replicate 6 (0 : UInt8) = [0, 0, 0, 0, 0, 0] from rfl,
    setIdx_append, setIdx_append_add, setU16At_append, setIdx_succ, setIdx_zero, setU16At_succ, setU16At_zero, map_ok, ok_bind,
    Desc.wire, Descriptor.conditionalAccess, Descriptor.descriptor, w, List.length_append, beBytes_length]
  simp only [setIdx_append, setIdx_append_add, setU16At_append, setIdx_succ, setIdx_zero, setU16At_succ, setU16At_zero, map_ok,
    ok_bind, beBytes, List.cons_append, List.nil_append, e, pure_eq_ok, List.append_assoc]
  rw [show 6 + d.data.length - 2 = 2 + 2 + d.data.length by omega]
  rfl

theorem d0A_loop (items : List Desc0Ai) (buf : List UInt8) :
    Desc0A.assembleLoop items buf = buf ++ (items.map fun i => (text i.code, i.audioType.toNat)).flatMap
      fun i => i.1 ++ beBytes 1 i.2 := by
  induction items generalizing buf with
  | nil => simp [Desc0A.assembleLoop]
  | cons i r ih =>
    rw [Desc0A.assembleLoop, ih, C24_assemble]
    simp [text, beBytes]

theorem flatMap_length {α : Type} (l : List α) (f : α → List UInt8) (k : Nat) (h : ∀ x ∈ l, (f x).length = k) :
    (l.flatMap f).length = l.length * k := by
  induction l with
  | nil => simp
  | cons a l ih =>
    rw [List.flatMap_cons, List.length_append, ih fun x hx => h x (List.mem_cons_of_mem _ hx), h a List.mem_cons_self,
      List.length_cons, Nat.succ_mul, Nat.add_comm]

theorem d0A_body_length (d : Desc0A) (h : ∀ i ∈ d.items, (text i.code).length = 3) :
    ((d.items.map fun i => (text i.code, i.audioType.toNat)).flatMap fun i => i.1 ++ beBytes 1 i.2).length =
      d.items.length * 4 := by
  rw [flatMap_length _ _ 4, List.length_map]
  intro x hx
  obtain ⟨i, hi, rfl⟩ := List.mem_map.1 hx
  simp [h i hi]

theorem d0A_assemble (d : Desc0A) (buf : List UInt8) (h : ∀ i ∈ d.items, (text i.code).length = 3) :
    d.assemble buf = .ok (buf ++ (Desc.d0A d).wire) := by
  rw [Desc0A.assemble, d0A_loop]
  simp only [Desc.wire, Descriptor.language, Descriptor.descriptor, d0A_body_length d h, Desc0A.size]
  rw [show 2 + d.items.length * 4 - 2 = d.items.length * 4 by omega]
  simp

theorem d0E_assemble (d : Desc0E) (buf : List UInt8) (h : (Desc.d0E d).InRange) :
    d.assemble buf = .ok (buf ++ (Desc.d0E d).wire) := by
  have e : ((0x00C00000 : UInt32) ||| d.bitrate).toNat = Descriptor.pack [(2, 0b11), (22, d.bitrate.toNat)] := by
    rw [u32_or_disjoint _ _ 22 (by decide) h, show (0x00C00000 : UInt32).toNat = 3 * 2 ^ 22 by decide]
    simp only [Descriptor.pack, List.foldl_cons, List.foldl_nil, Nat.zero_mul, Nat.zero_add]
  simp only [Desc0E.assemble, resize_extend, Desc0E.size, show List.replicate 5 (0 : UInt8) = [0, 0, 0, 0, 0] from rfl,
    setIdx_append, setIdx_append_add, setU24At_append, setIdx_succ, setIdx_zero, setU24At_succ, setU24At_zero, map_ok, ok_bind, e]
  simp only [Desc.wire, Descriptor.maximumBitrate, Descriptor.descriptor, beBytes_length, List.append_nil]
  rfl

theorem d40_assemble (d : Desc40) (buf : List UInt8) :
    d.assemble buf = .ok (buf ++ (Desc.d40 d).wire) := by
  rw [Desc40.assemble, C24_assemble_sized]
  simp [Desc.wire, Descriptor.networkName, Descriptor.descriptor, text]

theorem u8_of_u16_u8 (a : UInt16) (b : UInt8) :
    beBytes 3 (Descriptor.pack [(16, a.toNat), (8, b.toNat)]) = beBytes 2 a.toNat ++ [b] := by
  have := beBytes_pack 2 1 [(16, a.toNat)] [(8, b.toNat)] rfl (by
      simp only [List.mem_cons, List.not_mem_nil, or_false]
      rintro x rfl; exact b.toNat_lt)
  simpa [Descriptor.pack, beBytes] using this

theorem d41_loop (items : List Desc41i) (a : List UInt8) :
    Desc41.assembleLoop items a.length (a ++ List.replicate (items.length * 3) 0) =
      .ok (a ++ (items.map fun i => (i.serviceId.toNat, i.serviceType.toNat)).flatMap fun i =>
        beBytes 3 (Descriptor.pack [(16, i.1), (8, i.2)])) := by
  induction items generalizing a with
  | nil => simp [Desc41.assembleLoop]
  | cons i r ih =>
    have e : List.replicate ((i :: r).length * 3) (0 : UInt8) = 0 :: 0 :: 0 :: List.replicate (r.length * 3) 0 := by
      rw [List.length_cons, Nat.succ_mul]; simp only [List.replicate_succ]
    have s := setU16At_append a (0 :: 0 :: 0 :: List.replicate (r.length * 3) 0) 0 i.serviceId
    rw [Nat.add_zero] at s
    rw [Desc41.assembleLoop, e, s, setU16At_zero, map_ok, ok_bind, setIdx_append_add]
    have b2 : beBytes 2 i.serviceId.toNat = [UInt8.ofNat (i.serviceId.toNat / 256 ^ 1),
      UInt8.ofNat (i.serviceId.toNat / 256 ^ 0)] := rfl
    simp only [b2, List.cons_append, List.nil_append, setIdx_succ, setIdx_zero, map_ok, ok_bind]
    have := ih (a ++ beBytes 2 i.serviceId.toNat ++ [i.serviceType])
    simp only [List.length_append, beBytes_length, List.length_singleton] at this
    rw [show a.length + 3 = a.length + 2 + 1 by rfl]
    simp only [b2, List.append_assoc, List.cons_append, List.nil_append] at this
    rw [this, List.map_cons, List.flatMap_cons, u8_of_u16_u8, b2]
    rfl

theorem d41_assemble (d : Desc41) (buf : List UInt8) :
    d.assemble buf = .ok (buf ++ (Desc.d41 d).wire) := by
  have l : ((d.items.map fun i => (i.serviceId.toNat, i.serviceType.toNat)).flatMap fun i =>
        beBytes 3 (Descriptor.pack [(16, i.1), (8, i.2)])).length = d.items.length * 3 := by
    rw [flatMap_length _ _ 3, List.length_map]; intro x _; simp
  have e : List.replicate (2 + d.items.length * 3) (0 : UInt8) = 0 :: 0 :: List.replicate (d.items.length * 3) 0 := by
    rw [Nat.add_comm]; simp only [List.replicate_succ]
  simp only [Desc41.assemble, Desc41.size, resize_extend, e, setIdx_append, ok_bind, setIdx_append_add, setIdx_succ, setIdx_zero,
    map_ok]
  have := d41_loop d.items (buf ++ [0x41, UInt8.ofNat (2 + d.items.length * 3 - 2)])
  simp only [List.length_append, List.append_assoc, List.cons_append, List.nil_append, List.length_cons, List.length_nil] at this
  rw [this]
  simp only [Desc.wire, Descriptor.serviceList, Descriptor.descriptor, l]
  rw [show 2 + d.items.length * 3 - 2 = d.items.length * 3 by omega]
  rfl

/-! ### Delivery systems -/

/-- The last four bytes of the cable and satellite descriptors: symbol rate and FEC_inner. -/
theorem rate_bytes (s fec : Nat) (hf : fec < 16) :
    beBytes 4 (Descriptor.pack [(28, bcd 7 s), (4, fec)]) = beBytes 3 (bcd 6 (s / 10)) ++ [UInt8.ofNat (s % 10 * 16 + fec)] := by
  have e : Descriptor.pack [(28, bcd 7 s), (4, fec)] = bcd 6 (s / 10) * 256 ^ 1 + (s % 10 * 16 + fec) := by
    have : bcd 7 s = bcd 6 (s / 10) * 16 + s % 10 := rfl
    simp only [Descriptor.pack, List.foldl_cons, List.foldl_nil, this]; omega
  rw [e, beBytes_split 3 1 _ _ (by omega)]
  simp [beBytes]

theorem rate_code (p : Profile) (r : UInt32) (h : r.toNat * 10 < 10 ^ 7) :
    ∃ v, toBcd32 p r = .ok v ∧ beBytes 3 v.toNat = beBytes 3 (bcd 6 r.toNat) := by
  obtain ⟨v, h1, h2⟩ := toBcd32_ok p r (by omega)
  refine ⟨v, h1, ?_⟩
  rw [h2]
  have := bcd_add 2 6 r.toNat
  rw [this, Nat.div_eq_of_lt (by omega)]
  simp [bcd]

/-- The byte with the five satellite flags. -/
theorem flags43 (a b c d e : UInt8) (ha : a.toNat < 2) (hb : b.toNat < 4) (hc : c.toNat < 4) (hd : d.toNat < 2)
    (he : e.toNat < 4) :
    setBits8 8 [(a, 1), (b, 2), (c, 2), (d, 1), (e, 2)] =
      UInt8.ofNat (Descriptor.pack [(1, a.toNat), (2, b.toNat), (2, c.toNat), (1, d.toNat), (2, e.toNat)]) := by
  refine UInt8.toNat_inj.1 ?_
  have eq := setBits8_toNat [(a, 1), (b, 2), (c, 2), (d, 1), (e, 2)] 8 (by simp) (by omega) (by simp; omega) (by simp [width])
  rw [eq, UInt8.toNat_ofNat']
  simp only [List.map_cons, List.map_nil, width, List.sum_cons, List.sum_nil, Nat.reduceAdd, Nat.reduceSub, Nat.pow_zero, Nat.mul_one]
  refine (Nat.mod_eq_of_lt ?_).symm
  refine pack_lt [(1, a.toNat), (2, b.toNat), (2, c.toNat), (1, d.toNat), (2, e.toNat)] ?_
  simp; omega

theorem satellite_bytes (f o : Nat) (a b c d e : Nat) (r fec : Nat) (ha : a < 2) (hb : b < 4) (hc : c < 4) (hd : d < 2)
    (he : e < 4) (hf : fec < 16) :
    Descriptor.satellite f o a b c d e r fec = [0x43, 11] ++ (beBytes 4 (bcd 8 f) ++ (beBytes 2 (bcd 4 o) ++
      (UInt8.ofNat (Descriptor.pack [(1, a), (2, b), (2, c), (1, d), (2, e)]) ::
        (beBytes 3 (bcd 6 (r / 10)) ++ [UInt8.ofNat (r % 10 * 16 + fec)])))) := by
  have b8 := bcd_lt 8 f
  have b4 := bcd_lt 4 o
  have b7 := bcd_lt 7 r
  have p1 := beBytes_pack 4 7 [(32, bcd 8 f)] [(16, bcd 4 o), (1, a), (2, b), (2, c), (1, d), (2, e), (28, bcd 7 r),
    (4, fec)] rfl (by
      simp only [List.mem_cons, List.not_mem_nil, or_false]
      rintro x (rfl | rfl | rfl | rfl | rfl | rfl | rfl | rfl) <;> simp only <;> omega)
  have p2 := beBytes_pack 2 5 [(16, bcd 4 o)] [(1, a), (2, b), (2, c), (1, d), (2, e), (28, bcd 7 r),
    (4, fec)] rfl (by
      simp only [List.mem_cons, List.not_mem_nil, or_false]
      rintro x (rfl | rfl | rfl | rfl | rfl | rfl | rfl) <;> simp only <;> omega)
  have p3 := beBytes_pack 1 4 [(1, a), (2, b), (2, c), (1, d), (2, e)] [(28, bcd 7 r),
    (4, fec)] rfl (by
      simp only [List.mem_cons, List.not_mem_nil, or_false]
      rintro x (rfl | rfl) <;> simp only <;> omega)
  simp only [List.cons_append, List.nil_append] at p1 p2 p3
  simp only [Descriptor.satellite, Descriptor.descriptor, beBytes_length]
  rw [p1, p2, p3, rate_bytes r fec hf]
  simp [Descriptor.pack, beBytes]

theorem d43_assemble (p : Profile) (d : Desc43) (buf : List UInt8) (h : (Desc.d43 d).InRange) :
    d.assemble p buf = .ok (buf ++ (Desc.d43 d).wire) := by
  obtain ⟨h1, h2, h3, h4, h5, h6, h7, h8, h9⟩ := h
  obtain ⟨v1, e1, f1⟩ := toBcd32_ok p (d.frequency / 10) (by rw [UInt32.toNat_div]; exact h1)
  obtain ⟨v2, e2, f2⟩ := toBcd16_ok p (d.orbitalPosition / 6) (by rw [UInt16.toNat_div]; exact h2)
  obtain ⟨v3, e3, f3⟩ := rate_code p d.symbolRate h8
  rw [UInt32.toNat_div, show (10 : UInt32).toNat = 10 from rfl] at f1
  rw [UInt16.toNat_div, show (6 : UInt16).toNat = 6 from rfl] at f2
  simp only [Desc.wire]
  rw [satellite_bytes _ _ _ _ _ _ _ _ _ h3 h4 h5 h6 h7 h9, Nat.mul_div_cancel _ (by omega), Nat.mul_mod_left, Nat.zero_mul,
    Nat.zero_add, ← f1, ← f2, ← f3]
  simp only [Desc43.assemble, resize_extend, Desc43.size, e1, e2, e3, flags43 _ _ _ _ _ h3 h4 h5 h6 h7,
    show List.replicate 13 (0 : UInt8) = [0, 0, 0, 0, 0, 0, 0, 0, 0, 0, 0, 0, 0] from rfl, ok_bind,
    setIdx_append, setIdx_append_add, setU16At_append, setU24At_append, setU32At_append, setIdx_succ, setIdx_zero, setU16At_succ,
    setU16At_zero, setU24At_succ, setU24At_zero, setU32At_succ, setU32At_zero, map_ok, beBytes, List.cons_append, List.nil_append]
  simp

theorem cable_bytes (f o m r fec : Nat) (ho : o < 16) (hm : m < 256) (hf : fec < 16) :
    Descriptor.cable f o m r fec = [0x44, 11] ++ (beBytes 4 (bcd 8 f) ++ (0xFF :: UInt8.ofNat (0xF0 + o) ::
      UInt8.ofNat m :: (beBytes 3 (bcd 6 (r / 10)) ++ [UInt8.ofNat (r % 10 * 16 + fec)]))) := by
  have b8 := bcd_lt 8 f
  have b7 := bcd_lt 7 r
  have p1 := beBytes_pack 4 7 [(32, bcd 8 f)] [(12, 0xFFF), (4, o), (8, m), (28, bcd 7 r), (4, fec)] rfl (by
      simp only [List.mem_cons, List.not_mem_nil, or_false]
      rintro x (rfl | rfl | rfl | rfl | rfl) <;> simp only <;> omega)
  have p2 := beBytes_pack 2 5 [(12, 0xFFF), (4, o)] [(8, m), (28, bcd 7 r), (4, fec)] rfl (by
      simp only [List.mem_cons, List.not_mem_nil, or_false]
      rintro x (rfl | rfl | rfl) <;> simp only <;> omega)
  have p3 := beBytes_pack 1 4 [(8, m)] [(28, bcd 7 r), (4, fec)] rfl (by
      simp only [List.mem_cons, List.not_mem_nil, or_false]
      rintro x (rfl | rfl) <;> simp only <;> omega)
  have q : beBytes 2 (Descriptor.pack [(12, 0xFFF), (4, o)]) = [0xFF, UInt8.ofNat (0xF0 + o)] := by
    have e : Descriptor.pack [(12, 0xFFF), (4, o)] = 0xFF * 256 ^ 1 + (0xF0 + o) := by
      simp only [Descriptor.pack, List.foldl_cons, List.foldl_nil]; omega
    rw [e, beBytes_split 1 1 _ _ (by omega)]
    simp only [beBytes, Nat.pow_zero, Nat.div_one]; rfl
  simp only [List.cons_append, List.nil_append] at p1 p2 p3
  simp only [Descriptor.cable, Descriptor.descriptor, beBytes_length]
  rw [p1, p2, p3, rate_bytes r fec hf, q]
  simp [Descriptor.pack, beBytes]

theorem d44_assemble (p : Profile) (d : Desc44) (buf : List UInt8) (h : (Desc.d44 d).InRange) :
    d.assemble p buf = .ok (buf ++ (Desc.d44 d).wire) := by
  obtain ⟨h1, h2, h8, h9⟩ := h
  obtain ⟨v1, e1, f1⟩ := toBcd32_ok p (d.frequency / 100) (by rw [UInt32.toNat_div]; exact h1)
  obtain ⟨v3, e3, f3⟩ := rate_code p d.symbolRate h8
  rw [UInt32.toNat_div, show (100 : UInt32).toNat = 100 from rfl] at f1
  have o : (0xF0 : UInt8) ||| d.fecOuter = UInt8.ofNat (0xF0 + d.fecOuter.toNat) := by
    refine UInt8.toNat_inj.1 ?_
    rw [u8_or_disjoint _ _ 4 (by decide) h2, UInt8.toNat_ofNat', show (0xF0 : UInt8).toNat = 0xF0 from rfl]; omega
  simp only [Desc.wire]
  rw [cable_bytes _ _ _ _ _ h2 d.modulation.toNat_lt h9, Nat.mul_div_cancel _ (by omega), Nat.mul_mod_left, Nat.zero_mul,
    Nat.zero_add, ← f1, ← f3]
  simp only [Desc44.assemble, resize_extend, Desc44.size, e1, e3, o,
    show List.replicate 13 (0 : UInt8) = [0, 0, 0, 0, 0, 0, 0, 0, 0, 0, 0, 0, 0] from rfl, ok_bind,
    setIdx_append, setIdx_append_add, setU16At_append, setU24At_append, setU32At_append, setIdx_succ, setIdx_zero, setU16At_succ,
    setU16At_zero, setU24At_succ, setU24At_zero, setU32At_succ, setU32At_zero, map_ok, beBytes, List.cons_append, List.nil_append]
  simp

theorem terrestrial_bytes (f a b c d e g i j k l m : Nat) (ha : a < 8) (hb : b < 2) (hc : c < 2) (hd : d < 2) (he : e < 4)
    (hg : g < 8) (hi : i < 8) (hj : j < 8) (hk : k < 4) (hl : l < 4) (hm : m < 2) :
    Descriptor.terrestrial f a b c d e g i j k l m = [0x5A, 11] ++ (beBytes 4 f ++
      (UInt8.ofNat (Descriptor.pack [(3, a), (1, b), (1, c), (1, d), (2, 3)]) ::
       UInt8.ofNat (Descriptor.pack [(2, e), (3, g), (3, i)]) ::
       UInt8.ofNat (Descriptor.pack [(3, j), (2, k), (2, l), (1, m)]) :: [0xFF, 0xFF, 0xFF, 0xFF])) := by
  have p1 := beBytes_pack 4 7 [(32, f)] [(3, a), (1, b), (1, c), (1, d), (2, 3), (2, e), (3, g), (3, i), (3, j), (2, k), (2, l),
    (1, m), (32, 0xFFFFFFFF)] rfl (by
      simp only [List.mem_cons, List.not_mem_nil, or_false]
      rintro x (rfl | rfl | rfl | rfl | rfl | rfl | rfl | rfl | rfl | rfl | rfl | rfl | rfl) <;> simp only <;> omega)
  have p2 := beBytes_pack 1 6 [(3, a), (1, b), (1, c), (1, d), (2, 3)] [(2, e), (3, g), (3, i), (3, j), (2, k), (2, l),
    (1, m), (32, 0xFFFFFFFF)] rfl (by
      simp only [List.mem_cons, List.not_mem_nil, or_false]
      rintro x (rfl | rfl | rfl | rfl | rfl | rfl | rfl | rfl) <;> simp only <;> omega)
  have p3 := beBytes_pack 1 5 [(2, e), (3, g), (3, i)] [(3, j), (2, k), (2, l), (1, m), (32, 0xFFFFFFFF)] rfl (by
      simp only [List.mem_cons, List.not_mem_nil, or_false]
      rintro x (rfl | rfl | rfl | rfl | rfl) <;> simp only <;> omega)
  have p4 := beBytes_pack 1 4 [(3, j), (2, k), (2, l), (1, m)] [(32, 0xFFFFFFFF)] rfl (by
      simp only [List.mem_cons, List.not_mem_nil, or_false]
      rintro x rfl; simp only; omega)
  have q : beBytes 4 (Descriptor.pack [(32, 0xFFFFFFFF)]) = [0xFF, 0xFF, 0xFF, 0xFF] := by decide
  simp only [List.cons_append, List.nil_append] at p1 p2 p3 p4
  simp only [Descriptor.terrestrial, Descriptor.descriptor, beBytes_length]
  rw [p1, p2, p3, p4, q]
  simp [Descriptor.pack, beBytes]

theorem flags5A_1 (a b c d : UInt8) (ha : a.toNat < 8) (hb : b.toNat < 2) (hc : c.toNat < 2) (hd : d.toNat < 2) :
    setBits8 8 [(a, 3), (b, 1), (c, 1), (d, 1), (3, 2)] =
      UInt8.ofNat (Descriptor.pack [(3, a.toNat), (1, b.toNat), (1, c.toNat), (1, d.toNat), (2, 3)]) := by
  refine UInt8.toNat_inj.1 ?_
  have eq := setBits8_toNat [(a, 3), (b, 1), (c, 1), (d, 1), (3, 2)] 8 (by simp) (by omega) (by simp; omega) (by simp [width])
  rw [eq, UInt8.toNat_ofNat']
  simp only [List.map_cons, List.map_nil, width, List.sum_cons, List.sum_nil, Nat.reduceAdd, Nat.reduceSub, Nat.pow_zero, Nat.mul_one, show (3 : UInt8).toNat = 3 from rfl]
  refine (Nat.mod_eq_of_lt ?_).symm
  refine pack_lt [(3, a.toNat), (1, b.toNat), (1, c.toNat), (1, d.toNat), (2, 3)] ?_
  simp; omega

theorem flags5A_2 (a b c : UInt8) (ha : a.toNat < 4) (hb : b.toNat < 8) (hc : c.toNat < 8) :
    setBits8 8 [(a, 2), (b, 3), (c, 3)] =
      UInt8.ofNat (Descriptor.pack [(2, a.toNat), (3, b.toNat), (3, c.toNat)]) := by
  refine UInt8.toNat_inj.1 ?_
  have eq := setBits8_toNat [(a, 2), (b, 3), (c, 3)] 8 (by simp) (by omega) (by simp; omega) (by simp [width])
  rw [eq, UInt8.toNat_ofNat']
  simp only [List.map_cons, List.map_nil, width, List.sum_cons, List.sum_nil, Nat.reduceAdd, Nat.reduceSub, Nat.pow_zero, Nat.mul_one]
  refine (Nat.mod_eq_of_lt ?_).symm
  refine pack_lt [(2, a.toNat), (3, b.toNat), (3, c.toNat)] ?_
  simp; omega

theorem flags5A_3 (a b c d : UInt8) (ha : a.toNat < 8) (hb : b.toNat < 4) (hc : c.toNat < 4) (hd : d.toNat < 2) :
    setBits8 8 [(a, 3), (b, 2), (c, 2), (d, 1)] =
      UInt8.ofNat (Descriptor.pack [(3, a.toNat), (2, b.toNat), (2, c.toNat), (1, d.toNat)]) := by
  refine UInt8.toNat_inj.1 ?_
  have eq := setBits8_toNat [(a, 3), (b, 2), (c, 2), (d, 1)] 8 (by simp) (by omega) (by simp; omega) (by simp [width])
  rw [eq, UInt8.toNat_ofNat']
  simp only [List.map_cons, List.map_nil, width, List.sum_cons, List.sum_nil, Nat.reduceAdd, Nat.reduceSub, Nat.pow_zero, Nat.mul_one]
  refine (Nat.mod_eq_of_lt ?_).symm
  refine pack_lt [(3, a.toNat), (2, b.toNat), (2, c.toNat), (1, d.toNat)] ?_
  simp; omega

theorem d5A_assemble (d : Desc5A) (buf : List UInt8) (h : (Desc.d5A d).InRange) :
    d.assemble buf = .ok (buf ++ (Desc.d5A d).wire) := by
  obtain ⟨h1, h2, h3, h4, h5, h6, h7, h8, h9, h10, h11⟩ := h
  have f1 : d.frequency.toNat / 10 = (d.frequency / 10).toNat := by
    rw [UInt32.toNat_div, show (10 : UInt32).toNat = 10 from rfl]
  simp only [Desc.wire]
  rw [terrestrial_bytes _ _ _ _ _ _ _ _ _ _ _ _ h1 h2 h3 h4 h5 h6 h7 h8 h9 h10 h11, f1]
  have z := setU32At_append (buf ++ [0x5A] ++ [UInt8.ofNat (13 - 2)]) [0, 0, 0, 0, 0, 0, 0, 0, 0, 0, 0] 0 (d.frequency / 10)
  rw [Nat.add_zero] at z
  simp only [Desc5A.assemble, resize_extend, flags5A_1 _ _ _ _ h1 h2 h3 h4, flags5A_2 _ _ _ h5 h6 h7,
    flags5A_3 _ _ _ _ h8 h9 h10 h11, z,
    show List.replicate 11 (0 : UInt8) = [0, 0, 0, 0, 0, 0, 0, 0, 0, 0, 0] from rfl, ok_bind,
    setIdx_append, setIdx_append_add, setU32At_append, setIdx_succ, setIdx_zero, setU32At_succ, setU32At_zero, map_ok, beBytes,
    List.cons_append, List.nil_append, show (0xFFFFFFFF : UInt32).toNat = 0xFFFFFFFF from rfl]
  simp only [List.append_assoc, List.cons_append, List.nil_append]
  rfl

/-! ### Texts -/

theorem d48_assemble (d : Desc48) (buf : List UInt8) :
    d.assemble buf = .ok (buf ++ (Desc.d48 d).wire) := by
  have e : d.size - 2 = 3 + (text d.provider).length + (text d.name).length := by
    simp only [Desc48.size, C23_size_encoding, text]; omega
  simp only [Desc48.assemble, C24_assemble_sized, e, ok_bind, Desc.wire, Descriptor.service, Descriptor.descriptor,
    Descriptor.sized, List.length_append, beBytes_length, List.length_cons]
  rw [show 1 + ((text d.provider).length + 1) + ((text d.name).length + 1) = 3 + (text d.provider).length + (text d.name).length by
    omega]
  simp [text, beBytes]

theorem d4D_assemble (d : Desc4D) (buf : List UInt8) (h : (text d.lang).length = 3) :
    d.assemble buf = .ok (buf ++ (Desc.d4D d).wire) := by
  have e : d.size - 2 = 5 + (text d.name).length + (text d.text).length := by
    simp only [Desc4D.size, C23_size_encoding, text]; omega
  simp only [Desc4D.assemble, C24_assemble_sized, C24_assemble, e, ok_bind, Desc.wire, Descriptor.shortEvent,
    Descriptor.descriptor, Descriptor.sized, List.length_append, beBytes_length, List.length_cons, h]
  rw [show 3 + ((text d.name).length + 1) + ((text d.text).length + 1) = 5 + (text d.name).length + (text d.text).length by
    omega]
  simp [text]

theorem d4E_itemsSize (items : List (StringDVB × StringDVB)) (acc : Nat) :
    items.foldl (fun acc x => acc + (x.1.size + x.2.size)) acc + 2 * items.length =
      acc + (items.map fun i => 2 + (text i.1).length + (text i.2).length).sum := by
  induction items generalizing acc with
  | nil => simp
  | cons i r ih =>
    rw [List.foldl_cons, List.map_cons, List.sum_cons, List.length_cons]
    have := ih (acc + (i.1.size + i.2.size))
    have e1 : i.1.size = (text i.1).length := C23_size_encoding _
    have e2 : i.2.size = (text i.2).length := C23_size_encoding _
    omega

theorem d4E_loop (items : List (StringDVB × StringDVB)) (buf : List UInt8) :
    Desc4E.assembleLoop items buf = .ok (buf ++ (items.map fun i => (text i.1, text i.2)).flatMap fun i =>
      Descriptor.sized i.1 ++ Descriptor.sized i.2) := by
  induction items generalizing buf with
  | nil => simp [Desc4E.assembleLoop]
  | cons i r ih =>
    rw [Desc4E.assembleLoop, C24_assemble_sized, ok_bind, C24_assemble_sized, ok_bind, ih]
    simp [text, Descriptor.sized]

theorem d4E_items_length (items : List (StringDVB × StringDVB)) :
    ((items.map fun i => (text i.1, text i.2)).flatMap fun i => Descriptor.sized i.1 ++ Descriptor.sized i.2).length =
      (items.map fun i => 2 + (text i.1).length + (text i.2).length).sum := by
  induction items with
  | nil => rfl
  | cons i r ih =>
    rw [List.map_cons, List.flatMap_cons, List.length_append, ih, List.map_cons, List.sum_cons]
    simp only [Descriptor.sized, List.length_append, List.length_cons]; omega

theorem flags4E (a b : UInt8) (ha : a.toNat < 16) (hb : b.toNat < 16) :
    setBits8 8 [(a, 4), (b, 4)] = UInt8.ofNat (Descriptor.pack [(4, a.toNat), (4, b.toNat)]) := by
  refine UInt8.toNat_inj.1 ?_
  have eq := setBits8_toNat [(a, 4), (b, 4)] 8 (by simp) (by omega) (by simp; omega) (by simp [width])
  rw [eq, UInt8.toNat_ofNat']
  simp only [List.map_cons, List.map_nil, width, List.sum_cons, List.sum_nil, Nat.reduceAdd, Nat.reduceSub, Nat.pow_zero, Nat.mul_one]
  refine (Nat.mod_eq_of_lt ?_).symm
  refine pack_lt [(4, a.toNat), (4, b.toNat)] ?_
  simp; omega

/-- What the library writes for an extended event descriptor: right except for the length byte. -/
theorem d4E_assemble (d : Desc4E) (buf : List UInt8) (h : (Desc.d4E d).InRange) :
    d.assemble buf = .ok (buf ++ (Desc.d4E d).wire.set 1
      (UInt8.ofNat ((Desc.d4E d).wire.length - 2 - 2 * d.items.length))) := by
  obtain ⟨h1, h2, h3, h4⟩ := h
  have hi := d4E_itemsSize d.items 0
  have hl := d4E_items_length d.items
  have ht : d.text.size = (text d.text).length := C23_size_encoding _
  generalize hs : (d.items.map fun i => 2 + (text i.1).length + (text i.2).length).sum = S at *
  have s0 : d.size - 2 = 6 + S + (text d.text).length - 2 * d.items.length := by
    simp only [Desc4E.size, Desc4E.itemsSize]; omega
  have hb : setBits8 8 [(d.number, 4), (d.lastNumber, 4)] =
      UInt8.ofNat (Descriptor.pack [(4, d.number.toNat), (4, d.lastNumber.toNat)]) := flags4E _ _ h1 h2
  have hw : (Desc.d4E d).wire.length = 8 + S + (text d.text).length := by
    simp only [Desc.wire, Descriptor.extendedEvent, Descriptor.descriptor, Descriptor.sized, List.length_cons, List.length_append,
      beBytes_length, h3] at hl ⊢
    omega
  rw [hw, show 8 + S + (text d.text).length - 2 - 2 * d.items.length = d.size - 2 by omega]
  simp only [Desc4E.assemble]
  rw [if_neg (by omega)]
  simp only [C24_assemble, d4E_loop, ok_bind, C24_assemble_sized]
  generalize hF : ((d.items.map fun i => (text i.1, text i.2)).flatMap fun i =>
    Descriptor.sized i.1 ++ Descriptor.sized i.2) = F at *
  have hk : text d.lang = Text.encoding d.lang.codepage.toNat d.lang.data := rfl
  rw [← hk, hb]
  generalize hA : buf ++ [78] ++ [UInt8.ofNat (d.size - 2)] ++
    [UInt8.ofNat (Descriptor.pack [(4, d.number.toNat), (4, d.lastNumber.toNat)])] ++ text d.lang = A
  rw [List.append_assoc, List.singleton_append, setIdx_append, ok_bind, List.length_append, List.length_cons,
    show A.length + (F.length + 1) - A.length - 1 = F.length by omega, ← hA]
  simp only [Desc.wire, Descriptor.extendedEvent, Descriptor.descriptor]
  rw [hF]
  simp only [Descriptor.sized, beBytes, List.set_cons_succ, List.set_cons_zero]
  simp [text]

theorem d4E_assemble_no_items (d : Desc4E) (buf : List UInt8) (h : (Desc.d4E d).InRange) (ni : d.items = []) :
    d.assemble buf = .ok (buf ++ (Desc.d4E d).wire) := by
  rw [d4E_assemble d buf h, ni]
  simp only [Desc.wire, Descriptor.extendedEvent, Descriptor.descriptor, List.length_cons, List.length_nil, List.set_cons_succ,
    List.set_cons_zero]
  rfl

theorem d52_assemble (d : Desc52) (buf : List UInt8) : d.assemble buf = .ok (buf ++ (Desc.d52 d).wire) := by
  simp [Desc52.assemble, Desc52.size, Desc.wire, Descriptor.streamIdentifier, Descriptor.descriptor, beBytes]

/-! ### Local time offsets -/

theorem bcd_hhmm (m : Nat) : Descriptor.hhmm m = bcd 2 (m / 60) * 2 ^ 8 + bcd 2 (m % 60) := by
  rw [Descriptor.hhmm, bcd4_split]
  rw [show (m / 60 * 100 + m % 60) / 100 = m / 60 by omega, show (m / 60 * 100 + m % 60) % 100 = m % 60 by omega,
    show (256 : Nat) = 2 ^ 8 by decide]

theorem bcd_hhmmss (s : Nat) :
    Descriptor.hhmmss s = bcd 2 (s / 3600) * 2 ^ 16 + bcd 2 (s / 60 % 60) * 2 ^ 8 + bcd 2 (s % 60) := by
  rw [Descriptor.hhmmss]
  have h1 := bcd_add 2 4 (s / 3600 * 10000 + s / 60 % 60 * 100 + s % 60)
  have h2 := bcd4_split (s / 3600 * 10000 + s / 60 % 60 * 100 + s % 60)
  rw [show 2 + 4 = 6 from rfl, show (10 : Nat) ^ 4 = 10000 by decide,
    show (s / 3600 * 10000 + s / 60 % 60 * 100 + s % 60) / 10000 = s / 3600 by omega] at h1
  rw [show (s / 3600 * 10000 + s / 60 % 60 * 100 + s % 60) % 100 = s % 60 by omega,
    show (s / 3600 * 10000 + s / 60 % 60 * 100 + s % 60) / 100 = s / 3600 * 100 + s / 60 % 60 by omega] at h2
  have h3 : bcd 2 (s / 3600 * 100 + s / 60 % 60) = bcd 2 (s / 60 % 60) := by
    have a := bcd_mod 2 (s / 3600 * 100 + s / 60 % 60)
    have b := bcd_mod 2 (s / 60 % 60)
    rw [← a, ← b]; refine congrArg _ ?_; omega
  rw [h1, h2, h3]; omega

/-- One item of the local time offset descriptor. -/
def item58 (i : Desc58i) : Descriptor.Offset :=
  { country := text i.countryCode
    region := i.regionId.toNat
    polarity := i.offsetPolarity.toNat
    offset := i.offset.toNat
    time := i.timeOfChange.toNat
    next := i.nextOffset.toNat }

theorem u64_mod_day (t : UInt64) (h : unixEpochMjd + t.toNat / 86400 < 2 ^ 16) :
    t.toUInt32.toNat % 86400 = t.toNat % 86400 := by
  have : t.toNat < 2 ^ 32 := by unfold unixEpochMjd at h; omega
  rw [UInt64.toNat_toUInt32, Nat.mod_eq_of_lt this]

theorem d58_loop (p : Profile) (items : List Desc58i) (buf : List UInt8)
    (h : ∀ i ∈ items, (text i.countryCode).length = 3 ∧ i.regionId.toNat < 64 ∧ i.offsetPolarity.toNat < 2 ∧
      i.offset.toNat < 24 * 60 ∧ unixEpochMjd + i.timeOfChange.toNat / 86400 < 2 ^ 16 ∧ i.nextOffset.toNat < 24 * 60) :
    Desc58.assembleLoop p items buf = .ok (buf ++ (items.map item58).flatMap fun i =>
      i.country ++ beBytes 1 (Descriptor.pack [(6, i.region), (1, 1), (1, i.polarity)]) ++
        beBytes 2 (Descriptor.hhmm i.offset) ++ Descriptor.utc i.time ++ beBytes 2 (Descriptor.hhmm i.next)) := by
  induction items generalizing buf with
  | nil => simp [Desc58.assembleLoop]
  | cons i r ih =>
    obtain ⟨h1, h2, h3, h4, h5, h6⟩ := h i List.mem_cons_self
    have ih := fun buf => ih buf (fun x hx => h x (List.mem_cons_of_mem _ hx))
    obtain ⟨v1, e1, f1⟩ := C21_to_bcd_time p i.offset
    obtain ⟨v2, e2, f2⟩ := C21_to_bcd_time p i.nextOffset
    obtain ⟨v3, e3, f3⟩ := C20_to_bcd_time p i.timeOfChange.toUInt32
    have f4 := C22_to_mjd i.timeOfChange (by omega)
    rw [Nat.mod_eq_of_lt (by omega), ← bcd_hhmm] at f1 f2
    rw [u64_mod_day _ h5] at f3
    have f3 : v3.toNat = Descriptor.hhmmss (i.timeOfChange.toNat % 86400) := by rw [f3, bcd_hhmmss]
    have hb : (i.regionId <<< 2) ||| (0x02 : UInt8) ||| i.offsetPolarity =
        UInt8.ofNat (Descriptor.pack [(6, i.regionId.toNat), (1, 1), (1, i.offsetPolarity.toNat)]) := by
      have s1 := u8_shl i.regionId 2 (by omega) h2
      simp only [UInt8.reduceOfNat] at s1
      have c : (0x02 : UInt8).toNat = 2 := rfl
      have o1 := u8_or_disjoint (i.regionId <<< 2) (0x02 : UInt8) 2 (by omega) (by omega)
      have o2 := u8_or_disjoint (i.regionId <<< 2 ||| (0x02 : UInt8)) i.offsetPolarity 1 (by omega) (by omega)
      refine UInt8.toNat_inj.1 ?_
      rw [o2, o1, UInt8.toNat_ofNat']
      simp only [Descriptor.pack, List.foldl_cons, List.foldl_nil]
      omega
    generalize hG : (fun i : Descriptor.Offset =>
      i.country ++ beBytes 1 (Descriptor.pack [(6, i.region), (1, 1), (1, i.polarity)]) ++
        beBytes 2 (Descriptor.hhmm i.offset) ++ Descriptor.utc i.time ++ beBytes 2 (Descriptor.hhmm i.next)) = G at *
    have b2 (v : Nat) : beBytes 2 v = [UInt8.ofNat (v / 256 ^ 1), UInt8.ofNat (v / 256 ^ 0)] := rfl
    have b3 (v : Nat) : beBytes 3 v = [UInt8.ofNat (v / 256 ^ 2), UInt8.ofNat (v / 256 ^ 1), UInt8.ofNat (v / 256 ^ 0)] := rfl
    rw [Desc58.assembleLoop]
    simp only [C24_assemble, resize_extend, hb, e1, e2, e3,
      show List.replicate 10 (0 : UInt8) = [0, 0, 0, 0, 0, 0, 0, 0, 0, 0] from rfl, ok_bind,
      setIdx_append, setU16At_append, setU24At_append, setU16At_succ,
      setU16At_zero, setU24At_succ, setU24At_zero, map_ok, f1, f2, f3, f4, b2, b3, List.cons_append, List.nil_append, ih]
    rw [List.map_cons, List.flatMap_cons, ← hG]
    simp [item58, text, Descriptor.utc, b2, b3, beBytes]

theorem d58_assemble (p : Profile) (d : Desc58) (buf : List UInt8)
    (h : ∀ i ∈ d.items, (text i.countryCode).length = 3 ∧ i.regionId.toNat < 64 ∧ i.offsetPolarity.toNat < 2 ∧
      i.offset.toNat < 24 * 60 ∧ unixEpochMjd + i.timeOfChange.toNat / 86400 < 2 ^ 16 ∧ i.nextOffset.toNat < 24 * 60) :
    d.assemble p buf = .ok (buf ++ (Desc.d58 d).wire) := by
  rw [Desc58.assemble, d58_loop p _ _ h]
  have l : ((d.items.map item58).flatMap fun i =>
      i.country ++ beBytes 1 (Descriptor.pack [(6, i.region), (1, 1), (1, i.polarity)]) ++
        beBytes 2 (Descriptor.hhmm i.offset) ++ Descriptor.utc i.time ++ beBytes 2 (Descriptor.hhmm i.next)).length =
      d.items.length * 13 := by
    rw [flatMap_length _ _ 13, List.length_map]
    intro x hx
    obtain ⟨i, hi, rfl⟩ := List.mem_map.1 hx
    simp [item58, (h i hi).1, Descriptor.utc]
  have e : Desc.wire (.d58 d) = Descriptor.localTimeOffset (d.items.map item58) := rfl
  rw [e, Descriptor.localTimeOffset, Descriptor.descriptor, l, Desc58.size]
  rw [show 2 + d.items.length * 13 - 2 = d.items.length * 13 by omega]
  simp only [List.append_assoc, List.cons_append, List.nil_append]
  rfl

/-! ### Logical channel numbers -/

theorem lcn_bytes (s v l : Nat) (hv : v < 2) (hl : l < 2 ^ 10) :
    beBytes 4 (Descriptor.pack [(16, s), (1, v), (5, 0b11111), (10, l)]) =
      beBytes 2 s ++ beBytes 2 (v * 2 ^ 15 + 31 * 2 ^ 10 + l) := by
  have := beBytes_pack 2 2 [(16, s)] [(1, v), (5, 0b11111), (10, l)] rfl (by
      simp only [List.mem_cons, List.not_mem_nil, or_false]
      rintro x (rfl | rfl | rfl) <;> simp only <;> omega)
  simp only [List.cons_append, List.nil_append] at this
  rw [this]
  refine congrArg₂ _ ?_ ?_
  · simp [Descriptor.pack]
  · refine congrArg _ ?_
    simp only [Descriptor.pack, List.foldl_cons, List.foldl_nil]
    omega

theorem lcn_code (v : UInt8) (l : UInt16) (hv : v.toNat < 2) (hl : l.toNat < 2 ^ 10) :
    (setBits16 16 [(v.toUInt16, 1), (0x1F, 5), (l, 10)]).toNat = v.toNat * 2 ^ 15 + 31 * 2 ^ 10 + l.toNat := by
  rw [show setBits16 16 [(v.toUInt16, 1), (0x1F, 5), (l, 10)] = (v.toUInt16 <<< 15) ||| (((0x1F : UInt16) <<< 10) ||| (l <<< 0)) from rfl,
    ← UInt16.or_assoc]
  have s1 : (v.toUInt16 <<< 15).toNat = v.toNat * 2 ^ 15 := by
    rw [UInt16.toNat_shiftLeft, show (15 : UInt16).toNat % 16 = 15 from rfl, Nat.shiftLeft_eq, UInt8.toNat_toUInt16]; omega
  have s2 : ((0x1F : UInt16) <<< 10).toNat = 31 * 2 ^ 10 := by decide
  have s3 : (l <<< 0).toNat = l.toNat := by
    rw [UInt16.toNat_shiftLeft, show (0 : UInt16).toNat % 16 = 0 from rfl, Nat.shiftLeft_eq]; omega
  have o1 := u16_or_disjoint (v.toUInt16 <<< 15) ((0x1F : UInt16) <<< 10) 15 (by omega) (by omega)
  have o2 := u16_or_disjoint (v.toUInt16 <<< 15 ||| (0x1F : UInt16) <<< 10) (l <<< 0) 10 (by omega) (by omega)
  rw [o2, o1, s1, s2, s3]

theorem d83_loop (items : List Desc83i) (a : List UInt8) (h : ∀ i ∈ items, i.visible.toNat < 2 ∧ i.lcn.toNat < 2 ^ 10) :
    Desc83.assembleLoop items a.length (a ++ List.replicate (items.length * 4) 0) =
      .ok (a ++ (items.map fun i => (i.serviceId.toNat, i.visible.toNat, i.lcn.toNat)).flatMap fun i =>
        beBytes 4 (Descriptor.pack [(16, i.1), (1, i.2.1), (5, 0b11111), (10, i.2.2)])) := by
  induction items generalizing a with
  | nil => simp [Desc83.assembleLoop]
  | cons i r ih =>
    obtain ⟨h1, h2⟩ := h i List.mem_cons_self
    have ih := fun a => ih a (fun x hx => h x (List.mem_cons_of_mem _ hx))
    have e : List.replicate ((i :: r).length * 4) (0 : UInt8) = 0 :: 0 :: 0 :: 0 :: List.replicate (r.length * 4) 0 := by
      rw [List.length_cons, Nat.succ_mul]; simp only [List.replicate_succ]
    have s := setU16At_append a (0 :: 0 :: 0 :: 0 :: List.replicate (r.length * 4) 0) 0 i.serviceId
    rw [Nat.add_zero] at s
    rw [Desc83.assembleLoop, e, s, setU16At_zero, map_ok, ok_bind, setU16At_append]
    have b2 : beBytes 2 i.serviceId.toNat = [UInt8.ofNat (i.serviceId.toNat / 256 ^ 1),
      UInt8.ofNat (i.serviceId.toNat / 256 ^ 0)] := rfl
    simp only [b2, List.cons_append, List.nil_append, setU16At_succ, setU16At_zero, map_ok, ok_bind]
    have := ih (a ++ beBytes 2 i.serviceId.toNat ++ beBytes 2 (i.visible.toNat * 2 ^ 15 + 31 * 2 ^ 10 + i.lcn.toNat))
    simp only [List.length_append, beBytes_length] at this
    rw [lcn_code _ _ h1 h2]
    simp only [b2, List.append_assoc, List.cons_append, List.nil_append] at this
    rw [show a.length + 4 = a.length + (2 + 2) by rfl, this, List.map_cons, List.flatMap_cons, lcn_bytes _ _ _ h1 h2, b2]
    simp

theorem d83_assemble (d : Desc83) (buf : List UInt8) (h : ∀ i ∈ d.items, i.visible.toNat < 2 ∧ i.lcn.toNat < 2 ^ 10) :
    d.assemble buf = .ok (buf ++ (Desc.d83 d).wire) := by
  have l : ((d.items.map fun i => (i.serviceId.toNat, i.visible.toNat, i.lcn.toNat)).flatMap fun i =>
        beBytes 4 (Descriptor.pack [(16, i.1), (1, i.2.1), (5, 0b11111), (10, i.2.2)])).length = d.items.length * 4 := by
    rw [flatMap_length _ _ 4, List.length_map]; intro x _; simp
  have e : List.replicate (2 + d.items.length * 4) (0 : UInt8) = 0 :: 0 :: List.replicate (d.items.length * 4) 0 := by
    rw [Nat.add_comm]; simp only [List.replicate_succ]
  simp only [Desc83.assemble, Desc83.size, resize_extend, e, setIdx_append, ok_bind, setIdx_append_add, setIdx_succ, setIdx_zero,
    map_ok]
  have := d83_loop d.items (buf ++ [0x83, UInt8.ofNat (2 + d.items.length * 4 - 2)]) h
  simp only [List.length_append, List.append_assoc, List.cons_append, List.nil_append, List.length_cons, List.length_nil] at this
  rw [this]
  simp only [Desc.wire, Descriptor.logicalChannels, Descriptor.descriptor, l]
  rw [show 2 + d.items.length * 4 - 2 = d.items.length * 4 by omega]
  rfl

/-! ## The properties -/

/-- C32: assembling appends the prescribed encoding (every kind except an extended event descriptor with items). -/
theorem C32_wire_format_partial (p : Profile) (d : Desc) (buf : List UInt8) (h : d.InRange) (ni : ¬ d.HasItems) :
    d.assemble p buf = .ok (buf ++ d.wire) := by
  cases d with
  | raw d => exact raw_assemble d buf h
  | d09 d => exact d09_assemble d buf h.1
  | d0A d => exact d0A_assemble d buf h.1
  | d0E d => exact d0E_assemble d buf h
  | d40 d => exact d40_assemble d buf
  | d41 d => exact d41_assemble d buf
  | d43 d => exact d43_assemble p d buf h
  | d44 d => exact d44_assemble p d buf h
  | d48 d => exact d48_assemble d buf
  | d4D d => exact d4D_assemble d buf h.1
  | d4E d => exact d4E_assemble_no_items d buf h (Decidable.of_not_not ni)
  | d52 d => exact d52_assemble d buf
  | d58 d => exact d58_assemble p d buf h.1
  | d5A d => exact d5A_assemble d buf h
  | d83 d => exact d83_assemble d buf h.1

/-- C32 fails for every extended event descriptor with items: the length byte is too small by two per item, everything
else is right. -/
theorem C32_wire_format_refuted (p : Profile) (d : Desc4E) (buf : List UInt8) (h : (Desc.d4E d).InRange) :
    (Desc.d4E d).assemble p buf =
      .ok (buf ++ (Desc.d4E d).wire.set 1 (UInt8.ofNat ((Desc.d4E d).wire.length - 2 - 2 * d.items.length))) ∧
    (d.items ≠ [] → (Desc.d4E d).assemble p buf ≠ .ok (buf ++ (Desc.d4E d).wire)) := by
  refine ⟨d4E_assemble d buf h, fun hi hc => ?_⟩
  have e : (Desc.d4E d).assemble p buf = d.assemble buf := rfl
  rw [e, d4E_assemble d buf h] at hc
  have hc := List.append_cancel_left (Except.ok.inj hc)
  obtain ⟨h1, h2, h3, h4⟩ := h
  have hl := d4E_items_length d.items
  have hw : (Desc.d4E d).wire.length - 2 = 6 + (d.items.map fun i => 2 + (text i.1).length + (text i.2).length).sum +
      (text d.text).length := by
    simp only [Desc.wire, Descriptor.extendedEvent, Descriptor.descriptor, Descriptor.sized, List.length_cons, List.length_append,
      beBytes_length, h3] at hl ⊢
    omega
  have hs : 2 * d.items.length ≤ (d.items.map fun i => 2 + (text i.1).length + (text i.2).length).sum := by
    have := d4E_itemsSize d.items 0; omega
  have hp : 0 < d.items.length := List.length_pos_iff.2 hi
  have hg : (Desc.d4E d).wire[1]? = some (UInt8.ofNat ((Desc.d4E d).wire.length - 2)) := by
    simp only [Desc.wire, Descriptor.extendedEvent, Descriptor.descriptor, List.length_cons]; rfl
  have h5 := congrArg (fun l : List UInt8 => l[1]?) hc
  simp only [hg, List.getElem?_set] at h5
  rw [if_pos trivial, if_pos (by omega)] at h5
  have h6 := congrArg UInt8.toNat (Option.some.inj h5)
  rw [UInt8.toNat_ofNat', UInt8.toNat_ofNat', hw] at h6
  omega

/-- C33: `size` is the number of bytes appended. -/
theorem C33_size_partial (p : Profile) (d : Desc) (buf : List UInt8) (h : d.InRange) (ni : ¬ d.HasItems) :
    ∃ out, d.assemble p buf = .ok (buf ++ out) ∧ d.size = out.length := by
  refine ⟨_, C32_wire_format_partial p d buf h ni, ?_⟩
  cases d with
  | raw d => simp only [Desc.size, DescRaw.size, Desc.wire, Descriptor.descriptor, List.length_cons]; omega
  | d09 d => simp only [Desc.size, Desc09.size, Desc.wire, Descriptor.conditionalAccess, Descriptor.descriptor, List.length_cons,
      List.length_append, beBytes_length]; omega
  | d0A d =>
    simp only [Desc.size, Desc0A.size, Desc.wire, Descriptor.language, Descriptor.descriptor, List.length_cons,
      d0A_body_length d h.1]; omega
  | d0E d => simp only [Desc.size, Desc0E.size, Desc.wire, Descriptor.maximumBitrate, Descriptor.descriptor, List.length_cons,
      beBytes_length]
  | d40 d => simp only [Desc.size, Desc40.size, Desc.wire, Descriptor.networkName, Descriptor.descriptor, List.length_cons,
      C23_size_encoding, text]; omega
  | d41 d =>
    simp only [Desc.size, Desc41.size, Desc.wire, Descriptor.serviceList, Descriptor.descriptor, List.length_cons]
    rw [flatMap_length _ _ 3 (fun x _ => by simp), List.length_map]; omega
  | d43 d => simp only [Desc.size, Desc43.size, Desc.wire, Descriptor.satellite, Descriptor.descriptor, List.length_cons,
      beBytes_length]
  | d44 d => simp only [Desc.size, Desc44.size, Desc.wire, Descriptor.cable, Descriptor.descriptor, List.length_cons,
      beBytes_length]
  | d48 d => simp only [Desc.size, Desc48.size, Desc.wire, Descriptor.service, Descriptor.descriptor, Descriptor.sized,
      List.length_cons, List.length_append, beBytes_length, C23_size_encoding, text]; omega
  | d4D d =>
    have := h.1
    simp only [Desc.size, Desc4D.size, Desc.wire, Descriptor.shortEvent, Descriptor.descriptor, Descriptor.sized,
      List.length_cons, List.length_append, C23_size_encoding, text] at this ⊢; omega
  | d4E d =>
    have hi : d.items = [] := Decidable.of_not_not ni
    have := h.2.2.1
    simp only [Desc.size, Desc4E.size, Desc4E.itemsSize, hi, Desc.wire, Descriptor.extendedEvent, Descriptor.descriptor,
      Descriptor.sized, List.length_cons, List.length_append, C23_size_encoding, text, beBytes_length, List.map_nil,
      List.flatMap_nil, List.foldl_nil, List.length_nil] at this ⊢; omega
  | d52 d => simp only [Desc.size, Desc52.size, Desc.wire, Descriptor.streamIdentifier, Descriptor.descriptor, List.length_cons,
      beBytes_length]
  | d58 d =>
    simp only [Desc.size, Desc58.size, Desc.wire, Descriptor.localTimeOffset, Descriptor.descriptor, List.length_cons]
    rw [flatMap_length _ _ 13, List.length_map]
    · omega
    · intro x hx
      obtain ⟨i, hi, rfl⟩ := List.mem_map.1 hx
      simp [(h.1 i hi).1, Descriptor.utc]
  | d5A d => simp only [Desc.size, Desc5A.size, Desc.wire, Descriptor.terrestrial, Descriptor.descriptor, List.length_cons,
      beBytes_length]
  | d83 d =>
    simp only [Desc.size, Desc83.size, Desc.wire, Descriptor.logicalChannels, Descriptor.descriptor, List.length_cons]
    rw [flatMap_length _ _ 4 (fun x _ => by simp), List.length_map]; omega

/-- C33 fails for extended event descriptors with items: `size` is too small by two per item. -/
theorem C33_size_refuted (p : Profile) (d : Desc4E) (buf : List UInt8) (h : (Desc.d4E d).InRange) :
    ∃ out, (Desc.d4E d).assemble p buf = .ok (buf ++ out) ∧ (Desc.d4E d).size + 2 * d.items.length = out.length := by
  refine ⟨_, d4E_assemble d buf h, ?_⟩
  obtain ⟨h1, h2, h3, h4⟩ := h
  have hl := d4E_items_length d.items
  have hi := d4E_itemsSize d.items 0
  have ht : d.text.size = (text d.text).length := C23_size_encoding _
  rw [List.length_set]
  simp only [Desc.size, Desc4E.size, Desc4E.itemsSize, Desc.wire, Descriptor.extendedEvent, Descriptor.descriptor,
    Descriptor.sized, List.length_cons, List.length_append, beBytes_length, h3, ht] at hl ⊢
  omega

theorem assembleLoop_wire (p : Profile) (ds : List Desc) (buf : List UInt8) (h : ∀ d ∈ ds, d.InRange ∧ ¬ d.HasItems) :
    Descriptors.assembleLoop p ds buf = .ok (buf ++ ds.flatMap Desc.wire) := by
  induction ds generalizing buf with
  | nil => simp [Descriptors.assembleLoop]
  | cons d r ih =>
    obtain ⟨h1, h2⟩ := h d List.mem_cons_self
    rw [Descriptors.assembleLoop, C32_wire_format_partial p d buf h1 h2, ok_bind,
      ih _ fun x hx => h x (List.mem_cons_of_mem _ hx), List.flatMap_cons, List.append_assoc]

theorem foldl_size (ds : List Desc) (acc : Nat) :
    ds.foldl (fun acc x => acc + x.size) acc = acc + (ds.map Desc.size).sum := by
  induction ds generalizing acc with
  | nil => simp
  | cons d r ih => rw [List.foldl_cons, ih, List.map_cons, List.sum_cons, Nat.add_assoc]

theorem wire_length (d : Desc) (h : d.InRange) (ni : ¬ d.HasItems) : d.wire.length = d.size := by
  obtain ⟨out, h1, h2⟩ := C33_size_partial .debug d [] h ni
  have := C32_wire_format_partial .debug d [] h ni
  rw [h1] at this
  rw [h2]
  have := Except.ok.inj this
  simp only [List.nil_append] at this
  rw [this]

/-- C32, C33 for lists: the encodings are appended in order; the returned count and `size` are their total length. -/
theorem C33_list_partial (p : Profile) (ds : List Desc) (buf : List UInt8) (h : ∀ d ∈ ds, d.InRange ∧ ¬ d.HasItems) :
    Descriptors.assemble p ds buf = .ok ((ds.flatMap Desc.wire).length, buf ++ ds.flatMap Desc.wire) ∧
    Descriptors.size ds = (ds.flatMap Desc.wire).length := by
  constructor
  · simp only [Descriptors.assemble, assembleLoop_wire p ds buf h, ok_bind]
    rw [usizeSub_ok p (by simp), List.length_append, Nat.add_sub_cancel_left]
    simp
  · rw [Descriptors.size, foldl_size, Nat.zero_add]
    induction ds with
    | nil => rfl
    | cons d r ih =>
      obtain ⟨h1, h2⟩ := h d List.mem_cons_self
      rw [List.map_cons, List.sum_cons, List.flatMap_cons, List.length_append, wire_length d h1 h2,
        ih fun x hx => h x (List.mem_cons_of_mem _ hx)]

/-- C33: a raw descriptor with a body over 255 bytes reports its size but appends nothing. -/
theorem C33_raw_oversize_refuted (p : Profile) (t : UInt8) (data buf : List UInt8) (h : 255 < data.length) :
    (Desc.raw ⟨t, data⟩).assemble p buf = .ok buf ∧ (Desc.raw ⟨t, data⟩).size = 2 + data.length :=
  ⟨by simp [Desc.assemble, DescRaw.assemble, h], rfl⟩

/-! ### The hypotheses are met -/

/-- Descriptors of all fifteen kinds. -/
def sampleDescs : List Desc :=
  [.raw ⟨0x7F, [1, 2, 3]⟩, .d09 ⟨0x0B00, 0x1FF0, [1, 2]⟩, .d0A ⟨[⟨⟨0, [0x65, 0x6E, 0x67]⟩, 1⟩, ⟨⟨0, [0x66, 0x72, 0x61]⟩, 0⟩]⟩,
   .d0E ⟨0x3FFFFF⟩, .d40 ⟨⟨5, [0x41, 0xE9]⟩⟩, .d41 ⟨[⟨1, 2⟩, ⟨0xFFFF, 0xFF⟩]⟩,
   .d43 ⟨11766000, 1140, 1, 2, 0, 1, 2, 27500, 3⟩, .d44 ⟨346000000, 2, 3, 6875, 15⟩, .d48 ⟨1, ⟨0, [0x41]⟩, ⟨1, [0x42, 0x43]⟩⟩,
   .d4D ⟨⟨0, [0x65, 0x6E, 0x67]⟩, ⟨0, [0x41]⟩, ⟨0x15, [0x42]⟩⟩, .d4E ⟨1, 2, ⟨0, [0x65, 0x6E, 0x67]⟩, [], ⟨0, [0x41]⟩⟩, .d52 ⟨7⟩,
   .d58 ⟨[⟨⟨0, [0x47, 0x42, 0x52]⟩, 1, 0, 60, 1700000000, 120⟩]⟩, .d5A ⟨650000000, 1, 1, 1, 0, 2, 3, 4, 5, 1, 2, 1⟩,
   .d83 ⟨[⟨1, 1, 1023⟩, ⟨2, 0, 1⟩]⟩]

instance (d : Desc) : Decidable d.InRange := by
  cases d <;> simp only [Desc.InRange] <;> infer_instance
instance (d : Desc) : Decidable d.HasItems := by
  cases d <;> simp only [Desc.HasItems] <;> infer_instance

example : ∀ d ∈ sampleDescs, d.InRange ∧ ¬ d.HasItems := by decide +kernel

/-- The encoding of one of them, and of an extended event descriptor with an item. -/
example : (Desc.d43 ⟨11766000, 1140, 1, 2, 0, 1, 2, 27500, 3⟩).wire =
    [0x43, 0x0B, 0x01, 0x17, 0x66, 0x00, 0x01, 0x90, 0b11000110, 0x02, 0x75, 0x00, 0x03] := by decide +kernel
example : (Desc.d4E ⟨0, 0, ⟨0, [0x65, 0x6E, 0x67]⟩, [(⟨0, [0x41]⟩, ⟨0, [0x42]⟩)], ⟨0, []⟩⟩).InRange ∧
    (Desc.d4E ⟨0, 0, ⟨0, [0x65, 0x6E, 0x67]⟩, [(⟨0, [0x41]⟩, ⟨0, [0x42]⟩)], ⟨0, []⟩⟩).assemble .debug [] =
      .ok [0x4E, 8, 0, 0x65, 0x6E, 0x67, 4, 1, 0x41, 1, 0x42, 0] ∧
    (Desc.d4E ⟨0, 0, ⟨0, [0x65, 0x6E, 0x67]⟩, [(⟨0, [0x41]⟩, ⟨0, [0x42]⟩)], ⟨0, []⟩⟩).wire =
      [0x4E, 10, 0, 0x65, 0x6E, 0x67, 4, 1, 0x41, 1, 0x42, 0] := by decide +kernel

end Mpegts
