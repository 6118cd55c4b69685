import Verif.Props.C32_C33
import Verif.Props.C104
import Verif.Spec.AnyValue
import Verif.Spec.Sendable

/-! # What is written for a descriptor with arbitrary values -/

namespace Mpegts
open Spec
open Spec.AnyValue (overlay stating)

namespace Desc

/-- The bytes written for a descriptor value. -/
def emitted : Desc → List UInt8
  | raw d => AnyValue.raw d.tag.toNat d.data
  | d09 d => AnyValue.conditionalAccess d.caid.toNat d.pid.toNat d.data
  | d0A d => AnyValue.language (d.items.map fun i => (text i.code, i.audioType.toNat))
  | d0E d => AnyValue.maximumBitrate d.bitrate.toNat
  | d40 d => Descriptor.networkName (text d.name)
  | d41 d => Descriptor.serviceList (d.items.map fun i => (i.serviceId.toNat, i.serviceType.toNat))
  | d43 d => AnyValue.satellite (d.frequency.toNat / 10) (d.orbitalPosition.toNat / 6) d.westEastFlag.toNat
      d.polarization.toNat d.rof.toNat d.s2.toNat d.modulation.toNat d.symbolRate.toNat d.fec.toNat
  | d44 d => AnyValue.cable (d.frequency.toNat / 100) d.fecOuter.toNat d.modulation.toNat d.symbolRate.toNat d.fec.toNat
  | d48 d => Descriptor.service d.serviceType.toNat (text d.provider) (text d.name)
  | d4D d => AnyValue.shortEvent (text d.lang) (text d.name) (text d.text)
  | d4E d => AnyValue.extendedEvent d.number.toNat d.lastNumber.toNat (text d.lang)
      (d.items.map fun i => (text i.1, text i.2)) (text d.text)
  | d52 d => Descriptor.streamIdentifier d.tag.toNat
  | d58 d => AnyValue.localTimeOffset (d.items.map fun i =>
      { country := text i.countryCode
        region := i.regionId.toNat
        polarity := i.offsetPolarity.toNat
        offset := i.offset.toNat
        time := i.timeOfChange.toNat
        next := i.nextOffset.toNat })
  | d5A d => AnyValue.terrestrial (d.frequency.toNat / 10) d.bandwidth.toNat d.priority.toNat d.timeSlicing.toNat
      d.mpeFec.toNat d.modulation.toNat d.hierarchy.toNat d.codeRateHp.toNat d.codeRateLp.toNat d.guardInterval.toNat
      d.transmission.toNat d.otherFrequencyFlag.toNat
  | d83 d => AnyValue.logicalChannels (d.items.map fun i => (i.serviceId.toNat, i.visible.toNat, i.lcn.toNat))

/-- The number of bytes a descriptor value is said to need. -/
def counted : Desc → Nat
  | raw d => 2 + d.data.length
  | d09 d => 6 + d.data.length
  | d0A d => 2 + 4 * d.items.length
  | d0E _ => 5
  | d40 d => 2 + (text d.name).length
  | d41 d => 2 + 3 * d.items.length
  | d43 _ => 13
  | d44 _ => 13
  | d48 d => 5 + (text d.provider).length + (text d.name).length
  | d4D d => 7 + (text d.name).length + (text d.text).length
  | d4E d => 8 + (d.items.map fun i => (text i.1).length + (text i.2).length).sum + (text d.text).length
  | d52 _ => 3
  | d58 d => 2 + 13 * d.items.length
  | d5A _ => 13
  | d83 d => 2 + 4 * d.items.length

end Desc

/-! ## Bit fields -/

theorem u8_ofNat_or (a b : Nat) : UInt8.ofNat (a ||| b) = UInt8.ofNat a ||| UInt8.ofNat b := by
  refine UInt8.toNat_inj.1 ?_
  rw [UInt8.toNat_or, UInt8.toNat_ofNat', UInt8.toNat_ofNat', UInt8.toNat_ofNat']
  exact Nat.or_mod_two_pow

theorem u16_ofNat_or (a b : Nat) : UInt16.ofNat (a ||| b) = UInt16.ofNat a ||| UInt16.ofNat b := by
  refine UInt16.toNat_inj.1 ?_
  rw [UInt16.toNat_or, UInt16.toNat_ofNat', UInt16.toNat_ofNat', UInt16.toNat_ofNat']
  exact Nat.or_mod_two_pow

theorem u8_shl_any (a : UInt8) (k : Nat) (hk : k < 8) : a <<< UInt8.ofNat k = UInt8.ofNat (a.toNat * 2 ^ k) := by
  refine UInt8.toNat_inj.1 ?_
  rw [UInt8.toNat_shiftLeft, UInt8.toNat_ofNat', UInt8.toNat_ofNat', Nat.shiftLeft_eq, Nat.mod_eq_of_lt (by omega : k < 2 ^ 8),
    Nat.mod_eq_of_lt hk]

theorem u16_shl_any (a : UInt16) (k : Nat) (hk : k < 16) : a <<< UInt16.ofNat k = UInt16.ofNat (a.toNat * 2 ^ k) := by
  refine UInt16.toNat_inj.1 ?_
  rw [UInt16.toNat_shiftLeft, UInt16.toNat_ofNat', UInt16.toNat_ofNat', Nat.shiftLeft_eq, Nat.mod_eq_of_lt (by omega : k < 2 ^ 16),
    Nat.mod_eq_of_lt hk]

theorem setBits8_overlay (fields : List (UInt8 × Nat)) (shift : Nat) (hs : shift ≤ 8) (h : ∀ f ∈ fields, 0 < f.2)
    (hw : (fields.map (·.2)).sum = shift) :
    setBits8 shift fields = UInt8.ofNat (overlay (fields.map fun f => (f.2, f.1.toNat))) := by
  induction fields generalizing shift with
  | nil => rfl
  | cons f r ih =>
    obtain ⟨v, size⟩ := f
    have h1 : 0 < size := h (v, size) (by simp)
    simp only [List.map_cons, List.sum_cons] at hw
    have hm : (r.map fun f => (f.2, f.1.toNat)).map (·.1) = r.map (·.2) := by simp
    have e : v <<< UInt8.ofNat (shift - size) = UInt8.ofNat (v.toNat * 2 ^ ((r.map fun f => (f.2, f.1.toNat)).map (·.1)).sum) := by
      rw [hm, ← u8_shl_any _ _ (by omega)]; congr 2; omega
    cases r with
    | nil =>
      rw [setBits8, e]; simp [overlay]
    | cons g r =>
      rw [show setBits8 shift ((v, size) :: g :: r) = (v <<< UInt8.ofNat (shift - size)) ||| setBits8 (shift - size) (g :: r) from rfl,
        ih (shift - size) (by omega) (fun f hf => h f (List.mem_cons_of_mem _ hf)) (by omega), e, ← u8_ofNat_or]
      rfl

theorem setBits16_overlay (fields : List (UInt16 × Nat)) (shift : Nat) (hs : shift ≤ 16) (h : ∀ f ∈ fields, 0 < f.2)
    (hw : (fields.map (·.2)).sum = shift) :
    setBits16 shift fields = UInt16.ofNat (overlay (fields.map fun f => (f.2, f.1.toNat))) := by
  induction fields generalizing shift with
  | nil => rfl
  | cons f r ih =>
    obtain ⟨v, size⟩ := f
    have h1 : 0 < size := h (v, size) (by simp)
    simp only [List.map_cons, List.sum_cons] at hw
    have hm : (r.map fun f => (f.2, f.1.toNat)).map (·.1) = r.map (·.2) := by simp
    have e : v <<< UInt16.ofNat (shift - size) = UInt16.ofNat (v.toNat * 2 ^ ((r.map fun f => (f.2, f.1.toNat)).map (·.1)).sum) := by
      rw [hm, ← u16_shl_any _ _ (by omega)]; congr 2; omega
    cases r with
    | nil =>
      rw [setBits16, e]; simp [overlay]
    | cons g r =>
      rw [show setBits16 shift ((v, size) :: g :: r) = (v <<< UInt16.ofNat (shift - size)) ||| setBits16 (shift - size) (g :: r) from rfl,
        ih (shift - size) (by omega) (fun f hf => h f (List.mem_cons_of_mem _ hf)) (by omega), e, ← u16_ofNat_or]
      rfl

/-! ## Decimal digits -/

theorem digits8_eq (n : Nat) : AnyValue.digits8 n =
    digits2 (n / 10000 % 65536 / 100 % 256) * 2 ^ 24 + bcd 2 (n / 10000 % 65536) * 2 ^ 16 + bcd 4 n := by
  have e : ∀ a : Nat, AnyValue.digits2 a = digits2 a := fun _ => rfl
  simp only [AnyValue.digits8, AnyValue.digits4, e]
  generalize digits2 _ = a
  generalize bcd 2 _ = b
  generalize bcd 4 _ = c
  omega

theorem toBcd32_any (p : Profile) (x : UInt32) : (p = .debug ∧ refused8 x.toNat ∧ toBcd32 p x = panic) ∨
    (¬ (p = .debug ∧ refused8 x.toNat) ∧ ∃ v, toBcd32 p x = .ok v ∧ v.toNat = AnyValue.digits8 x.toNat) := by
  obtain ⟨v, hv, e⟩ := toBcd32_release x
  have hp := (C104_to_bcd_panics p).2.2 x
  rw [digits8_eq]
  cases p with
  | release => exact .inr ⟨by simp, v, hv, e⟩
  | debug =>
    by_cases h : refused8 x.toNat
    · exact .inl ⟨rfl, h, hp.2 ⟨rfl, h⟩⟩
    · refine .inr ⟨fun hh => h hh.2, v, ?_, e⟩
      rcases out_toBcd32 (p := .debug) x with ⟨-, h', -⟩ | ⟨-, w, hw, -⟩
      · exact absurd h' h
      · have := agree_toBcd32 x
        rw [hw, hv] at this
        rcases this with h | h
        · cases h
        · rw [hw, h]

theorem toBcd16_any (p : Profile) (x : UInt16) : (p = .debug ∧ refused4 x.toNat ∧ toBcd16 p x = panic) ∨
    (¬ (p = .debug ∧ refused4 x.toNat) ∧ ∃ v, toBcd16 p x = .ok v ∧ v.toNat = AnyValue.digits4 x.toNat) := by
  obtain ⟨v, hv, e⟩ := toBcd16_release x
  have hp := (C104_to_bcd_panics p).2.1 x
  have e : v.toNat = AnyValue.digits4 x.toNat := by rw [e]; rfl
  cases p with
  | release => exact .inr ⟨by simp, v, hv, e⟩
  | debug =>
    by_cases h : refused4 x.toNat
    · exact .inl ⟨rfl, h, hp.2 ⟨rfl, h⟩⟩
    · refine .inr ⟨fun hh => h hh.2, v, ?_, e⟩
      rcases out_toBcd16 (p := .debug) x with ⟨-, h', -⟩ | ⟨-, w, hw, -⟩
      · exact absurd h' h
      · have := agree_toBcd16 x
        rw [hw, hv] at this
        rcases this with h | h
        · cases h
        · rw [hw, h]

/-! ## Per kind -/

theorem raw_any (d : DescRaw) (buf : List UInt8) : d.assemble buf = .ok (buf ++ (Desc.raw d).emitted) := by
  rw [DescRaw.assemble, Desc.emitted, AnyValue.raw]
  by_cases h : d.data.length ≤ 255
  · rw [if_neg (by omega), if_pos h]; simp [Descriptor.descriptor]
  · rw [if_pos (by omega), if_neg h]; simp

theorem d09_any (d : Desc09) (buf : List UInt8) : d.assemble buf = .ok (buf ++ (Desc.d09 d).emitted) := by
  have e : ((0xE000 : UInt16) ||| d.pid).toNat = overlay [(3, 0b111), (13, d.pid.toNat)] := by
    rw [UInt16.toNat_or]; simp [overlay]
  simp only [Desc09.assemble, resize_extend, Desc09.size, show List.replicate 6 (0 : UInt8) = [0, 0, 0, 0, 0, 0] from rfl,
    setIdx_append, setIdx_append_add, setU16At_append, setIdx_succ, setIdx_zero, setU16At_succ, setU16At_zero, map_ok, ok_bind,
    Desc.emitted, AnyValue.conditionalAccess, stating]
  simp only [setIdx_append, setIdx_append_add, setU16At_append, setIdx_succ, setIdx_zero, setU16At_succ, setU16At_zero, map_ok,
    ok_bind, beBytes, List.cons_append, List.nil_append, e, pure_eq_ok, List.append_assoc]
  rw [show 6 + d.data.length - 2 = 4 + d.data.length by omega]
  rfl

theorem d0A_any (d : Desc0A) (buf : List UInt8) : d.assemble buf = .ok (buf ++ (Desc.d0A d).emitted) := by
  rw [Desc0A.assemble, d0A_loop]
  simp only [Desc.emitted, AnyValue.language, stating, Desc0A.size, List.length_map]
  rw [show 2 + d.items.length * 4 - 2 = 4 * d.items.length by omega]
  simp

theorem d0E_any (d : Desc0E) (buf : List UInt8) : d.assemble buf = .ok (buf ++ (Desc.d0E d).emitted) := by
  have e : ((0x00C00000 : UInt32) ||| d.bitrate).toNat = overlay [(2, 0b11), (22, d.bitrate.toNat)] := by
    rw [UInt32.toNat_or]; simp [overlay]
  simp only [Desc0E.assemble, resize_extend, Desc0E.size, show List.replicate 5 (0 : UInt8) = [0, 0, 0, 0, 0] from rfl,
    setIdx_append, setIdx_append_add, setU24At_append, setIdx_succ, setIdx_zero, setU24At_succ, setU24At_zero, map_ok, ok_bind, e]
  simp only [Desc.emitted, AnyValue.maximumBitrate, stating, List.append_nil]
  rfl

instance : DecidablePred Desc.Refused := fun d => by
  cases d <;> unfold Desc.Refused refused8 <;> (try unfold refused4) <;> infer_instance

theorem d43_any (p : Profile) (d : Desc43) (buf : List UInt8) :
    d.assemble p buf = if p = .debug ∧ (Desc.d43 d).Refused then panic else .ok (buf ++ (Desc.d43 d).emitted) := by
  have c1 : (d.frequency / 10).toNat = d.frequency.toNat / 10 := by rw [UInt32.toNat_div]; rfl
  have c2 : (d.orbitalPosition / 6).toNat = d.orbitalPosition.toNat / 6 := by rw [UInt16.toNat_div]; rfl
  have r1 := toBcd32_any p (d.frequency / 10)
  have r2 := toBcd16_any p (d.orbitalPosition / 6)
  have r3 := toBcd32_any p d.symbolRate
  rw [c1] at r1
  rw [c2] at r2
  have b := setBits8_overlay [(d.westEastFlag, 1), (d.polarization, 2), (d.rof, 2), (d.s2, 1), (d.modulation, 2)] 8 (by omega)
    (by simp) rfl
  simp only [Desc43.assemble, resize_extend, Desc43.size, b,
    show List.replicate 13 (0 : UInt8) = [0, 0, 0, 0, 0, 0, 0, 0, 0, 0, 0, 0, 0] from rfl, ok_bind,
    setIdx_append, setIdx_append_add, setIdx_succ, setIdx_zero, map_ok]
  rcases r1 with ⟨a1, a2, a3⟩ | ⟨a1, v1, a2, a3⟩
  · rw [a3, if_pos ⟨a1, .inl a2⟩]; rfl
  rw [a2]
  simp only [ok_bind, setU32At_append, setU32At_succ, setU32At_zero, map_ok]
  rcases r2 with ⟨b1, b2, b3⟩ | ⟨b1, v2, b2, b3⟩
  · rw [b3, if_pos ⟨b1, .inr (.inl b2)⟩]; rfl
  rw [b2]
  simp only [ok_bind, setIdx_append, setIdx_append_add, setU16At_append, setU32At_append, setIdx_succ, setIdx_zero, setU16At_succ,
    setU16At_zero, setU32At_succ, setU32At_zero, map_ok, beBytes, List.cons_append, List.nil_append]
  rcases r3 with ⟨c1, c2, c3⟩ | ⟨c1, v3, c2, c3⟩
  · rw [c3, if_pos ⟨c1, .inr (.inr c2)⟩]; rfl
  rw [c2, if_neg]
  · simp only [ok_bind, setIdx_append, setIdx_append_add, setU24At_append, setIdx_succ, setIdx_zero,
      setU24At_succ, setU24At_zero, map_ok, beBytes, List.cons_append, List.nil_append]
    rw [a3, b3, c3]
    simp [Desc.emitted, AnyValue.satellite, stating, beBytes]
  · rintro ⟨h, h1 | h1 | h1⟩
    · exact a1 ⟨h, h1⟩
    · exact b1 ⟨h, h1⟩
    · exact c1 ⟨h, h1⟩

theorem d44_any (p : Profile) (d : Desc44) (buf : List UInt8) :
    d.assemble p buf = if p = .debug ∧ (Desc.d44 d).Refused then panic else .ok (buf ++ (Desc.d44 d).emitted) := by
  have c1 : (d.frequency / 100).toNat = d.frequency.toNat / 100 := by rw [UInt32.toNat_div]; rfl
  have r1 := toBcd32_any p (d.frequency / 100)
  have r3 := toBcd32_any p d.symbolRate
  rw [c1] at r1
  have o : (0xF0 : UInt8) ||| d.fecOuter = UInt8.ofNat (overlay [(4, 0xF), (4, d.fecOuter.toNat)]) := by
    rw [overlay, u8_ofNat_or]; simp [overlay]
  simp only [Desc44.assemble, resize_extend, Desc44.size, o,
    show List.replicate 13 (0 : UInt8) = [0, 0, 0, 0, 0, 0, 0, 0, 0, 0, 0, 0, 0] from rfl, ok_bind,
    setIdx_append, setIdx_append_add, setIdx_succ, setIdx_zero, map_ok]
  rcases r1 with ⟨a1, a2, a3⟩ | ⟨a1, v1, a2, a3⟩
  · rw [a3, if_pos ⟨a1, .inl a2⟩]; rfl
  rw [a2]
  simp only [ok_bind, setU32At_append, setU32At_succ, setU32At_zero, map_ok, setIdx_append, setIdx_append_add, setIdx_succ, setIdx_zero,
    beBytes, List.cons_append, List.nil_append]
  rcases r3 with ⟨c1, c2, c3⟩ | ⟨c1, v3, c2, c3⟩
  · rw [c3, if_pos ⟨c1, .inr c2⟩]; rfl
  rw [c2, if_neg]
  · simp only [ok_bind, setIdx_append, setIdx_append_add, setU24At_append, setIdx_succ, setIdx_zero,
      setU24At_succ, setU24At_zero, map_ok, beBytes, List.cons_append, List.nil_append]
    rw [a3, c3]
    simp [Desc.emitted, AnyValue.cable, stating, beBytes]
  · rintro ⟨h, h1 | h1⟩
    · exact a1 ⟨h, h1⟩
    · exact c1 ⟨h, h1⟩

theorem d4D_any (d : Desc4D) (buf : List UInt8) : d.assemble buf = .ok (buf ++ (Desc.d4D d).emitted) := by
  have e : d.size - 2 = 5 + (text d.name).length + (text d.text).length := by
    simp only [Desc4D.size, C23_size_encoding, text]; omega
  simp only [Desc4D.assemble, C24_assemble_sized, C24_assemble, e, ok_bind, Desc.emitted, AnyValue.shortEvent, stating, Descriptor.sized]
  simp [text]

theorem d4E_counted (items : List (StringDVB × StringDVB)) (acc : Nat) :
    items.foldl (fun acc x => acc + (x.1.size + x.2.size)) acc =
      acc + (items.map fun i => (text i.1).length + (text i.2).length).sum := by
  induction items generalizing acc with
  | nil => simp
  | cons i r ih =>
    rw [List.foldl_cons, List.map_cons, List.sum_cons, ih]
    have e1 : i.1.size = (text i.1).length := C23_size_encoding _
    have e2 : i.2.size = (text i.2).length := C23_size_encoding _
    omega

theorem d4E_size (d : Desc4E) : d.size = (Desc.d4E d).counted := by
  have ht : d.text.size = (text d.text).length := C23_size_encoding _
  simp only [Desc4E.size, Desc4E.itemsSize, d4E_counted, Desc.counted, ht]; omega

theorem d4E_any (d : Desc4E) (buf : List UInt8) : d.assemble buf = .ok (buf ++ (Desc.d4E d).emitted) := by
  have hs := d4E_size d
  have em : ((d.items.map fun i => (text i.1, text i.2)).map fun i => i.1.length + i.2.length) =
    d.items.map fun i => (text i.1).length + (text i.2).length := by simp
  simp only [Desc4E.assemble, Desc.emitted, AnyValue.extendedEvent, em]
  simp only [Desc.counted] at hs
  generalize (d.items.map fun i => (text i.1).length + (text i.2).length).sum = S at *
  have e : d.size - 2 = 6 + S + (text d.text).length := by omega
  rw [e]
  by_cases h : 6 + S + (text d.text).length ≤ 255
  · rw [if_neg (by omega), if_pos h]
    have hb := setBits8_overlay [(d.number, 4), (d.lastNumber, 4)] 8 (by omega) (by simp) rfl
    simp only [C24_assemble, d4E_loop, ok_bind, C24_assemble_sized, hb]
    generalize hF : ((d.items.map fun i => (text i.1, text i.2)).flatMap fun i =>
      Descriptor.sized i.1 ++ Descriptor.sized i.2) = F at *
    have hk : text d.lang = Text.encoding d.lang.codepage.toNat d.lang.data := rfl
    rw [← hk]
    simp only [List.map_cons, List.map_nil]
    generalize hA : buf ++ [78] ++ [UInt8.ofNat (6 + S + (text d.text).length)] ++
      [UInt8.ofNat (overlay [(4, d.number.toNat), (4, d.lastNumber.toNat)])] ++ text d.lang = A
    rw [List.append_assoc, List.singleton_append, setIdx_append, ok_bind, List.length_append, List.length_cons,
      show A.length + (F.length + 1) - A.length - 1 = F.length by omega, ← hA]
    simp [Descriptor.sized, stating, beBytes, text]
  · rw [if_pos (by omega), if_neg h]; simp [pure_eq_ok]

theorem d58_loop_any (p : Profile) (items : List Desc58i) (buf : List UInt8) :
    Desc58.assembleLoop p items buf = .ok (buf ++ (items.map item58).flatMap fun i =>
      i.country ++ beBytes 1 (overlay [(6, i.region), (1, 1), (1, i.polarity)]) ++
        beBytes 2 (Descriptor.hhmm (i.offset % 1440)) ++ AnyValue.utc i.time ++ beBytes 2 (Descriptor.hhmm (i.next % 1440))) := by
  induction items generalizing buf with
  | nil => simp [Desc58.assembleLoop]
  | cons i r ih =>
    obtain ⟨v1, e1, f1⟩ := C21_to_bcd_time p i.offset
    obtain ⟨v2, e2, f2⟩ := C21_to_bcd_time p i.nextOffset
    obtain ⟨v3, e3, f3⟩ := C20_to_bcd_time p i.timeOfChange.toUInt32
    have f4 := C22_to_mjd_late i.timeOfChange
    rw [← bcd_hhmm] at f1 f2
    rw [← bcd_hhmmss, UInt64.toNat_toUInt32] at f3
    have hb : (i.regionId <<< 2) ||| (0x02 : UInt8) ||| i.offsetPolarity =
        UInt8.ofNat (overlay [(6, i.regionId.toNat), (1, 1), (1, i.offsetPolarity.toNat)]) := by
      have s1 := u8_shl_any i.regionId 2 (by omega)
      simp only [UInt8.reduceOfNat] at s1
      rw [s1]
      simp only [overlay, u8_ofNat_or, UInt8.or_assoc]
      simp
    have f5 : beBytes 2 (toMjd i.timeOfChange).toNat = beBytes 2 (unixEpochMjd + i.timeOfChange.toNat / 86400) := by
      rw [f4, beBytes_mod _ _ _ (by decide)]
    generalize hG : (fun i : Descriptor.Offset =>
      i.country ++ beBytes 1 (overlay [(6, i.region), (1, 1), (1, i.polarity)]) ++
        beBytes 2 (Descriptor.hhmm (i.offset % 1440)) ++ AnyValue.utc i.time ++ beBytes 2 (Descriptor.hhmm (i.next % 1440))) = G at *
    have b2 (v : Nat) : beBytes 2 v = [UInt8.ofNat (v / 256 ^ 1), UInt8.ofNat (v / 256 ^ 0)] := rfl
    have b3 (v : Nat) : beBytes 3 v = [UInt8.ofNat (v / 256 ^ 2), UInt8.ofNat (v / 256 ^ 1), UInt8.ofNat (v / 256 ^ 0)] := rfl
    rw [Desc58.assembleLoop]
    simp only [C24_assemble, resize_extend, hb, e1, e2, e3,
      show List.replicate 10 (0 : UInt8) = [0, 0, 0, 0, 0, 0, 0, 0, 0, 0] from rfl, ok_bind,
      setIdx_append, setU16At_append, setU24At_append, setU16At_succ,
      setU16At_zero, setU24At_succ, setU24At_zero, map_ok, f1, f2, f3, f5, b2, b3, List.cons_append, List.nil_append, ih]
    rw [List.map_cons, List.flatMap_cons, ← hG]
    simp [item58, text, AnyValue.utc, b2, b3, beBytes]

theorem d58_any (p : Profile) (d : Desc58) (buf : List UInt8) : d.assemble p buf = .ok (buf ++ (Desc.d58 d).emitted) := by
  rw [Desc58.assemble, d58_loop_any p]
  have e : Desc.emitted (.d58 d) = AnyValue.localTimeOffset (d.items.map item58) := rfl
  rw [e, AnyValue.localTimeOffset, stating, Desc58.size, List.length_map]
  rw [show 2 + d.items.length * 13 - 2 = 13 * d.items.length by omega]
  simp only [List.append_assoc, List.cons_append, List.nil_append]
  rfl

theorem d5A_any (d : Desc5A) (buf : List UInt8) : d.assemble buf = .ok (buf ++ (Desc.d5A d).emitted) := by
  have f1 : d.frequency.toNat / 10 = (d.frequency / 10).toNat := by
    rw [UInt32.toNat_div, show (10 : UInt32).toNat = 10 from rfl]
  have b1 := setBits8_overlay [(d.bandwidth, 3), (d.priority, 1), (d.timeSlicing, 1), (d.mpeFec, 1), (0b00000011, 2)] 8 (by omega) (by simp) rfl
  have b2 := setBits8_overlay [(d.modulation, 2), (d.hierarchy, 3), (d.codeRateHp, 3)] 8 (by omega) (by simp) rfl
  have b3 := setBits8_overlay [(d.codeRateLp, 3), (d.guardInterval, 2), (d.transmission, 2), (d.otherFrequencyFlag, 1)] 8 (by omega) (by simp) rfl
  have z := setU32At_append (buf ++ [0x5A] ++ [UInt8.ofNat (13 - 2)]) [0, 0, 0, 0, 0, 0, 0, 0, 0, 0, 0] 0 (d.frequency / 10)
  rw [Nat.add_zero] at z
  simp only [Desc5A.assemble, resize_extend, b1, b2, b3, z,
    show List.replicate 11 (0 : UInt8) = [0, 0, 0, 0, 0, 0, 0, 0, 0, 0, 0] from rfl, ok_bind,
    setIdx_append, setIdx_append_add, setU32At_append, setIdx_succ, setIdx_zero, setU32At_succ, setU32At_zero, map_ok, beBytes,
    List.cons_append, List.nil_append, show (0xFFFFFFFF : UInt32).toNat = 0xFFFFFFFF from rfl]
  simp only [Desc.emitted, AnyValue.terrestrial, stating, f1, beBytes, List.append_assoc, List.cons_append, List.nil_append, List.map_cons, List.map_nil,
    Nat.pow_zero, Nat.div_one]
  rfl

theorem d83_loop_any (items : List Desc83i) (a : List UInt8) :
    Desc83.assembleLoop items a.length (a ++ List.replicate (items.length * 4) 0) =
      .ok (a ++ (items.map fun i => (i.serviceId.toNat, i.visible.toNat, i.lcn.toNat)).flatMap fun i =>
        beBytes 2 i.1 ++ beBytes 2 (overlay [(1, i.2.1), (5, 0b11111), (10, i.2.2)])) := by
  induction items generalizing a with
  | nil => simp [Desc83.assembleLoop]
  | cons i r ih =>
    have e : List.replicate ((i :: r).length * 4) (0 : UInt8) = 0 :: 0 :: 0 :: 0 :: List.replicate (r.length * 4) 0 := by
      rw [List.length_cons, Nat.succ_mul]; simp only [List.replicate_succ]
    have s := setU16At_append a (0 :: 0 :: 0 :: 0 :: List.replicate (r.length * 4) 0) 0 i.serviceId
    rw [Nat.add_zero] at s
    have bits : beBytes 2 (setBits16 16 [(i.visible.toUInt16, 1), (0x1F, 5), (i.lcn, 10)]).toNat =
        beBytes 2 (overlay [(1, i.visible.toNat), (5, 0b11111), (10, i.lcn.toNat)]) := by
      rw [setBits16_overlay _ 16 (by omega) (by simp) rfl, UInt16.toNat_ofNat', beBytes_mod _ _ _ (by decide)]
      simp
    rw [Desc83.assembleLoop, e, s, setU16At_zero, map_ok, ok_bind, setU16At_append]
    have b2 (n : Nat) : beBytes 2 n = [UInt8.ofNat (n / 256 ^ 1), UInt8.ofNat (n / 256 ^ 0)] := rfl
    rw [b2 i.serviceId.toNat]
    simp only [List.cons_append, List.nil_append, setU16At_succ, setU16At_zero, map_ok, ok_bind, bits]
    have := ih (a ++ beBytes 2 i.serviceId.toNat ++ beBytes 2 (overlay [(1, i.visible.toNat), (5, 0b11111), (10, i.lcn.toNat)]))
    simp only [List.length_append, beBytes_length] at this
    simp only [b2, List.append_assoc, List.cons_append, List.nil_append] at this ⊢
    rw [show a.length + 4 = a.length + (2 + 2) by rfl, this, List.map_cons, List.flatMap_cons]
    simp

theorem d83_any (d : Desc83) (buf : List UInt8) : d.assemble buf = .ok (buf ++ (Desc.d83 d).emitted) := by
  have e : List.replicate (2 + d.items.length * 4) (0 : UInt8) = 0 :: 0 :: List.replicate (d.items.length * 4) 0 := by
    rw [Nat.add_comm]; simp only [List.replicate_succ]
  simp only [Desc83.assemble, Desc83.size, resize_extend, e, setIdx_append, ok_bind, setIdx_append_add, setIdx_succ, setIdx_zero,
    map_ok]
  have := d83_loop_any d.items (buf ++ [0x83, UInt8.ofNat (2 + d.items.length * 4 - 2)])
  simp only [List.length_append, List.append_assoc, List.cons_append, List.nil_append, List.length_cons, List.length_nil] at this
  rw [this]
  simp only [Desc.emitted, AnyValue.logicalChannels, stating, List.length_map]
  rw [show 2 + d.items.length * 4 - 2 = 4 * d.items.length by omega]
  rfl

/-- Every descriptor value. -/
theorem desc_any (p : Profile) (d : Desc) (buf : List UInt8) :
    d.assemble p buf = if p = .debug ∧ d.Refused then panic else .ok (buf ++ d.emitted) := by
  have no : ∀ d : Desc, ¬ d.Refused → ∀ x : R (List UInt8), x = .ok (buf ++ d.emitted) →
      x = if p = .debug ∧ d.Refused then panic else .ok (buf ++ d.emitted) := by
    intro d h x hx; rw [if_neg (fun hh => h hh.2), hx]
  cases d with
  | raw d => exact no (.raw d) id _ (raw_any d buf)
  | d09 d => exact no (.d09 d) id _ (d09_any d buf)
  | d0A d => exact no (.d0A d) id _ (d0A_any d buf)
  | d0E d => exact no (.d0E d) id _ (d0E_any d buf)
  | d40 d => exact no (.d40 d) id _ (d40_assemble d buf)
  | d41 d => exact no (.d41 d) id _ (d41_assemble d buf)
  | d43 d => exact d43_any p d buf
  | d44 d => exact d44_any p d buf
  | d48 d => exact no (.d48 d) id _ (d48_assemble d buf)
  | d4D d => exact no (.d4D d) id _ (d4D_any d buf)
  | d4E d => exact no (.d4E d) id _ (d4E_any d buf)
  | d52 d => exact no (.d52 d) id _ (d52_assemble d buf)
  | d58 d => exact no (.d58 d) id _ (d58_any p d buf)
  | d5A d => exact no (.d5A d) id _ (d5A_any d buf)
  | d83 d => exact no (.d83 d) id _ (d83_any d buf)

theorem desc_counted (d : Desc) : d.size = d.counted := by
  have ht : ∀ s : StringDVB, s.size = (text s).length := fun s => C23_size_encoding _
  cases d with
  | d4E d => exact d4E_size d
  | _ =>
    simp only [Desc.size, Desc.counted, DescRaw.size, Desc09.size, Desc0A.size, Desc0E.size, Desc40.size, Desc41.size, Desc43.size,
      Desc44.size, Desc48.size, Desc4D.size, Desc52.size, Desc58.size, Desc5A.size, Desc83.size, ht] <;> try omega

end Mpegts
