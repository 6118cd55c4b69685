import Verif.Lemmas.Bits
import Verif.Model.Constants
import Verif.Spec.Delivery
import Verif.Props.C34_C39

/-! # C87: bit fields; C88: descriptors that are too long; C89: delivery system constants; C90: descriptor containers -/

namespace Mpegts

open Spec Spec.Descriptor

/-! ## C87 -/

/-- C87: `set_bits!` on bytes.  Fields of at least one bit each, at most eight together, with values that fit: the result
is the fields packed one after the other, most significant first, above zero bits. -/
theorem C87_set_bits (fields : List (UInt8 × Nat)) (hne : fields ≠ []) (h : ∀ f ∈ fields, 0 < f.2 ∧ f.1.toNat < 2 ^ f.2)
    (hw : (fields.map Prod.snd).sum ≤ 8) :
    (setBits8 8 fields).toNat =
      pack ((fields.map fun f => (f.2, f.1.toNat)) ++ [(8 - (fields.map Prod.snd).sum, 0)]) := by
  have e : width (fields.map fun f => (f.2, f.1.toNat)) = (fields.map Prod.snd).sum := by
    simp [width, Function.comp_def]
  rw [setBits8_toNat fields 8 hne (by omega) h (by rw [e]; exact hw), e, pack_append]
  simp [pack, width]

/-- C87: the same for 16-bit operands. -/
theorem C87_set_bits16 (fields : List (UInt16 × Nat)) (hne : fields ≠ []) (h : ∀ f ∈ fields, 0 < f.2 ∧ f.1.toNat < 2 ^ f.2)
    (hw : (fields.map Prod.snd).sum ≤ 16) :
    (setBits16 16 fields).toNat =
      pack ((fields.map fun f => (f.2, f.1.toNat)) ++ [(16 - (fields.map Prod.snd).sum, 0)]) := by
  have e : width (fields.map fun f => (f.2, f.1.toNat)) = (fields.map Prod.snd).sum := by
    simp [width, Function.comp_def]
  rw [setBits16_toNat fields 16 hne (by omega) h (by rw [e]; exact hw), e, pack_append]
  simp [pack, width]

/-- C87: packing leaves every field readable: with fields `a` above and `b` below (of any widths), the upper part is `a`
packed and the lower part is `b` packed. -/
theorem C87_fields_readable (a b : List (UInt8 × Nat)) (ha : a ≠ []) (hb : b ≠ [])
    (h : ∀ f ∈ a ++ b, 0 < f.2 ∧ f.1.toNat < 2 ^ f.2) (hw : ((a ++ b).map Prod.snd).sum = 8) :
    (setBits8 8 (a ++ b)).toNat / 2 ^ (b.map Prod.snd).sum = pack (a.map fun f => (f.2, f.1.toNat)) ∧
    (setBits8 8 (a ++ b)).toNat % 2 ^ (b.map Prod.snd).sum = pack (b.map fun f => (f.2, f.1.toNat)) := by
  have e := C87_set_bits (a ++ b) (by simp [ha]) h (by omega)
  have eb : width (b.map fun f => (f.2, f.1.toNat)) = (b.map Prod.snd).sum := by
    simp [width, Function.comp_def]
  have lt := pack_lt (b.map fun f => (f.2, f.1.toNat)) (by
    intro f hf
    obtain ⟨x, hx, rfl⟩ := List.mem_map.1 hf
    exact (h x (List.mem_append_right _ hx)).2)
  rw [hw, Nat.sub_self, pack_append _ [(0, 0)], List.map_append, pack_append _ (b.map _), eb] at e
  rw [eb] at lt
  have z : pack [(0, 0)] = 0 := by decide
  have w : width [(0, 0)] = 0 := by decide
  rw [z, w, Nat.pow_zero, Nat.mul_one, Nat.add_zero] at e
  rw [e]
  constructor
  · rw [Nat.mul_comm, Nat.mul_add_div (Nat.two_pow_pos _), Nat.div_eq_of_lt lt, Nat.add_zero]
  · rw [Nat.mul_comm, Nat.mul_add_mod, Nat.mod_eq_of_lt lt]

/-- C87: the condition that the values fit is needed: nothing is masked, and the excess bits of a lower field are or-ed into the field above. -/
theorem C87_overflow_spills (a b : UInt8) (s : Nat) (hs : 0 < s) (hs' : s < 8) (ha : a.toNat < 2 ^ s) :
    (setBits8 8 [(a, s), (b, 8 - s)]).toNat / 2 ^ (8 - s) = a.toNat ||| (b.toNat / 2 ^ (8 - s)) := by
  have e : setBits8 8 [(a, s), (b, 8 - s)] = (a <<< UInt8.ofNat (8 - s)) ||| (b <<< UInt8.ofNat (8 - s - (8 - s))) := rfl
  have hz : b <<< UInt8.ofNat (8 - s - (8 - s)) = b := by
    rw [Nat.sub_self]; refine UInt8.toNat_inj.1 ?_
    rw [UInt8.toNat_shiftLeft]; simp [Nat.mod_eq_of_lt b.toNat_lt]
  rw [e, hz, UInt8.toNat_or, u8_shl a (8 - s) (by omega) (by rwa [show 8 - (8 - s) = s by omega]), ← Nat.shiftLeft_eq,
    ← Nat.shiftRight_eq_div_pow, ← Nat.shiftRight_eq_div_pow, Nat.shiftRight_or_distrib, Nat.shiftLeft_shiftRight]

/-- Non-vacuity: the five satellite fields. -/
example : (setBits8 8 [(1, 1), (2, 2), (1, 2), (1, 1), (2, 2)]).toNat = 0b11001110 ∧
    pack ([(1, 1), (2, 2), (2, 1), (1, 1), (2, 2)] ++ [(0, 0)]) = 0b11001110 := by decide

/-- Non-vacuity of the refutation: with number 1 and last number 0x12 the number read back is 1 ||| 1 = 1, with 0x22 it
is 3. -/
example : (setBits8 8 [(1, 4), (0x22, 4)]).toNat / 2 ^ 4 = 3 := by decide

/-! ## C88 -/

/-- The fields fit, but nothing is said about the length of the body (kinds with a body of variable length only). -/
def Desc.FieldsFit : Desc → Prop
  | .d09 d => d.pid.toNat < 2 ^ 13
  | .d0A d => ∀ i ∈ d.items, (text i.code).length = 3
  | .d40 _ => True
  | .d41 _ => True
  | .d48 _ => True
  | .d4D d => (text d.lang).length = 3
  | .d58 d => ∀ i ∈ d.items, (text i.countryCode).length = 3 ∧ i.regionId.toNat < 64 ∧ i.offsetPolarity.toNat < 2 ∧
      i.offset.toNat < 24 * 60 ∧ unixEpochMjd + i.timeOfChange.toNat / 86400 < 2 ^ 16 ∧ i.nextOffset.toNat < 24 * 60
  | .d83 d => ∀ i ∈ d.items, i.visible.toNat < 2 ∧ i.lcn.toNat < 2 ^ 10
  | _ => False

theorem Desc.FieldsFit.assemble {d : Desc} (h : d.FieldsFit) (p : Profile) (buf : List UInt8) :
    d.assemble p buf = .ok (buf ++ d.wire) := by
  cases d with
  | d09 d => exact d09_assemble d buf h
  | d0A d => exact d0A_assemble d buf h
  | d40 d => exact d40_assemble d buf
  | d41 d => exact d41_assemble d buf
  | d48 d => exact d48_assemble d buf
  | d4D d => exact d4D_assemble d buf h
  | d58 d => exact d58_assemble p d buf h
  | d83 d => exact d83_assemble d buf h
  | _ => exact h.elim

theorem Desc.FieldsFit.framed {d : Desc} (h : d.FieldsFit) :
    d.wire = d.tag :: UInt8.ofNat (d.wire.length - 2) :: d.wire.drop 2 := by
  have key (t : Nat) (body : List UInt8) :
      descriptor t body = UInt8.ofNat t :: UInt8.ofNat ((descriptor t body).length - 2) :: (descriptor t body).drop 2 := by
    simp [descriptor]
  cases d with
  | d09 d => exact key _ _
  | d0A d => exact key _ _
  | d40 d => exact key _ _
  | d41 d => exact key _ _
  | d48 d => exact key _ _
  | d4D d => exact key _ _
  | d58 d => exact key _ _
  | d83 d => exact key _ _
  | _ => exact h.elim

/-- C88, the part that holds: an uninterpreted descriptor and an extended event descriptor that are too long are left out
as a whole. -/
theorem C88_left_out_partial (p : Profile) (buf : List UInt8) :
    (∀ d : DescRaw, 255 < d.data.length → (Desc.raw d).assemble p buf = .ok buf) ∧
    (∀ d : Desc4E, 255 < 6 + (d.items.map fun i => (text i.1).length + (text i.2).length).sum + (text d.text).length →
      (Desc.d4E d).assemble p buf = .ok buf) := by
  refine ⟨fun d h => (C33_raw_oversize_refuted p d.tag d.data buf h).1, fun d h => ?_⟩
  have hi := d4E_itemsSize d.items 0
  have hsum : ∀ l : List (StringDVB × StringDVB), (l.map fun i => 2 + (text i.1).length + (text i.2).length).sum =
      (l.map fun i => (text i.1).length + (text i.2).length).sum + 2 * l.length := by
    intro l
    induction l with
    | nil => rfl
    | cons a l ih => simp only [List.map_cons, List.sum_cons, List.length_cons, ih]; omega
  rw [hsum] at hi
  have ht : d.text.size = (text d.text).length := C23_size_encoding _
  have s0 : d.size - 2 > 0xFF := by
    simp only [Desc4E.size, Desc4E.itemsSize]; omega
  simp only [Desc.assemble, Desc4E.assemble]
  rw [if_pos s0]; rfl

/-- C88 fails for all other kinds of variable length: the body is written in full but its length modulo 256, so that the
bytes read back are a shorter descriptor followed by whatever descriptors the rest of the body happens to look like. -/
theorem C88_oversize_refuted (p : Profile) (d : Desc) (h : d.FieldsFit) (hl : 255 < d.wire.length - 2) (self : Descriptors)
    (buf : List UInt8) :
    ∃ out, d.assemble p buf = .ok (buf ++ out) ∧
      out = d.tag :: UInt8.ofNat (d.wire.length - 2) :: d.wire.drop 2 ∧
      Descriptors.parse p self out = (do
        let first ← Desc.parse p (d.tag :: UInt8.ofNat (d.wire.length - 2) :: (d.wire.drop 2).take ((d.wire.length - 2) % 256))
        Descriptors.parse p (self ++ [first]) ((d.wire.drop 2).drop ((d.wire.length - 2) % 256))) := by
  refine ⟨d.wire, h.assemble p buf, h.framed, ?_⟩
  have hf : frames d.wire = (d.tag :: UInt8.ofNat (d.wire.length - 2) :: (d.wire.drop 2).take ((d.wire.length - 2) % 256)) ::
      frames ((d.wire.drop 2).drop ((d.wire.length - 2) % 256)) := by
    have e := h.framed
    generalize hb : d.wire.drop 2 = body at *
    have hlen : body.length = d.wire.length - 2 := by rw [← hb, List.length_drop]
    generalize hn : d.wire.length - 2 = n at *
    rw [e, frames]
    rw [UInt8.toNat_ofNat', if_pos (by rw [hlen]; exact Nat.mod_le _ _)]
  rw [C37_frames, hf, List.mapM_cons]
  cases Desc.parse p (d.tag :: UInt8.ofNat (d.wire.length - 2) :: (d.wire.drop 2).take ((d.wire.length - 2) % 256)) with
  | error e => rfl
  | ok x =>
    simp only [ok_bind, C37_frames]
    cases List.mapM (Desc.parse p) (frames ((d.wire.drop 2).drop ((d.wire.length - 2) % 256))) with
    | error e => rfl
    | ok l => simp only [ok_bind, pure_eq_ok, map_ok, List.append_assoc, List.singleton_append]

/-- C88 on a service list of 86 services: it is read back as one uninterpreted two-byte descriptor and what its 86 entries
look like as descriptors. -/
example : (Desc.d41 ⟨List.replicate 86 ⟨0x0101, 1⟩⟩).FieldsFit ∧
    255 < (Desc.d41 ⟨List.replicate 86 ⟨0x0101, 1⟩⟩).wire.length - 2 := ⟨trivial, by decide +kernel⟩

/-! ## C89 -/

section
open Spec.Delivery Mpegts.Constants

/-- The constant named after a parameter value. -/
def _root_.Spec.Delivery.Direction.constant : Direction → UInt8 | .west => POSITION_WEST | .east => POSITION_EAST
/-- The constant named after a parameter value. -/
def _root_.Spec.Delivery.Polarization.constant : Polarization → UInt8
  | .horizontal => POLARIZATION_H | .vertical => POLARIZATION_V | .circularLeft => POLARIZATION_L | .circularRight => POLARIZATION_R
/-- The constant named after a parameter value. -/
def _root_.Spec.Delivery.RollOff.constant : RollOff → UInt8 | .alpha35 => ROF_A035 | .alpha25 => ROF_A025 | .alpha20 => ROF_A020
/-- The constant named after a parameter value. -/
def _root_.Spec.Delivery.SatelliteModulation.constant : SatelliteModulation → UInt8
  | .auto => MODULATION_DVB_S_AUTO | .qpsk => MODULATION_DVB_S_QPSK | .psk8 => MODULATION_DVB_S_8PSK | .qam16 => MODULATION_DVB_S_16QAM
/-- The constant named after a parameter value. -/
def _root_.Spec.Delivery.CableModulation.constant : CableModulation → UInt8
  | .undefined => MODULATION_DVB_C_NOT_DEFINED | .qam16 => MODULATION_DVB_C_16_QAM | .qam32 => MODULATION_DVB_C_32_QAM
  | .qam64 => MODULATION_DVB_C_64_QAM | .qam128 => MODULATION_DVB_C_128_QAM | .qam256 => MODULATION_DVB_C_256_QAM
/-- The constant named after a parameter value. -/
def _root_.Spec.Delivery.FecOuter.constant : FecOuter → UInt8
  | .undefined => FEC_OUTER_NOT_DEFINED | .noOuterFec => FEC_OUTER_NO_CODING | .reedSolomon204_188 => FEC_OUTER_RS
/-- The constant named after a parameter value. -/
def _root_.Spec.Delivery.FecInner.constant : FecInner → UInt8
  | .undefined => FEC_NOT_DEFINED | .r1_2 => FEC_1_2 | .r2_3 => FEC_2_3 | .r3_4 => FEC_3_4 | .r5_6 => FEC_5_6 | .r7_8 => FEC_7_8
  | .r8_9 => FEC_8_9 | .r3_5 => FEC_3_5 | .r4_5 => FEC_4_5 | .r9_10 => FEC_9_10 | .noCoding => FEC_NONE
/-- The constant named after a parameter value. -/
def _root_.Spec.Delivery.Bandwidth.constant : Bandwidth → UInt8
  | .mhz8 => BANDWIDTH_DVB_T_8MHZ | .mhz7 => BANDWIDTH_DVB_T_7MHZ | .mhz6 => BANDWIDTH_DVB_T_6MHZ | .mhz5 => BANDWIDTH_DVB_T_5MHZ
/-- The constant named after a parameter value. -/
def _root_.Spec.Delivery.Constellation.constant : Constellation → UInt8
  | .qpsk => MODULATION_DVB_T_QPSK | .qam16 => MODULATION_DVB_T_16QAM | .qam64 => MODULATION_DVB_T_64QAM
/-- The constant named after a parameter value. -/
def _root_.Spec.Delivery.Hierarchy.constant : Hierarchy → UInt8
  | .noneNative => HIERARCHY_DVB_T_NON_NATIVE | .alpha1Native => HIERARCHY_DVB_T_A1_NATIVE
  | .alpha2Native => HIERARCHY_DVB_T_A2_NATIVE | .alpha4Native => HIERARCHY_DVB_T_A4_NATIVE
  | .noneInDepth => HIERARCHY_DVB_T_NON_IN_DEPTH | .alpha1InDepth => HIERARCHY_DVB_T_A1_IN_DEPTH
  | .alpha2InDepth => HIERARCHY_DVB_T_A2_IN_DEPTH | .alpha4InDepth => HIERARCHY_DVB_T_A4_IN_DEPTH
/-- The constant named after a parameter value. -/
def _root_.Spec.Delivery.CodeRate.constant : CodeRate → UInt8
  | .r1_2 => CODE_RATE_DVB_T_1_2 | .r2_3 => CODE_RATE_DVB_T_2_3 | .r3_4 => CODE_RATE_DVB_T_3_4 | .r5_6 => CODE_RATE_DVB_T_5_6
  | .r7_8 => CODE_RATE_DVB_T_7_8
/-- The constant named after a parameter value. -/
def _root_.Spec.Delivery.Guard.constant : Guard → UInt8
  | .g1_32 => GUARD_INTERVAL_1_32 | .g1_16 => GUARD_INTERVAL_1_16 | .g1_8 => GUARD_INTERVAL_1_8 | .g1_4 => GUARD_INTERVAL_1_4
/-- The constant named after a parameter value. -/
def _root_.Spec.Delivery.Mode.constant : Mode → UInt8
  | .k2 => TRANSMISSION_MODE_2K | .k8 => TRANSMISSION_MODE_8K | .k4 => TRANSMISSION_MODE_4K

/-- C89, satellite: a descriptor made with the constants for any parameters is sent with the codes of the standard. -/
theorem C89_satellite (p : Profile) (frequency : UInt32) (orbit : UInt16) (we : Direction) (pol : Polarization) (rof : RollOff) (s2 : Bool)
    (m : SatelliteModulation) (rate : UInt32) (fec : FecInner) (buf : List UInt8) (h1 : frequency.toNat / 10 < 10 ^ 8)
    (h2 : orbit.toNat / 6 < 10 ^ 4) (h3 : rate.toNat * 10 < 10 ^ 7) :
    (Desc.d43 ⟨frequency, orbit, we.constant, pol.constant, rof.constant, if s2 then 1 else 0, m.constant, rate, fec.constant⟩).assemble p buf =
      .ok (buf ++ Descriptor.satellite (frequency.toNat / 10) (orbit.toNat / 6) we.code pol.code rof.code (if s2 then 1 else 0)
        m.code (rate.toNat * 10) fec.code) := by
  have e1 : we.constant.toNat = we.code := by cases we <;> rfl
  have e2 : pol.constant.toNat = pol.code := by cases pol <;> rfl
  have e3 : rof.constant.toNat = rof.code := by cases rof <;> rfl
  have e4 : (if s2 then (1 : UInt8) else 0).toNat = if s2 then 1 else 0 := by cases s2 <;> rfl
  have e5 : m.constant.toNat = m.code := by cases m <;> rfl
  have e6 : fec.constant.toNat = fec.code := by cases fec <;> rfl
  have := C32_wire_format_partial p
    (Desc.d43 ⟨frequency, orbit, we.constant, pol.constant, rof.constant, if s2 then 1 else 0, m.constant, rate, fec.constant⟩) buf
    ⟨h1, h2, by rw [e1]; cases we <;> decide, by rw [e2]; cases pol <;> decide, by rw [e3]; cases rof <;> decide,
      by rw [e4]; cases s2 <;> decide, by rw [e5]; cases m <;> decide, h3, by rw [e6]; cases fec <;> decide⟩ (by simp [Desc.HasItems])
  rw [this]
  simp only [Desc.wire, e1, e2, e3, e4, e5, e6]

/-- C89, terrestrial. -/
theorem C89_terrestrial (p : Profile) (frequency : UInt32) (bw : Bandwidth) (prio slicing fec other : Bool) (c : Constellation)
    (hi : Hierarchy) (hp lp : CodeRate) (g : Guard) (m : Mode) (buf : List UInt8) :
    (Desc.d5A ⟨frequency, bw.constant, if prio then 1 else 0, if slicing then 1 else 0, if fec then 1 else 0, c.constant, hi.constant,
      hp.constant, lp.constant, g.constant, m.constant, if other then 1 else 0⟩).assemble p buf =
      .ok (buf ++ Descriptor.terrestrial (frequency.toNat / 10) bw.code (if prio then 1 else 0) (if slicing then 1 else 0)
        (if fec then 1 else 0) c.code hi.code hp.code lp.code g.code m.code (if other then 1 else 0)) := by
  have e0 : ∀ b : Bool, (if b then (1 : UInt8) else 0).toNat = if b then 1 else 0 := by decide
  have b0 : ∀ b : Bool, (if b then 1 else 0) < 2 := by decide
  have e1 : bw.constant.toNat = bw.code := by cases bw <;> rfl
  have e2 : c.constant.toNat = c.code := by cases c <;> rfl
  have e3 : hi.constant.toNat = hi.code := by cases hi <;> rfl
  have e4 : hp.constant.toNat = hp.code := by cases hp <;> rfl
  have e5 : lp.constant.toNat = lp.code := by cases lp <;> rfl
  have e6 : g.constant.toNat = g.code := by cases g <;> rfl
  have e7 : m.constant.toNat = m.code := by cases m <;> rfl
  have := C32_wire_format_partial p
    (Desc.d5A ⟨frequency, bw.constant, if prio then 1 else 0, if slicing then 1 else 0, if fec then 1 else 0, c.constant, hi.constant,
      hp.constant, lp.constant, g.constant, m.constant, if other then 1 else 0⟩) buf
    ⟨by rw [e1]; cases bw <;> decide, by rw [e0]; exact b0 _, by rw [e0]; exact b0 _, by rw [e0]; exact b0 _,
      by rw [e2]; cases c <;> decide, by rw [e3]; cases hi <;> decide, by rw [e4]; cases hp <;> decide, by rw [e5]; cases lp <;> decide,
      by rw [e6]; cases g <;> decide, by rw [e7]; cases m <;> decide, by rw [e0]; exact b0 _⟩ (by simp [Desc.HasItems])
  rw [this]
  simp only [Desc.wire, e0, e1, e2, e3, e4, e5, e6, e7]

/-- C89, cable, except for the Reed-Solomon outer code. -/
theorem C89_cable_partial (p : Profile) (frequency : UInt32) (outer : FecOuter) (m : CableModulation) (rate : UInt32) (fec : FecInner)
    (buf : List UInt8) (h1 : frequency.toNat / 100 < 10 ^ 8) (h2 : rate.toNat * 10 < 10 ^ 7) (ho : outer ≠ .reedSolomon204_188) :
    (Desc.d44 ⟨frequency, outer.constant, m.constant, rate, fec.constant⟩).assemble p buf =
      .ok (buf ++ Descriptor.cable (frequency.toNat / 100) outer.code m.code (rate.toNat * 10) fec.code) := by
  have e1 : outer.constant.toNat = outer.code := by cases outer <;> first | rfl | exact absurd rfl ho
  have e2 : m.constant.toNat = m.code := by cases m <;> rfl
  have e3 : fec.constant.toNat = fec.code := by cases fec <;> rfl
  have := C32_wire_format_partial p (Desc.d44 ⟨frequency, outer.constant, m.constant, rate, fec.constant⟩) buf
    ⟨h1, by rw [e1]; cases outer <;> decide, h2, by rw [e3]; cases fec <;> decide⟩ (by simp [Desc.HasItems])
  rw [this]
  simp only [Desc.wire, e1, e2, e3]

/-- C89 fails for the Reed-Solomon outer code, the one every cable network uses: the constant has the code of "no outer
FEC". -/
theorem C89_cable_refuted (p : Profile) (frequency : UInt32) (m : CableModulation) (rate : UInt32) (fec : FecInner) (buf : List UInt8)
    (h1 : frequency.toNat / 100 < 10 ^ 8) (h2 : rate.toNat * 10 < 10 ^ 7) :
    (Desc.d44 ⟨frequency, FecOuter.reedSolomon204_188.constant, m.constant, rate, fec.constant⟩).assemble p buf =
      .ok (buf ++ Descriptor.cable (frequency.toNat / 100) FecOuter.noOuterFec.code m.code (rate.toNat * 10) fec.code) :=
  C89_cable_partial p frequency .noOuterFec m rate fec buf h1 h2 (by simp)

end

/-! ## C90 -/

/-- C90: `push` adds one descriptor at the end; `len`, `is_empty`, `get`, `iter` and assignment through `get_mut` see the
descriptors in the order pushed. -/
theorem C90_container (ds : Descriptors) (d e : Desc) (i : Nat) :
    (ds.push d).len = ds.len + 1 ∧ (ds.push d).isEmpty = false ∧ (ds.push d).iter = ds.iter ++ [d] ∧
    (ds.push d).get i = (if i < ds.len then ds.get i else if i = ds.len then some d else none) ∧
    ((ds.set i e).get i = if i < ds.len then some e else none) ∧
    (∀ j, j ≠ i → (ds.set i e).get j = ds.get j) ∧ (ds.set i e).len = ds.len ∧
    Descriptors.len [] = 0 ∧ Descriptors.isEmpty [] = true := by
  have hl : ds.len = List.length ds := rfl
  refine ⟨List.length_append, by cases ds <;> rfl, rfl, ?_, ?_, ?_, List.length_set, rfl, rfl⟩
  · show (ds ++ [d])[i]? = _
    by_cases h : i < ds.len
    · rw [if_pos h, List.getElem?_append_left h]; rfl
    · rw [if_neg h]
      by_cases h' : i = ds.len
      · rw [if_pos h', h', hl]; simp
      · rw [if_neg h', List.getElem?_eq_none]; simp; omega
  · show (List.set ds i e)[i]? = _
    by_cases h : i < ds.len
    · rw [if_pos h, List.getElem?_set_self h]
    · rw [if_neg h, List.getElem?_eq_none]; simp; omega
  · intro j hj; exact List.getElem?_set_ne (Ne.symm hj)

/-- C90: descriptors pushed one by one are assembled one after the other. -/
theorem C90_push_assemble (p : Profile) (ds : Descriptors) (d : Desc) (buf : List UInt8) :
    Descriptors.assembleLoop p (ds.push d) buf = (do d.assemble p (← Descriptors.assembleLoop p ds buf)) ∧
    (ds.push d).size = ds.size + d.size := by
  constructor
  · unfold Descriptors.push
    induction ds generalizing buf with
    | nil =>
      simp only [List.nil_append, Descriptors.assembleLoop, ok_bind]
      cases d.assemble p buf <;> rfl
    | cons a l ih =>
      rw [List.cons_append, Descriptors.assembleLoop, Descriptors.assembleLoop]
      cases a.assemble p buf with
      | error e => rfl
      | ok b => simp only [ok_bind]; exact ih b
  · simp [Descriptors.push, Descriptors.size]

/-- The type that belongs to a tag. -/
def Desc.Kind.ofTag (t : UInt8) : Desc.Kind :=
  if t = 0x09 then .d09 else if t = 0x0A then .d0A else if t = 0x0E then .d0E else if t = 0x40 then .d40
  else if t = 0x41 then .d41 else if t = 0x43 then .d43 else if t = 0x44 then .d44 else if t = 0x48 then .d48
  else if t = 0x4D then .d4D else if t = 0x4E then .d4E else if t = 0x52 then .d52 else if t = 0x58 then .d58
  else if t = 0x5A then .d5A else if t = 0x83 then .d83 else .raw

/-- C90, the part that holds: a program that chooses the type by `tag()` can downcast every descriptor except an
uninterpreted one that carries an interpreted tag. -/
theorem C90_downcast_partial (d : Desc) (h : ∀ r, d = .raw r → r.tag ∉ knownTags) :
    d.downcast (Desc.Kind.ofTag d.tag) = .ok d := by
  cases d with
  | raw r =>
    have h := h r rfl
    simp only [knownTags, List.mem_cons, List.not_mem_nil, or_false, not_or] at h
    obtain ⟨h1, h2, h3, h4, h5, h6, h7, h8, h9, h10, h11, h12, h13, h14⟩ := h
    simp only [Desc.downcast, Desc.kind, Desc.Kind.ofTag, Desc.tag, h1, h2, h3, h4, h5, h6, h7, h8, h9, h10, h11, h12, h13, h14,
      if_false, if_true]
  | _ => rfl

/-- C90 fails for descriptors from the network whose body does not pass the length check of their kind: choosing the
type by `tag()` panics. -/
theorem C90_downcast_refuted (p : Profile) (t : UInt8) (body : List UInt8) (hb : body.length ≤ 255) (hk : KeptRaw t body)
    (ht : t ∈ knownTags) :
    ∃ d, Desc.parse p (Descriptor.descriptor t.toNat body) = .ok d ∧ d.tag = t ∧ d.downcast (Desc.Kind.ofTag d.tag) = panic := by
  refine ⟨_, (C35_kept_verbatim p t body hb hk).1, rfl, ?_⟩
  simp only [knownTags, List.mem_cons, List.not_mem_nil, or_false] at ht
  rcases ht with h | h | h | h | h | h | h | h | h | h | h | h | h | h <;> subst h <;> rfl

/-- Downcasting to any type other than the own one panics, to the own one it succeeds. -/
theorem C90_downcast (d : Desc) (k : Desc.Kind) : d.downcast k = if k = d.kind then .ok d else panic := by
  unfold Desc.downcast
  by_cases h : k = d.kind
  · rw [if_pos h, if_pos h.symm]
  · rw [if_neg h, if_neg (Ne.symm h)]

/-- Non-vacuity: a service descriptor of one byte. -/
example : KeptRaw 0x48 [1] ∧ (0x48 : UInt8) ∈ knownTags := by
  refine ⟨?_, by decide⟩
  simp [KeptRaw]

end Mpegts
