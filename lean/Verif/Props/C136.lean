import Verif.Spec.Fit
import Verif.Props.C110
import Verif.Props.C110Eit
import Verif.Props.Sent

/-! # C136: values that do not fit their fields -/

namespace Mpegts
open Spec
open Spec.AnyValue (overlay stating)
open Spec.Fit (first held fit)

/-! ## Bit fields -/

theorem first_lt (f : Nat × Nat) (r : List (Nat × Nat)) : first (f :: r) < 2 ^ f.1 := Nat.mod_lt _ (by positivity)

theorem overlay_fit (l : List (Nat × Nat)) : overlay (fit l) = overlay l % 2 ^ (l.map (·.1)).sum := by
  induction l with
  | nil => rfl
  | cons f r ih =>
    have hw : ((fit r).map (·.1)) = r.map (·.1) := by
      clear ih
      induction r with
      | nil => rfl
      | cons g r ih => simp [fit, ih]
    rw [fit, overlay, ih, hw, first]
    simp only [overlay, List.map_cons, List.sum_cons]
    generalize (r.map (·.1)).sum = w
    generalize overlay r = o
    refine Nat.eq_of_testBit_eq fun k => ?_
    simp only [Nat.testBit_or, Nat.testBit_mod_two_pow, Nat.testBit_mul_two_pow, Nat.testBit_div_two_pow]
    by_cases h1 : w ≤ k
    · have e : k - w + w = k := by omega
      have h2 : (k < w) = False := by simp; omega
      have h3 : (k - w < f.1) = (k < f.1 + w) := by simp; omega
      simp [h1, h2, h3, e]
    · have h2 : k < f.1 + w := by omega
      have h3 : k < w := by omega
      simp [h1, h2, h3]

theorem overlay_bytes (n : Nat) (l : List (Nat × Nat)) (h : 8 * n ≤ (l.map (·.1)).sum) :
    beBytes n (overlay (fit l)) = beBytes n (overlay l) := by
  rw [overlay_fit, beBytes_mod _ _ _ ?_]
  rw [show (256 : Nat) = 2 ^ 8 from rfl, ← Nat.pow_mul]
  exact Nat.pow_dvd_pow 2 h

theorem u8_held (w v : Nat) (r : List (Nat × Nat)) (h : w ≤ 8) : (UInt8.ofNat (first ((w, v) :: r))).toNat = first ((w, v) :: r) :=
  UInt8.toNat_ofNat_of_lt' (Nat.lt_of_lt_of_le (first_lt _ r) (Nat.pow_le_pow_right (by omega) h))

theorem u16_held (w v : Nat) (r : List (Nat × Nat)) (h : w ≤ 16) : (UInt16.ofNat (first ((w, v) :: r))).toNat = first ((w, v) :: r) :=
  UInt16.toNat_ofNat_of_lt' (Nat.lt_of_lt_of_le (first_lt _ r) (Nat.pow_le_pow_right (by omega) h))

theorem u32_held (w v : Nat) (r : List (Nat × Nat)) (h : w ≤ 32) : (UInt32.ofNat (first ((w, v) :: r))).toNat = first ((w, v) :: r) :=
  UInt32.toNat_ofNat_of_lt' (Nat.lt_of_lt_of_le (first_lt _ r) (Nat.pow_le_pow_right (by omega) h))

/-- Bits that are always one hold ones, whatever spills over them. -/
theorem ones_held (w : Nat) (r : List (Nat × Nat)) : first ((w, 2 ^ w - 1) :: r) = 2 ^ w - 1 := by
  refine Nat.eq_of_testBit_eq fun k => ?_
  simp only [first, Nat.testBit_mod_two_pow, Nat.testBit_or, Nat.testBit_two_pow_sub_one]
  by_cases h : k < w <;> simp [h]

theorem ones1 (r : List (Nat × Nat)) : first ((1, 1) :: r) = 1 := ones_held 1 r
theorem ones2 (r : List (Nat × Nat)) : first ((2, 0b11) :: r) = 0b11 := ones_held 2 r
theorem ones3 (r : List (Nat × Nat)) : first ((3, 0b111) :: r) = 0b111 := ones_held 3 r
theorem ones4 (r : List (Nat × Nat)) : first ((4, 0xF) :: r) = 0xF := ones_held 4 r
theorem ones5 (r : List (Nat × Nat)) : first ((5, 0b11111) :: r) = 0b11111 := ones_held 5 r
theorem ones6 (r : List (Nat × Nat)) : first ((6, 0b111111) :: r) = 0b111111 := ones_held 6 r

theorem flatMap_same {α β : Type} {f g : α → List β} (l : List α) (h : ∀ a, f a = g a) : l.flatMap f = l.flatMap g := by
  rw [funext h]

/-! ## Descriptors -/

namespace Desc

/-- The descriptor a receiver sees: every number as its bit field holds it, and offsets modulo a day.  Decimal numbers, times, texts and
lists are left as they are. -/
def fit : Desc → Desc
  | d09 d => d09 { d with pid := UInt16.ofNat (held [(3, 0b111), (13, d.pid.toNat)] 1) }
  | d0E d => d0E { d with bitrate := UInt32.ofNat (held [(2, 0b11), (22, d.bitrate.toNat)] 1) }
  | d43 d =>
    let bits := [(1, d.westEastFlag.toNat), (2, d.polarization.toNat), (2, d.rof.toNat), (1, d.s2.toNat), (2, d.modulation.toNat)]
    d43 { d with
      westEastFlag := UInt8.ofNat (held bits 0)
      polarization := UInt8.ofNat (held bits 1)
      rof := UInt8.ofNat (held bits 2)
      s2 := UInt8.ofNat (held bits 3)
      modulation := UInt8.ofNat (held bits 4) }
  | d44 d => d44 { d with fecOuter := UInt8.ofNat (held [(4, 0xF), (4, d.fecOuter.toNat)] 1) }
  | d4E d =>
    let bits := [(4, d.number.toNat), (4, d.lastNumber.toNat)]
    d4E { d with
      number := UInt8.ofNat (held bits 0)
      lastNumber := UInt8.ofNat (held bits 1) }
  | d58 d => d58 { d with items := d.items.map fun i =>
      let bits := [(6, i.regionId.toNat), (1, 1), (1, i.offsetPolarity.toNat)]
      { i with
        regionId := UInt8.ofNat (held bits 0)
        offsetPolarity := UInt8.ofNat (held bits 2)
        offset := i.offset % 1440
        nextOffset := i.nextOffset % 1440 } }
  | d5A d =>
    let bits1 := [(3, d.bandwidth.toNat), (1, d.priority.toNat), (1, d.timeSlicing.toNat), (1, d.mpeFec.toNat), (2, 0b11)]
    let bits2 := [(2, d.modulation.toNat), (3, d.hierarchy.toNat), (3, d.codeRateHp.toNat)]
    let bits3 := [(3, d.codeRateLp.toNat), (2, d.guardInterval.toNat), (2, d.transmission.toNat), (1, d.otherFrequencyFlag.toNat)]
    d5A { d with
      bandwidth := UInt8.ofNat (held bits1 0)
      priority := UInt8.ofNat (held bits1 1)
      timeSlicing := UInt8.ofNat (held bits1 2)
      mpeFec := UInt8.ofNat (held bits1 3)
      modulation := UInt8.ofNat (held bits2 0)
      hierarchy := UInt8.ofNat (held bits2 1)
      codeRateHp := UInt8.ofNat (held bits2 2)
      codeRateLp := UInt8.ofNat (held bits3 0)
      guardInterval := UInt8.ofNat (held bits3 1)
      transmission := UInt8.ofNat (held bits3 2)
      otherFrequencyFlag := UInt8.ofNat (held bits3 3) }
  | d83 d => d83 { d with items := d.items.map fun i =>
      let bits := [(1, i.visible.toNat), (5, 0b11111), (10, i.lcn.toNat)]
      { i with
        visible := UInt8.ofNat (held bits 0)
        lcn := UInt16.ofNat (held bits 2) } }
  | d => d

end Desc

theorem fit_refused (d : Desc) : d.fit.Refused ↔ d.Refused := by cases d <;> exact Iff.rfl

theorem fit_counted (d : Desc) : d.fit.counted = d.counted := by cases d <;> simp [Desc.fit, Desc.counted]

theorem fit_emitted (d : Desc) : d.fit.emitted = d.emitted := by
  cases d with
  | d09 d =>
    have h := overlay_bytes 2 [(3, 0b111), (13, d.pid.toNat)] (by simp)
    simp only [fit, ones3] at h
    simp only [Desc.fit, Desc.emitted, AnyValue.conditionalAccess, held, List.drop_succ_cons, List.drop_zero]
    rw [u16_held _ _ _ (by omega), h]
  | d0E d =>
    have h := overlay_bytes 3 [(2, 0b11), (22, d.bitrate.toNat)] (by simp)
    simp only [fit, ones2] at h
    simp only [Desc.fit, Desc.emitted, AnyValue.maximumBitrate, held, List.drop_succ_cons, List.drop_zero]
    rw [u32_held _ _ _ (by omega), h]
  | d43 d =>
    have h := overlay_bytes 1 [(1, d.westEastFlag.toNat), (2, d.polarization.toNat), (2, d.rof.toNat), (1, d.s2.toNat),
      (2, d.modulation.toNat)] (by simp)
    simp only [fit] at h
    simp only [Desc.fit, Desc.emitted, AnyValue.satellite, held, List.drop_succ_cons, List.drop_zero]
    rw [u8_held _ _ _ (by omega), u8_held _ _ _ (by omega), u8_held _ _ _ (by omega), u8_held _ _ _ (by omega),
      u8_held _ _ _ (by omega), h]
  | d44 d =>
    have h := overlay_bytes 1 [(4, 0xF), (4, d.fecOuter.toNat)] (by simp)
    simp only [fit, ones4] at h
    simp only [Desc.fit, Desc.emitted, AnyValue.cable, held, List.drop_succ_cons, List.drop_zero]
    rw [u8_held _ _ _ (by omega), h]
  | d4E d =>
    have h := overlay_bytes 1 [(4, d.number.toNat), (4, d.lastNumber.toNat)] (by simp)
    simp only [fit] at h
    simp only [Desc.fit, Desc.emitted, AnyValue.extendedEvent, held, List.drop_succ_cons, List.drop_zero]
    rw [u8_held _ _ _ (by omega), u8_held _ _ _ (by omega), h]
  | d58 d =>
    simp only [Desc.fit, Desc.emitted, AnyValue.localTimeOffset, List.length_map, List.map_map, List.flatMap_map, Function.comp_def]
    refine congrArg (stating _ _) (flatMap_same _ fun i => ?_)
    have h := overlay_bytes 1 [(6, i.regionId.toNat), (1, 1), (1, i.offsetPolarity.toNat)] (by simp)
    simp only [fit, ones1] at h
    simp only [held, List.drop_succ_cons, List.drop_zero, UInt16.toNat_mod]
    rw [u8_held _ _ _ (by omega), u8_held _ _ _ (by omega), h]
    simp
  | d5A d =>
    have h1 := overlay_bytes 1 [(3, d.bandwidth.toNat), (1, d.priority.toNat), (1, d.timeSlicing.toNat), (1, d.mpeFec.toNat), (2, 0b11)]
      (by simp)
    have h2 := overlay_bytes 1 [(2, d.modulation.toNat), (3, d.hierarchy.toNat), (3, d.codeRateHp.toNat)] (by simp)
    have h3 := overlay_bytes 1 [(3, d.codeRateLp.toNat), (2, d.guardInterval.toNat), (2, d.transmission.toNat),
      (1, d.otherFrequencyFlag.toNat)] (by simp)
    simp only [fit, ones2] at h1 h2 h3
    simp only [Desc.fit, Desc.emitted, AnyValue.terrestrial, held, List.drop_succ_cons, List.drop_zero]
    rw [u8_held _ _ _ (by omega), u8_held _ _ _ (by omega), u8_held _ _ _ (by omega), u8_held _ _ _ (by omega),
      u8_held _ _ _ (by omega), u8_held _ _ _ (by omega), u8_held _ _ _ (by omega), u8_held _ _ _ (by omega),
      u8_held _ _ _ (by omega), u8_held _ _ _ (by omega), u8_held _ _ _ (by omega), h1, h2, h3]
  | d83 d =>
    simp only [Desc.fit, Desc.emitted, AnyValue.logicalChannels, List.length_map, List.map_map, List.flatMap_map, Function.comp_def]
    refine congrArg (stating _ _) (flatMap_same _ fun i => ?_)
    have h := overlay_bytes 2 [(1, i.visible.toNat), (5, 0b11111), (10, i.lcn.toNat)] (by simp)
    simp only [fit, ones5] at h
    simp only [held, List.drop_succ_cons, List.drop_zero]
    rw [u8_held _ _ _ (by omega), u16_held _ _ _ (by omega), h]
  | _ => rfl

theorem fit_list_emitted (ds : List Desc) : (ds.map Desc.fit).flatMap Desc.emitted = ds.flatMap Desc.emitted := by
  rw [List.flatMap_map]; exact flatMap_same _ fit_emitted

theorem fit_list_counted (ds : List Desc) : (ds.map Desc.fit).map Desc.counted = ds.map Desc.counted := by
  rw [List.map_map]; exact List.map_congr_left fun d _ => fit_counted d

theorem fit_list_refused (ds : List Desc) : (∃ d ∈ ds.map Desc.fit, d.Refused) ↔ ∃ d ∈ ds, d.Refused := by
  simp [fit_refused]

/-! ## Sections -/

open Spec.AnyValue in
theorem fit_before_map {α β : Type} (f : α → β) (x : List α) (gs : List (List α)) :
    before (x.map f) (gs.map (List.map f)) = (before x gs).map (List.map f) := by
  cases gs <;> simp [before]

open Spec.AnyValue in
theorem fit_distribute_map {α : Type} (f : α → α) (counted taken : α → Nat) (hc : ∀ a, counted (f a) = counted a)
    (ht : ∀ a, taken (f a) = taken a) (limit next : Nat) (l : List α) (used : Nat) :
    distribute counted taken limit next used (l.map f) = (distribute counted taken limit next used l).map (List.map f) := by
  induction l generalizing used with
  | nil => rfl
  | cons x r ih =>
    have e := fit_before_map f [x]
    simp only [List.map_cons, List.map_nil] at e
    simp only [List.map_cons, distribute, hc, ht, ih]
    split <;> simp [e]

theorem zipIdx_fit {α β : Type} (f : α → α) (gs : List (List α)) (G : List α × Nat → β)
    (h : ∀ x n, G (x.map f, n) = G (x, n)) : (gs.map (List.map f)).zipIdx.map G = gs.zipIdx.map G := by
  rw [List.zipIdx_map, List.map_map]
  exact List.map_congr_left fun x _ => h x.1 x.2

theorem sized_fit (l : List (Nat × Nat)) (h : 4 ≤ (l.map (·.1)).sum) (loop : List UInt8) :
    Spill.sized (overlay (fit l)) loop = Spill.sized (overlay l) loop := by
  rw [Spill.sized, Spill.sized, overlay_fit]
  refine congrArg (· ++ loop) ?_
  rw [← beBytes_mod 2 _ 65536 (by decide), ← beBytes_mod 2 (overlay l * 4096 ||| _) 65536 (by decide)]
  refine congrArg _ ?_
  rw [show 65536 = 2 ^ 16 from rfl, Nat.or_mod_two_pow, Nat.or_mod_two_pow (a := overlay l * 4096)]
  refine congrArg (· ||| _) ?_
  obtain ⟨k, hk⟩ := Nat.exists_eq_add_of_le h
  rw [hk, Nat.pow_add]
  have := Nat.mod_mul_right_mod (overlay l) (2 ^ 4) (2 ^ k)
  omega

namespace Pat

/-- The table a receiver sees: the low bits of the version and of every PID. -/
def fit (t : Pat) : Pat :=
  { t with
    version := t.version % 32
    items := t.items.map fun i => { i with pid := i.pid % 8192 } }

end Pat

namespace PmtItem

/-- The entry a receiver sees: the low bits of the PID. -/
def fit (i : PmtItem) : PmtItem := { i with pid := i.pid % 8192, descriptors := i.descriptors.map Desc.fit }

end PmtItem

namespace Pmt

/-- The table a receiver sees: the low bits of the version and of every PID. -/
def fit (t : Pmt) : Pmt :=
  { t with
    version := t.version % 32
    pcr := t.pcr % 8192
    descriptors := t.descriptors.map Desc.fit
    items := t.items.map PmtItem.fit }

end Pmt

namespace NitItem

/-- The entry a receiver sees. -/
def fit (i : NitItem) : NitItem := { i with descriptors := i.descriptors.map Desc.fit }

end NitItem

namespace Nit

/-- The table a receiver sees: the low bits of the version. -/
def fit (t : Nit) : Nit :=
  { t with
    version := t.version % 32
    descriptors := t.descriptors.map Desc.fit
    items := t.items.map NitItem.fit }

end Nit

namespace SdtItem

/-- The entry a receiver sees: every number as its bit field holds it. -/
def fit (i : SdtItem) : SdtItem :=
  let flags := [(6, 0b111111), (1, i.eitScheduleFlag.toNat), (1, i.eitPresentFollowingFlag.toNat)]
  let bits := [(3, i.runningStatus.toNat), (1, i.freeCaMode.toNat)]
  { i with
    eitScheduleFlag := UInt8.ofNat (held flags 1)
    eitPresentFollowingFlag := UInt8.ofNat (held flags 2)
    runningStatus := UInt8.ofNat (held bits 0)
    freeCaMode := UInt8.ofNat (held bits 1)
    descriptors := i.descriptors.map Desc.fit }

end SdtItem

namespace Sdt

/-- The table a receiver sees. -/
def fit (t : Sdt) : Sdt := { t with version := t.version % 32, items := t.items.map SdtItem.fit }

end Sdt

namespace EitItem

/-- The entry a receiver sees: every number as its bit field holds it, and the duration modulo a day. -/
def fit (i : EitItem) : EitItem :=
  let bits := [(3, i.status.toNat), (1, i.caMode.toNat)]
  { i with
    duration := i.duration % 86400
    status := UInt8.ofNat (held bits 0)
    caMode := UInt8.ofNat (held bits 1)
    descriptors := i.descriptors.map Desc.fit }

end EitItem

namespace Eit

/-- The table a receiver sees. -/
def fit (t : Eit) : Eit := { t with version := t.version % 32, items := t.items.map EitItem.fit }

end Eit

namespace Tot

/-- The table a receiver sees. -/
def fit (t : Tot) : Tot := { t with descriptors := t.descriptors.map Desc.fit }

end Tot

theorem version_fit (v : UInt8) : (v % 32).toNat % 32 = v.toNat % 32 := by
  rw [UInt8.toNat_mod]; simp

theorem pid_fit (v : UInt16) : (v % 8192).toNat % 8192 = v.toNat % 8192 := by
  rw [UInt16.toNat_mod]; simp

theorem sdt_entry_fit (i : SdtItem) : Sdt.anyEntry i.fit = Sdt.anyEntry i := by
  have h1 := overlay_bytes 1 [(6, 0b111111), (1, i.eitScheduleFlag.toNat), (1, i.eitPresentFollowingFlag.toNat)] (by simp)
  have h2 := sized_fit [(3, i.runningStatus.toNat), (1, i.freeCaMode.toNat)] (by simp) (i.descriptors.flatMap Desc.emitted)
  simp only [fit, ones6] at h1 h2
  simp only [Sdt.anyEntry, SdtItem.fit, AnyValue.sdtEntry, held, List.drop_succ_cons, List.drop_zero, fit_list_emitted]
  rw [u8_held _ _ _ (by omega), u8_held _ _ _ (by omega), u8_held _ _ _ (by omega), u8_held _ _ _ (by omega), h1, h2]

theorem eit_entry_fit (i : EitItem) : Eit.anyEntry i.fit = Eit.anyEntry i := by
  have h2 := sized_fit [(3, i.status.toNat), (1, i.caMode.toNat)] (by simp) (i.descriptors.flatMap Desc.emitted)
  simp only [fit] at h2
  simp only [Eit.anyEntry, EitItem.fit, AnyValue.eitEntry, held, List.drop_succ_cons, List.drop_zero, fit_list_emitted, UInt32.toNat_mod]
  rw [u8_held _ _ _ (by omega), u8_held _ _ _ (by omega), h2]
  simp

theorem pmt_entry_fit (i : PmtItem) : Pmt.anyEntry i.fit = Pmt.anyEntry i := by
  simp only [Pmt.anyEntry, PmtItem.fit, fit_list_emitted, pid_fit]

theorem nit_entry_fit (i : NitItem) : Nit.anyEntry i.fit = Nit.anyEntry i := by
  simp only [Nit.anyEntry, NitItem.fit, fit_list_emitted]

/-! ## Schedules -/

open Spec.ScheduleAny (Sect)

/-- A section with every event changed. -/
def fitSect {α : Type} (f : α → α) (x : Sect α) : Sect α := { x with events := x.events.map f }

theorem fit_place_map {α : Type} (f : α → α) (start counted taken : α → Nat) (hs : ∀ a, start (f a) = start a)
    (hc : ∀ a, counted (f a) = counted a) (ht : ∀ a, taken (f a) = taken a) (room : Nat) (l : List α) (limit : Nat) (pos : Nat × Nat) (x : Sect α) :
    AnyValue.place start counted taken room limit pos (fitSect f x) (l.map f) =
      (AnyValue.place start counted taken room limit pos x l).map (fitSect f) := by
  induction l generalizing limit pos x with
  | nil => rfl
  | cons i r ih =>
    have hm : (fitSect f x).events.map taken = x.events.map taken := by
      simp only [fitSect, List.map_map]; exact List.map_congr_left fun a _ => ht a
    have e1 := ih ((limit + Schedule.segmentLength) % 2 ^ 64) (ScheduleAny.nextSegment pos)
      ⟨(ScheduleAny.nextSegment pos).1, (ScheduleAny.nextSegment pos).2, [i]⟩
    have e2 := ih limit (ScheduleAny.nextNumber pos) ⟨(ScheduleAny.nextNumber pos).1, (ScheduleAny.nextNumber pos).2, [i]⟩
    have e3 := ih limit pos { x with events := x.events ++ [i] }
    simp only [fitSect, List.map_cons, List.map_nil, List.map_append] at e1 e2 e3
    simp only [List.map_cons, AnyValue.place, hs, hc, hm]
    split
    · simpa [fitSect] using e1
    · split
      · simpa [fitSect] using e2
      · simpa [fitSect] using e3

theorem fit_overflows_map {α : Type} (f : α → α) (start counted taken : α → Nat) (hs : ∀ a, start (f a) = start a)
    (hc : ∀ a, counted (f a) = counted a) (ht : ∀ a, taken (f a) = taken a) (room : Nat) (l : List α) (limit : Nat) (pos : Nat × Nat) (h : List α) :
    AnyValue.overflows start counted taken room limit pos (h.map f) (l.map f) = AnyValue.overflows start counted taken room limit pos h l := by
  induction l generalizing limit pos h with
  | nil => rfl
  | cons i r ih =>
    have hm : (h.map f).map taken = h.map taken := by
      simp only [List.map_map]; exact List.map_congr_left fun a _ => ht a
    have e1 := fun a b => ih a b [i]
    have e2 := ih limit pos (h ++ [i])
    simp only [List.map_cons, List.map_nil, List.map_append] at e1 e2
    simp only [List.map_cons, AnyValue.overflows, hs, hc, hm, e1, e2]

theorem fit_lastNumber_map {α : Type} (f : α → α) (l : List (Sect α)) (x : Sect α) :
    ScheduleAny.lastNumber (fitSect f x) (l.map (fitSect f)) = ScheduleAny.lastNumber x l := by
  induction l generalizing x with
  | nil => rfl
  | cons b r ih => simp only [List.map_cons, ScheduleAny.lastNumber, ih]; rfl

theorem fit_withLast_map {α : Type} (f : α → α) (l : List (Sect α)) :
    ScheduleAny.withLast (l.map (fitSect f)) = (ScheduleAny.withLast l).map fun x => (fitSect f x.1, x.2) := by
  induction l with
  | nil => rfl
  | cons b r ih => simp only [List.map_cons, ScheduleAny.withLast, ih, fit_lastNumber_map]

theorem fit_firstStart_map {α : Type} (f : α → α) (start : α → Nat) (hs : ∀ a, start (f a) = start a) (l : List α) :
    ScheduleAny.firstStart start (l.map f) = ScheduleAny.firstStart start l := by
  cases l <;> simp [ScheduleAny.firstStart, hs]

theorem fit_lastStart_map {α : Type} (f : α → α) (start : α → Nat) (hs : ∀ a, start (f a) = start a) (l : List α) :
    ScheduleAny.lastStart start (l.map f) = ScheduleAny.lastStart start l := by
  simp only [ScheduleAny.lastStart, List.getLast?_map, Option.map_map, Function.comp_def, hs]

/-! ## What is sent -/

/-- C136 for descriptors: exactly the bytes of the descriptor with the values its fields hold are sent, and as many bytes are counted. -/
theorem C136_descriptor_partial (p : Profile) (d : Desc) (buf : List UInt8) :
    d.assemble p buf = d.fit.assemble p buf ∧ d.size = d.fit.size := by
  rw [C110_descriptor, C110_descriptor, C110_size, C110_size, fit_emitted, fit_counted]
  simp only [fit_refused, and_self]

/-- C136 for PATs: they are sent as if every value were reduced to the low bits of its field. -/
theorem C136_pat (p : Profile) (t : Pat) (pid : UInt16) (cc : UInt8) (dst : List UInt8) (hp : pid.toNat < 8192) (hc : cc.toNat < 16) :
    t.demux p pid cc dst = t.fit.demux p pid cc dst := by
  have h : t.fit.wire (t.fit.items.take 253) = t.wire (t.items.take 253) := by
    simp only [Pat.wire, Pat.fit, version_fit, ← List.map_take, List.flatMap_map, Pat.entry, pid_fit]
    rfl
  rw [Pat.C54_wire p t pid cc dst hp hc, Pat.C54_wire p t.fit pid cc dst hp hc, h]

/-- C136 for PMTs: they are sent as if every field had the value it holds. -/
theorem C136_pmt_partial (p : Profile) (t : Pmt) (pid : UInt16) (cc : UInt8) (dst : List UInt8) (hp : pid.toNat < 8192) (hc : cc.toNat < 16) :
    t.demux p pid cc dst = t.fit.demux p pid cc dst := by
  have hg : t.fit.anyGroups = t.anyGroups.map (List.map PmtItem.fit) := by
    simp only [Pmt.anyGroups, Pmt.fit, fit_list_emitted]
    exact fit_distribute_map _ _ _ (fun i => by simp only [PmtItem.fit, fit_list_counted]) (fun i => by rw [pmt_entry_fit]) _ _ _ _
  have h : t.fit.anySections = t.anySections := by
    rw [Pmt.anySections, Pmt.anySections, hg, zipIdx_fit PmtItem.fit _ _ fun x n => by
      simp only [List.flatMap_map]
      rw [flatMap_same x pmt_entry_fit]]
    simp only [Pmt.fit, version_fit, pid_fit, fit_list_emitted, List.length_map]
  have hd : (∃ d ∈ t.fit.allDescriptors, d.Refused) ↔ ∃ d ∈ t.allDescriptors, d.Refused := by
    rw [← fit_list_refused t.allDescriptors]
    simp only [Pmt.allDescriptors, Pmt.fit, List.flatMap_map, PmtItem.fit, List.map_append, List.map_flatMap]
  rw [Pmt.C110_pmt p t pid cc dst hp hc, Pmt.C110_pmt p t.fit pid cc dst hp hc, h]
  simp only [hd]

/-- C136 for NITs: they are sent as if every field had the value it holds. -/
theorem C136_nit_partial (p : Profile) (t : Nit) (pid : UInt16) (cc : UInt8) (dst : List UInt8) (hp : pid.toNat < 8192) (hc : cc.toNat < 16) :
    t.demux p pid cc dst = t.fit.demux p pid cc dst := by
  have hg : t.fit.anyGroups = t.anyGroups.map (List.map NitItem.fit) := by
    simp only [Nit.anyGroups, Nit.fit, fit_list_emitted]
    exact fit_distribute_map _ _ _ (fun i => by simp only [NitItem.fit, fit_list_counted]) (fun i => by rw [nit_entry_fit]) _ _ _ _
  have h : t.fit.anySections = t.anySections := by
    rw [Nit.anySections, Nit.anySections, hg, zipIdx_fit NitItem.fit _ _ fun x n => by
      simp only [List.flatMap_map]
      rw [flatMap_same x nit_entry_fit]]
    simp only [Nit.fit, version_fit, fit_list_emitted, List.length_map]
  have hd : (∃ d ∈ t.fit.allDescriptors, d.Refused) ↔ ∃ d ∈ t.allDescriptors, d.Refused := by
    rw [← fit_list_refused t.allDescriptors]
    simp only [Nit.allDescriptors, Nit.fit, List.flatMap_map, NitItem.fit, List.map_append, List.map_flatMap]
  rw [Nit.C110_nit p t pid cc dst hp hc, Nit.C110_nit p t.fit pid cc dst hp hc, h]
  simp only [hd]

/-- C136 for SDTs: they are sent as if every field had the value it holds. -/
theorem C136_sdt_partial (p : Profile) (t : Sdt) (pid : UInt16) (cc : UInt8) (dst : List UInt8) (hp : pid.toNat < 8192) (hc : cc.toNat < 16) :
    t.demux p pid cc dst = t.fit.demux p pid cc dst := by
  have hg : t.fit.anyGroups = t.anyGroups.map (List.map SdtItem.fit) := by
    simp only [Sdt.anyGroups, Sdt.fit]
    exact fit_distribute_map _ _ _ (fun i => by simp only [SdtItem.fit, fit_list_counted]) (fun i => by rw [sdt_entry_fit]) _ _ _ _
  have h : t.fit.anySections = t.anySections := by
    rw [Sdt.anySections, Sdt.anySections, hg, zipIdx_fit SdtItem.fit _ _ fun x n => by
      simp only [List.flatMap_map]
      rw [flatMap_same x sdt_entry_fit]]
    simp only [Sdt.fit, version_fit, List.length_map]
  have hd : (∃ d ∈ t.fit.allDescriptors, d.Refused) ↔ ∃ d ∈ t.allDescriptors, d.Refused := by
    rw [← fit_list_refused t.allDescriptors]
    simp only [Sdt.allDescriptors, Sdt.fit, List.flatMap_map, SdtItem.fit, List.map_flatMap]
  rw [Sdt.C110_sdt p t pid cc dst hp hc, Sdt.C110_sdt p t.fit pid cc dst hp hc, h]
  simp only [hd]

/-- C136 for TOTs: they are sent as if every field had the value it holds. -/
theorem C136_tot_partial (p : Profile) (t : Tot) (pid : UInt16) (cc : UInt8) (dst : List UInt8) (hp : pid.toNat < 8192) (hc : cc.toNat < 16) :
    t.demux p pid cc dst = t.fit.demux p pid cc dst := by
  have h : t.fit.anySection = t.anySection := by simp only [Tot.anySection, Tot.fit, fit_list_emitted]
  have hd : (∃ d ∈ t.fit.allDescriptors, d.Refused) ↔ ∃ d ∈ t.allDescriptors, d.Refused := fit_list_refused _
  rw [Tot.C110_tot p t pid cc dst hp hc, Tot.C110_tot p t.fit pid cc dst hp hc, h]
  simp only [hd]

theorem eit_refused_fit (t : Eit) : (∃ d ∈ t.fit.allDescriptors, d.Refused) ↔ ∃ d ∈ t.allDescriptors, d.Refused := by
  rw [← fit_list_refused t.allDescriptors]
  simp only [Eit.allDescriptors, Eit.fit, List.flatMap_map, EitItem.fit, List.map_flatMap]

theorem eit_section_fit (t : Eit) (a b c d e : Nat) (g : List EitItem) :
    t.fit.allSection a b c d e (g.map EitItem.fit) = t.allSection a b c d e g := by
  simp only [Eit.allSection, List.flatMap_map]
  rw [flatMap_same g eit_entry_fit]
  simp only [Eit.fit, version_fit]

/-- C136 for EITs, present/following and schedules: they are sent as if every field had the value it holds. -/
theorem C136_eit_partial (p : Profile) (t : Eit) (pid : UInt16) (cc : UInt8) (dst : List UInt8) (hp : pid.toNat < 8192)
    (hc : cc.toNat < 16) : t.demux p pid cc dst = t.fit.demux p pid cc dst := by
  by_cases hne : t.items = []
  · have hf : t.fit.items = [] := by simp [Eit.fit, hne]
    simp only [Eit.demux, Eit.psiListAssemble, hne, hf, List.head?_nil]
  by_cases hid : t.tableId = 0x4E ∨ t.tableId = 0x4F
  · have h : t.fit.allPf = t.allPf := by
      simp only [Eit.allPf]
      rw [show t.fit.items = t.items.map EitItem.fit from rfl, List.zipIdx_map, List.map_map]
      refine List.map_congr_left fun x _ => ?_
      simp only [List.length_map]
      exact eit_section_fit t t.tableId.toNat _ _ _ t.tableId.toNat [x.1]
    rw [Eit.C110_eit p t hid pid cc dst hp hc, Eit.C110_eit p t.fit hid pid cc dst hp hc, h]
    simp only [eit_refused_fit]
  · have hcount : ∀ i : EitItem, Eit.anyCount i.fit = Eit.anyCount i := fun i => by
      simp only [Eit.anyCount, EitItem.fit, fit_list_counted]
    have htaken : ∀ i : EitItem, (Eit.anyEntry i.fit).length = (Eit.anyEntry i).length := fun i => by rw [eit_entry_fit]
    have hs : ∀ i : EitItem, i.fit.start.toNat = i.start.toNat := fun _ => rfl
    have e1 := fit_firstStart_map EitItem.fit (·.start.toNat) hs t.items
    have e2 := fit_lastStart_map EitItem.fit (·.start.toNat) hs t.items
    have hsec : t.fit.allSects = t.allSects.map (fitSect EitItem.fit) := by
      simp only [Eit.allSects, AnyValue.sections]
      rw [show t.fit.items = t.items.map EitItem.fit from rfl, e1, List.map_append, List.map_map]
      exact congrArg (_ ++ ·) (fit_place_map EitItem.fit _ _ _ hs hcount htaken _ t.items _ _ ⟨_, _, []⟩)
    have h : t.fit.allWire = t.allWire := by
      simp only [Eit.allWire]
      rw [hsec, fit_withLast_map, List.map_map]
      refine List.map_congr_left fun x _ => ?_
      simp only [Function.comp_apply, fitSect, eit_section_fit]
      rw [show t.fit.items = t.items.map EitItem.fit from rfl]
      simp only [ScheduleAny.lastTable, e1, e2]
      rfl
    have ho : t.fit.AnyOverflow ↔ t.AnyOverflow := by
      simp only [Eit.AnyOverflow, AnyValue.SomeOverflow]
      rw [show t.fit.items = t.items.map EitItem.fit from rfl, e1, e2]
      have := fun a b => fit_overflows_map EitItem.fit (·.start.toNat) Eit.anyCount (fun i => (Eit.anyEntry i).length) hs hcount htaken 4078 t.items a b []
      simp only [List.map_nil] at this
      simp only [this]
      rfl
    rw [not_or] at hid
    rw [Eit.C110_schedule p t hid hne pid cc dst hp hc, Eit.C110_schedule p t.fit hid (by simpa [Eit.fit] using hne) pid cc dst hp hc, h]
    simp only [eit_refused_fit, ho]

/-! ## What is received -/

/-- C136 for descriptors: parsing the assembled bytes gives the descriptor with the values its fields hold. -/
theorem C136_descriptor_read_partial (p : Profile) (d : Desc) (h : d.fit.InRange) (he : d.fit.Exact) (ni : ¬ d.fit.HasItems) :
    (do Desc.parse p (← d.assemble p [])) = .ok d.fit := by
  rw [(C136_descriptor_partial p d []).1]
  exact C34_round_trip_partial p d.fit h he ni

/-- C136 for PATs: a receiver gets the table with every value reduced to the low bits of its field (of more than 253 programs, the first
253, see C53). -/
theorem C136_pat_received (p : Profile) (t : Pat) (pid : UInt16) (cc : UInt8) (dst : List UInt8) (s : Psi) (hp : pid.toNat < 8192)
    (hc : cc.toNat < 16) :
    ∃ cc' pks s', t.demux p pid cc dst = .ok (cc', dst ++ pks.flatten) ∧
      receive (Pat.parse p) p Pat.default s pks = .ok (
        { version := t.version % 32
          tsid := t.tsid
          items := (t.items.take 253).map fun i => { i with pid := i.pid % 8192 } }, s') := by
  have hv : t.fit.version.toNat < 32 := by simp only [Pat.fit, UInt8.toNat_mod]; exact Nat.mod_lt _ (by decide)
  have hi : ∀ i ∈ t.fit.items, i.pid.toNat < 8192 := by
    simp only [Pat.fit, List.mem_map]
    rintro i ⟨j, -, rfl⟩
    simp only [UInt16.toNat_mod]; exact Nat.mod_lt _ (by decide)
  obtain ⟨cc', pks, s', h1, h2⟩ := Pat.C53_overflow p t.fit pid cc dst s hp hc hv hi
  refine ⟨cc', pks, s', by rw [C136_pat p t pid cc dst hp hc, h1], ?_⟩
  rw [h2, Pat.fit, List.map_take]

/-- C136 for PMTs: a receiver gets the table with the values its fields hold.  (PMTs with program descriptors are not given back, see C55.) -/
theorem C136_pmt_received_partial (p : Profile) (t : Pmt) (ht : t.fit.InRange) (hd : t.descriptors = []) (pid : UInt16) (cc : UInt8)
    (dst : List UInt8) (s : Psi) (hp : pid.toNat < 8192) (hc : cc.toNat < 16) :
    ∃ cc' pks s', t.demux p pid cc dst = .ok (cc', dst ++ pks.flatten) ∧ (∀ pk ∈ pks, IsTsPacket pid.toNat pk) ∧
      receive (Pmt.parse p) p Pmt.default s pks = .ok (t.fit, s') := by
  rw [C136_pmt_partial p t pid cc dst hp hc]
  exact Pmt.C55_round_trip_partial p t.fit ht (by simp [Pmt.fit, hd]) pid cc dst s hp hc

/-- C136 for NITs: a receiver gets the table with the values its fields hold. -/
theorem C136_nit_received_partial (p : Profile) (t : Nit) (ht : t.fit.InRange) (pid : UInt16) (cc : UInt8) (dst : List UInt8) (s : Psi)
    (hp : pid.toNat < 8192) (hc : cc.toNat < 16) :
    ∃ cc' pks s', t.demux p pid cc dst = .ok (cc', dst ++ pks.flatten) ∧ (∀ pk ∈ pks, IsTsPacket pid.toNat pk) ∧
      receive (Nit.parse p) p Nit.default s pks = .ok (t.fit, s') := by
  rw [C136_nit_partial p t pid cc dst hp hc]
  exact Nit.C56_round_trip p t.fit ht pid cc dst s hp hc

/-- C136 for SDTs: a receiver gets the table with the values its fields hold. -/
theorem C136_sdt_received_partial (p : Profile) (t : Sdt) (ht : t.fit.InRange) (pid : UInt16) (cc : UInt8) (dst : List UInt8) (s : Psi)
    (hp : pid.toNat < 8192) (hc : cc.toNat < 16) :
    ∃ cc' pks s', t.demux p pid cc dst = .ok (cc', dst ++ pks.flatten) ∧ (∀ pk ∈ pks, IsTsPacket pid.toNat pk) ∧
      receive (Sdt.parse p) p Sdt.default s pks = .ok (t.fit, s') := by
  rw [C136_sdt_partial p t pid cc dst hp hc]
  exact Sdt.C57_round_trip p t.fit ht pid cc dst s hp hc

/-- C136 for present/following EITs: a receiver gets the table with the values its fields hold. -/
theorem C136_eit_received_partial (p : Profile) (t : Eit) (hid : t.tableId = 0x4E ∨ t.tableId = 0x4F) (ht : t.fit.InRange) (hne : t.items ≠ [])
    (pid : UInt16) (cc : UInt8) (dst : List UInt8) (s : Psi) (hp : pid.toNat < 8192) (hc : cc.toNat < 16) :
    ∃ cc' pks s', t.demux p pid cc dst = .ok (cc', dst ++ pks.flatten) ∧ (∀ pk ∈ pks, IsTsPacket pid.toNat pk) ∧
      receive (Eit.parse p) p Eit.default s pks = .ok (t.fit, s') := by
  rw [C136_eit_partial p t pid cc dst hp hc]
  exact Eit.C58_round_trip_partial p t.fit hid ht (by simpa [Eit.fit] using hne) pid cc dst s hp hc

/-- C136 for schedules: a receiver gets the table with the values its fields hold.  (The table id is that of the last sub-table sent, see C59.) -/
theorem C136_schedule_received_partial (p : Profile) (t : Eit) (h : t.fit.Schedulable) (ht : t.fit.InRange) (pid : UInt16) (cc : UInt8)
    (dst : List UInt8) (s : Psi) (hp : pid.toNat < 8192) (hc : cc.toNat < 16) :
    ∃ cc' pks s' last, t.demux p pid cc dst = .ok (cc', dst ++ pks.flatten) ∧ (∀ pk ∈ pks, IsTsPacket pid.toNat pk) ∧ t.fit.slots.getLast? = some last ∧
      receive (Eit.parse p) p Eit.default s pks = .ok ({ t.fit with tableId := UInt8.ofNat last.table }, s') := by
  rw [C136_eit_partial p t pid cc dst hp hc]
  exact Eit.C59_delivery_partial p t.fit h ht pid cc dst s hp hc

/-- C136 for TOTs: a receiver gets the table with the values its fields hold. -/
theorem C136_tot_received_partial (p : Profile) (t u : Tot) (h : t.fit.InRange) (he : ∀ d ∈ t.fit.descriptors, d.Exact) (hu : u.descriptors = [])
    (pid : UInt16) (cc : UInt8) (dst : List UInt8) (s : Psi) (hp : pid.toNat < 8192) (hc : cc.toNat < 16) :
    ∃ cc' pks s', t.demux p pid cc dst = .ok (cc', dst ++ pks.flatten) ∧ (∀ pk ∈ pks, IsTsPacket pid.toNat pk) ∧
      receive (Tot.parse p) p u s pks = .ok (t.fit, s') := by
  rw [C136_tot_partial p t pid cc dst hp hc]
  exact Tot.C62_round_trip_partial p t.fit u h he hu pid cc dst s hp hc

/-! ## Values that spoil others -/

theorem map_ne {α β : Type} (l : List α) (f g : α → β) (a : α) (ha : a ∈ l) (h : f a ≠ g a) : l.map f ≠ l.map g := by
  intro e
  exact h (List.map_inj_left.1 e a ha)

/-- C136 fails for SDTs: a present/following flag with the bit before its field set sets the schedule flag too. -/
theorem C136_sdt_refuted (p : Profile) (t : Sdt) (ht : t.fit.InRange) (i : SdtItem) (hi : i ∈ t.items) (h0 : i.eitScheduleFlag = 0)
    (h1 : i.eitPresentFollowingFlag.toNat / 2 % 2 = 1) (pid : UInt16) (cc : UInt8) (dst : List UInt8) (s : Psi) (hp : pid.toNat < 8192)
    (hc : cc.toNat < 16) :
    ∃ cc' pks r s', t.demux p pid cc dst = .ok (cc', dst ++ pks.flatten) ∧ receive (Sdt.parse p) p Sdt.default s pks = .ok (r, s') ∧
      r.items.map (·.eitScheduleFlag) ≠ t.items.map (·.eitScheduleFlag) := by
  obtain ⟨cc', pks, s', e1, -, e2⟩ := C136_sdt_received_partial p t ht pid cc dst s hp hc
  refine ⟨cc', pks, _, s', e1, e2, ?_⟩
  simp only [Sdt.fit, List.map_map]
  refine map_ne _ _ _ i hi ?_
  simp [SdtItem.fit, held, first, overlay, h0, h1]

/-- C136 fails for EITs: a free CA mode with the bit before its field set changes the running status. -/
theorem C136_eit_refuted (p : Profile) (t : Eit) (hid : t.tableId = 0x4E ∨ t.tableId = 0x4F) (ht : t.fit.InRange) (i : EitItem) (hi : i ∈ t.items)
    (h0 : i.status = 0) (h1 : i.caMode.toNat / 2 % 2 = 1) (pid : UInt16) (cc : UInt8) (dst : List UInt8) (s : Psi) (hp : pid.toNat < 8192)
    (hc : cc.toNat < 16) :
    ∃ cc' pks r s', t.demux p pid cc dst = .ok (cc', dst ++ pks.flatten) ∧ receive (Eit.parse p) p Eit.default s pks = .ok (r, s') ∧
      r.items.map (·.status) ≠ t.items.map (·.status) := by
  obtain ⟨cc', pks, s', e1, -, e2⟩ := C136_eit_received_partial p t hid ht (List.ne_nil_of_mem hi) pid cc dst s hp hc
  refine ⟨cc', pks, _, s', e1, e2, ?_⟩
  simp only [Eit.fit, List.map_map]
  refine map_ne _ _ _ i hi ?_
  intro e
  have e := congrArg UInt8.toNat e
  simp only [Function.comp_apply, EitItem.fit, held, List.drop_zero] at e
  rw [u8_held _ _ _ (by omega), h0] at e
  simp [first, overlay] at e
  omega

/-- C136 fails for descriptors: a logical channel number of 32768 or more makes a hidden service visible. -/
theorem C136_descriptor_refuted (p : Profile) (d : Desc83) (hl : 4 * d.items.length ≤ 255) (i : Desc83i) (hi : i ∈ d.items) (h0 : i.visible = 0)
    (h1 : 0x8000 ≤ i.lcn.toNat) :
    ∃ e : Desc83, (do Desc.parse p (← (Desc.d83 d).assemble p [])) = .ok (.d83 e) ∧ e.items.map (·.visible) ≠ d.items.map (·.visible) := by
  have h : (Desc.d83 d).fit.InRange := by
    refine ⟨fun j hj => ?_, by simpa using hl⟩
    obtain ⟨k, -, rfl⟩ := List.mem_map.1 hj
    simp only [held, List.drop_succ_cons, List.drop_zero]
    rw [u8_held _ _ _ (by omega), u16_held _ _ _ (by omega)]
    exact ⟨first_lt _ _, first_lt _ _⟩
  refine ⟨_, C136_descriptor_read_partial p (.d83 d) h trivial id, ?_⟩
  simp only [List.map_map]
  refine map_ne _ _ _ i hi fun e => ?_
  have e := congrArg UInt8.toNat e
  simp only [Function.comp_apply, held, List.drop_zero] at e
  rw [u8_held _ _ _ (by omega), h0] at e
  have h2 := UInt16.toNat_lt i.lcn
  have h3 : (31 * 2 ^ 10 ||| i.lcn.toNat) / 2 ^ 15 = 1 := by
    rw [← Nat.shiftRight_eq_div_pow, Nat.shiftRight_or_distrib, Nat.shiftRight_eq_div_pow, Nat.shiftRight_eq_div_pow,
      show i.lcn.toNat / 2 ^ 15 = 1 by omega]
    rfl
  simp [first, overlay] at e
  simp at h3
  rw [h3] at e
  exact absurd e (by decide)

/-! ## Values that spoil no others -/

theorem overlay_lt (l : List (Nat × Nat)) (h : ∀ f ∈ l, f.2 < 2 ^ f.1) : overlay l < 2 ^ (l.map (·.1)).sum := by
  induction l with
  | nil => simp [overlay]
  | cons f r ih =>
    have h1 := ih fun g hg => h g (List.mem_cons_of_mem _ hg)
    have h2 := h f List.mem_cons_self
    simp only [overlay, List.map_cons, List.sum_cons]
    refine Nat.or_lt_two_pow ?_ (Nat.lt_of_lt_of_le h1 (Nat.pow_le_pow_right (by omega) (by omega)))
    rw [Nat.pow_add]
    exact Nat.mul_lt_mul_of_pos_right h2 (by positivity)

theorem first_fits (f : Nat × Nat) (r : List (Nat × Nat)) (h : ∀ g ∈ r, g.2 < 2 ^ g.1) : first (f :: r) = f.2 % 2 ^ f.1 := by
  rw [first, Nat.div_eq_of_lt (overlay_lt r h), Nat.or_zero]

theorem u8_mod (v : UInt8) (w : Nat) (h : v.toNat < 2 ^ w) : UInt8.ofNat (v.toNat % 2 ^ w) = v := by
  rw [Nat.mod_eq_of_lt h]; simp

theorem u16_mod (v : UInt16) (w : Nat) (h : v.toNat < 2 ^ w) : UInt16.ofNat (v.toNat % 2 ^ w) = v := by
  rw [Nat.mod_eq_of_lt h]; simp

theorem u32_mod (v : UInt32) (w : Nat) (h : v.toNat < 2 ^ w) : UInt32.ofNat (v.toNat % 2 ^ w) = v := by
  rw [Nat.mod_eq_of_lt h]; simp

theorem u8_low (v : UInt8) (w : Nat) (h : w < 8) : UInt8.ofNat (v.toNat % 2 ^ w) = v % UInt8.ofNat (2 ^ w) := by
  refine UInt8.toNat_inj.1 ?_
  have h1 : 2 ^ w < 256 := Nat.pow_lt_pow_right (by omega) h
  rw [UInt8.toNat_mod, UInt8.toNat_ofNat', UInt8.toNat_ofNat', Nat.mod_eq_of_lt (a := 2 ^ w) (b := 2 ^ 8) h1]
  exact Nat.mod_eq_of_lt (Nat.lt_of_le_of_lt (Nat.mod_le _ _) v.toNat_lt)

/-- A descriptor whose values fit is the one its fields hold. -/
theorem fit_id (d : Desc) (h : d.InRange) : d.fit = d := by
  cases d with
  | d09 d =>
    simp only [Desc.fit, held, List.drop_succ_cons, List.drop_zero]
    rw [first_fits _ _ (by simp), u16_mod _ 13 h.1]
  | d0E d =>
    simp only [Desc.fit, held, List.drop_succ_cons, List.drop_zero]
    rw [first_fits _ _ (by simp), u32_mod _ 22 h]
  | d43 d =>
    obtain ⟨-, -, h1, h2, h3, h4, h5, -⟩ := h
    simp only [Desc.fit, held, List.drop_succ_cons, List.drop_zero]
    rw [first_fits _ _ (by simp; omega), first_fits _ _ (by simp; omega), first_fits _ _ (by simp; omega), first_fits _ _ (by simp; omega),
      first_fits _ _ (by simp), u8_mod _ 1 (by omega), u8_mod _ 2 (by omega), u8_mod _ 2 (by omega), u8_mod _ 1 (by omega), u8_mod _ 2 (by omega)]
  | d44 d =>
    simp only [Desc.fit, held, List.drop_succ_cons, List.drop_zero]
    rw [first_fits _ _ (by simp), u8_mod _ 4 h.2.1]
  | d4E d =>
    obtain ⟨h1, h2, -⟩ := h
    simp only [Desc.fit, held, List.drop_succ_cons, List.drop_zero]
    rw [first_fits _ _ (by simp; omega), first_fits _ _ (by simp), u8_mod _ 4 (by omega), u8_mod _ 4 (by omega)]
  | d58 d =>
    refine congrArg (fun x => Desc.d58 { d with items := x }) (map_id_of _ _ fun i hi => ?_)
    obtain ⟨-, h1, h2, h3, -, h4⟩ := h.1 i hi
    simp only [held, List.drop_succ_cons, List.drop_zero]
    rw [first_fits _ _ (by simp; omega), first_fits _ _ (by simp), u8_mod _ 6 (by omega), u8_mod _ 1 (by omega)]
    have e1 : i.offset % 1440 = i.offset := by
      refine UInt16.toNat_inj.1 ?_
      rw [UInt16.toNat_mod]; exact Nat.mod_eq_of_lt h3
    have e2 : i.nextOffset % 1440 = i.nextOffset := by
      refine UInt16.toNat_inj.1 ?_
      rw [UInt16.toNat_mod]; exact Nat.mod_eq_of_lt h4
    rw [e1, e2]
  | d5A d =>
    obtain ⟨h1, h2, h3, h4, h5, h6, h7, h8, h9, h10, h11⟩ := h
    simp only [Desc.fit, held, List.drop_succ_cons, List.drop_zero]
    rw [first_fits _ _ (by simp; omega), first_fits _ _ (by simp; omega), first_fits _ _ (by simp; omega), first_fits _ _ (by simp),
      first_fits _ _ (by simp; omega), first_fits _ _ (by simp; omega), first_fits _ _ (by simp), first_fits _ _ (by simp; omega),
      first_fits _ _ (by simp; omega), first_fits _ _ (by simp; omega), first_fits _ _ (by simp)]
    rw [u8_mod _ 3 (by omega), u8_mod _ 1 (by omega), u8_mod _ 1 (by omega), u8_mod _ 1 (by omega), u8_mod _ 2 (by omega),
      u8_mod _ 3 (by omega), u8_mod _ 3 (by omega), u8_mod _ 3 (by omega), u8_mod _ 2 (by omega), u8_mod _ 2 (by omega), u8_mod _ 1 (by omega)]
  | d83 d =>
    refine congrArg (fun x => Desc.d83 { d with items := x }) (map_id_of _ _ fun i hi => ?_)
    obtain ⟨h1, h2⟩ := h.1 i hi
    simp only [held, List.drop_succ_cons, List.drop_zero]
    rw [first_fits _ _ (by simp; omega), first_fits _ _ (by simp), u8_mod _ 1 (by omega), u16_mod _ 10 (by omega)]
  | _ => rfl

theorem fit_id_list (ds : Descriptors) (h : Good ds) : ds.map Desc.fit = ds := map_id_of _ _ fun d hd => fit_id d (h d hd).1

/-- The descriptors of an entry with `head` bytes before them can be sent and read back, in a section of `room` bytes of which `start` are taken. -/
def PlainLoop (room start head : Nat) (ds : Descriptors) : Prop :=
  Good ds ∧ (∀ d ∈ ds, d.Exact) ∧ start + head + (ds.flatMap Desc.wire).length ≤ room

theorem mod32_lt (v : UInt8) : (v % 32).toNat < 32 := by rw [UInt8.toNat_mod]; exact Nat.mod_lt _ (by decide)
theorem mod8192_lt (v : UInt16) : (v % 8192).toNat < 8192 := by rw [UInt16.toNat_mod]; exact Nat.mod_lt _ (by decide)

/-- C136, where it holds for SDTs: if all values that are not the first of their byte fit, versions, schedule flags and running states of any
size arrive reduced to their low bits, and everything else as it is. -/
theorem C136_sdt_first_partial (p : Profile) (t : Sdt) (hid : t.tableId = 0x42 ∨ t.tableId = 0x46)
    (hr : ∀ i ∈ t.items, i.eitPresentFollowingFlag.toNat < 2 ∧ i.freeCaMode.toNat < 2 ∧ PlainLoop 1020 11 5 i.descriptors) (pid : UInt16) (cc : UInt8)
    (dst : List UInt8) (s : Psi) (hp : pid.toNat < 8192) (hc : cc.toNat < 16) :
    ∃ cc' pks s', t.demux p pid cc dst = .ok (cc', dst ++ pks.flatten) ∧ (∀ pk ∈ pks, IsTsPacket pid.toNat pk) ∧
      receive (Sdt.parse p) p Sdt.default s pks = .ok ({ t with
        version := t.version % 32
        items := t.items.map fun i => { i with
          eitScheduleFlag := i.eitScheduleFlag % 2
          runningStatus := i.runningStatus % 8 } }, s') := by
  have hfit : ∀ i ∈ t.items, i.fit = { i with eitScheduleFlag := i.eitScheduleFlag % 2, runningStatus := i.runningStatus % 8 } := by
    intro i hi
    obtain ⟨h1, h2, h3, -, -⟩ := hr i hi
    simp only [SdtItem.fit, held, List.drop_succ_cons, List.drop_zero, fit_id_list _ h3]
    rw [first_fits _ _ (by simp; omega), first_fits _ _ (by simp), first_fits _ _ (by simp; omega), first_fits _ _ (by simp),
      u8_mod i.eitPresentFollowingFlag 1 h1, u8_mod i.freeCaMode 1 h2, u8_low i.eitScheduleFlag 1 (by omega), u8_low i.runningStatus 3 (by omega)]
    rfl
  have he : t.fit = { t with
        version := t.version % 32
        items := t.items.map fun i => { i with
          eitScheduleFlag := i.eitScheduleFlag % 2
          runningStatus := i.runningStatus % 8 } } := by
    rw [Sdt.fit]
    congr 1
    exact List.map_congr_left hfit
  rw [← he]
  refine C136_sdt_received_partial p t ⟨hid, mod32_lt _, ?_⟩ pid cc dst s hp hc
  rw [he]
  intro j hj
  obtain ⟨i, hi, rfl⟩ := List.mem_map.1 hj
  obtain ⟨h1, h2, h3, h4, h5⟩ := hr i hi
  refine ⟨⟨?_, h1, ?_, h2, h3, ?_⟩, h4⟩
  · simp only [UInt8.toNat_mod]; exact Nat.mod_lt _ (by decide)
  · simp only [UInt8.toNat_mod]; exact Nat.mod_lt _ (by decide)
  · rw [Sdt.entry_length]; simp only; omega

/-- C136, where it holds for PMTs without program descriptors: versions and PIDs of any size arrive reduced to their low bits, and everything
else as it is. -/
theorem C136_pmt_first_partial (p : Profile) (t : Pmt) (hd : t.descriptors = []) (hr : ∀ i ∈ t.items, PlainLoop 1020 12 5 i.descriptors) (pid : UInt16)
    (cc : UInt8) (dst : List UInt8) (s : Psi) (hp : pid.toNat < 8192) (hc : cc.toNat < 16) :
    ∃ cc' pks s', t.demux p pid cc dst = .ok (cc', dst ++ pks.flatten) ∧ (∀ pk ∈ pks, IsTsPacket pid.toNat pk) ∧
      receive (Pmt.parse p) p Pmt.default s pks = .ok ({ t with
        version := t.version % 32
        pcr := t.pcr % 8192
        items := t.items.map fun i => { i with pid := i.pid % 8192 } }, s') := by
  have he : t.fit = { t with
        version := t.version % 32
        pcr := t.pcr % 8192
        items := t.items.map fun i => { i with pid := i.pid % 8192 } } := by
    rw [Pmt.fit, hd]
    congr 1
    refine List.map_congr_left fun i hi => ?_
    rw [PmtItem.fit, fit_id_list _ (hr i hi).1]
  rw [← he]
  refine C136_pmt_received_partial p t ⟨mod32_lt _, mod8192_lt _, ?_, ?_⟩ hd pid cc dst s hp hc
  · rw [he]
    refine ⟨fun d h => ?_, ?_⟩
    · simp only [hd] at h; cases h
    · simp [hd]
  · rw [he]
    intro j hj
    obtain ⟨i, hi, rfl⟩ := List.mem_map.1 hj
    obtain ⟨h3, h4, h5⟩ := hr i hi
    refine ⟨⟨h3, ?_⟩, mod8192_lt _, h4⟩
    rw [Pmt.entry_length]; simp only; omega

/-- C136, where it holds for present/following EITs: if the free CA modes fit, versions and running states of any size arrive reduced to their low
bits, durations modulo a day, and everything else as it is. -/
theorem C136_eit_first_partial (p : Profile) (t : Eit) (hid : t.tableId = 0x4E ∨ t.tableId = 0x4F) (hne : t.items ≠ [])
    (hr : ∀ i ∈ t.items, TimeInRange i.start ∧ i.caMode.toNat < 2 ∧ PlainLoop 4092 14 12 i.descriptors) (pid : UInt16) (cc : UInt8)
    (dst : List UInt8) (s : Psi) (hp : pid.toNat < 8192) (hc : cc.toNat < 16) :
    ∃ cc' pks s', t.demux p pid cc dst = .ok (cc', dst ++ pks.flatten) ∧ (∀ pk ∈ pks, IsTsPacket pid.toNat pk) ∧
      receive (Eit.parse p) p Eit.default s pks = .ok ({ t with
        version := t.version % 32
        items := t.items.map fun i => { i with
          duration := i.duration % 86400
          status := i.status % 8 } }, s') := by
  have hfit : ∀ i ∈ t.items, i.fit = { i with duration := i.duration % 86400, status := i.status % 8 } := by
    intro i hi
    obtain ⟨-, h2, h3, -, -⟩ := hr i hi
    simp only [EitItem.fit, held, List.drop_succ_cons, List.drop_zero, fit_id_list _ h3]
    rw [first_fits _ _ (by simp; omega), first_fits _ _ (by simp), u8_mod i.caMode 1 h2, u8_low i.status 3 (by omega)]
    rfl
  have he : t.fit = { t with
        version := t.version % 32
        items := t.items.map fun i => { i with
          duration := i.duration % 86400
          status := i.status % 8 } } := by
    rw [Eit.fit]
    congr 1
    exact List.map_congr_left hfit
  rw [← he]
  refine C136_eit_received_partial p t hid ⟨mod32_lt _, ?_⟩ hne pid cc dst s hp hc
  rw [he]
  intro j hj
  obtain ⟨i, hi, rfl⟩ := List.mem_map.1 hj
  obtain ⟨h1, h2, h3, h4, h5⟩ := hr i hi
  refine ⟨⟨h1, ?_, ?_, h2, h3, ?_⟩, h4⟩
  · simp only [UInt32.toNat_mod]; exact Nat.mod_lt _ (by decide)
  · simp only [UInt8.toNat_mod]; exact Nat.mod_lt _ (by decide)
  · rw [Eit.entry_length]; simp only; omega

/-! ## Examples -/

/-- An SDT in which nothing fits: the version, a present/following flag of 2, a running status of 12, a free CA mode of 3. -/
def spoiltSdt : Sdt :=
  { tableId := 0x42, version := 37, tsid := 1, onid := 2, items :=
      [⟨7, 0, 2, 12, 3, [.d52 ⟨9⟩, .d83 ⟨[⟨7, 0, 0x8405⟩]⟩]⟩, ⟨8, 1, 1, 4, 0, []⟩] }

/-- What a receiver makes of it: the schedule flag is set and the running status is 5. -/
example : spoiltSdt.fit = { tableId := 0x42, version := 5, tsid := 1, onid := 2, items :=
    [⟨7, 1, 0, 5, 1, [.d52 ⟨9⟩, .d83 ⟨[⟨7, 1, 5⟩]⟩]⟩, ⟨8, 1, 1, 4, 0, []⟩] } := by decide

theorem spoiltSdt_fits : spoiltSdt.fit.InRange := by
  refine ⟨.inl rfl, by decide, ?_⟩
  intro i hi
  refine ⟨⟨?_, ?_, ?_, ?_, ?_, ?_⟩, ?_⟩ <;> revert i <;> decide

example (p : Profile) (s : Psi) : ∃ cc' pks s', spoiltSdt.demux p 17 0 [] = .ok (cc', [] ++ pks.flatten) ∧ (∀ pk ∈ pks, IsTsPacket 17 pk) ∧
    receive (Sdt.parse p) p Sdt.default s pks = .ok (spoiltSdt.fit, s') :=
  C136_sdt_received_partial p spoiltSdt spoiltSdt_fits 17 0 [] s (by decide) (by decide)

example (p : Profile) (s : Psi) := C136_sdt_refuted p spoiltSdt spoiltSdt_fits _ List.mem_cons_self rfl rfl 17 0 [] s (by decide) (by decide)

example (p : Profile) := C136_descriptor_refuted p ⟨[⟨7, 0, 0x8405⟩]⟩ (by decide) ⟨7, 0, 0x8405⟩ List.mem_cons_self rfl (by decide)

/-- A present/following EIT in which nothing fits. -/
def spoiltEit : Eit :=
  { tableId := 0x4E, version := 33, pnr := 7, tsid := 1, onid := 2, items := [⟨0x1234, 1700000000, 90061, 0, 3, [.d52 ⟨9⟩]⟩] }

example : spoiltEit.fit = { tableId := 0x4E, version := 1, pnr := 7, tsid := 1, onid := 2, items :=
    [⟨0x1234, 1700000000, 3661, 1, 1, [.d52 ⟨9⟩]⟩] } := by decide

theorem spoiltEit_fits : spoiltEit.fit.InRange := by
  refine ⟨by decide, ?_⟩
  intro i hi
  obtain rfl := List.mem_singleton.1 hi
  exact ⟨⟨show _ < _ by decide, by decide, by decide, by decide, by decide, by decide⟩, by decide⟩

example (p : Profile) (s : Psi) := C136_eit_received_partial p spoiltEit (.inl rfl) spoiltEit_fits (by decide) 18 0 [] s (by decide) (by decide)
example (p : Profile) (s : Psi) := C136_eit_refuted p spoiltEit (.inl rfl) spoiltEit_fits _ List.mem_cons_self rfl rfl 18 0 [] s (by decide) (by decide)

/-- A PMT with PIDs of more than 13 bits. -/
example (p : Profile) (s : Psi) : ∃ cc' pks s',
    Pmt.demux p ⟨33, 7, 0xFFFF, [], [⟨0x1B, 0x2101, [.d52 ⟨9⟩]⟩]⟩ 256 0 [] = .ok (cc', [] ++ pks.flatten) ∧ (∀ pk ∈ pks, IsTsPacket 256 pk) ∧
      receive (Pmt.parse p) p Pmt.default s pks = .ok (⟨1, 7, 0x1FFF, [], [⟨0x1B, 0x101, [.d52 ⟨9⟩]⟩]⟩, s') :=
  C136_pmt_first_partial p ⟨33, 7, 0xFFFF, [], [⟨0x1B, 0x2101, [.d52 ⟨9⟩]⟩]⟩ rfl (by
    intro i hi
    obtain rfl := List.mem_singleton.1 hi
    exact ⟨by decide, by decide, by decide⟩) 256 0 [] s (by decide) (by decide)

/-- A TOT with a polarity that spoils the region. -/
example : (Desc.d58 ⟨[⟨⟨0, [0x44, 0x45, 0x55]⟩, 0, 6, 60, 1700000000, 120⟩]⟩).fit =
    Desc.d58 ⟨[⟨⟨0, [0x44, 0x45, 0x55]⟩, 1, 0, 60, 1700000000, 120⟩]⟩ := by decide

/-- The TOT of this descriptor. -/
example (p : Profile) (s : Psi) := C136_tot_received_partial p ⟨1700000000, [.d58 ⟨[⟨⟨0, [0x44, 0x45, 0x55]⟩, 0, 6, 60, 1700000000, 120⟩]⟩]⟩ ⟨0, []⟩
  ⟨show _ < _ by decide, by decide +kernel, by decide +kernel⟩ (by decide +kernel) rfl 20 0 [] s (by decide) (by decide)

example (p : Profile) := C136_descriptor_read_partial p (.d58 ⟨[⟨⟨0, [0x44, 0x45, 0x55]⟩, 0, 6, 60, 1700000000, 120⟩]⟩) (by decide +kernel) (by decide +kernel)
  (by decide +kernel)

/-- A PAT with a PID of more than 13 bits. -/
example (p : Profile) (s : Psi) := C136_pat_received p ⟨33, 1, [⟨7, 0xE101⟩]⟩ 0 0 [] s (by decide) (by decide)

/-- A NIT with a version of 6 bits. -/
example (p : Profile) (s : Psi) := C136_nit_received_partial p ⟨0x40, 33, 1, [], [⟨1, 2, [.d83 ⟨[⟨7, 0, 0x8405⟩]⟩]⟩]⟩ (by
    refine ⟨?_, ?_, ?_, ?_⟩ <;> decide +kernel) 16 0 [] s (by decide) (by decide)

/-- An SDT with a version of 6 bits, a schedule flag of 3 and a running status of 12. -/
example (p : Profile) (s : Psi) := C136_sdt_first_partial p ⟨0x42, 33, 1, 2, [⟨7, 3, 1, 12, 0, [.d52 ⟨9⟩]⟩]⟩ (.inl rfl) (by
    intro i hi
    obtain rfl := List.mem_singleton.1 hi
    exact ⟨by decide, by decide, by decide, by decide, by decide⟩) 17 0 [] s (by decide) (by decide)

/-- An event of 25 hours and a running status of 12. -/
example (p : Profile) (s : Psi) := C136_eit_first_partial p ⟨0x4E, 33, 7, 1, 2, [⟨0x1234, 1700000000, 90000, 12, 0, [.d52 ⟨9⟩]⟩]⟩ (.inl rfl) (by decide) (by
    intro i hi
    obtain rfl := List.mem_singleton.1 hi
    exact ⟨show _ < _ by decide, by decide, by decide, by decide, by decide⟩) 18 0 [] s (by decide) (by decide)

/-- A schedule with a version of 6 bits, a running status of 12 and an event of 25 hours. -/
example (p : Profile) (s : Psi) := C136_schedule_received_partial p ⟨0x50, 33, 7, 1, 2, [⟨1, 1700000000, 90000, 12, 0, [.d52 ⟨9⟩]⟩, ⟨2, 1700090000, 60, 1, 0, []⟩]⟩
  ⟨by decide, by decide, by unfold Eit.ItemInRange TimeInRange; decide +kernel, by decide +kernel, by decide +kernel⟩
  ⟨by decide, by unfold Eit.ItemInRange TimeInRange; decide +kernel⟩ 18 0 [] s (by decide) (by decide)

end Mpegts
