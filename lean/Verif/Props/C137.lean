import Verif.Spec.Calendar
import Verif.Props.C136

/-! # C137: times beyond the range of dates -/

namespace Mpegts
open Spec Spec.Table
open Spec.Calendar (day ofDay shown firstLate)

theorem ofDay_lt (t : Nat) : ofDay t < 86400 := Nat.mod_lt _ (by decide)

theorem shown_lt (t : Nat) (h : unixEpochMjd ≤ day t) : shown t < firstLate := by
  have h1 : day t < 65536 := Nat.mod_lt _ (by decide)
  have h2 := ofDay_lt t
  unfold shown firstLate unixEpochMjd at *
  omega

theorem shown_inRange (t : Nat) (h : unixEpochMjd ≤ day t) : unixEpochMjd + shown t / 86400 < 2 ^ 16 := by
  have := shown_lt t h
  unfold firstLate unixEpochMjd at *
  omega

theorem shown_utc (t : Nat) (h : unixEpochMjd ≤ day t) : AnyValue.utc (shown t) = AnyValue.utc t := by
  have h1 := shown_lt t h
  have h2 := ofDay_lt t
  have e1 : unixEpochMjd + shown t / 86400 = (unixEpochMjd + t / 86400) % 65536 := by
    show _ = day t
    unfold shown at *
    unfold unixEpochMjd at *
    omega
  have e2 : shown t % 2 ^ 32 % 86400 = t % 2 ^ 32 % 86400 := by
    show _ = ofDay t
    rw [Nat.mod_eq_of_lt (show shown t < 2 ^ 32 by unfold firstLate at h1; omega)]
    unfold shown
    omega
  rw [AnyValue.utc, e1, e2, beBytes_mod 2 _ 65536 (by decide)]
  rfl

theorem u64_shown (t : Nat) (h : unixEpochMjd ≤ day t) : (UInt64.ofNat (shown t)).toNat = shown t := by
  have := shown_lt t h
  rw [UInt64.toNat_ofNat', Nat.mod_eq_of_lt (by unfold firstLate at this; omega)]

/-- C137 for TDTs, what holds: whatever the time, if its day number modulo 2^16 is of 1970 or later, the time this day stands for is received. -/
theorem C137_tdt_partial (p : Profile) (t u : Tdt) (h : unixEpochMjd ≤ day t.time.toNat) (pid : UInt16) (cc : UInt8) (dst : List UInt8) (s : Psi)
    (hp : pid.toNat < 8192) (hc : cc.toNat < 16) :
    ∃ cc' pk s', t.demux p pid cc dst = .ok (cc', dst ++ pk) ∧ IsTsPacket pid.toNat pk ∧
      receive (Tdt.parse p) p u s [pk] = .ok ({ time := UInt64.ofNat (shown t.time.toNat) }, s') := by
  have e : t.demux p pid cc dst = Tdt.demux p { time := UInt64.ofNat (shown t.time.toNat) } pid cc dst := by
    rw [Tdt.C110_tdt p t pid cc dst hp hc, Tdt.C110_tdt p _ pid cc dst hp hc]
    simp only [u64_shown _ h, shown_utc _ h]
  rw [e]
  exact Tdt.C61_round_trip p _ u (show _ < _ by simp only [u64_shown _ h]; exact shown_inRange _ h) pid cc dst s hp hc

theorem fromMjd_early (d : UInt16) (h : d.toNat < unixEpochMjd) :
    ∃ v, fromMjd .release d = .ok v ∧ v.toNat + (unixEpochMjd - d.toNat) * 86400 = 2 ^ 64 := (C104_date .release d).2 h

/-- C137 fails for TDTs: if the day number modulo 2^16 is before 1970, a receiver compiled with overflow checks panics, and another gets a
time before 1970, modulo 2^64. -/
theorem C137_tdt_early_refuted (p : Profile) (t u : Tdt) (h : day t.time.toNat < unixEpochMjd) (pid : UInt16) (cc : UInt8) (dst : List UInt8)
    (s : Psi) (hp : pid.toNat < 8192) (hc : cc.toNat < 16) :
    ∃ cc' pk, t.demux p pid cc dst = .ok (cc', dst ++ pk) ∧ IsTsPacket pid.toNat pk ∧
      receive (Tdt.parse .debug) .debug u s [pk] = panic ∧
      ∃ (v : UInt64) (s' : Psi), receive (Tdt.parse .release) .release u s [pk] = .ok ({ time := v }, s') ∧
        v.toNat + (unixEpochMjd - day t.time.toNat) * 86400 = 2 ^ 64 + ofDay t.time.toNat := by
  let sec := [0x70, 0x70, 0x05] ++ AnyValue.utc t.time.toNat
  have l : sec.length = 8 := by simp [sec, AnyValue.utc]
  have hs : IsSection sec := by
    refine ⟨by omega, ?_⟩
    rw [l]; simp [sec]; decide
  have hpk : packets pid.toNat cc.toNat sec = [packetAt pid.toNat cc.toNat sec 0] := by
    unfold packets; rw [l]; rfl
  have hr := fun p => receive_section (Tdt.parse p) p u s pid.toNat cc.toNat sec hs hp (by
    intro psi _ h1 h2; omega)
  rw [hpk] at hr
  have f1 : field sec 3 2 = day t.time.toNat := by
    have := congrFun (field_append [0x70, 0x70, 0x05] (AnyValue.utc t.time.toNat) 0) 2
    refine this.trans ?_
    simp only [field, AnyValue.utc, List.drop_zero]
    rw [List.take_append_of_le_length (by simp), List.take_of_length_le (by simp), beNat_beBytes]
    rfl
  have f2 : field sec 5 3 = Descriptor.hhmmss (ofDay t.time.toNat) := by
    have := congrFun (field_append [0x70, 0x70, 0x05] (AnyValue.utc t.time.toNat) 2) 3
    refine this.trans ?_
    simp only [field, AnyValue.utc]
    rw [List.drop_append_of_le_length (by simp), List.drop_of_length_le (by simp), List.nil_append, List.take_of_length_le (by simp),
      beNat_beBytes, show (256 ^ 3 : Nat) = 2 ^ 24 from rfl, Nat.mod_eq_of_lt (hhmmss_lt _)]
    rfl
  have hd : (UInt16.ofNat (day t.time.toNat)).toNat = day t.time.toNat :=
    UInt16.toNat_ofNat_of_lt' (Nat.mod_lt _ (by decide))
  have ft := fun p => fromBcdTime32_at p (ofDay t.time.toNat) (ofDay_lt _)
  simp only [Nat.mod_eq_of_lt (hhmmss_lt _)] at ft
  have hacc : ∀ (p : Profile) (psi : Psi), psi.size = 8 → psi.buffer = sec → u.parse p psi = (fun x => { time := x }) <$>
      readUtc p (UInt16.ofNat (day t.time.toNat)) (UInt32.ofNat (Descriptor.hhmmss (ofDay t.time.toNat))) := by
    intro p psi h1 h2
    rw [Tdt.parse_accepted p u psi ⟨h1, by rw [h2]; rfl⟩ (by rw [h2, l]), h2, f1, f2]
  refine ⟨_, packetAt pid.toNat cc.toNat sec 0, by rw [Tdt.C110_tdt p t pid cc dst hp hc]; rw [show packets pid.toNat cc.toNat
    ([0x70, 0x70, 0x05] ++ AnyValue.utc t.time.toNat) = _ from hpk, List.flatten_singleton], ?_, ?_, ?_⟩
  · exact stream_packets pid.toNat cc.toNat hp [sec] _ (by simp [Spec.Table.stream, hpk])
  · rw [hr .debug]
    dsimp only
    rw [hacc .debug { buffer := sec, size := sec.length, pid := s.pid, cc := _ } l rfl, readUtc, C22_from_mjd_early _ (by rw [hd]; exact h)]
    rfl
  · obtain ⟨v, e1, e2⟩ := fromMjd_early (UInt16.ofNat (day t.time.toNat)) (by rw [hd]; exact h)
    rw [hd] at e2
    have h2 := ofDay_lt t.time.toNat
    have u2 : (UInt32.ofNat (ofDay t.time.toNat)).toUInt64.toNat = ofDay t.time.toNat := by
      rw [UInt32.toNat_toUInt64, UInt32.toNat_ofNat']; omega
    have hlt : v.toNat + (UInt32.ofNat (ofDay t.time.toNat)).toUInt64.toNat < 2 ^ 64 := by rw [u2]; omega
    refine ⟨v + (UInt32.ofNat (ofDay t.time.toNat)).toUInt64, { buffer := sec, size := sec.length, pid := s.pid, cc := UInt8.ofNat ((cc.toNat + packetCount sec.length - 1) % 16) }, ?_, ?_⟩
    · rw [hr .release]
      dsimp only
      rw [hacc .release { buffer := sec, size := sec.length, pid := s.pid, cc := _ } l rfl, readUtc, e1, ok_bind, ft, ok_bind, addU64, if_pos hlt]
      rfl
    · rw [UInt64.toNat_add, Nat.mod_eq_of_lt hlt, u2]; omega

/-- C137 fails for TDTs: no time from 23 April 2038 on, of the next 290 000 million years, is ever received. -/
theorem C137_tdt_refuted (p : Profile) (t u : Tdt) (h1 : firstLate ≤ t.time.toNat) (h2 : t.time.toNat < 2 ^ 63) (pid : UInt16) (cc : UInt8)
    (dst : List UInt8) (s : Psi) (hp : pid.toNat < 8192) (hc : cc.toNat < 16) :
    ∃ cc' pk, t.demux p pid cc dst = .ok (cc', dst ++ pk) ∧ ∀ s', receive (Tdt.parse p) p u s [pk] ≠ .ok (t, s') := by
  by_cases h : unixEpochMjd ≤ day t.time.toNat
  · obtain ⟨cc', pk, s', e1, -, e2⟩ := C137_tdt_partial p t u h pid cc dst s hp hc
    refine ⟨cc', pk, e1, fun s'' e => ?_⟩
    rw [e2] at e
    have e := congrArg (fun x : Tdt => x.time.toNat) (Prod.mk.inj (Except.ok.inj e)).1
    simp only [u64_shown _ h] at e
    have := shown_lt _ h
    omega
  · rw [Nat.not_le] at h
    obtain ⟨cc', pk, e1, -, e2, v, s', e3, e4⟩ := C137_tdt_early_refuted p t u h pid cc dst s hp hc
    refine ⟨cc', pk, e1, fun s'' e => ?_⟩
    cases p with
    | debug => rw [e2] at e; simp [panic] at e
    | release =>
      rw [e3] at e
      have e := congrArg (fun x : Tdt => x.time.toNat) (Prod.mk.inj (Except.ok.inj e)).1
      simp only at e
      unfold unixEpochMjd at e4
      omega

/-! ## TOTs and present/following EITs -/

namespace Desc

/-- A descriptor with the times of change that are read back. -/
def dated : Desc → Desc
  | .d58 d => .d58 { items := d.items.map fun i => { i with timeOfChange := UInt64.ofNat (shown i.timeOfChange.toNat) } }
  | d => d

/-- The day numbers of the times of change are of 1970 or later. -/
def Dates : Desc → Prop
  | .d58 d => ∀ i ∈ d.items, unixEpochMjd ≤ day i.timeOfChange.toNat
  | _ => True

end Desc

theorem dated_refused (d : Desc) : d.dated.Refused ↔ d.Refused := by cases d <;> exact Iff.rfl

theorem dated_emitted (d : Desc) (h : d.Dates) : d.dated.emitted = d.emitted := by
  cases d with
  | d58 d =>
    simp only [Desc.dated, Desc.emitted, AnyValue.localTimeOffset, List.length_map, List.map_map, List.flatMap_map, Function.comp_def]
    congr 1
    have hk : ∀ l : List Desc58i, (∀ i ∈ l, unixEpochMjd ≤ day i.timeOfChange.toNat) → ∀ f g : Desc58i → List UInt8,
        (∀ i, unixEpochMjd ≤ day i.timeOfChange.toNat → f i = g i) → l.flatMap f = l.flatMap g := by
      intro l hl f g hfg
      induction l with
      | nil => rfl
      | cons x r ih =>
        rw [List.flatMap_cons, List.flatMap_cons, hfg x (hl x List.mem_cons_self), ih fun i hi => hl i (List.mem_cons_of_mem _ hi)]
    exact hk d.items h _ _ fun i hi => by rw [u64_shown _ hi, shown_utc _ hi]
  | _ => rfl

theorem dated_list_emitted (ds : List Desc) (h : ∀ d ∈ ds, d.Dates) : (ds.map Desc.dated).flatMap Desc.emitted = ds.flatMap Desc.emitted := by
  induction ds with
  | nil => rfl
  | cons d r ih =>
    rw [List.map_cons, List.flatMap_cons, List.flatMap_cons, dated_emitted d (h d List.mem_cons_self),
      ih fun i hi => h i (List.mem_cons_of_mem _ hi)]

namespace Tot

/-- A TOT with the times that are read back. -/
def dated (t : Tot) : Tot := { time := UInt64.ofNat (shown t.time.toNat), descriptors := t.descriptors.map Desc.dated }

end Tot

/-- C137 for TOTs, what holds: the times the day numbers stand for are received, if they are of 1970 or later. -/
theorem C137_tot_partial (p : Profile) (t u : Tot) (h : unixEpochMjd ≤ day t.time.toNat) (hd : ∀ d ∈ t.descriptors, d.Dates)
    (ht : t.dated.InRange) (he : ∀ d ∈ t.dated.descriptors, d.Exact) (hu : u.descriptors = []) (pid : UInt16) (cc : UInt8) (dst : List UInt8)
    (s : Psi) (hp : pid.toNat < 8192) (hc : cc.toNat < 16) :
    ∃ cc' pks s', t.demux p pid cc dst = .ok (cc', dst ++ pks.flatten) ∧ (∀ pk ∈ pks, IsTsPacket pid.toNat pk) ∧
      receive (Tot.parse p) p u s pks = .ok (t.dated, s') := by
  have e : t.demux p pid cc dst = t.dated.demux p pid cc dst := by
    have e1 : t.dated.anySection = t.anySection := by
      simp only [Tot.anySection, Tot.dated, AnyValue.tot, u64_shown _ h, shown_utc _ h, dated_list_emitted _ hd]
    have e2 : (∃ d ∈ t.dated.allDescriptors, d.Refused) ↔ ∃ d ∈ t.allDescriptors, d.Refused := by
      simp [Tot.allDescriptors, Tot.dated, dated_refused]
    rw [Tot.C110_tot p t pid cc dst hp hc, Tot.C110_tot p t.dated pid cc dst hp hc, e1]
    simp only [e2]
  rw [e]
  exact Tot.C62_round_trip_partial p t.dated u ht he hu pid cc dst s hp hc

/-- An event at another time. -/
def EitItem.redate (f : UInt64 → UInt64) (i : EitItem) : EitItem := { i with start := f i.start }

namespace Eit

/-- An EIT with other times. -/
def redate (f : UInt64 → UInt64) (t : Eit) : Eit := { t with items := t.items.map (EitItem.redate f) }

/-- An EIT with the times that are read back. -/
def dated (t : Eit) : Eit := t.redate fun x => UInt64.ofNat (shown x.toNat)

end Eit

theorem eit_redate_section (f : UInt64 → UInt64) (t : Eit) (a b c d e : Nat) (i : EitItem)
    (h : AnyValue.utc (f i.start).toNat = AnyValue.utc i.start.toNat) :
    (t.redate f).allSection a b c d e [i.redate f] = t.allSection a b c d e [i] := by
  have h : Eit.anyEntry (i.redate f) = Eit.anyEntry i := by
    simp only [Eit.anyEntry, EitItem.redate, AnyValue.eitEntry, h]
  simp only [Eit.allSection, List.flatMap_cons, List.flatMap_nil, h]
  rfl

theorem eit_redate (f : UInt64 → UInt64) (p : Profile) (t : Eit) (hid : t.tableId = 0x4E ∨ t.tableId = 0x4F)
    (h : ∀ i ∈ t.items, AnyValue.utc (f i.start).toNat = AnyValue.utc i.start.toNat) (pid : UInt16) (cc : UInt8) (dst : List UInt8)
    (hp : pid.toNat < 8192) (hc : cc.toNat < 16) : t.demux p pid cc dst = (t.redate f).demux p pid cc dst := by
  have e1 : (t.redate f).allPf = t.allPf := by
    simp only [Eit.allPf]
    rw [show (t.redate f).items = t.items.map (EitItem.redate f) from rfl, List.zipIdx_map, List.map_map]
    refine List.map_congr_left fun x hx => ?_
    simp only [List.length_map]
    exact eit_redate_section f t t.tableId.toNat _ _ _ t.tableId.toNat x.1 (h _ (List.fst_mem_of_mem_zipIdx hx))
  have e2 : (∃ d ∈ (t.redate f).allDescriptors, d.Refused) ↔ ∃ d ∈ t.allDescriptors, d.Refused := by
    simp only [Eit.allDescriptors, Eit.redate, EitItem.redate, List.flatMap_map]
  rw [Eit.C110_eit p t hid pid cc dst hp hc, Eit.C110_eit p (t.redate f) hid pid cc dst hp hc, e1]
  simp only [e2]

/-- C137 for present/following EITs, what holds: the times the day numbers stand for are received, if they are of 1970 or later. -/
theorem C137_eit_partial (p : Profile) (t : Eit) (hid : t.tableId = 0x4E ∨ t.tableId = 0x4F)
    (h : ∀ i ∈ t.items, unixEpochMjd ≤ day i.start.toNat) (ht : t.dated.InRange) (hne : t.items ≠ []) (pid : UInt16) (cc : UInt8)
    (dst : List UInt8) (s : Psi) (hp : pid.toNat < 8192) (hc : cc.toNat < 16) :
    ∃ cc' pks s', t.demux p pid cc dst = .ok (cc', dst ++ pks.flatten) ∧ (∀ pk ∈ pks, IsTsPacket pid.toNat pk) ∧
      receive (Eit.parse p) p Eit.default s pks = .ok (t.dated, s') := by
  rw [eit_redate (fun x => UInt64.ofNat (shown x.toNat)) p t hid (fun i hi => by
    show AnyValue.utc (UInt64.ofNat (shown i.start.toNat)).toNat = _
    rw [u64_shown _ (h i hi), shown_utc _ (h i hi)]) pid cc dst hp hc]
  exact Eit.C58_round_trip_partial p t.dated hid ht (by simpa [Eit.dated, Eit.redate] using hne) pid cc dst s hp hc

/-! ## Examples -/

/-- 23 April 2038: a receiver compiled with overflow checks panics. -/
example (s : Psi) := C137_tdt_early_refuted .debug ⟨2155593600⟩ ⟨0⟩ (by decide) 20 0 [] s (by decide) (by decide)
example (s : Psi) := C137_tdt_refuted .release ⟨2155593600⟩ ⟨0⟩ (by decide) (by decide) 20 0 [] s (by decide) (by decide)
/-- 1 January 2150 (day 106331, sent as 40795) is received as 28 July 1970; and because 5680281600 does not fit in 32 bits, midnight is
received as 17:31:44. -/
example : shown 5680281600 = 208 * 86400 + (17 * 3600 + 31 * 60 + 44) ∧ unixEpochMjd + 208 = mjd 1970 7 28 ∧ unixEpochMjd + 5680281600 / 86400 = 40795 + 65536 := by
  decide
example (p : Profile) (s : Psi) := C137_tdt_partial p ⟨5680281600⟩ ⟨0⟩ (by decide) 20 0 [] s (by decide) (by decide)
/-- A TOT of 2150 with a change of time in that year. -/
def lateTot : Tot := { time := 5680281600, descriptors := [.d58 ⟨[⟨⟨0, [0x47, 0x42, 0x52]⟩, 1, 0, 60, 5690281600, 120⟩]⟩] }

example : lateTot.dated = { time := 208 * 86400 + 63104, descriptors := [.d58 ⟨[⟨⟨0, [0x47, 0x42, 0x52]⟩, 1, 0, 60, 323 * 86400 + 40704, 120⟩]⟩] } := by
  decide +kernel
example (p : Profile) (s : Psi) := C137_tot_partial p lateTot ⟨0, []⟩ (by decide +kernel) (fun d hd => by
    obtain rfl := List.mem_singleton.1 hd
    intro i hi
    obtain rfl := List.mem_singleton.1 hi
    decide +kernel) ⟨by unfold TimeInRange; decide +kernel, by decide +kernel, by decide +kernel⟩ (by decide +kernel) rfl 20 0 [] s (by decide) (by decide)

/-- An event of 2150. -/
def lateEit : Eit := { Eit.default with tableId := 0x4E, items := [⟨7, 5680281600, 3600, 4, 0, []⟩] }

example : lateEit.dated = { lateEit with items := [⟨7, 208 * 86400 + 63104, 3600, 4, 0, []⟩] } := by decide +kernel
example (p : Profile) (s : Psi) := C137_eit_partial p lateEit (.inl rfl) (by decide +kernel) ⟨by decide, by decide +kernel⟩ (by decide) 18 0 [] s
  (by decide) (by decide)

end Mpegts
