import Verif.Spec.LocalTime
import Verif.Props.C152
import Verif.Props.C106
import Verif.Props.Sent

/-! # C153: the local time -/

namespace Mpegts
open Spec Spec.Table

namespace LocalTime

theorem letters (s : List Char) (h3 : s.length = 3) (h : ∀ c ∈ s, 0x20 ≤ c.val.toNat ∧ c.val.toNat < 0x80) :
    roundTrips (StringDVB.fromStr s 0) ∧ (StringDVB.fromStr s 0).toStringR = .ok s ∧ (text (StringDVB.fromStr s 0)).length = 3 := by
  have h1 := (C131_default_partial .debug (.d4E ⟨0, 0, StringDVB.fromStr s 0, [], ⟨0, []⟩⟩) (by
    intro c hc
    simp only [Codes.codes, List.mem_singleton] at hc
    exact ⟨s, h3, h, hc⟩)).1 (StringDVB.fromStr s 0) (by simp [Codes.codes])
  refine ⟨h1.2, ?_, h1.1⟩
  refine (C27_round_trip 0 _ rfl s ?_).1
  intro c hc
  have := h c hc
  refine ⟨UInt8.ofNat c.val.toNat, ?_⟩
  rw [Text.charOf, if_pos (by rw [UInt8.toNat_ofNat']; omega), UInt8.toNat_ofNat', Nat.mod_eq_of_lt (by omega), char_ofNat c _ rfl]

/-- The minutes a release build reads. -/
def wrapped (m : UInt16) : UInt16 := UInt16.ofNat (m.toNat / 60 * 60 % 256 + m.toNat % 60)

theorem wrapped_toNat (m : UInt16) : (wrapped m).toNat = m.toNat / 60 * 60 % 256 + m.toNat % 60 := by
  rw [wrapped, UInt16.toNat_ofNat', Nat.mod_eq_of_lt (by omega)]

theorem less (m : Nat) (h : 300 ≤ m) : m / 60 * 60 % 256 + m % 60 < m := by omega

/-- The zone as a release build reads it. -/
def zoneRead (z : Zone) : Zone := { z with offset := wrapped z.offset, next := wrapped z.next }

theorem clock_read (z : Zone) (utc : UInt64) : (zoneRead z).clock utc = utc.toNat + shift z.west
    ((if utc < z.change then z.offset else z.next).toNat / 60 * 60 % 256 + (if utc < z.change then z.offset else z.next).toNat % 60) := by
  show (utc.toNat + shift z.west (if utc < z.change then wrapped z.offset else wrapped z.next).toNat : Int) = _
  split <;> rw [wrapped_toNat]

theorem found (zs : List Zone) (h : ∀ z ∈ zs, z.Ok) (country : List Char) (region : UInt8) :
    findZone country region (zs.map Zone.item) =
      .ok ((zs.find? fun z => z.country = country ∧ z.region = region).map Zone.item) := by
  induction zs with
  | nil => rfl
  | cons z zs ih =>
    have hz := h z (by simp)
    rw [List.map_cons, findZone, Zone.item, (letters z.country hz.letters.1 hz.letters.2).2.1, ok_bind]
    simp only [List.find?_cons]
    by_cases hb : z.country = country ∧ z.region = region
    · rw [if_pos hb]; simp [hb, Zone.item]
    · rw [if_neg hb]; simp only [hb, decide_false]
      exact ih fun x hx => h x (by simp [hx])

theorem shown (z : Zone) (utc : UInt64) :
    (utc.toNat + shift (z.item.offsetPolarity == 1) (if utc < z.item.timeOfChange then z.item.offset else z.item.nextOffset).toNat : Int) = z.clock utc := by
  unfold Zone.clock Zone.item
  cases z.west <;> rfl

theorem zoneItems_map (zss : List (List Zone)) : zoneItems (zss.map fun zs => .d58 ⟨zs.map Zone.item⟩) = zss.flatten.map Zone.item := by
  induction zss with
  | nil => rfl
  | cons zs r ih => simp only [zoneItems, List.map_cons, List.flatMap_cons, List.flatten_cons, List.map_append] at ih ⊢; rw [ih]

theorem range (time : UInt64) (ht : TimeInRange time) (zss : List (List Zone)) (hz : ∀ zs ∈ zss, zs.length ≤ 19 ∧ ∀ z ∈ zs, z.Ok)
    (ho : ∀ zs ∈ zss, ∀ z ∈ zs, z.offset.toNat < 24 * 60 ∧ z.next.toNat < 24 * 60) (hl : (zss.map fun zs => 2 + 13 * zs.length).sum ≤ 4084) :
    Tot.InRange ⟨time, zss.map fun zs => .d58 ⟨zs.map Zone.item⟩⟩ := by
  have hg : Good (zss.map fun zs => Desc.d58 ⟨zs.map Zone.item⟩) := by
    intro d hd
    obtain ⟨zs, hzs, rfl⟩ := List.mem_map.1 hd
    refine ⟨⟨?_, ?_⟩, by simp [Desc.HasItems]⟩
    · intro i hi
      obtain ⟨z, hzz, rfl⟩ := List.mem_map.1 hi
      have hok := (hz zs hzs).2 z hzz
      refine ⟨(letters z.country hok.letters.1 hok.letters.2).2.2, hok.region, ?_, (ho zs hzs z hzz).1, hok.change, (ho zs hzs z hzz).2⟩
      simp only [Zone.item]; split <;> decide
    · have := (hz zs hzs).1
      simp only [List.length_map]; omega
  refine ⟨ht, hg, ?_⟩
  show 10 + ((zss.map fun zs => Desc.d58 ⟨zs.map Zone.item⟩).flatMap Desc.wire).length ≤ 4094
  rw [← (C33_list_partial .debug _ [] hg).2]
  have : ∀ (zss : List (List Zone)) (n : Nat), List.foldl (fun acc (x : Desc) => acc + x.size) n (zss.map fun zs => Desc.d58 ⟨zs.map Zone.item⟩) =
      n + (zss.map fun zs => 2 + 13 * zs.length).sum := by
    intro zss
    induction zss with
    | nil => intro n; rfl
    | cons zs r ih =>
      intro n
      rw [List.map_cons, List.foldl_cons, ih, List.map_cons, List.sum_cons, Desc.size, Desc58.size]
      simp only [List.length_map]; omega
  rw [Descriptors.size, this]; omega

theorem readBack_release (zss : List (List Zone)) (hz : ∀ zs ∈ zss, ∀ z ∈ zs, z.Ok) (hg : Good (zss.map fun zs => Desc.d58 ⟨zs.map Zone.item⟩)) :
    readBack .release (zss.map fun zs => .d58 ⟨zs.map Zone.item⟩) = .ok ((zss.map (·.map zoneRead)).map fun zs => .d58 ⟨zs.map Zone.item⟩) := by
  rw [readBack_good _ _ hg]
  have hf := frames_wire (zss.map fun zs => Desc.d58 ⟨zs.map Zone.item⟩) (fun d hd => (hg d hd).1) []
  rw [List.append_nil, frames_truncated [] (.inl (by simp)), List.append_nil] at hf
  rw [hf, List.map_map, List.mapM_map, List.map_map]
  refine Pieces.mapM_ok _ _ _ fun zs hzs => ?_
  have hd := (hg _ (List.mem_map_of_mem hzs)).1
  have := (C34_local_time_offset_refuted ⟨zs.map Zone.item⟩ hd (by
    intro i hi
    obtain ⟨z, hzz, rfl⟩ := List.mem_map.1 hi
    have hok := hz zs hzs z hzz
    exact (letters z.country hok.letters.1 hok.letters.2).1)).2
  rw [C32_wire_format_partial .release _ [] hd (by simp [Desc.HasItems]), ok_bind, List.nil_append] at this
  simp only [Function.comp_apply]
  rw [this]
  simp only [List.map_map]
  rfl

end LocalTime

/-- C153, what holds: offsets of less than five hours.  The regions of any number of countries, in one or more local time offset descriptors
of a TOT: whoever receives the TOT shows for each region listed (the first if listed twice) the time of the clocks there, for others none. -/
theorem C153_local_partial (p : Profile) (time : UInt64) (ht : TimeInRange time) (zss : List (List Zone))
    (hz : ∀ zs ∈ zss, zs.length ≤ 19 ∧ ∀ z ∈ zs, z.Ok) (ho : ∀ zs ∈ zss, ∀ z ∈ zs, z.offset.toNat < 300 ∧ z.next.toNat < 300)
    (hl : (zss.map fun zs => 2 + 13 * zs.length).sum ≤ 4084) (pid : UInt16) (cc : UInt8) (s : Psi) (hp : pid.toNat < 8192) (hc : cc.toNat < 16) :
    ∃ cc' pks, Tot.demux p ⟨time, zss.map fun zs => .d58 ⟨zs.map Zone.item⟩⟩ pid cc [] = .ok (cc', pks.flatten) ∧
      (∀ pk ∈ pks, IsTsPacket pid.toNat pk) ∧
      ∀ src : Source, Steady src → Carries pid.toNat src.data pks → ∀ buf : List UInt8, 188 ≤ buf.length → ∀ fuel, src.data.length < fuel →
        ∀ country region, localTime p pid.toNat s country region fuel src buf =
          .ok ((zss.flatten.find? fun z => z.country = country ∧ z.region = region).map (·.clock time)) := by
  have hr := LocalTime.range time ht zss hz (fun zs h z hz => by have := ho zs h z hz; omega) hl
  obtain ⟨cc', pks, s', h1, h2, h3⟩ := C76_tot_partial p ⟨time, zss.map fun zs => .d58 ⟨zs.map Zone.item⟩⟩ Tot.default hr (by
    intro d hd
    obtain ⟨zs, hzs, rfl⟩ := List.mem_map.1 hd
    intro i hi
    obtain ⟨z, hzz, rfl⟩ := List.mem_map.1 hi
    have hok := (hz zs hzs).2 z hzz
    exact ⟨(LocalTime.letters z.country hok.letters.1 hok.letters.2).1, ho zs hzs z hzz⟩) rfl pid cc s hp hc
  refine ⟨cc', pks, h1, h2, fun src hs hcar buf hb fuel hf country region => ?_⟩
  rw [localTime, h3 src hs hcar buf hb fuel hf, ok_bind]
  simp only [LocalTime.zoneItems_map]
  rw [LocalTime.found _ (by
    intro z hzz
    obtain ⟨zs, hzs, hm⟩ := List.mem_flatten.1 hzz
    exact (hz zs hzs).2 z hm), ok_bind, pure_eq_ok, Option.map_map]
  congr 2
  funext z
  exact LocalTime.shown z time

/-- C153 fails for offsets of five hours and more: such a TOT, which is sent like any other, makes every receiver built with overflow checks
panic; one built without them shows all local times, but takes `h` hours for `60 * h` modulo 256 minutes, which is always too few. -/
theorem C153_far_refuted (time : UInt64) (ht : TimeInRange time) (zss : List (List Zone))
    (hz : ∀ zs ∈ zss, zs.length ≤ 19 ∧ ∀ z ∈ zs, z.Ok) (ho : ∀ zs ∈ zss, ∀ z ∈ zs, z.offset.toNat < 24 * 60 ∧ z.next.toNat < 24 * 60)
    (hl : (zss.map fun zs => 2 + 13 * zs.length).sum ≤ 4084) (hfar : ∃ zs ∈ zss, ∃ z ∈ zs, 300 ≤ z.offset.toNat ∨ 300 ≤ z.next.toNat)
    (pid : UInt16) (cc : UInt8) (s : Psi) (hp : pid.toNat < 8192) (hc : cc.toNat < 16) :
    ∃ cc' pks, (∀ p, Tot.demux p ⟨time, zss.map fun zs => .d58 ⟨zs.map Zone.item⟩⟩ pid cc [] = .ok (cc', pks.flatten)) ∧
      (∀ pk ∈ pks, IsTsPacket pid.toNat pk) ∧
      (∀ src : Source, Steady src → Carries pid.toNat src.data pks → ∀ buf : List UInt8, 188 ≤ buf.length → ∀ fuel, src.data.length < fuel →
        ∀ country region, localTime .debug pid.toNat s country region fuel src buf = panic ∧
          localTime .release pid.toNat s country region fuel src buf =
            .ok ((zss.flatten.find? fun z => z.country = country ∧ z.region = region).map fun z => time.toNat +
              shift z.west ((if time < z.change then z.offset else z.next).toNat / 60 * 60 % 256 + (if time < z.change then z.offset else z.next).toNat % 60))) ∧
      ∀ m, 300 ≤ m → m / 60 * 60 % 256 + m % 60 < m := by
  have hr := LocalTime.range time ht zss hz ho hl
  have hw := fun p => Tot.C62_wire p _ hr pid cc [] hp hc
  have hpk : ∀ pk ∈ packets pid.toNat cc.toNat (Tot.wire ⟨time, zss.map fun zs => .d58 ⟨zs.map Zone.item⟩⟩), IsTsPacket pid.toNat pk :=
    fun pk h => stream_packets pid.toNat cc.toNat hp [Tot.wire ⟨time, zss.map fun zs => .d58 ⟨zs.map Zone.item⟩⟩] pk (by simpa [stream] using h)
  simp only [List.nil_append] at hw
  refine ⟨_, _, hw, hpk, ?_, LocalTime.less⟩
  · intro src hs hcar buf hb fuel hf country region
    have inj : ∀ {p cc' pks}, Tot.demux p ⟨time, zss.map fun zs => .d58 ⟨zs.map Zone.item⟩⟩ pid cc [] = .ok (cc', [] ++ pks.flatten) →
        (∀ pk ∈ pks, IsTsPacket pid.toNat pk) → pks = packets pid.toNat cc.toNat (Tot.wire ⟨time, zss.map fun zs => .d58 ⟨zs.map Zone.item⟩⟩) := by
      intro p cc' pks h1 h2
      rw [hw p, List.nil_append] at h1
      exact flatten_inj (fun x hx => (h2 x hx).1) (fun x hx => (hpk x hx).1) (congrArg Prod.snd (Except.ok.inj h1)).symm
    constructor
    · obtain ⟨zs, hzs, z, hzz, hb'⟩ := hfar
      obtain ⟨cc', pks, h1, h2, h3⟩ := Tot.C62_time_offset_refuted ⟨time, zss.map fun zs => .d58 ⟨zs.map Zone.item⟩⟩ Tot.default hr rfl ⟨zs.map Zone.item⟩
        (List.mem_map_of_mem hzs) ⟨z.item, List.mem_map_of_mem hzz, hb'⟩ pid cc [] s hp hc
      rw [inj h1 h2] at h3
      rw [localTime, C76_listen _ .debug _ _ s src hs _ hcar buf hb fuel hf, h3, panic, error_bind]
    · obtain ⟨cc', pks, s', h1, h2, h3⟩ := Tot.C106_tot .release ⟨time, zss.map fun zs => .d58 ⟨zs.map Zone.item⟩⟩ Tot.default hr rfl pid cc [] s hp hc
      rw [inj h1 h2, LocalTime.readBack_release zss (fun zs h => (hz zs h).2) hr.good, ok_bind] at h3
      rw [localTime, C76_listen _ .release _ _ s src hs _ hcar buf hb fuel hf, h3, ok_bind]
      simp only [LocalTime.zoneItems_map]
      rw [LocalTime.found _ (by
        intro z hzz
        obtain ⟨zs, hzs, hm⟩ := List.mem_flatten.1 hzz
        obtain ⟨zs', hzs', rfl⟩ := List.mem_map.1 hzs
        obtain ⟨z', hz', rfl⟩ := List.mem_map.1 hm
        have := (hz zs' hzs').2 z' hz'
        exact ⟨this.letters, this.region, this.change⟩), ok_bind, pure_eq_ok, Option.map_map, ← List.map_flatten, List.find?_map, Option.map_map]
      congr 2
      · funext z
        simp only [Function.comp_apply]
        rw [LocalTime.shown]
        exact LocalTime.clock_read z time

/-- Two countries in two descriptors: Central European Time, to change to summer time later, and Newfoundland. -/
def cet : Zone := ⟨"DEU".toList, 0, false, 60, 1774746000, 120⟩
def newfoundland : Zone := ⟨"CAN".toList, 1, true, 210, 1772951400, 150⟩
def india : Zone := ⟨"IND".toList, 0, false, 330, 0, 330⟩

theorem zones_ok : cet.Ok ∧ newfoundland.Ok ∧ india.Ok := ⟨⟨by decide, by decide, by decide⟩, ⟨by decide, by decide, by decide⟩, ⟨by decide, by decide, by decide⟩⟩

example (p : Profile) : ∃ cc' pks, Tot.demux p ⟨1773000000, [.d58 ⟨[cet.item]⟩, .d58 ⟨[newfoundland.item]⟩]⟩ 0x14 0 [] = .ok (cc', pks.flatten) ∧
    ∀ src : Source, Steady src → Carries 0x14 src.data pks → ∀ buf : List UInt8, 188 ≤ buf.length → ∀ fuel, src.data.length < fuel →
      localTime p 0x14 Psi.default "DEU".toList 0 fuel src buf = .ok (some 1773003600) ∧
      localTime p 0x14 Psi.default "CAN".toList 1 fuel src buf = .ok (some 1772991000) ∧
      localTime p 0x14 Psi.default "CAN".toList 2 fuel src buf = .ok none := by
  obtain ⟨h1, h2, -⟩ := zones_ok
  obtain ⟨cc', pks, a, -, b⟩ := C153_local_partial p 1773000000 (by unfold TimeInRange; decide) [[cet], [newfoundland]]
    (by simp [h1, h2]) (by decide) (by decide) 0x14 0 Psi.default (by decide) (by decide)
  refine ⟨cc', pks, a, fun src hs hc buf hb fuel hf => ⟨?_, ?_, ?_⟩⟩
  all_goals
    refine (b src hs hc buf hb fuel hf _ _).trans (congrArg Except.ok ?_)
    decide

/-- India is five and a half hours ahead; without overflow checks it is shown as one hour and fourteen minutes ahead. -/
example : ∃ cc' pks, Tot.demux .release ⟨1773000000, [.d58 ⟨[india.item]⟩]⟩ 0x14 0 [] = .ok (cc', pks.flatten) ∧
    ∀ src : Source, Steady src → Carries 0x14 src.data pks → ∀ buf : List UInt8, 188 ≤ buf.length → ∀ fuel, src.data.length < fuel →
      localTime .debug 0x14 Psi.default "IND".toList 0 fuel src buf = panic ∧
      localTime .release 0x14 Psi.default "IND".toList 0 fuel src buf = .ok (some (1773000000 + 74 * 60)) := by
  obtain ⟨-, -, h3⟩ := zones_ok
  obtain ⟨cc', pks, a, -, b, -⟩ := C153_far_refuted 1773000000 (by unfold TimeInRange; decide) [[india]]
    (by simp [h3]) (by decide) (by decide) ⟨_, .head _, _, .head _, .inl (by decide)⟩ 0x14 0 Psi.default (by decide) (by decide)
  refine ⟨cc', pks, a .release, fun src hs hc buf hb fuel hf => ⟨(b src hs hc buf hb fuel hf _ _).1, ?_⟩⟩
  refine (b src hs hc buf hb fuel hf _ _).2.trans (congrArg Except.ok ?_)
  decide

end Mpegts
