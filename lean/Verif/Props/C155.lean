import Verif.Spec.Channels
import Verif.Props.C76
import Verif.Props.C106

/-! # C155: finding a channel by its number, and how to tune to it -/

namespace Mpegts
open Spec Spec.Table

namespace Channels

theorem word (n : UInt16) : (0x1F : UInt16) <<< 10 ||| n = (if 32768 ≤ n.toNat then (0x8000 : UInt16) else 0) ||| ((0x1F : UInt16) <<< 10 ||| n % 1024) := by
  have e : (if 32768 ≤ n.toNat then (0x8000 : UInt16) else 0) = n &&& 0x8000 := by
    apply UInt16.toNat_inj.1
    have h : (n &&& 0x8000).toNat = n.toNat / 32768 % 2 * 32768 := by
      rw [UInt16.toNat_and]
      apply Nat.eq_of_testBit_eq
      intro i
      rw [Nat.testBit_and, show UInt16.toNat 0x8000 = 2 ^ 15 from rfl, show (32768:Nat) = 2 ^ 15 from rfl, Nat.testBit_two_pow, Nat.testBit_mul_two_pow]
      rcases Nat.lt_trichotomy i 15 with h | h | h
      · simp [show ¬ 15 = i by omega, show ¬ 15 ≤ i by omega]
      · subst h; simp [Nat.testBit_eq_decide_div_mod_eq]
      · have : ((n.toNat / 2 ^ 15) % 2).testBit (i - 15) = false := by
          apply Nat.testBit_lt_two_pow
          have : 2 ^ 1 ≤ 2 ^ (i - 15) := Nat.pow_le_pow_right (by decide) (by omega)
          omega
        rw [this, decide_eq_false (show ¬ 15 = i by omega), Bool.and_false, Bool.and_false]
    rw [h]
    have := n.toNat_lt
    split
    · show 32768 = _; omega
    · show 0 = _; omega
  have e2 : n % 1024 = n &&& 0x3FF := by
    apply UInt16.toNat_inj.1
    rw [UInt16.toNat_mod, UInt16.toNat_and]
    exact (Nat.and_two_pow_sub_one_eq_mod n.toNat 10).symm
  rw [e, e2]
  have : ∀ i : Fin 16, (((0x1F : UInt16) <<< 10).toBitVec ||| n.toBitVec)[i] = ((n.toBitVec &&& 0x8000#16) ||| (((0x1F : UInt16) <<< 10).toBitVec ||| (n.toBitVec &&& 0x3FF#16)))[i] := by
    intro i
    simp only [Fin.getElem_fin, BitVec.getElem_or, BitVec.getElem_and]
    generalize n.toBitVec[i.val] = b
    revert b
    revert i
    decide
  apply UInt16.toBitVec_inj.1
  apply BitVec.eq_of_getElem_eq
  intro i hi
  exact this ⟨i, hi⟩

def seenNumber (i : Desc83i) : Desc83i := { i with
  visible := if 32768 ≤ i.lcn.toNat then 1 else i.visible
  lcn := i.lcn % 1024 }

/-- A descriptor that is sent as the same bytes. -/
def seenDesc : Desc → Desc
  | .d43 d => (Delivery.satellite d).rounded.desc
  | .d44 d => (Delivery.cable d).rounded.desc
  | .d5A d => (Delivery.terrestrial d).rounded.desc
  | .d83 d => .d83 ⟨d.items.map seenNumber⟩
  | d => d

theorem seen_word (i : Desc83i) : setBits16 16 [((seenNumber i).visible.toUInt16, 1), (0x1F, 5), ((seenNumber i).lcn, 10)] =
    setBits16 16 [(i.visible.toUInt16, 1), (0x1F, 5), (i.lcn, 10)] := by
  have hw : ∀ v n : UInt16, setBits16 16 [(v, 1), (0x1F, 5), (n, 10)] = v <<< 15 ||| ((0x1F : UInt16) <<< 10 ||| n) := by
    intro v n
    show v <<< 15 ||| ((0x1F : UInt16) <<< 10 ||| n <<< 0) = _
    rw [UInt16.shiftLeft_zero]
  rw [hw, hw, word i.lcn, seenNumber]
  simp only []
  have hv : ∀ v : UInt8, v.toUInt16 <<< 15 ||| (0x8000 : UInt16) = (1 : UInt8).toUInt16 <<< 15 := by decide +kernel
  split
  · rw [← UInt16.or_assoc (i.visible.toUInt16 <<< 15), hv]
  · rw [UInt16.zero_or]

theorem u32_step (f : UInt32) (n : Nat) (k : UInt32) (hk : k.toNat = n) (hn : 0 < n) : UInt32.ofNat (f.toNat / n * n) / k = f / k := by
  apply UInt32.toNat_inj.1
  have := f.toNat_lt
  have h2 := Nat.div_mul_le_self f.toNat n
  rw [UInt32.toNat_div, UInt32.toNat_div, hk, UInt32.toNat_ofNat', Nat.mod_eq_of_lt (by omega), Nat.mul_div_cancel _ hn]

theorem u16_step (f : UInt16) : UInt16.ofNat (f.toNat / 6 * 6) / 6 = f / 6 := by
  apply UInt16.toNat_inj.1
  have := f.toNat_lt
  rw [UInt16.toNat_div, UInt16.toNat_div, UInt16.toNat_ofNat', Nat.mod_eq_of_lt (by omega)]
  exact Nat.mul_div_cancel _ (by decide)

theorem desc_size (d : Desc) : (seenDesc d).size = d.size := by
  cases d <;> simp [seenDesc, Delivery.rounded, Delivery.desc, Desc.size, Desc83.size, Desc43.size, Desc44.size, Desc5A.size]

theorem loop83 (l : List Desc83i) (skip : Nat) (b : List UInt8) : Desc83.assembleLoop (l.map seenNumber) skip b = Desc83.assembleLoop l skip b := by
  induction l generalizing skip b with
  | nil => rfl
  | cons i l ih =>
    simp only [List.map_cons, Desc83.assembleLoop, seen_word, ih]
    rfl

theorem desc_assemble (p : Profile) (d : Desc) (b : List UInt8) : (seenDesc d).assemble p b = d.assemble p b := by
  cases d with
  | d43 d =>
    simp only [seenDesc, Delivery.rounded, Delivery.desc, Desc.assemble, Desc43.assemble, u32_step d.frequency 10 10 rfl (by decide), u16_step,
      Desc43.size]
  | d44 d =>
    simp only [seenDesc, Delivery.rounded, Delivery.desc, Desc.assemble, Desc44.assemble, u32_step d.frequency 100 100 rfl (by decide), Desc44.size]
  | d5A d =>
    simp only [seenDesc, Delivery.rounded, Delivery.desc, Desc.assemble, Desc5A.assemble, u32_step d.frequency 10 10 rfl (by decide)]
  | d83 d => simp only [seenDesc, Desc.assemble, Desc83.assemble, Desc83.size, List.length_map, loop83]
  | _ => rfl

theorem list_size (ds : Descriptors) : Descriptors.size (ds.map seenDesc) = Descriptors.size ds := by
  simp only [Descriptors.size, List.foldl_map, desc_size]

theorem list_assemble (p : Profile) (ds : Descriptors) (b : List UInt8) : Descriptors.assemble p (ds.map seenDesc) b = Descriptors.assemble p ds b := by
  have : ∀ b, Descriptors.assembleLoop p (ds.map seenDesc) b = Descriptors.assembleLoop p ds b := by
    induction ds with
    | nil => intro b; rfl
    | cons d r ih => intro b; simp only [List.map_cons, Descriptors.assembleLoop, desc_assemble, ih]
  unfold Descriptors.assemble
  rw [this]

def seenItem (i : NitItem) : NitItem := { i with descriptors := i.descriptors.map seenDesc }

theorem nit_demux (p : Profile) (t : Nit) (pid : UInt16) (cc : UInt8) (dst : List UInt8) :
    Nit.demux p { t with items := t.items.map seenItem } pid cc dst = t.demux p pid cc dst := by
  have e : ∀ f, Nit.psiInit p { t with items := t.items.map seenItem } f = t.psiInit p f := by intro f; rfl
  have h : ∀ (l : List NitItem) (t t' : Nit) (ht : ∀ f, t.psiInit p f = t'.psiInit p f) (done : List Psi) (psi : Psi),
      Nit.assembleLoop p t (l.map seenItem) done psi = Nit.assembleLoop p t' l done psi := by
    intro l t t' ht
    induction l with
    | nil => intro done psi; rfl
    | cons i l ih =>
      intro done psi
      have e1 : (seenItem i).size = i.size := by simp [NitItem.size, seenItem, list_size]
      have e2 : ∀ b, (seenItem i).assemble p b = i.assemble p b := by intro b; simp [NitItem.assemble, seenItem, list_assemble]
      simp only [List.map_cons, Nit.assembleLoop, e1, e2, ih, ht]
  unfold Nit.demux Nit.psiListAssemble
  simp only [e, h t.items _ _ e]

theorem blurred_entry (m : Multiplex) (ho : ∀ d ∈ m.others, Unrelated d) : m.blurred.entry = seenItem m.entry := by
  have h1 : m.others.map seenDesc = m.others := by
    conv_rhs => rw [← List.map_id m.others]
    refine List.map_congr_left fun d hd => ?_
    have := ho d hd
    cases d <;> first | rfl | exact this.elim
  have h2 : m.delivery.rounded.desc = seenDesc m.delivery.desc := by cases m.delivery <;> rfl
  rw [seenItem, Multiplex.entry, Multiplex.entry]
  simp only [Multiplex.blurred, List.cons_append, List.nil_append, List.map_cons, h1, h2, seenDesc, List.map_map]
  have h3 : (channelEntry ∘ fun c : UInt16 × Bool × UInt16 => (c.1, c.2.1 || decide (32768 ≤ c.2.2.toNat), c.2.2 % 1024)) = seenNumber ∘ channelEntry := by
    funext c
    simp only [Function.comp, channelEntry, seenNumber]
    by_cases h : 32768 ≤ c.2.2.toNat
    · simp [h]
    · simp [h]
  rw [h3]

theorem read (m : Multiplex) (ho : ∀ d ∈ m.others, Unrelated d) (number : UInt16) : channelsIn number m.entry = m.numbered number := by
  have h1 : m.others.flatMap asNumbers = [] := by
    rw [List.flatMap_eq_nil_iff]
    intro d hd
    have := ho d hd
    cases d <;> first | rfl | exact this.elim
  have h2 : m.others.flatMap asServices = [] := by
    rw [List.flatMap_eq_nil_iff]
    intro d hd
    have := ho d hd
    cases d <;> first | rfl | exact this.elim
  have h3 : m.others.filterMap asDelivery = [] := by
    rw [List.filterMap_eq_nil_iff]
    intro d hd
    have := ho d hd
    cases d <;> first | rfl | exact this.elim
  have n1 : asNumbers m.delivery.desc = [] := by cases m.delivery <;> rfl
  have n2 : asServices m.delivery.desc = [] := by cases m.delivery <;> rfl
  have n3 : asDelivery m.delivery.desc = some m.delivery := by cases m.delivery <;> rfl
  have e1 : m.entry.descriptors.flatMap asNumbers = m.channels.map channelEntry := by
    simp only [Multiplex.entry, List.cons_append, List.nil_append, List.flatMap_cons, h1, n1, List.append_nil]; rfl
  have e2 : m.entry.descriptors.flatMap asServices = m.services.map serviceEntry := by
    simp only [Multiplex.entry, List.cons_append, List.nil_append, List.flatMap_cons, h2, n2, List.append_nil]; exact List.append_nil _
  have e3 : m.entry.descriptors.filterMap asDelivery = [m.delivery] := by
    rw [Multiplex.entry]
    simp only [List.cons_append, List.nil_append]
    rw [List.filterMap_cons_some n3, List.filterMap_cons_none rfl, List.filterMap_cons_none rfl, h3]
  rw [channelsIn, e1, e2, e3, Multiplex.numbered, List.filter_map, List.map_map]
  refine List.map_congr_left fun c _ => ?_
  simp only [Function.comp, channelEntry, Channel.mk.injEq, true_and, and_true]
  refine ⟨rfl, rfl, by obtain ⟨_, v, _⟩ := c; cases v <;> rfl, ?_⟩
  rw [List.filter_map, List.map_map]
  rfl

theorem rounded_exact (d : Delivery) : d.rounded.desc.Exact := by
  have h : ∀ (f : UInt32) (n : Nat), n ∣ (UInt32.ofNat (f.toNat / n * n)).toNat := by
    intro f n
    have := f.toNat_lt
    have h2 := Nat.div_mul_le_self f.toNat n
    rw [UInt32.toNat_ofNat', Nat.mod_eq_of_lt (by omega)]
    exact Nat.dvd_mul_left _ _
  cases d with
  | satellite d =>
    refine ⟨h _ _, ?_⟩
    show 6 ∣ (UInt16.ofNat (d.orbitalPosition.toNat / 6 * 6)).toNat
    have := d.orbitalPosition.toNat_lt
    rw [UInt16.toNat_ofNat', Nat.mod_eq_of_lt (by omega)]
    exact Nat.dvd_mul_left _ _
  | cable d => exact h _ _
  | terrestrial d => exact h _ _

theorem onGrid (d : Delivery) (h : d.OnGrid) : d.rounded = d := by
  have e : ∀ (f : UInt32) (n : Nat), n ∣ f.toNat → UInt32.ofNat (f.toNat / n * n) = f := by
    intro f n h
    rw [Nat.div_mul_cancel h, UInt32.ofNat_toNat]
  cases d with
  | satellite d =>
    simp only [Delivery.rounded, e _ _ h.1, Nat.div_mul_cancel h.2, UInt16.ofNat_toNat]
  | cable d => simp only [Delivery.rounded, e _ _ h]
  | terrestrial d => simp only [Delivery.rounded, e _ _ h]

theorem small (m : Multiplex) (hd : m.delivery.OnGrid) (hc : ∀ c ∈ m.channels, c.2.2.toNat < 1024) : m.blurred = m := by
  have h : (m.channels.map fun c => (c.1, c.2.1 || decide (32768 ≤ c.2.2.toNat), c.2.2 % 1024)) = m.channels := by
    conv_rhs => rw [← List.map_id m.channels]
    refine List.map_congr_left fun c hc' => ?_
    have := hc c hc'
    have e : c.2.2 % 1024 = c.2.2 := by
      apply UInt16.toNat_inj.1
      rw [UInt16.toNat_mod]
      exact Nat.mod_eq_of_lt this
    rw [e, decide_eq_false (by omega), Bool.or_false]
    rfl
  unfold Multiplex.blurred
  rw [onGrid _ hd, h]

end Channels


/-- C155, what is found in general: whatever the frequencies, positions and numbers, the channels of the transport streams with their
frequencies and orbital positions rounded down to the steps of the standard and their numbers modulo 1024. -/
theorem C155_found (p : Profile) (t : Nit) (ms : List Multiplex) (ht : t.items = ms.map Multiplex.entry)
    (hid : t.tableId = 0x40 ∨ t.tableId = 0x41) (hv : t.version.toNat < 32) (hn : Nit.NetworkFits t ∧ ∀ d ∈ t.descriptors, d.Exact)
    (hr : ∀ m ∈ ms, Nit.ItemFits m.blurred.entry) (ho : ∀ m ∈ ms, ∀ d ∈ m.others, d.Exact ∧ Unrelated d)
    (pid : UInt16) (cc : UInt8) (s : Psi) (hp : pid.toNat < 8192) (hc : cc.toNat < 16) :
    ∃ cc' pks, t.demux p pid cc [] = .ok (cc', pks.flatten) ∧ (∀ pk ∈ pks, IsTsPacket pid.toNat pk) ∧
      ∀ src : Source, Steady src → Carries pid.toNat src.data pks → ∀ buf : List UInt8, 188 ≤ buf.length → ∀ fuel, src.data.length < fuel →
        ∀ number, findChannel p pid.toNat s number fuel src buf = .ok (ms.flatMap fun m => m.blurred.numbered number) := by
  have hu : ∀ m ∈ ms, ∀ d ∈ m.others, Unrelated d := fun m hm d hd => (ho m hm d hd).2
  have hitems : t.items.map Channels.seenItem = ms.map fun m => m.blurred.entry := by
    rw [ht, List.map_map]
    exact List.map_congr_left fun m hm => (Channels.blurred_entry m (hu m hm)).symm
  have hfits : Nit.Fits { t with items := t.items.map Channels.seenItem } := by
    refine ⟨hid, hv, hn, ?_⟩
    intro i hi
    simp only [hitems] at hi
    obtain ⟨m, hm, rfl⟩ := List.mem_map.1 hi
    refine ⟨hr m hm, ?_⟩
    intro d hd
    simp only [Multiplex.entry, List.cons_append, List.nil_append, List.mem_cons] at hd
    rcases hd with rfl | rfl | rfl | hd
    · exact Channels.rounded_exact m.delivery
    · trivial
    · trivial
    · exact (ho m hm d hd).1
  obtain ⟨cc', pks, s', h1, h2, h3⟩ := Nit.round_trip_fits p _ hfits pid cc [] s hp hc
  rw [Channels.nit_demux] at h1
  refine ⟨cc', pks, h1, h2, fun src hs hcar buf hb fuel hf number => ?_⟩
  rw [findChannel, (C76_listen _ p _ _ s src hs pks hcar buf hb fuel hf).trans h3, ok_bind]
  simp only [hitems, pure_eq_ok, List.flatMap_map]
  refine congrArg Except.ok ?_
  rw [List.flatMap_def, List.flatMap_def]
  refine congrArg List.flatten (List.map_congr_left fun m hm => ?_)
  exact Channels.read m.blurred (hu m hm) number

/-- C155, what holds: with frequencies and orbital positions on the grid of the standard and numbers below 1024, whoever receives the NIT finds
for every number exactly the channels that have it, with all parameters as they were given. -/
theorem C155_channel_partial (p : Profile) (t : Nit) (ms : List Multiplex) (ht : t.items = ms.map Multiplex.entry)
    (hid : t.tableId = 0x40 ∨ t.tableId = 0x41) (hv : t.version.toNat < 32) (hn : Nit.NetworkFits t ∧ ∀ d ∈ t.descriptors, d.Exact)
    (hr : ∀ m ∈ ms, Nit.ItemFits m.entry ∧ m.delivery.OnGrid) (ho : ∀ m ∈ ms, ∀ d ∈ m.others, d.Exact ∧ Unrelated d)
    (pid : UInt16) (cc : UInt8) (s : Psi) (hp : pid.toNat < 8192) (hc : cc.toNat < 16) :
    ∃ cc' pks, t.demux p pid cc [] = .ok (cc', pks.flatten) ∧ (∀ pk ∈ pks, IsTsPacket pid.toNat pk) ∧
      ∀ src : Source, Steady src → Carries pid.toNat src.data pks → ∀ buf : List UInt8, 188 ≤ buf.length → ∀ fuel, src.data.length < fuel →
        ∀ number, findChannel p pid.toNat s number fuel src buf = .ok (ms.flatMap fun m => m.numbered number) := by
  have hb : ∀ m ∈ ms, m.blurred = m := by
    intro m hm
    refine Channels.small m (hr m hm).2 fun c hc => ?_
    have := ((hr m hm).1.1 (.d83 ⟨m.channels.map channelEntry⟩) (by simp [Multiplex.entry])).1
    exact (this.1 _ (List.mem_map_of_mem hc)).2
  obtain ⟨cc', pks, h1, h2, h3⟩ := C155_found p t ms ht hid hv hn (fun m hm => by rw [hb m hm]; exact (hr m hm).1) ho pid cc s hp hc
  refine ⟨cc', pks, h1, h2, fun src hs hcar buf hb' fuel hf number => (h3 src hs hcar buf hb' fuel hf number).trans ?_⟩
  refine congrArg Except.ok ?_
  rw [List.flatMap_def, List.flatMap_def]
  exact congrArg List.flatten (List.map_congr_left fun m hm => by rw [hb m hm])

/-- C155 fails off the grid: a transport stream whose frequency or orbital position is between two steps is announced, but with parameters that
are not its own, whichever of its channels is looked for. -/
theorem C155_grid_refuted (p : Profile) (t : Nit) (m : Multiplex) (ht : t.items = [m.entry])
    (hid : t.tableId = 0x40 ∨ t.tableId = 0x41) (hv : t.version.toNat < 32) (hn : Nit.NetworkFits t ∧ ∀ d ∈ t.descriptors, d.Exact)
    (hr : Nit.ItemFits m.blurred.entry) (hg : ¬ m.delivery.OnGrid) (ho : ∀ d ∈ m.others, d.Exact ∧ Unrelated d)
    (pid : UInt16) (cc : UInt8) (s : Psi) (hp : pid.toNat < 8192) (hc : cc.toNat < 16) :
    ∃ cc' pks, t.demux p pid cc [] = .ok (cc', pks.flatten) ∧ (∀ pk ∈ pks, IsTsPacket pid.toNat pk) ∧
      ∀ src : Source, Steady src → Carries pid.toNat src.data pks → ∀ buf : List UInt8, 188 ≤ buf.length → ∀ fuel, src.data.length < fuel →
        ∀ number, ∃ found, findChannel p pid.toNat s number fuel src buf = .ok found ∧
          (∀ c ∈ found, m.delivery ∉ c.delivery ∧ c.delivery = [m.delivery.rounded]) ∧
          ∀ c ∈ m.channels, c.2.2 = number → number.toNat < 1024 → ∃ f ∈ found, f.service = c.1 := by
  obtain ⟨cc', pks, h1, h2, h3⟩ := C155_found p t [m] ht hid hv hn (by simpa using hr) (by simpa using ho) pid cc s hp hc
  refine ⟨cc', pks, h1, h2, fun src hs hcar buf hb fuel hf number => ⟨_, h3 src hs hcar buf hb fuel hf number, ?_, ?_⟩⟩
  · intro c hc'
    rw [List.flatMap_cons, List.flatMap_nil, List.append_nil] at hc'
    obtain ⟨x, -, rfl⟩ := List.mem_map.1 hc'
    refine ⟨?_, rfl⟩
    intro h
    rw [List.mem_singleton] at h
    apply hg
    have := Channels.rounded_exact m.delivery
    rw [show m.delivery.rounded = m.delivery from h.symm] at this
    revert this
    cases m.delivery <;> exact id
  · intro c hc' e hlt
    rw [List.flatMap_cons, List.flatMap_nil, List.append_nil]
    refine ⟨_, List.mem_map_of_mem (List.mem_filter.2 ⟨List.mem_map_of_mem hc', ?_⟩), rfl⟩
    rw [decide_eq_true_iff]
    show c.2.2 % 1024 = number
    rw [e]
    apply UInt16.toNat_inj.1
    rw [UInt16.toNat_mod]
    exact Nat.mod_eq_of_lt hlt

/-- C155 fails for numbers from 1024 on: such a channel is sent, but nothing is found under its number; it is found under its number modulo
1024, among those that have that number, and from 32768 on it is shown even if it is to be hidden. -/
theorem C155_number_refuted (p : Profile) (t : Nit) (ms : List Multiplex) (ht : t.items = ms.map Multiplex.entry)
    (hid : t.tableId = 0x40 ∨ t.tableId = 0x41) (hv : t.version.toNat < 32) (hn : Nit.NetworkFits t ∧ ∀ d ∈ t.descriptors, d.Exact)
    (hr : ∀ m ∈ ms, Nit.ItemFits m.blurred.entry) (ho : ∀ m ∈ ms, ∀ d ∈ m.others, d.Exact ∧ Unrelated d)
    (m : Multiplex) (hm : m ∈ ms) (c : UInt16 × Bool × UInt16) (hm' : c ∈ m.channels) (hbig : 1024 ≤ c.2.2.toNat)
    (pid : UInt16) (cc : UInt8) (s : Psi) (hp : pid.toNat < 8192) (hc : cc.toNat < 16) :
    ∃ cc' pks, t.demux p pid cc [] = .ok (cc', pks.flatten) ∧ (∀ pk ∈ pks, IsTsPacket pid.toNat pk) ∧
      ∀ src : Source, Steady src → Carries pid.toNat src.data pks → ∀ buf : List UInt8, 188 ≤ buf.length → ∀ fuel, src.data.length < fuel →
        findChannel p pid.toNat s c.2.2 fuel src buf = .ok [] ∧
        ∃ found, findChannel p pid.toNat s (c.2.2 % 1024) fuel src buf = .ok found ∧
          ∃ f ∈ found, f.onid = m.onid ∧ f.tsid = m.tsid ∧ f.service = c.1 ∧ f.shown = (c.2.1 || 32768 ≤ c.2.2.toNat) := by
  obtain ⟨cc', pks, h1, h2, h3⟩ := C155_found p t ms ht hid hv hn hr ho pid cc s hp hc
  refine ⟨cc', pks, h1, h2, fun src hs hcar buf hb fuel hf => ⟨(h3 src hs hcar buf hb fuel hf _).trans (congrArg Except.ok ?_), _,
    h3 src hs hcar buf hb fuel hf _, ?_⟩⟩
  · rw [List.flatMap_eq_nil_iff]
    intro m' _
    rw [Multiplex.numbered, List.map_eq_nil_iff, List.filter_eq_nil_iff]
    intro x hx
    obtain ⟨y, -, rfl⟩ := List.mem_map.1 hx
    rw [decide_eq_true_iff]
    intro e
    have := congrArg UInt16.toNat (show y.2.2 % 1024 = c.2.2 from e)
    rw [UInt16.toNat_mod] at this
    have hlt : y.2.2.toNat % UInt16.toNat 1024 < 1024 := Nat.mod_lt _ (by decide)
    omega
  · exact ⟨_, List.mem_flatMap.2 ⟨m, hm, List.mem_map_of_mem (List.mem_filter.2 ⟨List.mem_map_of_mem hm', decide_eq_true rfl⟩)⟩, rfl, rfl, rfl, rfl⟩

/-! ## Concrete cases -/

/-- A cable network with two transport streams. -/
def cableNews : Multiplex := ⟨1, 0x1000, .cable ⟨346000000, 2, 5, 6875, 0⟩, [(0x21, 1), (0x22, 2)], [(0x21, true, 25), (0x22, false, 700)], []⟩
def cableFilms : Multiplex := ⟨2, 0x1000, .cable ⟨354000050, 2, 5, 6900, 0⟩, [(0x31, 25)], [(0x31, true, 1049), (0x31, false, 40000)], [.raw ⟨0x5F, [0, 0, 0, 0x28]⟩]⟩

theorem cable_ok : Nit.ItemFits cableNews.entry ∧ cableNews.delivery.OnGrid ∧ Nit.ItemFits cableFilms.blurred.entry ∧ ¬ cableFilms.delivery.OnGrid := by
  refine ⟨⟨?_, by decide +kernel⟩, show 100 ∣ (346000000 : UInt32).toNat by decide, ⟨?_, by decide +kernel⟩,
    show ¬ 100 ∣ (354000050 : UInt32).toNat by decide⟩
  all_goals
    intro d hd
    simp only [Multiplex.entry, cableNews, cableFilms, Multiplex.blurred, Delivery.rounded, Delivery.desc, List.cons_append, List.nil_append,
      List.mem_cons, List.not_mem_nil, or_false] at hd
    rcases hd with rfl | rfl | rfl | rfl <;> simp only [Desc.InRange, Desc.HasItems] <;> decide +kernel

/-- The NIT of both: entering 25 finds two channels, one of which has the number 1049; nothing is found under 1049 and 40000. -/
example (p : Profile) : ∃ cc' pks, Nit.demux p ⟨0x40, 3, 0x3001, [], [cableNews.entry, cableFilms.entry]⟩ 0x10 0 [] = .ok (cc', pks.flatten) ∧
    ∀ src : Source, Steady src → Carries 0x10 src.data pks → ∀ buf : List UInt8, 188 ≤ buf.length → ∀ fuel, src.data.length < fuel →
      findChannel p 0x10 Psi.default 25 fuel src buf = .ok [⟨0x1000, 1, 0x21, true, [1], [.cable ⟨346000000, 2, 5, 6875, 0⟩]⟩,
        ⟨0x1000, 2, 0x31, true, [25], [.cable ⟨354000000, 2, 5, 6900, 0⟩]⟩] ∧
      findChannel p 0x10 Psi.default 1049 fuel src buf = .ok [] ∧
      findChannel p 0x10 Psi.default 64 fuel src buf = .ok [⟨0x1000, 2, 0x31, true, [25], [.cable ⟨354000000, 2, 5, 6900, 0⟩]⟩] := by
  obtain ⟨a1, a2, a3, a4⟩ := cable_ok
  have hf : Nit.ItemFits cableNews.blurred.entry := by rw [Channels.small cableNews a2 (by decide)]; exact a1
  obtain ⟨cc', pks, h1, -, h3⟩ := C155_found p ⟨0x40, 3, 0x3001, [], [cableNews.entry, cableFilms.entry]⟩ [cableNews, cableFilms] rfl (.inl rfl)
    (by decide) ⟨⟨by simp [Good], by simp⟩, by simp⟩
    (by intro m hm; simp only [List.mem_cons, List.not_mem_nil, or_false] at hm; rcases hm with rfl | rfl; exacts [hf, a3])
    (by
      intro m hm d hd
      simp only [List.mem_cons, List.not_mem_nil, or_false] at hm
      rcases hm with rfl | rfl
      · cases hd
      · simp only [cableFilms, List.mem_singleton] at hd
        subst hd
        exact ⟨by simp only [Desc.Exact]; decide, trivial⟩)
    0x10 0 Psi.default (by decide) (by decide)
  exact ⟨cc', pks, h1, fun src hs hc buf hb fuel hf =>
    ⟨(h3 src hs hc buf hb fuel hf 25).trans (congrArg Except.ok (by decide)), (h3 src hs hc buf hb fuel hf 1049).trans (congrArg Except.ok (by decide)),
      (h3 src hs hc buf hb fuel hf 64).trans (congrArg Except.ok (by decide))⟩⟩

/-- The first alone: everything as given. -/
example (p : Profile) : ∃ cc' pks, Nit.demux p ⟨0x40, 3, 0x3001, [], [cableNews.entry]⟩ 0x10 0 [] = .ok (cc', pks.flatten) ∧
    ∀ src : Source, Steady src → Carries 0x10 src.data pks → ∀ buf : List UInt8, 188 ≤ buf.length → ∀ fuel, src.data.length < fuel →
      findChannel p 0x10 Psi.default 700 fuel src buf = .ok [⟨0x1000, 1, 0x22, false, [2], [.cable ⟨346000000, 2, 5, 6875, 0⟩]⟩] := by
  obtain ⟨a1, a2, a3, a4⟩ := cable_ok
  obtain ⟨cc', pks, h1, -, h3⟩ := C155_channel_partial p ⟨0x40, 3, 0x3001, [], [cableNews.entry]⟩ [cableNews] rfl (.inl rfl)
    (by decide) ⟨⟨by simp [Good], by simp⟩, by simp⟩ (by simpa using ⟨a1, a2⟩) (by simp [cableNews]) 0x10 0 Psi.default (by decide) (by decide)
  exact ⟨cc', pks, h1, fun src hs hc buf hb fuel hf => (h3 src hs hc buf hb fuel hf 700).trans (congrArg Except.ok (by decide))⟩

end Mpegts
