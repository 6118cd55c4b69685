import Verif.Props.C81
import Verif.Props.C34_C39

/-! # C95: relaying received descriptors

A remultiplexer parses the descriptors it receives and assembles them again.  `Relayed` lists, in terms of the standard's
own encodings, what comes out byte for byte as it came in; the theorems after it say what becomes of the rest. -/

namespace Mpegts
open Spec

/-- Receive one descriptor and send it on. -/
def relay (p : Profile) (s buf : List UInt8) : R (List UInt8) := do
  let d ← Desc.parse p s
  d.assemble p buf

/-- Receive a descriptor loop and send it on. -/
def relayLoop (p : Profile) (s buf : List UInt8) : R (Nat × List UInt8) := do
  let ds ← Descriptors.parse p [] s
  Descriptors.assemble p ds buf

/-- The descriptors that survive unchanged, as the standards encode them (texts: `Kept`, see C26). -/
inductive Relayed : List UInt8 → Prop
  | uninterpreted (t : UInt8) (body : List UInt8) (h : KeptRaw t body) (hb : body.length ≤ 255) :
      Relayed (Descriptor.descriptor t.toNat body)
  | conditionalAccess (caid pid : Nat) (priv : List UInt8) (h1 : caid < 2 ^ 16) (h2 : pid < 2 ^ 13) (h3 : priv.length ≤ 251) :
      Relayed (Descriptor.conditionalAccess caid pid priv)
  | language (items : List (List UInt8 × Nat)) (h : ∀ i ∈ items, i.1.length = 3 ∧ Kept i.1 ∧ i.2 < 256) (hn : items.length ≤ 63) :
      Relayed (Descriptor.language items)
  | maximumBitrate (rate : Nat) (h : rate < 2 ^ 22) : Relayed (Descriptor.maximumBitrate rate)
  | networkName (name : List UInt8) (h : Kept name) (hl : name.length ≤ 255) : Relayed (Descriptor.networkName name)
  | serviceList (items : List (Nat × Nat)) (h : ∀ i ∈ items, i.1 < 2 ^ 16 ∧ i.2 < 256) (hn : items.length ≤ 85) :
      Relayed (Descriptor.serviceList items)
  | satellite (f o a b c d e s fec : Nat) (hf : f < 10 ^ 8) (ho : o < 10 ^ 4) (ha : a < 2) (hb : b < 4) (hc : c < 4) (hd : d < 2)
      (he : e < 4) (hs : s < 10 ^ 7) (hfec : fec < 16) (h10 : 10 ∣ s) : Relayed (Descriptor.satellite f o a b c d e s fec)
  | cable (f o m s fec : Nat) (hf : f < 10 ^ 8) (ho : o < 16) (hm : m < 256) (hs : s < 10 ^ 7) (hfec : fec < 16)
      (hr : f * 100 < 2 ^ 32) (h10 : 10 ∣ s) : Relayed (Descriptor.cable f o m s fec)
  | service (type : Nat) (provider name : List UInt8) (ht : type < 256) (h : 3 + provider.length + name.length ≤ 255)
      (h1 : Kept provider) (h2 : Kept name) : Relayed (Descriptor.service type provider name)
  | shortEvent (lang name txt : List UInt8) (hl : lang.length = 3) (h : 5 + name.length + txt.length ≤ 255)
      (h1 : Kept lang) (h2 : Kept name) (h3 : Kept txt) : Relayed (Descriptor.shortEvent lang name txt)
  | extendedEvent (number last : Nat) (lang txt : List UInt8) (h1 : number < 16) (h2 : last < 16) (hl : lang.length = 3)
      (h : 6 + txt.length ≤ 255) (k1 : Kept lang) (k2 : Kept txt) : Relayed (Descriptor.extendedEvent number last lang [] txt)
  | streamIdentifier (tag : Nat) (h : tag < 256) : Relayed (Descriptor.streamIdentifier tag)
  | localTimeOffset (items : List Descriptor.Offset)
      (h : ∀ i ∈ items, Valid58 i ∧ i.offset < 300 ∧ i.next < 300 ∧ Kept i.country) (hn : items.length ≤ 19) :
      Relayed (Descriptor.localTimeOffset items)
  | terrestrial (f a b c d e g i j k l m : Nat) (hf : f * 10 < 2 ^ 32) (ha : a < 8) (hb : b < 2) (hc : c < 2) (hd : d < 2)
      (he : e < 4) (hg : g < 8) (hi : i < 8) (hj : j < 8) (hk : k < 4) (hl : l < 4) (hm : m < 2) :
      Relayed (Descriptor.terrestrial f a b c d e g i j k l m)
  | logicalChannels (items : List (Nat × Nat × Nat)) (h : ∀ i ∈ items, i.1 < 2 ^ 16 ∧ i.2.1 < 2 ∧ i.2.2 < 2 ^ 10)
      (hn : items.length ≤ 63) : Relayed (Descriptor.logicalChannels items)

theorem text_ofBytes (l : List UInt8) (h : Kept l) : text (StringDVB.ofBytes l) = l := by
  have := (C26_kept_iff l).2 h
  rwa [C24_assemble, List.nil_append] at this

theorem roundTrips_ofBytes (l : List UInt8) (h : Kept l) : roundTrips (StringDVB.ofBytes l) := by
  refine (C25_round_trip_iff _).1 ?_
  rw [(C26_kept_iff l).2 h]

theorem relay_of (p : Profile) (s : List UInt8) (d : Desc) (h : Desc.parse p s = .ok d) (hr : d.InRange) (ni : ¬ d.HasItems)
    (buf : List UInt8) : relay p s buf = .ok (buf ++ d.wire) := by
  rw [relay, h, ok_bind, C32_wire_format_partial p d buf hr ni]

theorem ofNat8 (n : Nat) (h : n < 256) : (UInt8.ofNat n).toNat = n := u8_ofNat_toNat n h
theorem ofNat16 (n : Nat) (h : n < 2 ^ 16) : (UInt16.ofNat n).toNat = n := by rw [UInt16.toNat_ofNat']; exact Nat.mod_eq_of_lt h
theorem ofNat32 (n : Nat) (h : n < 2 ^ 32) : (UInt32.ofNat n).toNat = n := by rw [UInt32.toNat_ofNat']; exact Nat.mod_eq_of_lt h
theorem ofNat64 (n : Nat) (h : n < 2 ^ 64) : (UInt64.ofNat n).toNat = n := by rw [UInt64.toNat_ofNat']; exact Nat.mod_eq_of_lt h

/-- What is received from a relayed descriptor: a value in range, without items, whose encoding is what was received. -/
theorem Relayed.parse {s : List UInt8} (h : Relayed s) (p : Profile) :
    ∃ d, Desc.parse p s = .ok d ∧ d.InRange ∧ d.Exact ∧ ¬ d.HasItems ∧ d.wire = s := by
  cases h with
  | uninterpreted t body h hb =>
    exact ⟨_, (C35_kept_verbatim p t body hb h).1, hb, h, id, rfl⟩
  | conditionalAccess caid pid priv h1 h2 h3 =>
    refine ⟨_, C81_conditional_access p caid pid priv h1 h2, ?_, ?_, id, ?_⟩
    · simp only [Desc.InRange]; rw [ofNat16 _ (by omega)]; exact ⟨h2, by omega⟩
    · exact trivial
    · simp only [Desc.wire]; rw [ofNat16 _ h1, ofNat16 _ (by omega)]
  | language items h hn =>
    refine ⟨_, C81_language p items fun i hi => (h i hi).1, ?_, ?_, id, ?_⟩
    · simp only [Desc.InRange, List.length_map, List.mem_map]
      refine ⟨?_, by omega⟩
      rintro _ ⟨i, hi, rfl⟩
      simp only [text_ofBytes _ (h i hi).2.1, (h i hi).1]
    · intro j hj
      obtain ⟨i, hi, rfl⟩ := List.mem_map.1 hj
      exact roundTrips_ofBytes _ (h i hi).2.1
    · simp only [Desc.wire, List.map_map]
      rw [map_id_of items _ fun i hi => ?_]
      simp only [Function.comp, text_ofBytes _ (h i hi).2.1, ofNat8 _ (h i hi).2.2]
  | maximumBitrate rate h =>
    refine ⟨_, C81_maximum_bitrate p rate h, ?_, ?_, id, ?_⟩
    · simp only [Desc.InRange]; rw [ofNat32 _ (by omega)]; exact h
    · exact trivial
    · simp only [Desc.wire]; rw [ofNat32 _ (by omega)]
  | networkName name h hl =>
    refine ⟨_, C81_network_name p name, ?_, ?_, id, ?_⟩
    · simp only [Desc.InRange, text_ofBytes _ h]; exact hl
    · exact roundTrips_ofBytes _ h
    · simp only [Desc.wire, text_ofBytes _ h]
  | serviceList items h hn =>
    refine ⟨_, C81_service_list p items h, ?_, ?_, id, ?_⟩
    · simp only [Desc.InRange, List.length_map]; omega
    · exact trivial
    · simp only [Desc.wire, List.map_map]
      rw [map_id_of items _ fun i hi => ?_]
      simp only [Function.comp, ofNat16 _ (h i hi).1, ofNat8 _ (h i hi).2]
  | satellite f o a b c d e s fec hf ho ha hb hc hd he hs hfec h10 =>
    have e1 := ofNat32 (f * 10) (by omega)
    have e2 := ofNat16 (o * 6) (by omega)
    have e3 := ofNat32 (s / 10) (by omega)
    have q1 := Nat.mul_div_cancel f (show 0 < 10 by omega)
    have q2 := Nat.mul_div_cancel o (show 0 < 6 by omega)
    refine ⟨_, C81_satellite p f o a b c d e s fec hf ho ha hb hc hd he hs hfec, ?_, ?_, id, ?_⟩
    · simp only [Desc.InRange, e1, e2, e3, ofNat8 a (by omega), ofNat8 b (by omega), ofNat8 c (by omega), ofNat8 d (by omega),
        ofNat8 e (by omega), ofNat8 fec (by omega), q1, q2]
      exact ⟨hf, ho, ha, hb, hc, hd, he, by omega, hfec⟩
    · exact ⟨by rw [e1]; exact Nat.dvd_mul_left _ _, by rw [e2]; exact Nat.dvd_mul_left _ _⟩
    · simp only [Desc.wire, e1, e2, e3, ofNat8 a (by omega), ofNat8 b (by omega), ofNat8 c (by omega), ofNat8 d (by omega),
        ofNat8 e (by omega), ofNat8 fec (by omega), q1, q2, Nat.div_mul_cancel h10]
  | cable f o m s fec hf ho hm hs hfec hr h10 =>
    have e1 := ofNat32 (f * 100) hr
    have e3 := ofNat32 (s / 10) (by omega)
    have q1 := Nat.mul_div_cancel f (show 0 < 100 by omega)
    refine ⟨_, C81_cable_partial p f o m s fec hf ho hm hs hfec hr, ?_, ?_, id, ?_⟩
    · simp only [Desc.InRange, e1, e3, ofNat8 o (by omega), ofNat8 fec (by omega), q1]
      exact ⟨hf, ho, by omega, hfec⟩
    · exact by show 100 ∣ _; rw [e1]; exact Nat.dvd_mul_left _ _
    · simp only [Desc.wire, e1, e3, ofNat8 o (by omega), ofNat8 m (by omega), ofNat8 fec (by omega), q1, Nat.div_mul_cancel h10]
  | service type provider name ht h h1 h2 =>
    refine ⟨_, C81_service p type provider name h, ?_, ?_, id, ?_⟩
    · simp only [Desc.InRange, text_ofBytes _ h1, text_ofBytes _ h2]; exact h
    · exact ⟨roundTrips_ofBytes _ h1, roundTrips_ofBytes _ h2⟩
    · simp only [Desc.wire, text_ofBytes _ h1, text_ofBytes _ h2, ofNat8 _ ht]
  | shortEvent lang name txt hl h h1 h2 h3 =>
    refine ⟨_, C81_short_event p lang name txt hl h, ?_, ?_, id, ?_⟩
    · simp only [Desc.InRange, text_ofBytes _ h1, text_ofBytes _ h2, text_ofBytes _ h3]; exact ⟨hl, h⟩
    · exact ⟨roundTrips_ofBytes _ h1, roundTrips_ofBytes _ h2, roundTrips_ofBytes _ h3⟩
    · simp only [Desc.wire, text_ofBytes _ h1, text_ofBytes _ h2, text_ofBytes _ h3]
  | extendedEvent number last lang txt h1 h2 hl h k1 k2 =>
    refine ⟨_, C81_extended_event p number last lang [] txt h1 h2 hl (by simpa using h), ?_, ?_, ?_, ?_⟩
    · simp only [Desc.InRange, text_ofBytes _ k1, text_ofBytes _ k2, ofNat8 number (by omega), ofNat8 last (by omega)]
      exact ⟨h1, h2, hl, by simpa using h⟩
    · exact ⟨roundTrips_ofBytes _ k1, by simp, roundTrips_ofBytes _ k2⟩
    · simp [Desc.HasItems]
    · simp only [Desc.wire, text_ofBytes _ k1, text_ofBytes _ k2, ofNat8 number (by omega), ofNat8 last (by omega), List.map_nil]
  | streamIdentifier tag h =>
    refine ⟨_, C81_stream_identifier p tag, trivial, trivial, id, ?_⟩
    simp only [Desc.wire, ofNat8 _ h]
  | localTimeOffset items h hn =>
    refine ⟨_, C81_local_time_offset_partial p items fun i hi => ⟨(h i hi).1, (h i hi).2.1, (h i hi).2.2.1⟩, ?_, ?_, id, ?_⟩
    · simp only [Desc.InRange, List.length_map, List.mem_map]
      refine ⟨?_, by omega⟩
      rintro _ ⟨i, hi, rfl⟩
      obtain ⟨⟨v1, v2, v3, v4, v5, v6⟩, o1, o2, k⟩ := h i hi
      simp only [unixEpochMjd] at v5 ⊢
      simp only [text_ofBytes _ k, ofNat8 i.region (by omega), ofNat8 i.polarity (by omega), ofNat16 i.offset (by omega),
        ofNat16 i.next (by omega), ofNat64 i.time (by omega)]
      exact ⟨v1, v2, v3, by omega, v5, by omega⟩
    · intro j hj
      obtain ⟨i, hi, rfl⟩ := List.mem_map.1 hj
      obtain ⟨v, o1, o2, k⟩ := h i hi
      exact ⟨roundTrips_ofBytes _ k, by rw [ofNat16 i.offset (by omega)]; exact o1, by rw [ofNat16 i.next (by omega)]; exact o2⟩
    · simp only [Desc.wire, List.map_map]
      rw [map_id_of items _ fun i hi => ?_]
      obtain ⟨⟨v1, v2, v3, v4, v5, v6⟩, o1, o2, k⟩ := h i hi
      simp only [unixEpochMjd] at v5
      simp only [Function.comp, text_ofBytes _ k, ofNat8 i.region (by omega), ofNat8 i.polarity (by omega), ofNat16 i.offset (by omega),
        ofNat16 i.next (by omega), ofNat64 i.time (by omega)]
  | terrestrial f a b c d e g i j k l m hf ha hb hc hd he hg hi hj hk hl hm =>
    have e1 := ofNat32 (f * 10) hf
    have q1 := Nat.mul_div_cancel f (show 0 < 10 by omega)
    refine ⟨_, C81_terrestrial_partial p f a b c d e g i j k l m (by omega) ha hb hc hd he hg hi hj hk hl hm hf, ?_, ?_, id, ?_⟩
    · simp only [Desc.InRange, ofNat8 a (by omega), ofNat8 b (by omega), ofNat8 c (by omega), ofNat8 d (by omega), ofNat8 e (by omega),
        ofNat8 g (by omega), ofNat8 i (by omega), ofNat8 j (by omega), ofNat8 k (by omega), ofNat8 l (by omega), ofNat8 m (by omega)]
      exact ⟨ha, hb, hc, hd, he, hg, hi, hj, hk, hl, hm⟩
    · exact by show 10 ∣ _; rw [e1]; exact Nat.dvd_mul_left _ _
    · simp only [Desc.wire, e1, q1, ofNat8 a (by omega), ofNat8 b (by omega), ofNat8 c (by omega), ofNat8 d (by omega), ofNat8 e (by omega),
        ofNat8 g (by omega), ofNat8 i (by omega), ofNat8 j (by omega), ofNat8 k (by omega), ofNat8 l (by omega), ofNat8 m (by omega)]
  | logicalChannels items h hn =>
    refine ⟨_, C81_logical_channels p items h, ?_, ?_, id, ?_⟩
    · simp only [Desc.InRange, List.length_map, List.mem_map]
      refine ⟨?_, by omega⟩
      rintro _ ⟨i, hi, rfl⟩
      obtain ⟨h1, h2, h3⟩ := h i hi
      simp only [ofNat8 i.2.1 (by omega), ofNat16 i.2.2 (by omega)]
      exact ⟨h2, h3⟩
    · exact trivial
    · simp only [Desc.wire, List.map_map]
      rw [map_id_of items _ fun i hi => ?_]
      obtain ⟨h1, h2, h3⟩ := h i hi
      simp only [Function.comp, ofNat16 i.1 h1, ofNat8 i.2.1 (by omega), ofNat16 i.2.2 (by omega)]

/-- C95: these descriptors come out as they came in. -/
theorem C95_descriptor_partial (p : Profile) (s buf : List UInt8) (h : Relayed s) : relay p s buf = .ok (buf ++ s) := by
  obtain ⟨d, h1, h2, -, h3, h4⟩ := h.parse p
  rw [relay_of p s d h1 h2 h3, h4]

/-- C95: so does a loop of them, of any length, and the returned count is its length. -/
theorem C95_loop_partial (p : Profile) (l : List (List UInt8)) (buf : List UInt8) (h : ∀ s ∈ l, Relayed s) :
    relayLoop p l.flatten buf = .ok (l.flatten.length, buf ++ l.flatten) := by
  have key : ∃ ds : List Desc, (∀ d ∈ ds, d.InRange ∧ ¬ d.HasItems) ∧ ds.map Desc.wire = l ∧ l.mapM (Desc.parse p) = .ok ds := by
    induction l with
    | nil => exact ⟨[], by simp, rfl, rfl⟩
    | cons s r ih =>
      obtain ⟨ds, a1, a2, a3⟩ := ih fun x hx => h x (List.mem_cons_of_mem _ hx)
      obtain ⟨d, h1, h2, -, h3, h4⟩ := (h s List.mem_cons_self).parse p
      refine ⟨d :: ds, ?_, by rw [List.map_cons, h4, a2], ?_⟩
      · intro x hx
        rcases List.mem_cons.1 hx with rfl | hx
        · exact ⟨h2, h3⟩
        · exact a1 x hx
      · rw [List.mapM_cons, h1, ok_bind, a3]; rfl
  obtain ⟨ds, a1, a2, a3⟩ := key
  have e : l.flatten = ds.flatMap Desc.wire := by rw [← a2, List.flatMap_def]
  have f := frames_wire ds (fun d hd => (a1 d hd).1) []
  rw [List.append_nil, show Descriptor.frames [] = [] by simp [Descriptor.frames], List.append_nil, a2] at f
  rw [relayLoop, C37_frames, e, f, a3]
  simp only [map_ok, ok_bind, List.nil_append]
  exact (C33_list_partial p ds buf a1).1

/-! ## What is changed on the way -/

/-- C95 fails for satellite and cable descriptors: the last of the seven digits of the symbol rate is replaced by 0. -/
theorem C95_satellite_refuted (p : Profile) (f o a b c d e s fec : Nat) (buf : List UInt8) (hf : f < 10 ^ 8) (ho : o < 10 ^ 4)
    (ha : a < 2) (hb : b < 4) (hc : c < 4) (hd : d < 2) (he : e < 4) (hs : s < 10 ^ 7) (hfec : fec < 16) :
    relay p (Descriptor.satellite f o a b c d e s fec) buf =
      .ok (buf ++ Descriptor.satellite f o a b c d e (s / 10 * 10) fec) := by
  have e1 := ofNat32 (f * 10) (by omega)
  have e2 := ofNat16 (o * 6) (by omega)
  have e3 := ofNat32 (s / 10) (by omega)
  have q1 := Nat.mul_div_cancel f (show 0 < 10 by omega)
  have q2 := Nat.mul_div_cancel o (show 0 < 6 by omega)
  rw [relay_of p _ _ (C81_satellite p f o a b c d e s fec hf ho ha hb hc hd he hs hfec) ?_ id]
  · simp only [Desc.wire, e1, e2, e3, ofNat8 a (by omega), ofNat8 b (by omega), ofNat8 c (by omega), ofNat8 d (by omega),
        ofNat8 e (by omega), ofNat8 fec (by omega), q1, q2]
  · simp only [Desc.InRange, e1, e2, e3, ofNat8 a (by omega), ofNat8 b (by omega), ofNat8 c (by omega), ofNat8 d (by omega),
        ofNat8 e (by omega), ofNat8 fec (by omega), q1, q2]
    exact ⟨hf, ho, ha, hb, hc, hd, he, by omega, hfec⟩

theorem C95_cable_refuted (p : Profile) (f o m s fec : Nat) (buf : List UInt8) (hf : f < 10 ^ 8) (ho : o < 16) (hm : m < 256)
    (hs : s < 10 ^ 7) (hfec : fec < 16) (hr : f * 100 < 2 ^ 32) :
    relay p (Descriptor.cable f o m s fec) buf = .ok (buf ++ Descriptor.cable f o m (s / 10 * 10) fec) := by
  have e1 := ofNat32 (f * 100) hr
  have e3 := ofNat32 (s / 10) (by omega)
  have q1 := Nat.mul_div_cancel f (show 0 < 100 by omega)
  rw [relay_of p _ _ (C81_cable_partial p f o m s fec hf ho hm hs hfec hr) ?_ id]
  · simp only [Desc.wire, e1, e3, ofNat8 o (by omega), ofNat8 m (by omega), ofNat8 fec (by omega), q1]
  · simp only [Desc.InRange, e1, e3, ofNat8 o (by omega), ofNat8 fec (by omega), q1]
    exact ⟨hf, ho, by omega, hfec⟩

/-- … and for cable frequencies of 2^32 Hz and more, valid in the standard: panic with overflow checks, another frequency
without. -/
theorem C95_cable_frequency_refuted (f o m s fec : Nat) (buf : List UInt8) (hf : f < 10 ^ 8) (ho : o < 16) (hm : m < 256)
    (hs : s < 10 ^ 7) (hfec : fec < 16) (hr : 2 ^ 32 ≤ f * 100) :
    relay .debug (Descriptor.cable f o m s fec) buf = panic ∧
    relay .release (Descriptor.cable f o m s fec) buf =
      .ok (buf ++ Descriptor.cable (f * 100 % 2 ^ 32 / 100) o m (s / 10 * 10) fec) ∧ f * 100 % 2 ^ 32 / 100 ≠ f := by
  obtain ⟨h1, h2⟩ := C81_cable_refuted f o m s fec hf ho hm hs hfec hr
  refine ⟨by rw [relay, h1]; rfl, ?_, by omega⟩
  have e1 := ofNat32 (f * 100 % 2 ^ 32) (Nat.mod_lt _ (by omega))
  have e3 := ofNat32 (s / 10) (by omega)
  have l1 : f * 100 % 2 ^ 32 / 100 < 10 ^ 8 := by omega
  rw [relay_of .release _ _ h2 ?_ id]
  · simp only [Desc.wire, e1, e3, ofNat8 o (by omega), ofNat8 m (by omega), ofNat8 fec (by omega)]
  · simp only [Desc.InRange, e1, e3, ofNat8 o (by omega), ofNat8 fec (by omega)]
    exact ⟨l1, ho, by omega, hfec⟩

/-- C95 fails for extended events with items: the length byte comes out two too small per item. -/
theorem C95_extended_event_refuted (p : Profile) (number last : Nat) (lang : List UInt8) (items : List (List UInt8 × List UInt8))
    (txt buf : List UInt8) (h1 : number < 16) (h2 : last < 16) (hl : lang.length = 3)
    (h : 6 + (items.flatMap fun i => Descriptor.sized i.1 ++ Descriptor.sized i.2).length + txt.length ≤ 255)
    (k1 : Kept lang) (k2 : Kept txt) (k3 : ∀ i ∈ items, Kept i.1 ∧ Kept i.2) (hi : items ≠ []) :
    let s := Descriptor.extendedEvent number last lang items txt
    relay p s buf = .ok (buf ++ s.set 1 (UInt8.ofNat (s.length - 2 - 2 * items.length))) ∧
    relay p s buf ≠ .ok (buf ++ s) := by
  intro s
  have hp := C81_extended_event p number last lang items txt h1 h2 hl h
  have hm : items.map ((fun i : StringDVB × StringDVB => (text i.1, text i.2)) ∘
      fun i : List UInt8 × List UInt8 => (StringDVB.ofBytes i.1, StringDVB.ofBytes i.2)) = items :=
    map_id_of items _ fun i hi => by simp only [Function.comp, text_ofBytes _ (k3 i hi).1, text_ofBytes _ (k3 i hi).2]
  have hsum : ∀ l : List (List UInt8 × List UInt8), (l.flatMap fun i => Descriptor.sized i.1 ++ Descriptor.sized i.2).length =
      (l.map fun i => 2 + i.1.length + i.2.length).sum := by
    intro l
    induction l with
    | nil => rfl
    | cons a r ih => rw [List.flatMap_cons, List.length_append, ih, List.map_cons, List.sum_cons]; simp [Descriptor.sized]; omega
  have hm2 : items.map ((fun i : StringDVB × StringDVB => 2 + (text i.1).length + (text i.2).length) ∘
      fun i : List UInt8 × List UInt8 => (StringDVB.ofBytes i.1, StringDVB.ofBytes i.2)) =
      items.map fun i => 2 + i.1.length + i.2.length :=
    List.map_congr_left fun i hi => by simp only [Function.comp, text_ofBytes _ (k3 i hi).1, text_ofBytes _ (k3 i hi).2]
  generalize hd : ({ number := UInt8.ofNat number, lastNumber := UInt8.ofNat last, lang := StringDVB.ofBytes lang
                     items := items.map fun i => (StringDVB.ofBytes i.1, StringDVB.ofBytes i.2)
                     text := StringDVB.ofBytes txt } : Desc4E) = d at hp
  have hw : (Desc.d4E d).wire = s := by
    rw [← hd]
    simp only [Desc.wire, text_ofBytes _ k1, text_ofBytes _ k2, ofNat8 number (by omega), ofNat8 last (by omega), List.map_map, hm]
    rfl
  have hr : (Desc.d4E d).InRange := by
    rw [← hd]
    simp only [Desc.InRange, text_ofBytes _ k1, text_ofBytes _ k2, ofNat8 number (by omega), ofNat8 last (by omega), List.map_map, hm2,
      ← hsum]
    exact ⟨h1, h2, hl, h⟩
  have hn : d.items.length = items.length := by rw [← hd]; simp
  have hne : d.items ≠ [] := by
    intro h0; rw [h0] at hn; exact hi (List.length_eq_zero_iff.1 hn.symm)
  obtain ⟨r1, r2⟩ := C32_wire_format_refuted p d buf hr
  rw [hw, hn] at r1
  rw [hw] at r2
  have e : relay p s buf = (Desc.d4E d).assemble p buf := by rw [relay, hp, ok_bind]
  rw [e]
  exact ⟨r1, r2 hne⟩

/-- C95 fails for local time offsets of five hours or more: panic with overflow checks, another offset without (the
minutes of the whole hours are reduced modulo 256). -/
theorem C95_local_time_offset_refuted (items : List Descriptor.Offset) (buf : List UInt8) (h : ∀ i ∈ items, Valid58 i) :
    ((∃ i ∈ items, 300 ≤ i.offset ∨ 300 ≤ i.next) → relay .debug (Descriptor.localTimeOffset items) buf = panic) ∧
    (items.length ≤ 19 → (∀ i ∈ items, Kept i.country) →
      relay .release (Descriptor.localTimeOffset items) buf = .ok (buf ++ Descriptor.localTimeOffset (items.map fun i =>
        { i with
          offset := i.offset / 60 * 60 % 256 + i.offset % 60
          next := i.next / 60 * 60 % 256 + i.next % 60 }))) ∧
    ∀ m, 300 ≤ m → m / 60 * 60 % 256 + m % 60 ≠ m := by
  obtain ⟨h1, h2, h3⟩ := C81_local_time_offset_refuted items h
  refine ⟨fun hx => by rw [relay, h1 hx]; rfl, fun hn hk => ?_, h3⟩
  rw [relay_of .release _ _ h2 ?_ id]
  · simp only [Desc.wire, List.map_map]
    refine congrArg (fun l => Except.ok (buf ++ Descriptor.localTimeOffset l)) (List.map_congr_left fun i hi => ?_)
    obtain ⟨v1, v2, v3, v4, v5, v6⟩ := h i hi
    simp only [unixEpochMjd] at v5
    simp only [Function.comp, text_ofBytes _ (hk i hi), ofNat8 i.region (by omega), ofNat8 i.polarity (by omega),
      ofNat16 (i.offset / 60 * 60 % 256 + i.offset % 60) (by omega), ofNat16 (i.next / 60 * 60 % 256 + i.next % 60) (by omega),
      ofNat64 i.time (by omega)]
  · simp only [Desc.InRange, List.length_map, List.mem_map]
    refine ⟨?_, by omega⟩
    rintro _ ⟨i, hi, rfl⟩
    obtain ⟨v1, v2, v3, v4, v5, v6⟩ := h i hi
    simp only [unixEpochMjd] at v5 ⊢
    simp only [text_ofBytes _ (hk i hi), ofNat8 i.region (by omega), ofNat8 i.polarity (by omega),
      ofNat16 (i.offset / 60 * 60 % 256 + i.offset % 60) (by omega), ofNat16 (i.next / 60 * 60 % 256 + i.next % 60) (by omega),
      ofNat64 i.time (by omega)]
    exact ⟨v1, v2, v3, by omega, v5, by omega⟩

/-- … and for terrestrial frequencies of 2^32 Hz and more. -/
theorem C95_terrestrial_refuted (f a b c d e g i j k l m : Nat) (buf : List UInt8) (hf : f < 2 ^ 32) (ha : a < 8) (hb : b < 2)
    (hc : c < 2) (hd : d < 2) (he : e < 4) (hg : g < 8) (hi : i < 8) (hj : j < 8) (hk : k < 4) (hl : l < 4) (hm : m < 2)
    (hr : 2 ^ 32 ≤ f * 10) :
    relay .debug (Descriptor.terrestrial f a b c d e g i j k l m) buf = panic ∧
    relay .release (Descriptor.terrestrial f a b c d e g i j k l m) buf =
      .ok (buf ++ Descriptor.terrestrial (f * 10 % 2 ^ 32 / 10) a b c d e g i j k l m) ∧ f * 10 % 2 ^ 32 / 10 ≠ f := by
  obtain ⟨h1, h2, -⟩ := C81_terrestrial_refuted f a b c d e g i j k l m hf ha hb hc hd he hg hi hj hk hl hm hr
  refine ⟨by rw [relay, h1]; rfl, ?_, by omega⟩
  have e1 := ofNat32 (f * 10 % 2 ^ 32) (Nat.mod_lt _ (by omega))
  rw [relay_of .release _ _ h2 ?_ id]
  · simp only [Desc.wire, e1, ofNat8 a (by omega), ofNat8 b (by omega), ofNat8 c (by omega), ofNat8 d (by omega), ofNat8 e (by omega),
      ofNat8 g (by omega), ofNat8 i (by omega), ofNat8 j (by omega), ofNat8 k (by omega), ofNat8 l (by omega), ofNat8 m (by omega)]
  · simp only [Desc.InRange, ofNat8 a (by omega), ofNat8 b (by omega), ofNat8 c (by omega), ofNat8 d (by omega), ofNat8 e (by omega),
      ofNat8 g (by omega), ofNat8 i (by omega), ofNat8 j (by omega), ofNat8 k (by omega), ofNat8 l (by omega), ofNat8 m (by omega)]
    exact ⟨ha, hb, hc, hd, he, hg, hi, hj, hk, hl, hm⟩

/-- The text comes out as C26 says, so a network name is changed exactly when its bytes are not `Kept`. -/
theorem C95_network_name (p : Profile) (name buf : List UInt8) :
    relay p (Descriptor.networkName name) buf = .ok (buf ++ Descriptor.networkName (normalized name)) ∧
    (relay p (Descriptor.networkName name) buf = .ok (buf ++ Descriptor.networkName name) ↔ Kept name) := by
  have e : text (StringDVB.ofBytes name) = normalized name := by
    have := C26_foreign name
    rwa [C24_assemble, List.nil_append] at this
  have a : relay p (Descriptor.networkName name) buf = .ok (buf ++ Descriptor.networkName (normalized name)) := by
    rw [relay, C81_network_name, ok_bind]
    exact (d40_assemble _ buf).trans (by simp only [Desc.wire, e])
  refine ⟨a, ?_⟩
  rw [a, ← C26_kept_iff, C26_foreign]
  constructor
  · intro h
    have := List.append_cancel_left (Except.ok.inj h)
    simp only [Descriptor.networkName, Descriptor.descriptor, List.cons.injEq] at this
    exact this.2.2
  · intro h; rw [h]

/-! ### Concrete cases -/

example : Relayed (Descriptor.service 1 [0x41] [0x05, 0xBF, 0xE0]) :=
  .service _ _ _ (by decide) (by decide) (by simp [Kept]) (by simp [Kept])
example : relayLoop .debug (Descriptor.service 1 [0x41] [0x05, 0xBF] ++ Descriptor.streamIdentifier 7) [9] =
    .ok (11, [9] ++ Descriptor.service 1 [0x41] [0x05, 0xBF] ++ Descriptor.streamIdentifier 7) := by decide +kernel
example : relay .debug (Descriptor.satellite 1176600 192 1 0 0 0 1 275005 3) [] =
    .ok (Descriptor.satellite 1176600 192 1 0 0 0 1 275000 3) := by decide +kernel
example : relay .debug (Descriptor.extendedEvent 0 0 [0x65, 0x6E, 0x67] [([0x41], [0x42])] [0x43]) [] ≠
    .ok (Descriptor.extendedEvent 0 0 [0x65, 0x6E, 0x67] [([0x41], [0x42])] [0x43]) := by decide +kernel
example : 2 ^ 32 ≤ 50000000 * 100 ∧ 50000000 < 10 ^ 8 := by decide

end Mpegts
