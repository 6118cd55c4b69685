import Verif.Lemmas.Feed
import Verif.Lemmas.PsiCheck
import Verif.Props.C40_C42

/-! # C41, C43-C48, C77, C78: reassembly of sections -/

namespace Mpegts
open Spec

/-- C41: feeding the packets of a section to a reassembler in any state whatsoever leaves exactly that section in it. -/
theorem C41_reassemble (p : Profile) (s : Psi) (pid cc : Nat) (sec : List UInt8) (hs : IsSection sec) (hp : pid < 8192) :
    feed p s (packets pid cc sec) = .ok
      { s with buffer := sec, size := sec.length, cc := UInt8.ofNat ((cc + packetCount sec.length - 1) % 16) } := by
  have h3 := hs.1
  have key : ∀ n i (t : Psi), i + 1 + n = packetCount sec.length → t.buffer = sec.take (184 * i + 183) →
      t.size = sec.length → t.cc = UInt8.ofNat ((cc + i) % 16) →
      feed p t ((List.range' (i + 1) n).map (packetAt pid cc sec)) = .ok
        { t with buffer := sec, cc := UInt8.ofNat ((cc + packetCount sec.length - 1) % 16) } := by
    intro n
    induction n with
    | zero =>
      intro i t hn hb hz hc
      have e1 : t.buffer = sec := by rw [hb, List.take_of_length_le (by unfold packetCount at hn; omega)]
      have e2 : t.cc = UInt8.ofNat ((cc + packetCount sec.length - 1) % 16) := by rw [hc, ← hn]; rfl
      rw [List.range'_zero, List.map_nil, feed_nil]
      conv => rhs; rw [← e2]
      conv => rhs; rw [← e1]
    | succ n ih =>
      intro i t hn hb hz hc
      rw [List.range'_succ, List.map_cons, feed_cons, Psi.mux_next p pid cc sec hs hp t i hb hz hc, ok_bind,
        ih (i + 1) { t with buffer := sec.take (184 * (i + 1) + 183), cc := UInt8.ofNat ((cc + (i + 1)) % 16) } (by omega) rfl hz rfl]
  have hn : packetCount sec.length = (packetCount sec.length - 1) + 1 := by unfold packetCount; omega
  rw [packets, List.range_eq_range', hn, List.range'_succ, List.map_cons, feed_cons,
    Psi.mux_first p pid cc sec hs hp s, ok_bind, key _ 0 _ (by omega) rfl rfl rfl, ← hn]

/-- C41: the same as a round trip through `demux`: what `demux` appends for a complete section can be cut into
188-byte packets, and these reassemble to the section. -/
theorem C41_round_trip (p : Profile) (s r : Psi) (dst : List UInt8) (hs : IsSection s.buffer)
    (hsz : s.size = s.buffer.length) (hp : s.pid.toNat < 8192) (hc : s.cc.toNat < 16) :
    ∃ s' pks r', s.demux p dst = .ok (s', dst ++ pks.flatten) ∧ (∀ pk ∈ pks, pk.length = 188) ∧
      feed p r pks = .ok r' ∧ r'.buffer = s.buffer ∧ r'.size = s.size := by
  have h := C40_demux p s dst (by have := hs.1; omega) (by omega) hp hc
  have ht : s.buffer.take s.size = s.buffer := List.take_of_length_le (by omega)
  rw [ht] at h
  exact ⟨_, _, _, h, (packets_structure _ _ _).2.1, C41_reassemble p r _ _ _ hs hp, rfl, by rw [hsz]⟩

/-- C43: a packet without payload leaves the reassembler unchanged. -/
theorem C43_no_payload (p : Profile) (s : Psi) (ts : List UInt8) (hl : ts.length = 188) (h : hasPayload ts = false) :
    s.mux p ts = .ok s := Psi.mux_raw_nopay s hl h

/-- C43: so such packets can be removed from or inserted into any packet sequence. -/
theorem C43_interleave (p : Profile) (s : Psi) (pks : List (List UInt8)) (hl : ∀ ts ∈ pks, ts.length = 188) :
    feed p s pks = feed p s (pks.filter hasPayload) := by
  induction pks generalizing s with
  | nil => rfl
  | cons ts pks ih =>
    have hl1 := hl ts (by simp)
    have hl2 : ∀ ts ∈ pks, ts.length = 188 := fun t ht => hl t (by simp [ht])
    cases h : hasPayload ts with
    | false =>
      rw [feed_cons, C43_no_payload p s ts hl1 h, ok_bind, ih s hl2, List.filter_cons_of_neg (by simp [h])]
    | true =>
      rw [List.filter_cons_of_pos h, feed_cons, feed_cons]
      congr 1
      funext t
      exact ih t hl2

/-- C44: a packet that continues a section but whose counter is not the successor of the last one empties the
reassembler. -/
theorem C44_discontinuity (p : Profile) (s : Psi) (ts : List UInt8) (hs : s.cc.toNat < 16) (h : IsPacket ts)
    (hp : hasPayload ts = true) (hu : pusiOf ts = false) (hc : ccOf ts ≠ (s.cc.toNat + 1) % 16) :
    s.mux p ts = .ok { s with buffer := [], size := 0 } := by
  by_cases ho : offsetOf ts < 188
  · exact Psi.mux_raw_cont_bad s h hp ho hu (by omega) hc
  · exact Psi.mux_raw_off s h hp (by omega)

/-- The bookkeeping behind C44: the buffer is made of contiguous payload of a run of packets with consecutive
counters that ends at the last packet. -/
structure Trace (s : Psi) (hist : List (List UInt8)) : Prop where
  ok : s.Ok
  run : ∃ run, run <:+ hist ∧ Consecutive run ∧ (∀ l, run.getLast? = some l → ccOf l = s.cc.toNat) ∧
    (s.size = 0 ∨ s.buffer.length < s.size → s.buffer <:+ (run.map sectionBytes).flatten) ∧
    (s.size ≠ 0 → s.size ≤ s.buffer.length →
      s.buffer.take s.size <:+: (run.map sectionBytes).flatten ∧ s.buffer.drop s.size <:+ (run.map sectionBytes).flatten)

theorem consecutive_append {run : List (List UInt8)} {ts : List UInt8} (h : Consecutive run)
    (hl : ∀ l, run.getLast? = some l → ccOf ts = (ccOf l + 1) % 16) : Consecutive (run ++ [ts]) := by
  intro i a b ha hb
  by_cases hi : i + 1 < run.length
  · rw [List.getElem?_append_left (by omega)] at ha
    rw [List.getElem?_append_left hi] at hb
    exact h i a b ha hb
  · have hlen : i + 1 < (run ++ [ts]).length := by
      by_contra hc
      rw [List.getElem?_eq_none (by omega)] at hb
      cases hb
    rw [List.length_append, List.length_singleton] at hlen
    have he : i + 1 = run.length := by omega
    rw [List.getElem?_append_left (by omega)] at ha
    rw [he, List.getElem?_append_right (le_refl _), Nat.sub_self] at hb
    cases hb
    apply hl
    rw [List.getLast?_eq_getElem?, ← ha]
    congr 1
    omega

theorem suffix_snoc {α : Type} {a b : List α} (x : α) (h : a <:+ b) : a ++ [x] <:+ b ++ [x] := by
  obtain ⟨t, rfl⟩ := h
  exact ⟨t, by simp⟩

theorem suffix_append {α : Type} {a b : List α} (c : List α) (h : a <:+ b) : a ++ c <:+ b ++ c := by
  obtain ⟨t, rfl⟩ := h
  exact ⟨t, by simp⟩

/-- The size conditions for a buffer that is a suffix of the run, cut or not cut at its size. -/
theorem suffix_conds {buf flat : List UInt8} (sz : Nat) (h : buf <:+ flat) :
    ((sz = 0 ∨ buf.length < sz → buf <:+ flat) ∧
      (sz ≠ 0 → sz ≤ buf.length → buf.take sz <:+: flat ∧ buf.drop sz <:+ flat)) :=
  ⟨fun _ => h, fun _ _ => ⟨(List.take_prefix _ _).isInfix.trans h.isInfix, (List.drop_suffix _ _).trans h⟩⟩

theorem suffix_conds_take {buf flat : List UInt8} (sz : Nat) (h : buf <:+ flat) :
    ((sz = 0 ∨ (buf.take sz).length < sz → buf.take sz <:+ flat) ∧
      (sz ≠ 0 → sz ≤ (buf.take sz).length → (buf.take sz).take sz <:+: flat ∧ (buf.take sz).drop sz <:+ flat)) := by
  refine ⟨fun hz => ?_, fun _ _ => ?_⟩
  · rcases hz with hz | hz
    · subst hz; simp
    · rw [List.length_take] at hz
      rw [List.take_of_length_le (by omega)]; exact h
  · rw [List.take_take, Nat.min_self, List.drop_of_length_le (by rw [List.length_take]; omega)]
    exact ⟨(List.take_prefix _ _).isInfix.trans h.isInfix, List.nil_suffix⟩

theorem trace_mux (p : Profile) (s s' : Psi) (hist : List (List UInt8)) (ts : List UInt8) (ht : Trace s hist)
    (h : IsPacket ts) (he : s.mux p ts = .ok s') :
    Trace s' (if hasPayload ts then hist ++ [ts] else hist) := by
  refine ⟨Psi.mux_ok ht.ok h he, ?_⟩
  obtain ⟨run, hsuf, hcons, hlast, hb1, hb2⟩ := ht.run
  have ho := Psi.mux_outcome p s ts ht.ok h
  rw [he] at ho
  cases ho with
  | nopay h1 => simp only [h1]; exact ⟨run, hsuf, hcons, hlast, hb1, hb2⟩
  | clear h1 =>
    simp only [h1, if_true]
    exact ⟨[], List.nil_suffix, by intro i a b ha; simp at ha, by simp, by simp [Psi.clear], by simp [Psi.clear]⟩
  | start h1 h2 h3 h4 h5 h6 =>
    simp only [h1, if_true]
    refine ⟨[ts], List.suffix_append _ _, ?_, ?_, ?_⟩
    · intro i a b ha hb; simp at hb
    · intro l hl; simp at hl; subst hl; simp only [Psi.started]; rw [ofNat_ccOf]
    · have hsb : ts.drop (offsetOf ts + 1 + pointerOf ts) <:+ ([ts].map sectionBytes).flatten := by
        simp only [List.map_cons, List.map_nil, List.flatten_cons, List.flatten_nil, List.append_nil, sectionBytes, h2,
          if_true]
        rw [← List.drop_drop]
        exact List.drop_suffix _ _
      generalize ts.drop (offsetOf ts + 1 + pointerOf ts) = b at *
      simp only [Psi.started, upToEnd]
      by_cases h3 : 3 ≤ b.length
      · simp only [h3, if_true]
        exact suffix_conds_take _ hsb
      · simp only [h3, if_false]
        exact suffix_conds _ hsb
  | cont h1 h2 h3 h4 =>
    simp only [h1, if_true]
    have hlast' : ∀ l, run.getLast? = some l → ccOf ts = (ccOf l + 1) % 16 := by
      intro l hl; rw [h4, hlast l hl]
    refine ⟨run ++ [ts], suffix_snoc ts hsuf, consecutive_append hcons hlast', ?_, ?_⟩
    · intro l hl; simp at hl; subst hl; rw [ofNat_ccOf]
    · have hflat : ((run ++ [ts]).map sectionBytes).flatten = (run.map sectionBytes).flatten ++ ts.drop (offsetOf ts) := by
        simp [sectionBytes, h2]
      rw [hflat]
      generalize ts.drop (offsetOf ts) = d
      by_cases hz : s.size = 0 ∨ s.buffer.length < s.size
      · exact suffix_conds_take _ (suffix_append d (hb1 hz))
      · have hz0 : s.size ≠ 0 := by omega
        have hle : s.size ≤ s.buffer.length := by omega
        have hsz : (s.pushed d).size = s.size := by simp only [Psi.pushed]; rw [if_neg hz0]
        obtain ⟨i1, i2⟩ := hb2 hz0 hle
        simp only [hsz]
        rw [List.take_append_of_le_length hle]
        refine ⟨fun hq => ?_, fun _ _ => ?_⟩
        · rw [List.length_take, Nat.min_eq_left hle] at hq
          omega
        · rw [List.take_take, Nat.min_self, List.drop_of_length_le (by rw [List.length_take]; omega)]
          exact ⟨i1.trans (List.prefix_append _ _).isInfix, List.nil_suffix⟩
  | pusiCont h1 h2 h3 h4 h5 h6 h7 =>
    simp only [h1, if_true]
    have hlast' : ∀ l, run.getLast? = some l → ccOf ts = (ccOf l + 1) % 16 := by
      intro l hl; rw [h6, hlast l hl]
    refine ⟨run ++ [ts], suffix_snoc ts hsuf, consecutive_append hcons hlast', ?_, ?_⟩
    · intro l hl; simp at hl; subst hl; rw [ofNat_ccOf]
    · have hflat : ((run ++ [ts]).map sectionBytes).flatten =
          (run.map sectionBytes).flatten ++ ts.drop (offsetOf ts + 1) := by
        simp [sectionBytes, h2]
      rw [hflat]
      generalize ts.drop (offsetOf ts + 1) = d
      simp only [Psi.pushed]
      by_cases hz : s.size = 0 ∨ s.buffer.length < s.size
      · have hd : s.drained = s := by unfold Psi.drained; rw [if_neg (by omega)]
        rw [hd]
        exact suffix_conds _ (suffix_append d (hb1 hz))
      · have hz0 : s.size ≠ 0 := by omega
        have hle : s.size ≤ s.buffer.length := by omega
        obtain ⟨i1, i2⟩ := hb2 hz0 hle
        by_cases hgt : s.size < s.buffer.length
        · have hd : s.drained = { s with buffer := s.buffer.drop s.size, size := 0 } := by
            unfold Psi.drained; rw [if_pos ⟨hz0, hgt⟩]
          rw [hd]
          exact suffix_conds _ (suffix_append d i2)
        · have hd : s.drained = s := by unfold Psi.drained; rw [if_neg (by omega)]
          have heq : s.size = s.buffer.length := by omega
          rw [hd, if_neg hz0]
          refine ⟨fun hq => ?_, fun _ _ => ?_⟩
          · rw [List.length_append] at hq; omega
          · rw [heq, List.take_left, List.drop_left]
            rw [heq, List.take_of_length_le (le_refl _)] at i1
            exact ⟨i1.trans (List.prefix_append _ _).isInfix, List.suffix_append _ _⟩

theorem trace_feed (p : Profile) (s s' : Psi) (hist pks : List (List UInt8)) (ht : Trace s hist)
    (h : ∀ ts ∈ pks, IsPacket ts) (he : feed p s pks = .ok s') : Trace s' (hist ++ pks.filter hasPayload) := by
  induction pks generalizing s hist with
  | nil => cases he; simpa using ht
  | cons ts pks ih =>
    rw [feed_cons, bind_eq_ok] at he
    obtain ⟨t, h1, h2⟩ := he
    have := ih t _ (trace_mux p s t hist ts ht (h ts (by simp)) h1) (fun t ht => h t (by simp [ht])) h2
    cases hp : hasPayload ts with
    | false => rw [List.filter_cons_of_neg (by simp [hp])]; simpa [hp] using this
    | true => rw [List.filter_cons_of_pos hp]; simpa [hp] using this

/-- C44: whatever packets are fed to a fresh reassembler, a complete section it holds is a contiguous piece of the
payload of packets that arrived one directly after the other (packets without payload aside) with consecutive
counters: payload is never glued over a gap in the counters. -/
theorem C44_contiguous (p : Profile) (pks : List (List UInt8)) (s : Psi) (h : ∀ ts ∈ pks, IsPacket ts)
    (he : feed p Psi.default pks = .ok s) (hz : s.size ≠ 0) (hc : s.size ≤ s.buffer.length) :
    ∃ run, run <:+ pks.filter hasPayload ∧ Consecutive run ∧
      s.buffer.take s.size <:+: (run.map sectionBytes).flatten := by
  have ht : Trace Psi.default [] :=
    ⟨Psi.default_ok, [], List.nil_suffix, by intro i a b ha; simp at ha, by simp, by simp [Psi.default], by simp [Psi.default]⟩
  obtain ⟨run, h1, h2, -, -, h5⟩ := (trace_feed p _ s [] pks ht h he).run
  exact ⟨run, by simpa using h1, h2, (h5 hz hc).1⟩

/-- C45, exactly: on a 188-byte packet `mux` panics in two cases only: (debug build) an adaptation_field_length
above 250, and a section start that the pointer_field puts beyond the packet (only possible behind an adaptation
field). -/
theorem C45_crash_refuted (p : Profile) (s : Psi) (hs : s.Ok) (ts : List UInt8) (hl : ts.length = 188) :
    (s.mux p ts = panic ↔ hasPayload ts = true ∧
      ((p = .debug ∧ hasAdaptation ts = true ∧ 251 ≤ (ts.getD 4 0).toNat) ∨
       (IsPacket ts ∧ pusiOf ts = true ∧ offsetOf ts < 188 ∧ pointerOf ts < 183 ∧
        188 < offsetOf ts + 1 + pointerOf ts ∧ (ccOf ts ≠ (s.cc.toNat + 1) % 16 ∨ s.buffer = [])))) ∧
    (s.mux p ts ≠ panic → ∃ s', s.mux p ts = .ok s') := by
  have hcc := hs.cc
  by_cases hip : IsPacket ts
  · have ho := Psi.mux_outcome p s ts hs hip
    have hno : ¬ (p = .debug ∧ hasAdaptation ts = true ∧ 251 ≤ (ts.getD 4 0).toNat) := by
      rintro ⟨-, h1, h2⟩; have := hip.2 h1; omega
    generalize hm : s.mux p ts = m at *
    refine ⟨?_, ?_⟩
    · constructor
      · intro hpan
        subst hpan
        cases ho with
        | panic h1 h2 h3 h4 h5 h6 =>
          refine ⟨h1, .inr ⟨hip, h2, h3, h4, h5, ?_⟩⟩
          rcases h6 with h | h | h
          · omega
          · exact .inl h
          · exact .inr h
      · rintro ⟨h1, h2 | ⟨_, h3, h4, h5, h6, h7⟩⟩
        · exact absurd h2 hno
        · rw [← hm, Psi.mux_raw_start s hip h1 h4 h3 (fun _ => by omega) h5 (by
            rcases h7 with h | h
            · exact .inr (.inl h)
            · exact .inr (.inr ⟨h, hs.empty h⟩)), if_neg (by omega)]
    · intro hnp
      cases ho with
      | panic => exact absurd rfl hnp
      | _ => exact ⟨_, rfl⟩
  · -- the offset computation overflows
    have hov : hasAdaptation ts = true ∧ 251 ≤ (ts.getD 4 0).toNat := by
      unfold IsPacket at hip
      simp only [hl, true_and, Classical.not_imp] at hip
      exact ⟨hip.1, by omega⟩
    cases hpay : hasPayload ts with
    | false => rw [Psi.mux_raw_nopay s hl hpay]; simp
    | true =>
      obtain ⟨h, rest, hv, hr, rfl⟩ := packet_split hl
      have hrf := raw_fields hv rest
      have hlen : 251 ≤ (rest.headD 0).toNat := by
        match rest, hr with
        | b :: rest', hr => have := hov.2; rwa [raw_len hv] at this
      cases p with
      | debug =>
        rw [Psi.mux_overflow h hv rest hr s (by rw [← hrf.1, hpay]) (by rw [← hrf.2.1, hov.1]) hlen]
        exact ⟨⟨fun _ => ⟨rfl, .inl ⟨rfl, hov.1, hov.2⟩⟩, fun _ => rfl⟩, fun h => absurd rfl h⟩
      | release =>
        -- the wrapped offset lies in the header: no panic
        have v := Psi.view_general .release h hv rest hr (by rw [← hrf.1, hpay]) (.inl rfl)
        have hoff : Psi.payloadOff h rest < 5 := by
          have := (rest.headD 0).toNat_lt
          unfold Psi.payloadOff; rw [← hrf.2.1, hov.1]; simp only [if_true]; omega
        have hok : ∃ s', s.mux .release (h.encode ++ rest) = .ok s' := by
          cases hu : h.pusi with
          | false =>
            rw [hu] at v
            by_cases hc : (UInt8.ofNat h.cc).toNat = (s.cc.toNat + 1) % 16
            · exact ⟨_, Psi.mux_cont v s (by omega) (by omega) hc⟩
            · exact ⟨_, Psi.mux_cont_bad v s (by omega) (by omega) hc⟩
          | true =>
            rw [hu] at v
            have hlt : Psi.payloadOff h rest < (h.encode ++ rest).length := by rw [hl]; omega
            have hpf : (h.encode ++ rest)[Psi.payloadOff h rest]? = some (h.encode ++ rest)[Psi.payloadOff h rest] := by
              simp [hlt]
            generalize (h.encode ++ rest)[Psi.payloadOff h rest] = pf at hpf
            by_cases hb : pf.toNat < 183
            · by_cases hr0 : pf.toNat = 0 ∨ (UInt8.ofNat h.cc).toNat ≠ (s.cc.toNat + 1) % 16 ∨ s.buffer = []
              · rw [Psi.mux_pusi_start v s (by omega) pf (fun _ => by omega) hpf hb (by
                  rcases hr0 with h | h | h
                  · exact .inl h
                  · exact .inr (.inl h)
                  · exact .inr (.inr ⟨h, hs.empty h⟩)), if_pos (by omega)]
                exact ⟨_, rfl⟩
              · simp only [not_or, not_not] at hr0
                exact ⟨_, Psi.mux_pusi_cont v s (by omega) (by omega) pf hpf hb hr0.1 hr0.2.1 hr0.2.2⟩
            · exact ⟨_, Psi.mux_pusi_bad v s (by omega) pf hpf (by omega)⟩
        obtain ⟨s', hs'⟩ := hok
        rw [hs']
        simp [hip]

/-- C45, the part that holds: no panic on packets without adaptation field, and none on packets without PUSI whose
adaptation_field_length is at most 250.  (Full property: no panic on any 188-byte packet; false, see
`C45_crash_refuted`.) -/
theorem C45_no_crash_partial (p : Profile) (s : Psi) (hs : s.Ok) (ts : List UInt8) (h : IsPacket ts)
    (ha : hasAdaptation ts = false ∨ pusiOf ts = false) : ∃ s', s.mux p ts = .ok s' := by
  obtain ⟨h1, h2⟩ := C45_crash_refuted p s hs ts h.1
  apply h2
  rw [ne_eq, h1]
  rintro ⟨-, ⟨-, h3, h4⟩ | ⟨-, h3, h4, h5, h6, -⟩⟩
  · have := h.2 h3; omega
  · rcases ha with ha | ha
    · have : offsetOf ts = 4 := by simp [offsetOf, ha]
      omega
    · rw [ha] at h3; cases h3

/-- The panic is reachable from a fresh reassembler by one packet: adaptation_field_length 172 and pointer_field 182. -/
theorem C45_crash_example (p : Profile) :
    Psi.default.mux p ([0x47, 0x40, 0x11, 0x30, 172] ++ List.replicate 172 0xFF ++ [182] ++ List.replicate 10 0xFF) = panic := by
  cases p <;> decide +kernel

/-- C46, the part that holds: if every PUSI packet has pointer_field 0, the buffer never exceeds the largest
section, 4098 bytes.  (Full property: for every packet sequence; false, see `C46_unbounded_refuted`.) -/
theorem C46_bounded_partial (p : Profile) (pks : List (List UInt8)) (s : Psi) (h : ∀ ts ∈ pks, IsPacket ts)
    (h0 : ∀ ts ∈ pks, pusiOf ts = true → pointerOf ts = 0) (he : feed p Psi.default pks = .ok s) :
    s.buffer.length ≤ 4098 := by
  have hd : ∀ l, declaredSize l ≤ 4098 := by
    intro l; unfold declaredSize; split <;> omega
  have key : ∀ (pks : List (List UInt8)) (t : Psi), t.Ok → t.size ≤ 4098 → t.buffer.length ≤ 4098 → (∀ ts ∈ pks, IsPacket ts) →
      (∀ ts ∈ pks, pusiOf ts = true → pointerOf ts = 0) → feed p t pks = .ok s → s.buffer.length ≤ 4098 := by
    intro pks
    induction pks with
    | nil => intro t _ _ hb _ _ he; cases he; exact hb
    | cons ts pks ih =>
      intro t hok hsz hb h h0 he
      rw [feed_cons, bind_eq_ok] at he
      obtain ⟨u, h1, h2⟩ := he
      have ho := Psi.mux_outcome p t ts hok (h ts (by simp))
      have huok := Psi.mux_ok hok (h ts (by simp)) h1
      rw [h1] at ho
      have hps : ∀ d, (t.pushed d).size ≤ 4098 := by
        intro d; simp only [Psi.pushed]; split
        · exact hd _
        · exact hsz
      have hu : u.size ≤ 4098 ∧ u.buffer.length ≤ 4098 := by
        cases ho with
        | nopay => exact ⟨hsz, hb⟩
        | clear => simp [Psi.clear]
        | cont => exact ⟨hps _, by simp only [List.length_take]; have := hps (ts.drop (offsetOf ts)); omega⟩
        | start =>
          refine ⟨hd _, ?_⟩
          simp only [Psi.started, upToEnd]
          split
          · rw [List.length_take]; have := hd (ts.drop (offsetOf ts + 1 + pointerOf ts)); omega
          · omega
        | pusiCont _ hu _ _ h5 => exact absurd (h0 ts (by simp) hu) h5
      exact ih u huok hu.1 hu.2 (fun t ht => h t (by simp [ht])) (fun t ht => h0 t (by simp [ht])) h2
  exact key pks _ Psi.default_ok (by decide) (by decide) h h0 he

/-- A PUSI packet of PID 17 with pointer_field 1 and zeros behind it. -/
def growPacket (cc : Nat) : List UInt8 := payloadPacket 17 (cc % 16) true (1 :: List.replicate 183 0)

/-- C46 fails: repeated PUSI packets with a non-zero pointer_field make the buffer grow without bound (each adds
183 bytes and removes one three-byte section). -/
theorem C46_unbounded_refuted (p : Profile) (n : Nat) : ∃ (pks : List (List UInt8)) (s : Psi),
    (∀ ts ∈ pks, IsPacket ts) ∧ feed p Psi.default pks = .ok s ∧ n ≤ s.buffer.length := by
  have hpk : ∀ c, growPacket c = (secHdr 17 (c % 16) true).encode ++ (1 :: List.replicate 183 0) := by
    intro c; rw [growPacket, payloadPacket_eq]
    rw [List.length_cons, List.length_replicate, show 184 - (183 + 1) = 0 from rfl, List.replicate_zero, List.append_nil]
  have hlen : ∀ c, (growPacket c).length = 188 := by
    intro c; rw [hpk, List.length_append, encode_length, List.length_cons, List.length_replicate]
  have hip : ∀ c, IsPacket (growPacket c) := by
    intro c
    refine ⟨hlen c, ?_⟩
    rw [hpk, (raw_fields (secHdr_valid (by decide) (by omega)) _).2.1]
    intro h; cases h
  have view : ∀ c, Psi.View p (growPacket c) 4 (UInt8.ofNat (c % 16)) true := by
    intro c; rw [hpk]
    exact Psi.view_payload p 17 (c % 16) true _ (by decide) (by omega) (by rw [List.length_cons, List.length_replicate])
  have hpf : ∀ c, (growPacket c)[4]? = some 1 := by
    intro c; rw [hpk, List.getElem?_append_right (by rw [encode_length]), encode_length]; rfl
  have hdrop : ∀ c, (growPacket c).drop 5 = List.replicate 183 0 := by
    intro c
    rw [hpk, List.drop_append, List.drop_of_length_le (by rw [encode_length]; omega), encode_length]; rfl
  have hds : ∀ k, 3 ≤ k → declaredSize (List.replicate k 0) = 3 := by
    intro k hk
    obtain ⟨j, rfl⟩ := Nat.exists_eq_add_of_le' hk
    rw [declaredSize, if_pos (by rw [List.length_replicate]; omega)]
    simp only [List.replicate_succ, List.drop_succ_cons, List.drop_zero, List.take_succ_cons, List.take_zero]
    decide
  -- state after k + 2 packets
  have key : ∀ k, ∃ pks s, (∀ ts ∈ pks, IsPacket ts) ∧ feed p Psi.default pks = .ok s ∧
      s.buffer = List.replicate (186 + 180 * k) 0 ∧ s.size = 3 ∧ s.cc = UInt8.ofNat ((k + 1) % 16) := by
    intro k
    induction k with
    | zero =>
      refine ⟨[growPacket 0, growPacket 1], { Psi.default with buffer := List.replicate 186 0, size := 3, cc := 1 }, ?_, ?_, ?_⟩
      · intro ts hts
        simp only [List.mem_cons, List.not_mem_nil, or_false] at hts
        rcases hts with rfl | rfl <;> exact hip _
      · have h1 : Psi.default.mux p (growPacket 0) =
            .ok { Psi.default with buffer := [0, 0, 0], size := 3, cc := 0 } := by
          rw [Psi.mux_pusi_start (view 0) _ (by decide) 1 (fun _ => by decide) (hpf 0) (by decide)
            (.inr (.inr ⟨rfl, rfl⟩)), if_pos (by decide)]
          have : (growPacket 0).drop (4 + 1 + (1 : UInt8).toNat) = List.replicate 182 0 := by
            have : 4 + 1 + (1 : UInt8).toNat = 5 + 1 := by decide
            rw [this, ← List.drop_drop, hdrop]; rfl
          rw [this]
          have h3 : 3 ≤ 182 := by decide
          simp only [Psi.started, upToEnd, hds 182 h3, List.length_replicate, h3, if_true]
          rfl
        have h2 : Psi.mux p { Psi.default with buffer := [0, 0, 0], size := 3, cc := 0 } (growPacket 1) =
            .ok { Psi.default with buffer := List.replicate 186 0, size := 3, cc := 1 } := by
          rw [Psi.mux_pusi_cont (view 1) _ (by decide) (by decide) 1 (hpf 1) (by decide) (by decide) (by decide)
            (by simp), hdrop]
          rfl
        rw [feed_cons, h1, ok_bind, feed_cons, h2, ok_bind, feed_nil]
      · exact ⟨rfl, rfl, rfl⟩
    | succ k ih =>
      obtain ⟨pks, s, h1, h2, h3, h4, h5⟩ := ih
      refine ⟨pks ++ [growPacket (k + 2)],
        { s with buffer := List.replicate (186 + 180 * (k + 1)) 0, size := 3, cc := UInt8.ofNat ((k + 1 + 1) % 16) }, ?_, ?_, rfl,
        rfl, rfl⟩
      · intro ts hts
        rw [List.mem_append, List.mem_singleton] at hts
        rcases hts with h | rfl
        · exact h1 ts h
        · exact hip _
      · rw [feed_append, h2, ok_bind, feed_cons]
        have hscc : s.cc.toNat = (k + 1) % 16 := by rw [h5, UInt8.toNat_ofNat']; omega
        rw [Psi.mux_pusi_cont (view (k + 2)) s (by decide) (by omega) 1 (hpf _) (by decide) (by decide)
          (by rw [hscc, UInt8.toNat_ofNat']; omega)
          (by rw [h3]; intro h; have := congrArg List.length h; rw [List.length_replicate, List.length_nil] at this; omega),
          ok_bind, feed_nil, hdrop]
        have hdr : s.drained = { s with buffer := List.replicate (183 + 180 * k) 0, size := 0 } := by
          unfold Psi.drained
          rw [if_pos (by rw [h3, h4, List.length_replicate]; omega), h3, h4, List.drop_replicate]
          rw [show 186 + 180 * k - 3 = 183 + 180 * k by omega]
        rw [hdr]
        simp only [Psi.pushed, if_true, List.replicate_append_replicate]
        rw [hds _ (by omega), show 183 + 180 * k + 183 = 186 + 180 * (k + 1) by omega]
  obtain ⟨pks, s, h1, h2, h3, -⟩ := key n
  exact ⟨pks, s, h1, h2, by rw [h3, List.length_replicate]; omega⟩

/-- C47: a PUSI packet that does not continue anything (pointer_field 0, or a counter gap, or nothing collected yet)
starts the section exactly pointer_field bytes behind the pointer_field; whatever was collected before is dropped, and
bytes behind the end of the section are dropped. -/
theorem C47_section_start (p : Profile) (s : Psi) (hs : s.Ok) (ts : List UInt8) (h : IsPacket ts)
    (hp : hasPayload ts = true) (hu : pusiOf ts = true) (hpf : pointerOf ts < 183)
    (hfit : offsetOf ts + 1 + pointerOf ts ≤ 188)
    (hr : pointerOf ts = 0 ∨ ccOf ts ≠ (s.cc.toNat + 1) % 16 ∨ s.buffer = []) :
    ∃ s', s.mux p ts = .ok s' ∧ s'.buffer = upToEnd (ts.drop (offsetOf ts + 1 + pointerOf ts)) ∧
      s'.size = declaredSize (ts.drop (offsetOf ts + 1 + pointerOf ts)) ∧ s'.cc.toNat = ccOf ts ∧ s'.pid = s.pid := by
  have hcc := hs.cc
  refine ⟨s.started (UInt8.ofNat (ccOf ts)) (ts.drop (offsetOf ts + 1 + pointerOf ts)), ?_, ?_⟩
  · rw [Psi.mux_raw_start s h hp (by omega) hu (fun _ => by omega) hpf (by
      rcases hr with h | h | h
      · exact .inl h
      · exact .inr (.inl h)
      · exact .inr (.inr ⟨h, hs.empty h⟩)), if_pos hfit]
  · exact ⟨rfl, rfl, ofNat_ccOf ts, rfl⟩

/-- C47: a pointer_field of 183 or more (no section can start in the packet) and a payload offset outside the packet
empty the reassembler. -/
theorem C47_no_start (p : Profile) (s : Psi) (ts : List UInt8) (h : IsPacket ts) (hp : hasPayload ts = true)
    (hb : 188 ≤ offsetOf ts ∨ (pusiOf ts = true ∧ 183 ≤ pointerOf ts)) :
    s.mux p ts = .ok { s with buffer := [], size := 0 } := by
  by_cases ho : offsetOf ts < 188
  · rcases hb with hb | ⟨hu, hb⟩
    · omega
    · exact Psi.mux_raw_pusi_bad s h hp ho hu hb
  · exact Psi.mux_raw_off s h hp (by omega)

/-- C48, the part that holds: a section `a` whose beginning has been collected is completed by a PUSI packet with the
right counter whose pointer_field counts the missing bytes; the bytes of the next section stay behind it in the
buffer. -/
theorem C48_pointer_continuation_partial (p : Profile) (s : Psi) (a : List UInt8) (k : Nat) (ts rest : List UInt8)
    (hs : s.cc.toNat < 16) (ha : IsSection a) (hk : 0 < k) (hka : k < a.length) (hb : s.buffer = a.take k)
    (hz : s.size = if k < 3 then 0 else a.length) (h : IsPacket ts) (hp : hasPayload ts = true) (ho : offsetOf ts < 188)
    (hu : pusiOf ts = true) (hc : ccOf ts = (s.cc.toNat + 1) % 16) (hpf : pointerOf ts = a.length - k)
    (hpf2 : pointerOf ts < 183) (hd : ts.drop (offsetOf ts + 1) = a.drop k ++ rest) :
    ∃ s', s.mux p ts = .ok s' ∧ s'.size = a.length ∧ s'.buffer = a ++ rest ∧ s'.cc.toNat = ccOf ts := by
  have hne : s.buffer ≠ [] := by
    rw [hb]; intro h
    have := congrArg List.length h
    rw [List.length_take, List.length_nil] at this
    omega
  have hbl : s.buffer.length = k := by rw [hb, List.length_take]; omega
  have hdr : s.drained = s := by
    unfold Psi.drained
    rw [if_neg]
    rw [hbl, hz]
    split <;> omega
  have happ : s.buffer ++ ts.drop (offsetOf ts + 1) = a ++ rest := by
    rw [hb, hd, ← List.append_assoc, List.take_append_drop]
  refine ⟨_, Psi.mux_raw_pusi_cont s h hp ho hu (by omega) hpf2 (by omega) hc hne, ?_, ?_, ofNat_ccOf ts⟩
  · simp only [hdr, Psi.pushed, happ]
    have h3 := ha.1
    split
    · rw [Psi.declaredSize_append _ _ h3, Psi.declaredSize_section ha]
    · rename_i hnz
      rw [hz] at hnz ⊢
      split at hnz
      · exact absurd rfl hnz
      · rw [if_neg (by assumption)]
  · simp only [hdr, Psi.pushed, happ]

/-- C48: the section behind a completed one becomes the current one when another PUSI packet with non-zero
pointer_field and the right counter follows. -/
theorem C48_next_section_partial (p : Profile) (s : Psi) (ts b : List UInt8) (hs : s.cc.toNat < 16) (hz : s.size ≠ 0)
    (hb : s.buffer.drop s.size = b) (hb0 : b ≠ []) (h : IsPacket ts) (hp : hasPayload ts = true) (ho : offsetOf ts < 188)
    (hu : pusiOf ts = true) (hc : ccOf ts = (s.cc.toNat + 1) % 16) (hpf : pointerOf ts ≠ 0) (hpf2 : pointerOf ts < 183) :
    ∃ s', s.mux p ts = .ok s' ∧ s'.buffer = b ++ ts.drop (offsetOf ts + 1) ∧
      s'.size = declaredSize (b ++ ts.drop (offsetOf ts + 1)) := by
  have hgt : s.buffer.length > s.size := by
    by_contra hc
    apply hb0
    rw [← hb, List.drop_of_length_le (by omega)]
  have hdr : s.drained = { s with buffer := b, size := 0 } := by
    unfold Psi.drained
    rw [if_pos ⟨hz, hgt⟩, hb]
  refine ⟨_, Psi.mux_raw_pusi_cont s h hp ho hu (by omega) hpf2 hpf hc ?_, ?_, ?_⟩
  · intro h; rw [h] at hgt; simp at hgt
  · simp only [hdr, Psi.pushed]
  · simp only [hdr, Psi.pushed, if_true]

/-- C48 fails: if the section behind a completed section `a` instead continues in an ordinary packet (PUSI clear,
right counter, as ISO/IEC 13818-1 prescribes when no further section starts), it is thrown away and `a` is reported a
second time. -/
theorem C48_lost_section_refuted (p : Profile) (s : Psi) (ts a rest : List UInt8) (hs : s.cc.toNat < 16)
    (ha : IsSection a) (hb : s.buffer = a ++ rest) (hz : s.size = a.length) (h : IsPacket ts)
    (hp : hasPayload ts = true) (ho : offsetOf ts < 188) (hu : pusiOf ts = false) (hc : ccOf ts = (s.cc.toNat + 1) % 16) :
    ∃ s', s.mux p ts = .ok s' ∧ s'.buffer = a ∧ s'.size = a.length := by
  have h3 := ha.1
  have hsz : ∀ d, (s.pushed d).size = a.length := by
    intro d; simp only [Psi.pushed]; rw [if_neg (by omega), hz]
  refine ⟨_, Psi.mux_raw_cont s h hp ho hu (by omega) hc, ?_, hsz _⟩
  simp only [hsz, hb, List.append_assoc]
  exact List.take_left

/-- Non-vacuity of the C48 hypotheses: section `70 70 05 ..` of eight bytes, five of them collected. -/
example : IsSection [0x70, 0x70, 0x05, 0xDC, 0xB7, 0x23, 0x59, 0x59] ∧
    IsPacket (payloadPacket 20 1 true (3 :: [0x23, 0x59, 0x59] ++ [0x70, 0x70, 0x05])) ∧
    pointerOf (payloadPacket 20 1 true (3 :: [0x23, 0x59, 0x59] ++ [0x70, 0x70, 0x05])) = 3 := by decide +kernel

/-- The register step for input bit 1, on naturals. -/
def oneStep (r : Nat) : Nat :=
  cond (Nat.beq (r / 2147483648) 1) ((r * 2) % 4294967296) (Nat.xor ((r * 2) % 4294967296) 0x04C11DB7)

/-- `n` such steps, in a form the kernel evaluates eagerly. -/
def oneSteps : Nat → Nat → Nat := fun n =>
  Nat.rec (fun r => r) (fun _ ih r => Nat.rec (ih 0) (fun m _ => ih (Nat.succ m)) (oneStep r)) n

theorem oneSteps_succ (n r : Nat) : oneSteps (n + 1) r = oneSteps n (oneStep r) := by
  have h : oneSteps (n + 1) r = Nat.rec (motive := fun _ => Nat) (oneSteps n 0) (fun m _ => oneSteps n (Nat.succ m)) (oneStep r) := rfl
  rw [h]
  cases oneStep r <;> rfl

theorem oneSteps_add (m n r : Nat) : oneSteps (m + n) r = oneSteps n (oneSteps m r) := by
  induction m generalizing r with
  | zero => rw [Nat.zero_add]; rfl
  | succ m ih => rw [show m + 1 + n = (m + n) + 1 by omega, oneSteps_succ, oneSteps_succ, ih]

theorem crcBit_one (r : UInt32) : (crcBit r true).toNat = oneStep r.toNat := by
  have hr := r.toNat_lt
  have hs : (r <<< 1).toNat = (r.toNat * 2) % 4294967296 := by
    rw [UInt32.toNat_shiftLeft, Nat.shiftLeft_eq]; rfl
  have ht : r.toNat.testBit 31 = Nat.beq (r.toNat / 2147483648) 1 := by
    rw [Nat.testBit_eq_decide_div_mod_eq]
    norm_num only
    have : r.toNat / 2147483648 % 2 = r.toNat / 2147483648 := by omega
    rw [this]
    cases h : Nat.beq (r.toNat / 2147483648) 1
    · rw [decide_eq_false_iff_not]; intro h2; rw [h2] at h; cases h
    · rw [decide_eq_true_iff]; exact Nat.eq_of_beq_eq_true h
  unfold crcBit oneStep
  rw [ht]
  cases Nat.beq (r.toNat / 2147483648) 1
  · rw [if_pos (by decide), UInt32.toNat_xor, hs]; rfl
  · rw [if_neg (by decide), hs]; rfl

theorem crc_ones (n : Nat) (r : UInt32) : ((bits (List.replicate n 0xFF)).foldl crcBit r).toNat = oneSteps (8 * n) r.toNat := by
  induction n generalizing r with
  | zero => rfl
  | succ n ih =>
    have hb : bits (List.replicate (n + 1) 0xFF) =
        true :: true :: true :: true :: true :: true :: true :: true :: bits (List.replicate n 0xFF) := rfl
    rw [hb, show 8 * (n + 1) = 8 * n + 1 + 1 + 1 + 1 + 1 + 1 + 1 + 1 by omega]
    simp only [List.foldl_cons, oneSteps_succ, ih, crcBit_one]

/-- The CRC of 4098 bytes 0xFF is not zero. -/
theorem crc_ff : crc32 (List.replicate 4098 0xFF) ≠ 0 := by
  intro h
  have h := congrArg UInt32.toNat h
  rw [crc32, crc_ones, show (0xFFFFFFFF : UInt32).toNat = 4294967295 from rfl, show (0 : UInt32).toNat = 0 from rfl,
    show 8 * 4098 = 32784 from rfl] at h
  rw [show 32784 = 512 + 32272 from rfl, oneSteps_add, show oneSteps 512 4294967295 = 2719906063 by decide +kernel] at h
  rw [show 32272 = 512 + 31760 from rfl, oneSteps_add, show oneSteps 512 2719906063 = 3453307737 by decide +kernel] at h
  rw [show 31760 = 512 + 31248 from rfl, oneSteps_add, show oneSteps 512 3453307737 = 1301163951 by decide +kernel] at h
  rw [show 31248 = 512 + 30736 from rfl, oneSteps_add, show oneSteps 512 1301163951 = 2078993024 by decide +kernel] at h
  rw [show 30736 = 512 + 30224 from rfl, oneSteps_add, show oneSteps 512 2078993024 = 2418511338 by decide +kernel] at h
  rw [show 30224 = 512 + 29712 from rfl, oneSteps_add, show oneSteps 512 2418511338 = 401827638 by decide +kernel] at h
  rw [show 29712 = 512 + 29200 from rfl, oneSteps_add, show oneSteps 512 401827638 = 1219525334 by decide +kernel] at h
  rw [show 29200 = 512 + 28688 from rfl, oneSteps_add, show oneSteps 512 1219525334 = 104603970 by decide +kernel] at h
  rw [show 28688 = 512 + 28176 from rfl, oneSteps_add, show oneSteps 512 104603970 = 1366231435 by decide +kernel] at h
  rw [show 28176 = 512 + 27664 from rfl, oneSteps_add, show oneSteps 512 1366231435 = 862227527 by decide +kernel] at h
  rw [show 27664 = 512 + 27152 from rfl, oneSteps_add, show oneSteps 512 862227527 = 366301914 by decide +kernel] at h
  rw [show 27152 = 512 + 26640 from rfl, oneSteps_add, show oneSteps 512 366301914 = 3236790880 by decide +kernel] at h
  rw [show 26640 = 512 + 26128 from rfl, oneSteps_add, show oneSteps 512 3236790880 = 1521904607 by decide +kernel] at h
  rw [show 26128 = 512 + 25616 from rfl, oneSteps_add, show oneSteps 512 1521904607 = 17149609 by decide +kernel] at h
  rw [show 25616 = 512 + 25104 from rfl, oneSteps_add, show oneSteps 512 17149609 = 2598209703 by decide +kernel] at h
  rw [show 25104 = 512 + 24592 from rfl, oneSteps_add, show oneSteps 512 2598209703 = 3489702882 by decide +kernel] at h
  rw [show 24592 = 512 + 24080 from rfl, oneSteps_add, show oneSteps 512 3489702882 = 24052899 by decide +kernel] at h
  rw [show 24080 = 512 + 23568 from rfl, oneSteps_add, show oneSteps 512 24052899 = 4132290171 by decide +kernel] at h
  rw [show 23568 = 512 + 23056 from rfl, oneSteps_add, show oneSteps 512 4132290171 = 921056599 by decide +kernel] at h
  rw [show 23056 = 512 + 22544 from rfl, oneSteps_add, show oneSteps 512 921056599 = 3271428822 by decide +kernel] at h
  rw [show 22544 = 512 + 22032 from rfl, oneSteps_add, show oneSteps 512 3271428822 = 3903930662 by decide +kernel] at h
  rw [show 22032 = 512 + 21520 from rfl, oneSteps_add, show oneSteps 512 3903930662 = 3895147707 by decide +kernel] at h
  rw [show 21520 = 512 + 21008 from rfl, oneSteps_add, show oneSteps 512 3895147707 = 1663127625 by decide +kernel] at h
  rw [show 21008 = 512 + 20496 from rfl, oneSteps_add, show oneSteps 512 1663127625 = 3585050539 by decide +kernel] at h
  rw [show 20496 = 512 + 19984 from rfl, oneSteps_add, show oneSteps 512 3585050539 = 640591630 by decide +kernel] at h
  rw [show 19984 = 512 + 19472 from rfl, oneSteps_add, show oneSteps 512 640591630 = 2330475732 by decide +kernel] at h
  rw [show 19472 = 512 + 18960 from rfl, oneSteps_add, show oneSteps 512 2330475732 = 3828997590 by decide +kernel] at h
  rw [show 18960 = 512 + 18448 from rfl, oneSteps_add, show oneSteps 512 3828997590 = 3504385912 by decide +kernel] at h
  rw [show 18448 = 512 + 17936 from rfl, oneSteps_add, show oneSteps 512 3504385912 = 3864164513 by decide +kernel] at h
  rw [show 17936 = 512 + 17424 from rfl, oneSteps_add, show oneSteps 512 3864164513 = 2259953636 by decide +kernel] at h
  rw [show 17424 = 512 + 16912 from rfl, oneSteps_add, show oneSteps 512 2259953636 = 991452150 by decide +kernel] at h
  rw [show 16912 = 512 + 16400 from rfl, oneSteps_add, show oneSteps 512 991452150 = 24401155 by decide +kernel] at h
  rw [show 16400 = 512 + 15888 from rfl, oneSteps_add, show oneSteps 512 24401155 = 757817715 by decide +kernel] at h
  rw [show 15888 = 512 + 15376 from rfl, oneSteps_add, show oneSteps 512 757817715 = 2335468423 by decide +kernel] at h
  rw [show 15376 = 512 + 14864 from rfl, oneSteps_add, show oneSteps 512 2335468423 = 1893555548 by decide +kernel] at h
  rw [show 14864 = 512 + 14352 from rfl, oneSteps_add, show oneSteps 512 1893555548 = 480885406 by decide +kernel] at h
  rw [show 14352 = 512 + 13840 from rfl, oneSteps_add, show oneSteps 512 480885406 = 2554966156 by decide +kernel] at h
  rw [show 13840 = 512 + 13328 from rfl, oneSteps_add, show oneSteps 512 2554966156 = 3742206847 by decide +kernel] at h
  rw [show 13328 = 512 + 12816 from rfl, oneSteps_add, show oneSteps 512 3742206847 = 3180613174 by decide +kernel] at h
  rw [show 12816 = 512 + 12304 from rfl, oneSteps_add, show oneSteps 512 3180613174 = 1449950429 by decide +kernel] at h
  rw [show 12304 = 512 + 11792 from rfl, oneSteps_add, show oneSteps 512 1449950429 = 2391487564 by decide +kernel] at h
  rw [show 11792 = 512 + 11280 from rfl, oneSteps_add, show oneSteps 512 2391487564 = 4049800759 by decide +kernel] at h
  rw [show 11280 = 512 + 10768 from rfl, oneSteps_add, show oneSteps 512 4049800759 = 3214105115 by decide +kernel] at h
  rw [show 10768 = 512 + 10256 from rfl, oneSteps_add, show oneSteps 512 3214105115 = 389492030 by decide +kernel] at h
  rw [show 10256 = 512 + 9744 from rfl, oneSteps_add, show oneSteps 512 389492030 = 3098416685 by decide +kernel] at h
  rw [show 9744 = 512 + 9232 from rfl, oneSteps_add, show oneSteps 512 3098416685 = 2768713066 by decide +kernel] at h
  rw [show 9232 = 512 + 8720 from rfl, oneSteps_add, show oneSteps 512 2768713066 = 2369217981 by decide +kernel] at h
  rw [show 8720 = 512 + 8208 from rfl, oneSteps_add, show oneSteps 512 2369217981 = 2497928770 by decide +kernel] at h
  rw [show 8208 = 512 + 7696 from rfl, oneSteps_add, show oneSteps 512 2497928770 = 2594953814 by decide +kernel] at h
  rw [show 7696 = 512 + 7184 from rfl, oneSteps_add, show oneSteps 512 2594953814 = 3536094122 by decide +kernel] at h
  rw [show 7184 = 512 + 6672 from rfl, oneSteps_add, show oneSteps 512 3536094122 = 724317843 by decide +kernel] at h
  rw [show 6672 = 512 + 6160 from rfl, oneSteps_add, show oneSteps 512 724317843 = 1292229860 by decide +kernel] at h
  rw [show 6160 = 512 + 5648 from rfl, oneSteps_add, show oneSteps 512 1292229860 = 1357752104 by decide +kernel] at h
  rw [show 5648 = 512 + 5136 from rfl, oneSteps_add, show oneSteps 512 1357752104 = 271708074 by decide +kernel] at h
  rw [show 5136 = 512 + 4624 from rfl, oneSteps_add, show oneSteps 512 271708074 = 4131296690 by decide +kernel] at h
  rw [show 4624 = 512 + 4112 from rfl, oneSteps_add, show oneSteps 512 4131296690 = 1037102549 by decide +kernel] at h
  rw [show 4112 = 512 + 3600 from rfl, oneSteps_add, show oneSteps 512 1037102549 = 1337411642 by decide +kernel] at h
  rw [show 3600 = 512 + 3088 from rfl, oneSteps_add, show oneSteps 512 1337411642 = 1342104667 by decide +kernel] at h
  rw [show 3088 = 512 + 2576 from rfl, oneSteps_add, show oneSteps 512 1342104667 = 1299245126 by decide +kernel] at h
  rw [show 2576 = 512 + 2064 from rfl, oneSteps_add, show oneSteps 512 1299245126 = 965338843 by decide +kernel] at h
  rw [show 2064 = 512 + 1552 from rfl, oneSteps_add, show oneSteps 512 965338843 = 930373751 by decide +kernel] at h
  rw [show 1552 = 512 + 1040 from rfl, oneSteps_add, show oneSteps 512 930373751 = 2943470209 by decide +kernel] at h
  rw [show 1040 = 512 + 528 from rfl, oneSteps_add, show oneSteps 512 2943470209 = 1479688965 by decide +kernel] at h
  rw [show 528 = 512 + 16 from rfl, oneSteps_add, show oneSteps 512 1479688965 = 2937705840 by decide +kernel] at h
  exact absurd h (by decide +kernel)

/-- C77: stuffing alone is never reported as a section: whatever number of 0xFF bytes a section would start with. -/
theorem C77_stuffing_only (p : Profile) (s : Psi) (n : Nat) (hb : s.buffer = List.replicate n 0xFF)
    (hz : s.size = declaredSize s.buffer) : s.check p = .ok false := by
  rw [Psi.check_eq]
  by_cases hn : 3 ≤ n
  · have hd : declaredSize (List.replicate n 0xFF) = 4098 := by
      obtain ⟨j, rfl⟩ := Nat.exists_eq_add_of_le' hn
      rw [declaredSize, if_pos (by rw [List.length_replicate]; omega)]
      simp only [List.replicate_succ, List.drop_succ_cons, List.drop_zero, List.take_succ_cons, List.take_zero]
      decide
    rw [hz, hb, hd]
    congr 1
    rw [decide_eq_false_iff_not]
    rintro ⟨-, h1, h2⟩
    rw [List.length_replicate] at h1
    rw [List.take_replicate, Nat.min_eq_left h1] at h2
    exact crc_ff h2
  · rw [hz, hb, declaredSize, List.length_replicate, if_neg hn]
    simp

/-- C77: the stuffing behind a section is dropped: a packet with a whole section and stuffing leaves exactly the
section. -/
theorem C77_stuffing_dropped (p : Profile) (s : Psi) (hs : s.Ok) (ts sec : List UInt8) (n : Nat) (h : IsPacket ts)
    (hp : hasPayload ts = true) (hu : pusiOf ts = true) (hpf : pointerOf ts < 183)
    (hr : pointerOf ts = 0 ∨ ccOf ts ≠ (s.cc.toNat + 1) % 16 ∨ s.buffer = []) (hsec : IsSection sec)
    (hd : ts.drop (offsetOf ts + 1 + pointerOf ts) = sec ++ List.replicate n 0xFF) :
    ∃ s', s.mux p ts = .ok s' ∧ s'.buffer = sec ∧ s'.size = sec.length := by
  have h3 := hsec.1
  have hfit : offsetOf ts + 1 + pointerOf ts ≤ 188 := by
    by_contra hc
    rw [List.drop_of_length_le (by rw [h.1]; omega)] at hd
    have := congrArg List.length hd
    rw [List.length_append, List.length_nil] at this
    omega
  obtain ⟨s', h1, h2, h4, -⟩ := C47_section_start p s hs ts h hp hu hpf hfit hr
  have hds : declaredSize (sec ++ List.replicate n 0xFF) = sec.length := by
    rw [Psi.declaredSize_append _ _ h3, Psi.declaredSize_section hsec]
  refine ⟨s', h1, ?_, by rw [h4, hd, hds]⟩
  rw [h2, hd, upToEnd, if_pos (by rw [List.length_append]; omega), hds, List.take_left]

end Mpegts
