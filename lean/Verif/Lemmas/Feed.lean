import Verif.Lemmas.PsiMux
import Verif.Spec.Feed

/-! # Helper lemmas: packet histories -/

namespace Mpegts
open Spec

theorem feed_nil (p : Profile) (s : Psi) : feed p s [] = .ok s := rfl
theorem feed_cons (p : Profile) (s : Psi) (ts : List UInt8) (l : List (List UInt8)) :
    feed p s (ts :: l) = (do feed p (← s.mux p ts) l) := by
  simp [feed]
theorem feed_append (p : Profile) (s : Psi) (a b : List (List UInt8)) :
    feed p s (a ++ b) = (do feed p (← feed p s a) b) := by
  simp [feed]

/-- Every packet, as its header and the rest. -/
theorem packet_split {ts : List UInt8} (hl : ts.length = 188) :
    ∃ (h : Header) (rest : List UInt8), h.Valid ∧ rest.length = 184 ∧ ts = h.encode ++ rest := by
  obtain ⟨h, hv, he⟩ := header_complete ts (by omega)
  exact ⟨h, ts.drop 4, hv, by rw [List.length_drop, hl], he⟩

/-- The raw field readers agree with the header fields. -/
theorem raw_fields {h : Header} (hv : h.Valid) (rest : List UInt8) :
    hasPayload (h.encode ++ rest) = h.payload ∧ hasAdaptation (h.encode ++ rest) = h.adaptation ∧
    pusiOf (h.encode ++ rest) = h.pusi ∧ ccOf (h.encode ++ rest) = h.cc ∧ pidOf (h.encode ++ rest) = h.pid := by
  have h0 := hdr0_toNat hv; have h1 := hdr1_toNat hv; have h2 := hdr2_toNat h; have h3 := hdr3_toNat hv
  rw [header_encode hv]
  obtain ⟨v1, v2, v3, v4⟩ := hv
  have := bit_lt h.tei; have := bit_lt h.pusi; have := bit_lt h.priority
  have := bit_lt h.adaptation; have := bit_lt h.payload
  simp only [hasPayload, hasAdaptation, pusiOf, ccOf, pidOf, List.cons_append, List.nil_append, List.getD_cons_zero,
    List.getD_cons_succ, h1, h2, h3]
  refine ⟨?_, ?_, ?_, ?_, ?_⟩
  · refine Eq.trans ?_ (bit_eq_one h.payload); congr 1; simp only [eq_iff_iff]; omega
  · refine Eq.trans ?_ (bit_eq_one h.adaptation); congr 1; simp only [eq_iff_iff]; omega
  · refine Eq.trans ?_ (bit_eq_one h.pusi); congr 1; simp only [eq_iff_iff]; omega
  · omega
  · omega

theorem raw_len {h : Header} (hv : h.Valid) (b : UInt8) (rest : List UInt8) :
    (h.encode ++ b :: rest).getD 4 0 = b := by
  rw [header_encode hv]; rfl

theorem offsetOf_eq {h : Header} (hv : h.Valid) (rest : List UInt8) (hr : rest.length = 184)
    (hl : h.adaptation = true → (rest.headD 0).toNat ≤ 250) :
    offsetOf (h.encode ++ rest) = Psi.payloadOff h rest := by
  match rest, hr with
  | b :: rest', hr =>
    unfold offsetOf Psi.payloadOff
    rw [(raw_fields hv _).2.1, raw_len hv]
    simp only [List.headD_cons] at *
    split
    · have := hl (by assumption); omega
    · rfl

theorem isPayload_eq {ts : List UInt8} (hl : ts.length = 188) : Ts.isPayload ts = .ok (hasPayload ts) := by
  obtain ⟨h, rest, hv, hr, rfl⟩ := packet_split hl
  rw [(C04_header_fields h hv rest).2.2.2.2.2.2.1, (raw_fields hv rest).1]

theorem getPid_eq {ts : List UInt8} (hl : ts.length = 188) : ∃ q, Ts.getPid ts = .ok q ∧ q.toNat = pidOf ts := by
  obtain ⟨h, rest, hv, hr, rfl⟩ := packet_split hl
  obtain ⟨q, h1, h2⟩ := (C04_header_fields h hv rest).2.2.2.1
  exact ⟨q, h1, by rw [h2, (raw_fields hv rest).2.2.2.2]⟩

theorem view_packet (p : Profile) {ts : List UInt8} (h : IsPacket ts) (hpay : hasPayload ts = true) :
    Psi.View p ts (offsetOf ts) (UInt8.ofNat (ccOf ts)) (pusiOf ts) := by
  obtain ⟨hl, ha⟩ := h
  obtain ⟨h, rest, hv, hr, rfl⟩ := packet_split hl
  have hrf := raw_fields hv rest
  have hadap : h.adaptation = true → (rest.headD 0).toNat ≤ 250 := by
    intro h1
    match rest, hr with
    | b :: rest', hr =>
      have := ha (by rw [hrf.2.1, h1])
      rwa [raw_len hv] at this
  rw [offsetOf_eq hv rest hr hadap, hrf.2.2.1, hrf.2.2.2.1]
  apply Psi.view_general p h hv rest hr (by rw [← hrf.1, hpay])
  cases ha' : h.adaptation with
  | false => exact .inr (.inl rfl)
  | true => exact .inr (.inr (hadap ha'))

theorem ccOf_lt (ts : List UInt8) : ccOf ts < 16 := Nat.mod_lt _ (by decide)

theorem ofNat_ccOf (ts : List UInt8) : (UInt8.ofNat (ccOf ts)).toNat = ccOf ts := by
  have := ccOf_lt ts
  rw [UInt8.toNat_ofNat']; omega

theorem pointer_get {ts : List UInt8} (h : IsPacket ts) (ho : offsetOf ts < 188) :
    ∃ pf : UInt8, ts[offsetOf ts]? = some pf ∧ pf.toNat = pointerOf ts := by
  have : offsetOf ts < ts.length := by rw [h.1]; exact ho
  refine ⟨ts[offsetOf ts], by simp [this], ?_⟩
  simp [pointerOf, this]

/-! ### `mux` on a packet, in terms of the raw fields -/

namespace Psi
variable {p : Profile} {ts : List UInt8}

theorem mux_raw_nopay (s : Psi) (hl : ts.length = 188) (h : hasPayload ts = false) : s.mux p ts = .ok s :=
  mux_nopay p s ts (by rw [isPayload_eq hl, h])

theorem mux_raw_off (s : Psi) (h : IsPacket ts) (hp : hasPayload ts = true) (ho : 188 ≤ offsetOf ts) :
    s.mux p ts = .ok s.clear := mux_off (view_packet p h hp) s ho

theorem mux_raw_cont_bad (s : Psi) (h : IsPacket ts) (hp : hasPayload ts = true) (ho : offsetOf ts < 188)
    (hu : pusiOf ts = false) (hs : s.cc.toNat < 255) (hc : ccOf ts ≠ (s.cc.toNat + 1) % 16) :
    s.mux p ts = .ok s.clear := by
  have v := view_packet p h hp
  rw [hu] at v
  exact mux_cont_bad v s ho hs (by rw [ofNat_ccOf]; exact hc)

theorem mux_raw_cont (s : Psi) (h : IsPacket ts) (hp : hasPayload ts = true) (ho : offsetOf ts < 188)
    (hu : pusiOf ts = false) (hs : s.cc.toNat < 255) (hc : ccOf ts = (s.cc.toNat + 1) % 16) :
    s.mux p ts = .ok { s.pushed (ts.drop (offsetOf ts)) with
      buffer := (s.buffer ++ ts.drop (offsetOf ts)).take (s.pushed (ts.drop (offsetOf ts))).size,
      cc := UInt8.ofNat (ccOf ts) } := by
  have v := view_packet p h hp
  rw [hu] at v
  exact mux_cont v s ho hs (by rw [ofNat_ccOf]; exact hc)

theorem mux_raw_pusi_bad (s : Psi) (h : IsPacket ts) (hp : hasPayload ts = true) (ho : offsetOf ts < 188)
    (hu : pusiOf ts = true) (hpf : 183 ≤ pointerOf ts) : s.mux p ts = .ok s.clear := by
  have v := view_packet p h hp
  rw [hu] at v
  obtain ⟨pf, h1, h2⟩ := pointer_get h ho
  exact mux_pusi_bad v s ho pf h1 (by omega)

theorem mux_raw_start (s : Psi) (h : IsPacket ts) (hp : hasPayload ts = true) (ho : offsetOf ts < 188)
    (hu : pusiOf ts = true) (hs : pointerOf ts ≠ 0 → s.cc.toNat < 255) (hpf : pointerOf ts < 183)
    (hr : pointerOf ts = 0 ∨ ccOf ts ≠ (s.cc.toNat + 1) % 16 ∨ (s.buffer = [] ∧ s.size = 0)) :
    s.mux p ts = if offsetOf ts + 1 + pointerOf ts ≤ 188 then
      .ok (s.started (UInt8.ofNat (ccOf ts)) (ts.drop (offsetOf ts + 1 + pointerOf ts))) else panic := by
  have v := view_packet p h hp
  rw [hu] at v
  obtain ⟨pf, h1, h2⟩ := pointer_get h ho
  rw [← h2] at hs hpf hr ⊢
  exact mux_pusi_start v s ho pf hs h1 hpf (by rw [ofNat_ccOf]; exact hr)

theorem mux_raw_pusi_cont (s : Psi) (h : IsPacket ts) (hp : hasPayload ts = true) (ho : offsetOf ts < 188)
    (hu : pusiOf ts = true) (hs : s.cc.toNat < 255) (hpf : pointerOf ts < 183) (h0 : pointerOf ts ≠ 0)
    (hc : ccOf ts = (s.cc.toNat + 1) % 16) (hb : s.buffer ≠ []) :
    s.mux p ts = .ok { s.drained.pushed (ts.drop (offsetOf ts + 1)) with cc := UInt8.ofNat (ccOf ts) } := by
  have v := view_packet p h hp
  rw [hu] at v
  obtain ⟨pf, h1, h2⟩ := pointer_get h ho
  exact mux_pusi_cont v s ho hs pf h1 (by omega) (by omega) (by rw [ofNat_ccOf]; exact hc) hb

/-- What a reassembler that was only ever touched by the API satisfies. -/
structure Ok (s : Psi) : Prop where
  cc : s.cc.toNat < 16
  empty : s.buffer = [] → s.size = 0

/-- Everything `mux` can do with a packet. -/
inductive Outcome (p : Profile) (s : Psi) (ts : List UInt8) : R Psi → Prop
  | nopay : hasPayload ts = false → Outcome p s ts (.ok s)
  | clear : hasPayload ts = true → Outcome p s ts (.ok s.clear)
  | cont : hasPayload ts = true → pusiOf ts = false → offsetOf ts < 188 → ccOf ts = (s.cc.toNat + 1) % 16 →
      Outcome p s ts (.ok { s.pushed (ts.drop (offsetOf ts)) with
        buffer := (s.buffer ++ ts.drop (offsetOf ts)).take (s.pushed (ts.drop (offsetOf ts))).size,
        cc := UInt8.ofNat (ccOf ts) })
  | start : hasPayload ts = true → pusiOf ts = true → offsetOf ts < 188 → pointerOf ts < 183 →
      offsetOf ts + 1 + pointerOf ts ≤ 188 →
      (pointerOf ts = 0 ∨ ccOf ts ≠ (s.cc.toNat + 1) % 16 ∨ s.buffer = []) →
      Outcome p s ts (.ok (s.started (UInt8.ofNat (ccOf ts)) (ts.drop (offsetOf ts + 1 + pointerOf ts))))
  | panic : hasPayload ts = true → pusiOf ts = true → offsetOf ts < 188 → pointerOf ts < 183 →
      188 < offsetOf ts + 1 + pointerOf ts →
      (pointerOf ts = 0 ∨ ccOf ts ≠ (s.cc.toNat + 1) % 16 ∨ s.buffer = []) → Outcome p s ts panic
  | pusiCont : hasPayload ts = true → pusiOf ts = true → offsetOf ts < 188 → pointerOf ts < 183 → pointerOf ts ≠ 0 →
      ccOf ts = (s.cc.toNat + 1) % 16 → s.buffer ≠ [] →
      Outcome p s ts (.ok { s.drained.pushed (ts.drop (offsetOf ts + 1)) with cc := UInt8.ofNat (ccOf ts) })

theorem mux_outcome (p : Profile) (s : Psi) (ts : List UInt8) (hs : s.Ok) (h : IsPacket ts) :
    Outcome p s ts (s.mux p ts) := by
  have hcc := hs.cc
  cases hp : hasPayload ts with
  | false => rw [mux_raw_nopay s h.1 hp]; exact .nopay hp
  | true =>
    by_cases ho : offsetOf ts < 188
    · cases hu : pusiOf ts with
      | false =>
        by_cases hc : ccOf ts = (s.cc.toNat + 1) % 16
        · rw [mux_raw_cont s h hp ho hu (by omega) hc]; exact .cont hp hu ho hc
        · rw [mux_raw_cont_bad s h hp ho hu (by omega) hc]; exact .clear hp
      | true =>
        by_cases hpf : pointerOf ts < 183
        · by_cases hr : pointerOf ts = 0 ∨ ccOf ts ≠ (s.cc.toNat + 1) % 16 ∨ s.buffer = []
          · rw [mux_raw_start s h hp ho hu (fun _ => by omega) hpf (by
              rcases hr with h | h | h
              · exact .inl h
              · exact .inr (.inl h)
              · exact .inr (.inr ⟨h, hs.empty h⟩))]
            split
            · exact .start hp hu ho hpf (by assumption) hr
            · exact .panic hp hu ho hpf (by omega) hr
          · simp only [not_or, not_not] at hr
            rw [mux_raw_pusi_cont s h hp ho hu (by omega) hpf hr.1 hr.2.1 hr.2.2]
            exact .pusiCont hp hu ho hpf hr.1 hr.2.1 hr.2.2
        · rw [mux_raw_pusi_bad s h hp ho hu (by omega)]; exact .clear hp
    · rw [mux_raw_off s h hp (by omega)]; exact .clear hp

theorem default_ok : Psi.default.Ok := ⟨by decide, fun _ => rfl⟩
theorem clear_ok {s : Psi} (h : s.Ok) : s.clear.Ok := ⟨h.cc, fun _ => rfl⟩

theorem started_ok (s : Psi) (ts b : List UInt8) : (s.started (UInt8.ofNat (ccOf ts)) b).Ok := by
  refine ⟨by simp only [started]; rw [ofNat_ccOf]; exact ccOf_lt ts, ?_⟩
  simp only [started, upToEnd]
  intro h
  by_cases h3 : 3 ≤ b.length
  · rw [if_pos h3, List.take_eq_nil_iff] at h
    rcases h with h | h
    · exact h
    · rw [h] at h3; simp at h3
  · simp [declaredSize, h3]

/-- `mux` preserves `Ok`. -/
theorem mux_ok {p : Profile} {s s' : Psi} {ts : List UInt8} (hs : s.Ok) (h : IsPacket ts) (he : s.mux p ts = .ok s') :
    s'.Ok := by
  have ho := mux_outcome p s ts hs h
  rw [he] at ho
  have hlt := ofNat_ccOf ts
  have hlt2 := ccOf_lt ts
  cases ho with
  | nopay _ => exact hs
  | clear _ => exact clear_ok hs
  | cont h1 h2 h3 h4 =>
    refine ⟨by simp only []; omega, ?_⟩
    intro h
    simp only [List.take_eq_nil_iff] at h
    rcases h with h | h
    · exact h
    · exfalso
      have : (s.buffer ++ ts.drop (offsetOf ts)).length = 0 := by rw [h]; rfl
      have hl := (by assumption : IsPacket ts).1
      simp only [List.length_append, List.length_drop, hl] at this
      omega
  | start h1 h2 h3 h4 h5 h6 => exact started_ok s ts _
  | pusiCont h1 h2 h3 h4 h5 h6 h7 =>
    have hl := h.1
    refine ⟨by simp only []; omega, ?_⟩
    intro h
    simp only [pushed, List.append_eq_nil_iff] at h
    exfalso
    have hlen : (ts.drop (offsetOf ts + 1)) = [] := h.2
    have h188 : 188 ≤ offsetOf ts + 1 := by
      have := congrArg List.length hlen
      simp only [List.length_drop, hl, List.length_nil] at this
      omega
    have hb := h.1
    unfold drained at hb
    split at hb
    · rename_i hc
      have := congrArg List.length hb
      simp only [List.length_drop, List.length_nil] at this
      omega
    · exact h7 hb

end Psi
end Mpegts
