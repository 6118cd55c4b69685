import Verif.Spec.Reassembly
import Verif.Props.C125
import Verif.Props.C83_C86

/-! # C126: what is received from any packets -/

namespace Mpegts
open Spec Spec.Reassembly

/-- The value, or a panic if there is none. -/
def orPanic {α : Type} : Option α → R α
  | none => panic
  | some a => .ok a

/-- The reassembler that holds `h`. -/
def Psi.holding (h : Held) : Psi := { buffer := h.bytes, size := declaredSize h.bytes, pid := 0, cc := .ofNat h.last }

namespace AnyPacket

theorem declared_append {a b : List UInt8} (h : 3 ≤ a.length) : declaredSize (a ++ b) = declaredSize a := by
  unfold declaredSize
  rw [if_pos h, if_pos (by simp; omega), List.drop_append_of_le_length (by omega), List.take_append_of_le_length (by simp; omega)]

theorem declared_zero {a : List UInt8} : declaredSize a = 0 ↔ a.length < 3 := by
  unfold declaredSize; split <;> omega

theorem declared_take (a : List UInt8) : declaredSize (a.take (declaredSize a)) = declaredSize a := by
  by_cases h : 3 ≤ a.length
  · have h3 : 3 ≤ declaredSize a := by unfold declaredSize; rw [if_pos h]; omega
    have hl : 3 ≤ (a.take (declaredSize a)).length := by simp; omega
    conv => rhs; rw [← List.take_append_drop (declaredSize a) a]
    rw [declared_append hl]
  · have : declaredSize a = 0 := declared_zero.2 (by omega)
    rw [this]; rfl

theorem declared_upToEnd (a : List UInt8) : declaredSize (upToEnd a) = declaredSize a := by
  unfold upToEnd; split
  · exact declared_take a
  · rfl

theorem pushed_holding (h : Held) (b : List UInt8) : (Psi.holding h).pushed b = Psi.holding ⟨h.bytes ++ b, h.last⟩ := by
  unfold Psi.pushed Psi.holding
  simp only [Psi.mk.injEq, true_and, and_true]
  split
  · rfl
  · rename_i hz
    rw [declared_append]
    rw [declared_zero] at hz
    omega

theorem last_toNat {n : Nat} (h : n < 16) : (UInt8.ofNat n).toNat = n := by rw [UInt8.toNat_ofNat']; omega

theorem ccOf_ofNat {ts : List UInt8} : (UInt8.ofNat (ccOf ts)).toNat = ccOf ts := ofNat_ccOf ts

/-- What `mux` sees of a packet, whatever its adaptation field. -/
theorem view (p : Profile) {ts : List UInt8} (hl : ts.length = 188) (hp : hasPayload ts = true) :
    match payloadAt (decide (p = .debug)) ts with
    | none => ∀ s : Psi, s.mux p ts = panic
    | some o => Psi.View p ts o (UInt8.ofNat (ccOf ts)) (pusiOf ts) := by
  unfold payloadAt
  by_cases ha : hasAdaptation ts = false
  · rw [if_pos ha]
    have := view_packet p (ts := ts) ⟨hl, by simp [ha]⟩ hp
    simpa [offsetOf, ha] using this
  · rw [if_neg ha]
    have ha' : hasAdaptation ts = true := by simpa using ha
    by_cases h250 : (ts.getD 4 0).toNat ≤ 250
    · rw [if_pos h250]
      have := view_packet p (ts := ts) ⟨hl, fun _ => h250⟩ hp
      simpa [offsetOf, ha'] using this
    · rw [if_neg h250]
      obtain ⟨h, rest, hv, hr, rfl⟩ := packet_split hl
      have hrf := raw_fields hv rest
      match rest, hr with
      | b :: rest', hr =>
        rw [raw_len hv] at h250 ⊢
        rw [hrf.2.1] at ha'
        rw [hrf.1] at hp
        cases p with
        | debug =>
          simp only [decide_true, if_true]
          intro s
          exact Psi.mux_overflow h hv (b :: rest') hr s hp ha' (by simpa using by omega)
        | release =>
          simp only [reduceCtorEq, decide_false, Bool.false_eq_true, if_false]
          have := Psi.view_general .release h hv (b :: rest') hr hp (.inl rfl)
          rw [hrf.2.2.1, hrf.2.2.2.1]
          unfold Psi.payloadOff at this
          rw [if_pos ha'] at this
          have e : (5 + ((b :: rest').headD 0).toNat) % 256 = b.toNat - 251 := by
            have := b.toNat_lt
            simp only [List.headD_cons]; omega
          rwa [e] at this

theorem getD_get {ts : List UInt8} {o : Nat} (hl : ts.length = 188) (ho : o < 188) : ts[o]? = some (ts.getD o 0) := by
  have : o < ts.length := by omega
  simp [this]

theorem drained_holding (h : Held) : (Psi.holding h).drained.pushed b = Psi.holding ⟨remaining h.bytes ++ b, h.last⟩ := by
  unfold Psi.drained remaining
  by_cases hc : 3 ≤ h.bytes.length ∧ declaredSize h.bytes < h.bytes.length
  · rw [if_pos hc, if_pos ⟨by simp only [Psi.holding]; rw [ne_eq, declared_zero]; omega, hc.2⟩]
    simp only [Psi.pushed, Psi.holding, if_true]
  · rw [if_neg hc, if_neg, pushed_holding]
    rintro ⟨h1, h2⟩
    refine hc ⟨?_, h2⟩
    rw [ne_eq] at h1
    simp only [Psi.holding] at h1
    rw [declared_zero] at h1
    omega

theorem mux_eq (p : Profile) (h : Held) (hh : h.last < 16) {ts : List UInt8} (hl : ts.length = 188) :
    (Psi.holding h).mux p ts = orPanic ((packet (decide (p = .debug)) h ts).map Psi.holding) := by
  have hcc : (Psi.holding h).cc.toNat = h.last := last_toNat hh
  have hclear : (Psi.holding h).clear = Psi.holding { h with bytes := [] } := by simp [Psi.holding, Psi.clear, declaredSize]
  unfold packet
  cases hp : hasPayload ts with
  | false => simp only [if_true]; exact Psi.mux_raw_nopay _ hl hp
  | true =>
    simp only [Bool.true_eq_false, if_false]
    have v := view p hl hp
    cases hpa : payloadAt (decide (p = .debug)) ts with
    | none => rw [hpa] at v; exact v _
    | some o =>
      rw [hpa] at v
      simp only at v ⊢
      by_cases ho : 188 ≤ o
      · rw [if_pos ho, Psi.mux_off v _ ho, hclear]; rfl
      · rw [if_neg ho]
        have ho' : o < 188 := by omega
        cases hu : pusiOf ts with
        | false =>
          rw [hu] at v
          simp only [Bool.false_eq_true, if_false, Option.map_some, orPanic]
          unfold carryOn
          by_cases hc : ccOf ts = (h.last + 1) % 16
          · rw [if_pos hc, Psi.mux_cont v _ ho' (by omega) (by rw [ccOf_ofNat, hcc]; exact hc)]
            rw [pushed_holding]
            simp only [Psi.holding, Except.ok.injEq, Psi.mk.injEq, true_and, and_true]
            exact (declared_take _).symm
          · rw [if_neg hc, Psi.mux_cont_bad v _ ho' (by omega) (by rw [ccOf_ofNat, hcc]; exact hc), hclear]
        | true =>
          rw [hu] at v
          simp only [if_true]
          have hg := getD_get hl ho'
          unfold start
          by_cases h183 : 183 ≤ (ts.getD o 0).toNat
          · rw [if_pos h183, Psi.mux_pusi_bad v _ ho' _ hg h183, hclear]; rfl
          · rw [if_neg h183]
            by_cases hk : (ts.getD o 0).toNat ≠ 0 ∧ ccOf ts = (h.last + 1) % 16 ∧ h.bytes ≠ []
            · rw [if_pos hk, Psi.mux_pusi_cont v _ ho' (by omega) _ hg (by omega) hk.1 (by rw [ccOf_ofNat, hcc]; exact hk.2.1) hk.2.2,
                drained_holding]
              rfl
            · rw [if_neg hk, Psi.mux_pusi_start v _ ho' _ (fun _ => by omega) hg (by omega) (by
                rw [ccOf_ofNat, hcc]
                by_cases h0 : (ts.getD o 0).toNat = 0
                · exact .inl h0
                · by_cases hc : ccOf ts = (h.last + 1) % 16
                  · have : h.bytes = [] := by
                      by_contra hne; exact hk ⟨h0, hc, hne⟩
                    exact .inr (.inr ⟨this, by simp [Psi.holding, this, declaredSize]⟩)
                  · exact .inr (.inl hc))]
              by_cases hf : o + 1 + (ts.getD o 0).toNat ≤ 188
              · rw [if_pos hf, if_neg (by omega)]
                simp only [Option.map_some, orPanic, Psi.started, Psi.holding, declared_upToEnd]
              · rw [if_neg hf, if_pos (by omega)]
                rfl

theorem packet_last {c : Bool} {h h' : Held} (hh : h.last < 16) {ts : List UInt8} (e : packet c h ts = some h') : h'.last < 16 := by
  have := ccOf_lt ts
  unfold packet at e
  split at e
  · cases e; exact hh
  · split at e
    · cases e
    · split at e
      · cases e; exact hh
      · split at e
        · unfold start at e
          split at e
          · cases e; exact hh
          · split at e
            · cases e; exact this
            · split at e
              · cases e
              · cases e; exact this
        · unfold carryOn at e
          split at e
          · cases e; exact this
          · cases e; exact hh

theorem feed_eq (p : Profile) (pks : List (List UInt8)) (hl : ∀ ts ∈ pks, ts.length = 188) (h : Held) (hh : h.last < 16) :
    feed p (Psi.holding h) pks = orPanic ((pks.foldlM (packet (decide (p = .debug))) h).map Psi.holding) := by
  induction pks generalizing h with
  | nil => rfl
  | cons ts l ih =>
    rw [feed_cons, mux_eq p h hh (hl ts (by simp)), List.foldlM_cons]
    cases e : packet (decide (p = .debug)) h ts with
    | none => rfl
    | some h' =>
      simp only [Option.map_some, orPanic, ok_bind, Option.bind_eq_bind, Option.bind_some]
      exact ih (fun t ht => hl t (by simp [ht])) h' (packet_last hh e)

theorem receive_eq {α : Type} (parse : α → Psi → R α) (p : Profile) (read : α → List UInt8 → Option α)
    (hr : ∀ t (h : Held), parse t (Psi.holding h) = orPanic (read t h.bytes)) (pks : List (List UInt8)) (hl : ∀ ts ∈ pks, ts.length = 188)
    (t : α) : receive parse p t Psi.default pks =
      orPanic ((table (decide (p = .debug)) read t pks).map fun r => (r.1, Psi.holding r.2)) := by
  have key : ∀ (t : α) (h : Held), h.last < 16 → pks.foldlM (fun st ts => do
      let s ← st.2.mux p ts
      let t ← parse st.1 s
      pure (t, s)) (t, Psi.holding h) = orPanic ((pks.foldlM (m := Option) (fun (st : α × Held) ts => do
        let h ← packet (decide (p = Profile.debug)) st.2 ts
        let t ← read st.1 h.bytes
        pure (t, h)) (t, h)).map fun (r : α × Held) => (r.1, Psi.holding r.2)) := by
    induction pks with
    | nil => intros; rfl
    | cons ts l ih =>
      intro t h hh
      rw [List.foldlM_cons, List.foldlM_cons]
      simp only []
      rw [mux_eq p h hh (hl ts (by simp))]
      cases e : packet (decide (p = .debug)) h ts with
      | none => rfl
      | some h' =>
        simp only [Option.map_some, orPanic, ok_bind, Option.bind_eq_bind, Option.bind_some, hr]
        cases read t h'.bytes with
        | none => rfl
        | some t' =>
          simp only [ok_bind, pure_eq_ok, Option.bind_some]
          exact ih (fun t ht => hl t (by simp [ht])) t' h' (packet_last hh e)
  exact key t ⟨[], 0⟩ (by decide)

open Classical in
/-- Nothing is read if reading panics; an accepted section gives the value `v`, any other leaves `t` as it is. -/
noncomputable def outcome {α : Type} (panics accepts : Prop) (v t : α) : Option α :=
  if panics then none else if accepts then some v else some t

theorem outcome_eq {α : Type} {panics accepts : Prop} {v t : α} {r : R α}
    (h : (panics → r = panic) ∧ (¬ panics → (accepts → r = .ok v) ∧ (¬ accepts → r = .ok t))) : r = orPanic (outcome panics accepts v t) := by
  unfold outcome
  by_cases hp : panics
  · rw [if_pos hp]; exact h.1 hp
  · rw [if_neg hp]
    by_cases ha : accepts
    · rw [if_pos ha]; exact (h.2 hp).1 ha
    · rw [if_neg ha]; exact (h.2 hp).2 ha

end AnyPacket

open AnyPacket Table

/-- C126: whatever 188-byte packets are given to a new reassembler, one after the other, what it holds in the end, the size of it and the counter
are those of the specification, and it panics where the specification says so. -/
theorem C126_packets (p : Profile) (pks : List (List UInt8)) (hl : ∀ ts ∈ pks, ts.length = 188) :
    feed p Psi.default pks = orPanic ((Reassembly.packets (decide (p = .debug)) pks).map Psi.holding) :=
  feed_eq p pks hl ⟨[], 0⟩ (by decide)

/-- C126: each further packet, for a reassembler that holds anything. -/
theorem C126_packet (p : Profile) (h : Held) (hh : h.last < 16) (ts : List UInt8) (hl : ts.length = 188) :
    (Psi.holding h).mux p ts = orPanic ((packet (decide (p = .debug)) h ts).map Psi.holding) := mux_eq p h hh hl


/-- What a PAT makes of the bytes held by a reassembler (C125). -/
noncomputable def Pat.reading (_ : Profile) (t : Pat) (b : List UInt8) : Option Pat :=
  outcome (12 ≤ declaredSize b ∧ b = []) (Pat.Accepts (Psi.holding ⟨b, 0⟩)) (Reading.pat t (b.take (declaredSize b))) t

/-- C126: the PAT received from any packets. -/
theorem Pat.C126_pat (p : Profile) (t : Pat) (pks : List (List UInt8)) (hl : ∀ ts ∈ pks, ts.length = 188) :
    receive (Pat.parse p) p t Psi.default pks =
      orPanic ((table (decide (p = .debug)) (Pat.reading p) t pks).map fun r => (r.1, Psi.holding r.2)) :=
  receive_eq _ p (Pat.reading p) (fun t h => outcome_eq (Pat.C125_pat p t (Psi.holding h))) pks hl t

/-- What a SDT makes of the bytes held by a reassembler (C125). -/
noncomputable def Sdt.reading (p : Profile) (t : Sdt) (b : List UInt8) : Option Sdt :=
  outcome (Sdt.SectionPanics p (Psi.holding ⟨b, 0⟩)) (Sdt.Accepts (Psi.holding ⟨b, 0⟩)) (Reading.sdt t (b.take (declaredSize b))) t

/-- C126: the SDT received from any packets. -/
theorem Sdt.C126_sdt (p : Profile) (t : Sdt) (pks : List (List UInt8)) (hl : ∀ ts ∈ pks, ts.length = 188) :
    receive (Sdt.parse p) p t Psi.default pks =
      orPanic ((table (decide (p = .debug)) (Sdt.reading p) t pks).map fun r => (r.1, Psi.holding r.2)) :=
  receive_eq _ p (Sdt.reading p) (fun t h => outcome_eq (Sdt.C125_sdt p t (Psi.holding h))) pks hl t

/-- What a NIT makes of the bytes held by a reassembler (C125). -/
noncomputable def Nit.reading (p : Profile) (t : Nit) (b : List UInt8) : Option Nit :=
  outcome (Nit.SectionPanics p (Psi.holding ⟨b, 0⟩)) (Nit.Accepts (Psi.holding ⟨b, 0⟩)) (Reading.nit t (b.take (declaredSize b))) t

/-- C126: the NIT received from any packets. -/
theorem Nit.C126_nit (p : Profile) (t : Nit) (pks : List (List UInt8)) (hl : ∀ ts ∈ pks, ts.length = 188) :
    receive (Nit.parse p) p t Psi.default pks =
      orPanic ((table (decide (p = .debug)) (Nit.reading p) t pks).map fun r => (r.1, Psi.holding r.2)) :=
  receive_eq _ p (Nit.reading p) (fun t h => outcome_eq (Nit.C125_nit p t (Psi.holding h))) pks hl t

/-- What a EIT makes of the bytes held by a reassembler (C125). -/
noncomputable def Eit.reading (p : Profile) (t : Eit) (b : List UInt8) : Option Eit :=
  outcome (Eit.SectionPanics p (Psi.holding ⟨b, 0⟩)) (Eit.Accepts (Psi.holding ⟨b, 0⟩)) (Reading.eit t (b.take (declaredSize b))) t

/-- C126: the EIT received from any packets. -/
theorem Eit.C126_eit (p : Profile) (t : Eit) (pks : List (List UInt8)) (hl : ∀ ts ∈ pks, ts.length = 188) :
    receive (Eit.parse p) p t Psi.default pks =
      orPanic ((table (decide (p = .debug)) (Eit.reading p) t pks).map fun r => (r.1, Psi.holding r.2)) :=
  receive_eq _ p (Eit.reading p) (fun t h => outcome_eq (Eit.C125_eit p t (Psi.holding h))) pks hl t

/-- What a PMT makes of the bytes held by a reassembler (C125). -/
noncomputable def Pmt.reading (p : Profile) (t : Pmt) (b : List UInt8) : Option Pmt :=
  outcome (Pmt.SectionPanics p (Psi.holding ⟨b, 0⟩)) (Pmt.Accepts (Psi.holding ⟨b, 0⟩)) ({ Reading.pmt t (b.take (declaredSize b)) with
    descriptors := t.descriptors ++ Reading.descriptors ((b.drop 11).take (Reading.bitsAt (b.take (declaredSize b)) 84 12)) }) t

/-- C126: the PMT received from any packets, with the program descriptors read one byte too early (C125_pmt_partial). -/
theorem Pmt.C126_pmt_partial (p : Profile) (t : Pmt) (pks : List (List UInt8)) (hl : ∀ ts ∈ pks, ts.length = 188) :
    receive (Pmt.parse p) p t Psi.default pks =
      orPanic ((table (decide (p = .debug)) (Pmt.reading p) t pks).map fun r => (r.1, Psi.holding r.2)) :=
  receive_eq _ p (Pmt.reading p) (fun t h => outcome_eq (Pmt.C125_pmt_partial p t (Psi.holding h))) pks hl t

/-- What a TDT makes of the bytes held by a reassembler (C125). -/
noncomputable def Tdt.reading (p : Profile) (t : Tdt) (b : List UInt8) : Option Tdt :=
  outcome ((declaredSize b = 8 ∧ b = []) ∨ (Tdt.Accepts (Psi.holding ⟨b, 0⟩) ∧ (b.length < 8 ∨
    p = .debug ∧ (field b 3 2 < unixEpochMjd ∨ ¬ ValidBcd 6 (field b 5 3))))) (Tdt.Accepts (Psi.holding ⟨b, 0⟩)) (Reading.tdt (b.take (declaredSize b))) t

/-- C126: the TDT received from any packets. -/
theorem Tdt.C126_tdt (p : Profile) (t : Tdt) (pks : List (List UInt8)) (hl : ∀ ts ∈ pks, ts.length = 188) :
    receive (Tdt.parse p) p t Psi.default pks =
      orPanic ((table (decide (p = .debug)) (Tdt.reading p) t pks).map fun r => (r.1, Psi.holding r.2)) :=
  receive_eq _ p (Tdt.reading p) (fun t h => outcome_eq (Tdt.C125_tdt p t (Psi.holding h))) pks hl t

/-- What a TOT makes of the bytes held by a reassembler (C125). -/
noncomputable def Tot.reading (p : Profile) (t : Tot) (b : List UInt8) : Option Tot :=
  outcome (Tot.SectionPanics p (Psi.holding ⟨b, 0⟩)) (Tot.Accepts (Psi.holding ⟨b, 0⟩)) ({ Reading.tot t (b.take (declaredSize b)) with
    descriptors := t.descriptors ++ Reading.descriptors ((b.drop 10).take (Reading.bitsAt (b.take (declaredSize b)) 68 12)) }) t

/-- C126: the TOT received from any packets, with descriptors as far as their length says (C125_tot_partial). -/
theorem Tot.C126_tot_partial (p : Profile) (t : Tot) (pks : List (List UInt8)) (hl : ∀ ts ∈ pks, ts.length = 188) :
    receive (Tot.parse p) p t Psi.default pks =
      orPanic ((table (decide (p = .debug)) (Tot.reading p) t pks).map fun r => (r.1, Psi.holding r.2)) :=
  receive_eq _ p (Tot.reading p) (fun t h => outcome_eq (Tot.C125_tot_partial p t (Psi.holding h))) pks hl t

/-! Concrete cases: a section cut in two, with the next section behind it; a packet out of order; an adaptation field that is too long. -/

private def sdtBytes : List UInt8 := complete (Table.sdt 0x46 0x1234 17 0 0 0xABCD (sdtEntry 1 1 0 4 1 [0x52, 1, 9]))
/-- The first ten bytes of a section, then the rest of it and another section. -/
private def twoPackets : List (List UInt8) :=
  [stuffedPacket 17 5 true (0 :: sdtBytes.take 10), payloadPacket 17 6 true (13 :: (sdtBytes.drop 10 ++ sdtBytes))]
private def longField : List UInt8 := [0x47, 0x40, 0x11, 0x30, 252] ++ List.replicate 183 0xFF

example : sdtBytes.length = 23 ∧ (∀ ts ∈ twoPackets, ts.length = 188) ∧ longField.length = 188 := by decide +kernel
example : Reassembly.packets true twoPackets = some ⟨sdtBytes ++ sdtBytes ++ List.replicate 147 0xFF, 6⟩ := by decide +kernel
example : feed .debug Psi.default twoPackets = .ok (Psi.holding ⟨sdtBytes ++ sdtBytes ++ List.replicate 147 0xFF, 6⟩) := by
  rw [C126_packets .debug twoPackets (by decide +kernel), show Reassembly.packets (decide (Profile.debug = .debug)) twoPackets =
    some ⟨sdtBytes ++ sdtBytes ++ List.replicate 147 0xFF, 6⟩ by decide +kernel]
  rfl
example : Reassembly.packets false [longField] = some ⟨List.replicate 122 0xFF, 0⟩ ∧ Reassembly.packets true [longField] = none := by decide +kernel
example : feed .debug Psi.default [longField] = panic := by
  rw [C126_packets .debug [longField] (by decide +kernel), show Reassembly.packets (decide (Profile.debug = .debug)) [longField] = none by
    decide +kernel]
  rfl
example : (Psi.holding ⟨sdtBytes.take 10, 5⟩).mux .release (payloadPacket 17 7 false (sdtBytes.drop 10)) = .ok (Psi.holding ⟨[], 5⟩) := by
  rw [C126_packet .release ⟨sdtBytes.take 10, 5⟩ (by decide) _ (by decide +kernel), show packet (decide (Profile.release = .debug))
    ⟨sdtBytes.take 10, 5⟩ (payloadPacket 17 7 false (sdtBytes.drop 10)) = some ⟨[], 5⟩ by decide +kernel]
  rfl

/-- The services in the two packets. -/
example : (receive (Sdt.parse .debug) .debug Sdt.default Psi.default twoPackets).map (fun r => r.1.items) = .ok [⟨1, 1, 0, 4, 1, [.d52 ⟨9⟩]⟩] := by
  decide +kernel
example : receive (Sdt.parse .debug) .debug Sdt.default Psi.default twoPackets =
    orPanic ((table true (Sdt.reading .debug) Sdt.default twoPackets).map fun r => (r.1, Psi.holding r.2)) :=
  Sdt.C126_sdt .debug Sdt.default twoPackets (by decide +kernel)
example : receive (Pat.parse .release) .release Pat.default Psi.default twoPackets =
    orPanic ((table false (Pat.reading .release) Pat.default twoPackets).map fun r => (r.1, Psi.holding r.2)) :=
  Pat.C126_pat .release Pat.default twoPackets (by decide +kernel)
example : receive (Nit.parse .release) .release Nit.default Psi.default twoPackets =
    orPanic ((table false (Nit.reading .release) Nit.default twoPackets).map fun r => (r.1, Psi.holding r.2)) :=
  Nit.C126_nit .release Nit.default twoPackets (by decide +kernel)
example : receive (Eit.parse .release) .release Eit.default Psi.default twoPackets =
    orPanic ((table false (Eit.reading .release) Eit.default twoPackets).map fun r => (r.1, Psi.holding r.2)) :=
  Eit.C126_eit .release Eit.default twoPackets (by decide +kernel)
example : receive (Pmt.parse .release) .release Pmt.default Psi.default twoPackets =
    orPanic ((table false (Pmt.reading .release) Pmt.default twoPackets).map fun r => (r.1, Psi.holding r.2)) :=
  Pmt.C126_pmt_partial .release Pmt.default twoPackets (by decide +kernel)
example : receive (Tdt.parse .release) .release ⟨0⟩ Psi.default twoPackets =
    orPanic ((table false (Tdt.reading .release) ⟨0⟩ twoPackets).map fun r => (r.1, Psi.holding r.2)) :=
  Tdt.C126_tdt .release ⟨0⟩ twoPackets (by decide +kernel)
example : receive (Tot.parse .release) .release ⟨0, []⟩ Psi.default twoPackets =
    orPanic ((table false (Tot.reading .release) ⟨0, []⟩ twoPackets).map fun r => (r.1, Psi.holding r.2)) :=
  Tot.C126_tot_partial .release ⟨0, []⟩ twoPackets (by decide +kernel)

end Mpegts
