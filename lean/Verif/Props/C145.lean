import Verif.Props.C91
import Verif.Spec.Remap
import Verif.Props.C76
import Verif.Props.C126
import Verif.Props.C06_C11

/-! # C145: packets moved to another PID, counted anew or given another PCR on the way -/

namespace Mpegts
open Spec Spec.Table

/-- What the reassembler looks at. -/
theorem Psi.mux_congr (p : Profile) (s : Psi) {a b : List UInt8} (hp : Ts.isPayload a = Ts.isPayload b)
    (ho : Ts.getPayloadOffset p a = Ts.getPayloadOffset p b) (hc : Ts.getCc a = Ts.getCc b) (hu : Ts.isPusi a = Ts.isPusi b)
    (hl : a.length = b.length) (hd : ∀ o, Ts.getPayloadOffset p a = .ok o → a.drop o.toNat = b.drop o.toNat) :
    s.mux p a = s.mux p b := by
  have hs : ∀ o, Ts.getPayloadOffset p a = .ok o → ∀ i, o.toNat ≤ i → slice a i 188 = slice b i 188 := by
    intro o h i hi
    have : a.drop i = b.drop i := by
      have e := congrArg (List.drop (i - o.toNat)) (hd o h)
      rwa [List.drop_drop, List.drop_drop, Nat.add_sub_cancel' hi] at e
    unfold slice
    simp only [hl, List.drop_take, this]
  have hx : ∀ o, Ts.getPayloadOffset p a = .ok o → idx a o.toNat = idx b o.toNat := by
    intro o h
    have e := congrArg (fun l : List UInt8 => l[0]?) (hd o h)
    simp only [List.getElem?_drop, Nat.add_zero] at e
    unfold idx
    rw [e]
  unfold Psi.mux
  rw [← hp, ← ho, ← hc, ← hu]
  cases h1 : Ts.getPayloadOffset p a with
  | error e => rfl
  | ok o =>
    simp only [ok_bind, hx o h1, hs o h1 o.toNat (Nat.le_refl _), hs o h1 (o.toNat + 1) (Nat.le_succ _)]
    have hg : ∀ k, slice a (o.toNat + 1 + k) 188 = slice b (o.toNat + 1 + k) 188 := fun k => hs o h1 _ (by omega)
    simp only [hg]

/-- Where the payload of a packet starts: behind the header. -/
theorem Psi.offset_ge {p : Profile} {h : Header} (hv : h.Valid) {rest : List UInt8} (hk : IsPacket (h.encode ++ rest)) {o : UInt8}
    (ho : Ts.getPayloadOffset p (h.encode ++ rest) = .ok o) : o.toNat = offsetOf (h.encode ++ rest) ∧ 4 ≤ o.toNat := by
  obtain ⟨hl, ha⟩ := hk
  have hr : rest.length = 184 := by
    rw [List.length_append, header_encode hv] at hl
    simp only [List.length_cons, List.length_nil] at hl
    omega
  match rest, hr with
  | b :: r, _ =>
    obtain ⟨c0, c1, -⟩ := C05_payload_offset_partial p h hv b r
    have hf := (raw_fields hv (b :: r)).2.1
    rw [hf, raw_len hv] at ha
    unfold offsetOf
    rw [hf, raw_len hv]
    cases h1 : h.adaptation with
    | false =>
      rw [c0 h1] at ho
      injection ho with ho
      subst ho
      exact ⟨rfl, by decide⟩
    | true =>
      obtain ⟨x, e1, e2⟩ := c1 h1 (ha h1)
      rw [e1] at ho
      injection ho with ho
      subst ho
      simp only [if_true]
      omega

/-- A packet with another PID. -/
theorem moved (p : Profile) (ts : List UInt8) (hk : IsPacket ts) (pid : UInt16) (hp : pid.toNat < 8192) :
    ∃ ts', Ts.setPid p ts pid = .ok ts' ∧ SamePayload ts ts' ∧ pidOf ts' = pid.toNat ∧ ccOf ts' = ccOf ts ∧
      ∀ s : Psi, s.mux p ts' = s.mux p ts := by
  obtain ⟨h, rest, hv, hr, rfl⟩ := packet_split hk.1
  have hv' : ({ h with pid := pid.toNat } : Header).Valid := ⟨hv.1, hp, hv.2.2.1, hv.2.2.2⟩
  have f := C04_header_fields h hv rest
  have f' := C04_header_fields _ hv' rest
  have len : ∀ g : Header, g.Valid → g.encode.length = 4 := by intro g hg; rw [header_encode hg]; rfl
  have ha4 : ∀ g : Header, g.Valid → (g.encode ++ rest).getD 4 0 = rest.getD 0 0 := by
    intro g hg
    rw [header_encode hg]
    rfl
  have hk' : IsPacket (({ h with pid := pid.toNat } : Header).encode ++ rest) := by
    refine ⟨by rw [List.length_append, len _ hv', hr], ?_⟩
    have := hk.2
    rw [(raw_fields hv rest).2.1, ha4 _ hv] at this
    rw [(raw_fields hv' rest).2.1, ha4 _ hv']
    exact this
  have r := raw_fields hv rest
  have r' := raw_fields hv' rest
  have hof : offsetOf (({ h with pid := pid.toNat } : Header).encode ++ rest) = offsetOf (h.encode ++ rest) := by
    unfold offsetOf
    rw [r.2.1, r'.2.1, ha4 _ hv, ha4 _ hv']
  have h4 : 4 ≤ offsetOf (h.encode ++ rest) := by unfold offsetOf; split <;> omega
  refine ⟨_, (C02_set_pid p h hv rest pid hp).1, ⟨hk', ?_, r'.1.trans r.1.symm, r'.2.2.1.trans r.2.2.1.symm, ?_⟩, r'.2.2.2.2,
    r'.2.2.2.1.trans r.2.2.2.1.symm, fun s => ?_⟩
  · rw [header_encode hv, header_encode hv']
    simp only [List.cons_append, List.head?_cons]
    rfl
  · rw [hof, List.drop_append, List.drop_append, len _ hv, len _ hv',
      List.drop_eq_nil_of_le (as := h.encode) (by rw [len _ hv]; exact h4),
      List.drop_eq_nil_of_le (as := ({ h with pid := pid.toNat } : Header).encode) (by rw [len _ hv']; exact h4)]
  · have ho : Ts.getPayloadOffset p (({ h with pid := pid.toNat } : Header).encode ++ rest) =
        Ts.getPayloadOffset p (h.encode ++ rest) := by
      unfold Ts.getPayloadOffset Ts.getAdaptationSize
      rw [f.2.2.2.2.2.1, f'.2.2.2.2.2.1]
      have : idx (({ h with pid := pid.toNat } : Header).encode ++ rest) 4 = idx (h.encode ++ rest) 4 := by
        rw [header_encode hv, header_encode hv']
        rfl
      rw [this]
    refine Psi.mux_congr p s ?_ ho ?_ ?_ (by rw [List.length_append, List.length_append, len _ hv, len _ hv']) ?_
    · rw [f.2.2.2.2.2.2.1, f'.2.2.2.2.2.2.1]
    · obtain ⟨c, e1, e2⟩ := f.2.2.2.2.2.2.2
      obtain ⟨c', e1', e2'⟩ := f'.2.2.2.2.2.2.2
      rw [e1, e1', UInt8.toNat_inj.1 (e2'.trans e2.symm)]
    · rw [f.2.2.1, f'.2.2.1]
    · intro o e
      have := (Psi.offset_ge hv' hk' e).2
      rw [List.drop_append, List.drop_append, len _ hv, len _ hv', List.drop_eq_nil_of_le (as := h.encode) (by rw [len _ hv]; exact this),
        List.drop_eq_nil_of_le (as := ({ h with pid := pid.toNat } : Header).encode) (by rw [len _ hv']; exact this)]

/-- Packets that a reassembler treats alike. -/
theorem alike {p : Profile} {f : List UInt8 → R (List UInt8)} {P : List UInt8 → List UInt8 → Prop} (pks : List (List UInt8))
    (h : ∀ ts ∈ pks, ∃ ts', f ts = .ok ts' ∧ P ts ts' ∧ ∀ s : Psi, s.mux p ts' = s.mux p ts) :
    ∃ pks', pks.mapM f = .ok pks' ∧ List.Forall₂ P pks pks' ∧ (∀ s, sections p s pks' = sections p s pks) ∧
      ∀ (α : Type) (parse : α → Psi → R α) (t : α) (s : Psi), receive parse p t s pks' = receive parse p t s pks := by
  induction pks with
  | nil => exact ⟨[], rfl, .nil, fun _ => rfl, fun _ _ _ _ => rfl⟩
  | cons ts r ih =>
    obtain ⟨ts', h1, h2, h3⟩ := h ts (by simp)
    obtain ⟨r', i1, i2, i3, i4⟩ := ih (fun x hx => h x (List.mem_cons_of_mem _ hx))
    refine ⟨ts' :: r', by rw [List.mapM_cons, h1, ok_bind, i1, ok_bind, pure_eq_ok], .cons h2 i2, fun s => ?_, fun α parse t s => ?_⟩
    · simp only [sections, h3, i3]
    · unfold receive at i4 ⊢
      simp only [List.foldlM_cons, h3, bind_assoc, pure_bind]
      cases s.mux p ts with
      | error e => rfl
      | ok s1 =>
        simp only [ok_bind]
        cases parse t s1 with
        | error e => rfl
        | ok t1 => simp only [ok_bind]; exact i4 α parse t1 s1

/-- C145: packets with any payload are given another PID, one `set_pid` call each.  No call fails; the packets then have that PID, the same
counter and the same payload; and whoever collects sections or any table from them gets exactly what the packets had carried before. -/
theorem C145_pid (p : Profile) (pks : List (List UInt8)) (hk : ∀ ts ∈ pks, IsPacket ts) (pid : UInt16) (hp : pid.toNat < 8192) :
    ∃ pks', pks.mapM (Ts.setPid p · pid) = .ok pks' ∧
      List.Forall₂ (fun ts ts' => SamePayload ts ts' ∧ pidOf ts' = pid.toNat ∧ ccOf ts' = ccOf ts) pks pks' ∧
      (∀ s, sections p s pks' = sections p s pks) ∧
      ∀ (α : Type) (parse : α → Psi → R α) (t : α) (s : Psi), receive parse p t s pks' = receive parse p t s pks := by
  refine alike pks fun ts ht => ?_
  obtain ⟨ts', h1, h2, h3, h4, h5⟩ := moved p ts (hk ts ht) pid hp
  exact ⟨ts', h1, ⟨h2, h3, h4⟩, h5⟩

/-- C145: so the packets can be moved to another PID of a stream: who listens to the stream on that PID, whatever is between the packets and
on other PIDs, gets what the packets had carried before. -/
theorem C145_listen {α : Type} (parse : α → Psi → R α) (p : Profile) (t : α) (s : Psi) (pks : List (List UInt8))
    (hk : ∀ ts ∈ pks, IsPacket ts ∧ ts.head? = some 0x47) (pid : UInt16) (hp : pid.toNat < 8192) :
    ∃ pks', pks.mapM (Ts.setPid p · pid) = .ok pks' ∧ (∀ ts ∈ pks', IsTsPacket pid.toNat ts) ∧
      ∀ src, Steady src → Carries pid.toNat src.data pks' → ∀ buf : List UInt8, 188 ≤ buf.length → ∀ fuel, src.data.length < fuel →
        listen parse p pid.toNat t s fuel src buf = receive parse p t s pks := by
  obtain ⟨pks', h1, h2, -, h4⟩ := C145_pid p pks (fun ts h => (hk ts h).1) pid hp
  refine ⟨pks', h1, ?_, fun src hs hc buf hb fuel hf => ?_⟩
  · clear h1 h4
    induction h2 with
    | nil => intro ts h; cases h
    | cons h _ ih =>
      intro ts ht
      rcases List.mem_cons.1 ht with rfl | ht
      · exact ⟨h.1.1.1, h.1.2.1.trans (hk _ (by simp)).2, h.2.1⟩
      · exact ih (fun x hx => hk x (List.mem_cons_of_mem _ hx)) ts ht
  · rw [C76_listen parse p pid.toNat t s src hs pks' hc buf hb fuel hf, h4]

/-- The bytes of a packet in front of its PCR. -/
theorem idx_front {ts x y : List UInt8} {i : Nat} (hi : i < 6) (hl : 6 ≤ ts.length) : idx (ts.take 6 ++ x ++ y) i = idx ts i := by
  unfold idx
  rw [List.append_assoc, List.getElem?_append_left (by rw [List.length_take]; omega), List.getElem?_take, if_pos hi]

theorem getD_front {ts x y : List UInt8} {i : Nat} (hi : i < 6) (hl : 6 ≤ ts.length) : (ts.take 6 ++ x ++ y).getD i 0 = ts.getD i 0 := by
  rw [List.getD_eq_getElem?_getD, List.getD_eq_getElem?_getD, List.append_assoc,
    List.getElem?_append_left (by rw [List.length_take]; omega), List.getElem?_take, if_pos hi]

/-- A packet with another PCR. -/
theorem stamped (p : Profile) (ts : List UInt8) (hk : IsPacket ts) (pcr : UInt64) (h : Ts.isPcr ts = .ok true) :
    ∃ ts', Ts.setPcr ts pcr = .ok ts' ∧ SamePayload ts ts' ∧ pidOf ts' = pidOf ts ∧ ccOf ts' = ccOf ts ∧ Ts.isPcr ts' = .ok true ∧
      (pcr.toNat < pcrPeriod → Ts.getPcr ts' = .ok pcr) ∧ ∀ s : Psi, s.mux p ts' = s.mux p ts := by
  have hl : 12 ≤ ts.length := by rw [hk.1]; omega
  have hl6 : 6 ≤ ts.length := by omega
  have h7 : hasAdaptation ts = true ∧ 7 ≤ (ts.getD 4 0).toNat := by
    obtain ⟨g, rest, hv, hr, rfl⟩ := packet_split hk.1
    match rest, hr with
    | a :: b :: r, _ =>
      rw [C07_is_pcr g hv a b r] at h
      injection h with h
      rw [(raw_fields hv _).2.1, raw_len hv]
      simp only [Bool.and_eq_true, decide_eq_true_eq] at h
      exact h.1
  have hx : (pcrField (pcr.toNat / 300) 0x3F (pcr.toNat % 300)).length = 6 := by unfold pcrField; rw [beBytes_length]
  generalize hfx : pcrField (pcr.toNat / 300) 0x3F (pcr.toNat % 300) = x at hx
  have fr := @getD_front ts x (ts.drop 12)
  have hlen : (ts.take 6 ++ x ++ ts.drop 12).length = 188 := by
    rw [List.length_append, List.length_append, List.length_take, List.length_drop, hx, hk.1]
    rfl
  have hdrop : ∀ o, 12 ≤ o → (ts.take 6 ++ x ++ ts.drop 12).drop o = ts.drop o := by
    intro o ho
    rw [List.drop_append, List.drop_eq_nil_of_le (by rw [List.length_append, List.length_take, hx]; omega), List.nil_append,
      List.length_append, List.length_take, hx, List.drop_drop, Nat.min_eq_left hl6]
    congr 1
    omega
  have had : hasAdaptation (ts.take 6 ++ x ++ ts.drop 12) = hasAdaptation ts := by unfold hasAdaptation; rw [fr (by omega) hl6]
  have hof : offsetOf (ts.take 6 ++ x ++ ts.drop 12) = offsetOf ts := by unfold offsetOf; rw [had, fr (by omega) hl6]
  have hk' : IsPacket (ts.take 6 ++ x ++ ts.drop 12) := ⟨hlen, by rw [had, fr (by omega) hl6]; exact hk.2⟩
  have h12 : 12 ≤ offsetOf ts := by unfold offsetOf; rw [h7.1]; simp only [if_true]; omega
  refine ⟨ts.take 6 ++ x ++ ts.drop 12, by rw [C06_set_pcr ts pcr hl, hfx], ⟨hk', ?_, ?_, ?_, ?_⟩, ?_, ?_, ?_, ?_, ?_⟩
  · match ts, hl6 with
    | _ :: _ :: _ :: _ :: _ :: _ :: r, _ => rfl
  · unfold hasPayload; rw [fr (by omega) hl6]
  · unfold pusiOf; rw [fr (by omega) hl6]
  · rw [hof, hdrop _ h12]
  · unfold pidOf; rw [fr (by omega) hl6, fr (by omega) hl6]
  · unfold ccOf; rw [fr (by omega) hl6]
  · rw [← h]
    unfold Ts.isPcr Ts.isAdaptation Ts.getAdaptationSize
    rw [idx_front (by omega) hl6, idx_front (by omega) hl6, idx_front (by omega) hl6]
  · intro hp
    have := C06_round_trip ts pcr hl hp
    rw [C06_set_pcr ts pcr hl, hfx, ok_bind] at this
    exact this
  · intro s
    have hof : Ts.getPayloadOffset p (ts.take 6 ++ x ++ ts.drop 12) = Ts.getPayloadOffset p ts := by
      unfold Ts.getPayloadOffset Ts.isAdaptation Ts.getAdaptationSize
      rw [idx_front (by omega) hl6, idx_front (by omega) hl6]
    refine Psi.mux_congr p s ?_ hof ?_ ?_ (by rw [hlen, hk.1]) ?_
    · unfold Ts.isPayload; rw [idx_front (by omega) hl6]
    · unfold Ts.getCc; rw [idx_front (by omega) hl6]
    · unfold Ts.isPusi; rw [idx_front (by omega) hl6]
    · intro o ho
      rw [hof] at ho
      obtain ⟨g, rest, hv, hr, rfl⟩ := packet_split hk.1
      exact hdrop _ (by rw [(Psi.offset_ge hv hk ho).1]; exact h12)

/-- C145: packets whose PCRs are replaced by any others, one `is_pcr` and, where there is one, one `set_pcr` call each.  No call fails; a
packet has a PCR if it had one, the new one; and the payloads, PIDs, counters and whatever is received from the packets are the same. -/
theorem C145_pcr (p : Profile) (clock : List UInt8 → UInt64) (pks : List (List UInt8)) (hk : ∀ ts ∈ pks, IsPacket ts) :
    ∃ pks', pks.mapM (restamp clock) = .ok pks' ∧
      List.Forall₂ (fun ts ts' => SamePayload ts ts' ∧ pidOf ts' = pidOf ts ∧ ccOf ts' = ccOf ts ∧ Ts.isPcr ts' = Ts.isPcr ts ∧
        (Ts.isPcr ts = .ok true → (clock ts).toNat < pcrPeriod → Ts.getPcr ts' = .ok (clock ts)) ∧
        (Ts.isPcr ts = .ok false → ts' = ts)) pks pks' ∧
      (∀ s, sections p s pks' = sections p s pks) ∧
      ∀ (α : Type) (parse : α → Psi → R α) (t : α) (s : Psi), receive parse p t s pks' = receive parse p t s pks := by
  refine alike pks fun ts ht => ?_
  have hd : ∃ b, Ts.isPcr ts = .ok b := by
    obtain ⟨g, rest, hv, hr, rfl⟩ := packet_split (hk ts ht).1
    match rest, hr with
    | a :: b :: r, _ => exact ⟨_, C07_is_pcr g hv a b r⟩
  obtain ⟨b, hb⟩ := hd
  unfold restamp
  cases b with
  | false =>
    refine ⟨ts, by rw [hb]; rfl, ⟨⟨hk ts ht, rfl, rfl, rfl, rfl⟩, rfl, rfl, rfl, ?_, fun _ => rfl⟩, fun _ => rfl⟩
    intro h
    rw [hb] at h
    injection h with h
    cases h
  | true =>
    obtain ⟨ts', h1, h2, h3, h4, h5, h6, h7⟩ := stamped p ts (hk ts ht) (clock ts) hb
    refine ⟨ts', by rw [hb, ok_bind]; exact h1, ⟨h2, h3, h4, h5.trans hb.symm, fun _ => h6, ?_⟩, h7⟩
    intro h
    rw [hb] at h
    injection h with h
    cases h

/-- A packet of a section on another PID, and with another counter. -/
theorem packetAt_moved (p : Profile) (a cc : Nat) (ha : a < 8192) (pid : UInt16) (hp : pid.toNat < 8192) (sec : List UInt8) (i : Nat) :
    Ts.setPid p (packetAt a cc sec i) pid = .ok (packetAt pid.toNat cc sec i) := by
  unfold packetAt payloadPacket
  rw [List.append_assoc, (C02_set_pid p _ ⟨(by decide : 71 < 2 ^ 8), ha, (by decide : 0 < 2 ^ 2), Nat.mod_lt _ (by decide)⟩ _ pid hp).1, List.append_assoc]

theorem packetAt_renumbered (p : Profile) (a cc c : Nat) (ha : a < 8192) (sec : List UInt8) (i : Nat) :
    Ts.setCc p (packetAt a cc sec i) (UInt8.ofNat ((c + i) % 16)) = .ok (packetAt a c sec i) := by
  have e : (UInt8.ofNat ((c + i) % 16)).toNat = (c + i) % 16 := by rw [UInt8.toNat_ofNat']; omega
  unfold packetAt payloadPacket
  rw [List.append_assoc, (C03_set_cc p _ ⟨(by decide : 71 < 2 ^ 8), ha, (by decide : 0 < 2 ^ 2), Nat.mod_lt _ (by decide)⟩ _ _ (by rw [e]; omega)).1,
    List.append_assoc]
  simp only [e]

/-- C145: a table sent on one PID and moved to another is, bit for bit, the table sent on the other PID. -/
theorem C145_stream_pid (p : Profile) (a : Nat) (ha : a < 8192) (pid : UInt16) (hp : pid.toNat < 8192) (cc : Nat) (secs : List (List UInt8)) :
    (stream a cc secs).mapM (Ts.setPid p · pid) = .ok (stream pid.toNat cc secs) := by
  have one : ∀ cc sec, ∀ l : List Nat, (l.map (packetAt a cc sec)).mapM (Ts.setPid p · pid) = .ok (l.map (packetAt pid.toNat cc sec)) := by
    intro cc sec l
    induction l with
    | nil => rfl
    | cons i l ih => rw [List.map_cons, List.mapM_cons, packetAt_moved p a cc ha pid hp, ok_bind, ih]; rfl
  induction secs generalizing cc with
  | nil => rfl
  | cons sec r ih =>
    rw [stream, List.mapM_append, ih, packets, one]
    rfl

theorem renumber_append (p : Profile) (c : Nat) (a b : List (List UInt8)) :
    renumber p c (a ++ b) = (do return (← renumber p c a) ++ (← renumber p (c + a.length) b)) := by
  induction a generalizing c with
  | nil =>
    simp only [List.nil_append, renumber, List.length_nil, Nat.add_zero, pure_bind]
    cases renumber p c b <;> rfl
  | cons x a ih =>
    simp only [List.cons_append, renumber, ih, List.length_cons, bind_assoc, pure_bind]
    rw [show c + 1 + a.length = c + (a.length + 1) from by omega]

/-- C145: a table sent with one counter and numbered anew is, bit for bit, the table sent with the other counter. -/
theorem C145_stream_cc (p : Profile) (pid : Nat) (hp : pid < 8192) (cc c : Nat) (secs : List (List UInt8)) :
    renumber p c (stream pid cc secs) = .ok (stream pid c secs) := by
  have one : ∀ cc c sec n k, renumber p (c + k) ((List.range' k n).map (packetAt pid cc sec)) = .ok ((List.range' k n).map (packetAt pid c sec)) := by
    intro cc c sec n
    induction n with
    | zero => intro k; rfl
    | succ n ih =>
      intro k
      rw [List.range'_succ, List.map_cons, List.map_cons, renumber, packetAt_renumbered p pid cc c hp, ok_bind,
        show c + k + 1 = c + (k + 1) from rfl, ih]
      rfl
  induction secs generalizing cc c with
  | nil => rfl
  | cons sec r ih =>
    have o := one cc c sec (packetCount sec.length) 0
    rw [Nat.add_zero, ← List.range_eq_range'] at o
    rw [stream, renumber_append, packets, o, ok_bind, List.length_map, List.length_range, ih]
    rfl

/-- A packet counted further. -/
theorem advanced (p : Profile) (k : Nat) (ts : List UInt8) (hk : IsPacket ts) :
    ∃ ts', advance p k ts = .ok ts' ∧ SamePayload ts ts' ∧ pidOf ts' = pidOf ts ∧ ccOf ts' = (ccOf ts + k) % 16 ∧
      hasAdaptation ts' = hasAdaptation ts ∧ ts'.drop 4 = ts.drop 4 := by
  obtain ⟨h, rest, hv, hr, rfl⟩ := packet_split hk.1
  obtain ⟨c, e1, e2⟩ := (C04_header_fields h hv rest).2.2.2.2.2.2.2
  have e : (UInt8.ofNat ((c.toNat + k) % 16)).toNat = (h.cc + k) % 16 := by rw [UInt8.toNat_ofNat', e2]; omega
  have hv' : ({ h with cc := (h.cc + k) % 16 } : Header).Valid := ⟨hv.1, hv.2.1, hv.2.2.1, Nat.mod_lt _ (by decide)⟩
  have len : ∀ g : Header, g.Valid → g.encode.length = 4 := by intro g hg; rw [header_encode hg]; rfl
  have ha4 : ∀ g : Header, g.Valid → (g.encode ++ rest).getD 4 0 = rest.getD 0 0 := by
    intro g hg
    rw [header_encode hg]
    rfl
  have r := raw_fields hv rest
  have r' := raw_fields hv' rest
  have hof : offsetOf (({ h with cc := (h.cc + k) % 16 } : Header).encode ++ rest) = offsetOf (h.encode ++ rest) := by
    unfold offsetOf
    rw [r.2.1, r'.2.1, ha4 _ hv, ha4 _ hv']
  have h4 : 4 ≤ offsetOf (h.encode ++ rest) := by unfold offsetOf; split <;> omega
  have hk' : IsPacket (({ h with cc := (h.cc + k) % 16 } : Header).encode ++ rest) := by
    refine ⟨by rw [List.length_append, len _ hv', hr], ?_⟩
    have := hk.2
    rw [r.2.1, ha4 _ hv] at this
    rw [r'.2.1, ha4 _ hv']
    exact this
  have hdrop : ∀ o, 4 ≤ o → (({ h with cc := (h.cc + k) % 16 } : Header).encode ++ rest).drop o = (h.encode ++ rest).drop o := by
    intro o ho
    rw [List.drop_append, List.drop_append, len _ hv, len _ hv',
      List.drop_eq_nil_of_le (as := h.encode) (by rw [len _ hv]; exact ho),
      List.drop_eq_nil_of_le (as := ({ h with cc := (h.cc + k) % 16 } : Header).encode) (by rw [len _ hv']; exact ho)]
  refine ⟨_, ?_, ⟨hk', ?_, r'.1.trans r.1.symm, r'.2.2.1.trans r.2.2.1.symm, by rw [hof, hdrop _ h4]⟩,
    r'.2.2.2.2.trans r.2.2.2.2.symm, ?_, r'.2.1.trans r.2.1.symm, hdrop 4 (Nat.le_refl _)⟩
  · unfold advance
    rw [e1, ok_bind, (C03_set_cc p h hv rest _ (by rw [e]; omega)).1, e]
  · rw [header_encode hv, header_encode hv']
    simp only [List.cons_append, List.head?_cons]
    rfl
  · rw [r'.2.2.2.1, r.2.2.2.1]

open Spec.Reassembly in
/-- A reassembler whose last counter is as much further treats a packet counted further alike. -/
theorem packet_advanced (c : Bool) (k : Nat) (h : Held) {ts ts' : List UInt8} (hk : IsPacket ts) (hx : SamePayload ts ts')
    (hc : ccOf ts' = (ccOf ts + k) % 16) (ha : hasAdaptation ts' = hasAdaptation ts) (hd : ts'.drop 4 = ts.drop 4) :
    packet c ⟨h.bytes, (h.last + k) % 16⟩ ts' = (packet c h ts).map fun h => ⟨h.bytes, (h.last + k) % 16⟩ := by
  obtain ⟨-, -, hp, hu, -⟩ := hx
  have hcc := ccOf_lt ts
  have hd4 : ∀ o, 4 ≤ o → ts'.drop o = ts.drop o := by
    intro o ho
    have e := congrArg (List.drop (o - 4)) hd
    rwa [List.drop_drop, List.drop_drop, Nat.add_sub_cancel' ho] at e
  have hg : ∀ o, 4 ≤ o → ts'.getD o 0 = ts.getD o 0 := by
    intro o ho
    have e := congrArg (fun l : List UInt8 => l[0]?) (hd4 o ho)
    simp only [List.getElem?_drop, Nat.add_zero] at e
    rw [List.getD_eq_getElem?_getD, List.getD_eq_getElem?_getD, e]
  have hat : payloadAt c ts' = payloadAt c ts := by unfold payloadAt; rw [ha, hg 4 (Nat.le_refl _)]
  have h4 : ∀ o, payloadAt c ts = some o → 4 ≤ o := by
    intro o e
    have := hk.2
    unfold payloadAt at e
    split at e
    · injection e with e; omega
    · rename_i h1
      rw [if_pos (this (by simpa using h1))] at e
      injection e with e
      omega
  have hiff : (ccOf ts' = ((h.last + k) % 16 + 1) % 16) = (ccOf ts = (h.last + 1) % 16) := by
    rw [hc, eq_iff_iff]
    omega
  unfold packet
  rw [hp, hat, hu]
  split
  · rfl
  · cases ho : payloadAt c ts with
    | none => rfl
    | some o =>
      have h4 := h4 o ho
      simp only []
      split
      · rfl
      · split
        · unfold start
          simp only [hiff, hg o h4, hd4 (o + 1) (by omega), hd4 (o + 1 + (ts.getD o 0).toNat) (by omega)]
          rw [hc]
          split
          · rfl
          · by_cases hb : (ts.getD o 0).toNat ≠ 0 ∧ ccOf ts = (h.last + 1) % 16 ∧ h.bytes ≠ []
            · rw [if_pos hb, if_pos hb]; rfl
            · rw [if_neg hb, if_neg hb]; split <;> rfl
        · unfold carryOn
          simp only [hiff, hd4 o h4]
          rw [hc]
          split <;> rfl

open Spec.Reassembly in
/-- C145: packets with any payload that are all counted `k` further give a reassembler whose last counter is `k` further the same sections. -/
theorem C145_cc (p : Profile) (k : Nat) (h : Held) (hh : h.last < 16) (pks : List (List UInt8)) (hk : ∀ ts ∈ pks, IsPacket ts) :
    ∃ pks', pks.mapM (advance p k) = .ok pks' ∧
      List.Forall₂ (fun ts ts' => SamePayload ts ts' ∧ pidOf ts' = pidOf ts ∧ ccOf ts' = (ccOf ts + k) % 16) pks pks' ∧
      sections p (Psi.holding ⟨h.bytes, (h.last + k) % 16⟩) pks' = sections p (Psi.holding h) pks := by
  induction pks generalizing h with
  | nil => exact ⟨[], rfl, .nil, rfl⟩
  | cons ts r ih =>
    have hkt := hk ts (by simp)
    have hkr := fun x hx => hk x (List.mem_cons_of_mem _ hx)
    obtain ⟨ts', h1, h2, h3, h4, h5, h6⟩ := advanced p k ts hkt
    have hm := packet_advanced (decide (p = .debug)) k h hkt h2 h4 h5 h6
    have m1 := C126_packet p ⟨h.bytes, (h.last + k) % 16⟩ (Nat.mod_lt _ (by decide)) ts' h2.1.1
    have m2 := C126_packet p h hh ts hkt.1
    rw [hm] at m1
    cases hp : packet (decide (p = .debug)) h ts with
    | none =>
      rw [hp] at m1 m2
      obtain ⟨r', i1, i2, -⟩ := ih h hh hkr
      refine ⟨ts' :: r', by rw [List.mapM_cons, h1, ok_bind, i1]; rfl, .cons ⟨h2, h3, h4⟩ i2, ?_⟩
      simp only [sections, m1, m2, Option.map_none, orPanic]
      rfl
    | some g =>
      rw [hp] at m1 m2
      obtain ⟨r', i1, i2, i3⟩ := ih g (AnyPacket.packet_last hh hp) hkr
      refine ⟨ts' :: r', by rw [List.mapM_cons, h1, ok_bind, i1]; rfl, .cons ⟨h2, h3, h4⟩ i2, ?_⟩
      simp only [sections, m1, m2, Option.map_some, orPanic, ok_bind, i3]
      rfl

/-- A packet with a PCR in front of the first bytes of a section. -/
private def clocked : List UInt8 :=
  [0x47, 0x40, 0x11, 0x35, 0x07, 0x10, 0x00, 0x00, 0x00, 0x00, 0x7E, 0x00, 0x00, 0x70, 0x70, 0x05] ++ List.replicate 172 0xAB

/-- The hypotheses of C145 can be met: a packet with a PCR, which then is moved, counted further and given another PCR. -/
example : IsPacket clocked ∧ clocked.head? = some 0x47 ∧ Ts.isPcr clocked = .ok true ∧ ccOf clocked = 5 := by decide +kernel
example : (Ts.setPid .debug clocked 0x1234).map (fun ts => (pidOf ts, ccOf ts, offsetOf ts)) = .ok (0x1234, 5, 12) := by decide +kernel
example : (advance .debug 13 clocked).map (fun ts => (pidOf ts, ccOf ts, offsetOf ts)) = .ok (0x11, 2, 12) := by decide +kernel
example : (restamp (fun _ => 27000000) clocked).map (fun ts => (ts.drop 4).take 9) =
    .ok [0x07, 0x10, 0x00, 0x00, 0xAF, 0xC8, 0x7E, 0x00, 0x00] := by decide +kernel

end Mpegts
