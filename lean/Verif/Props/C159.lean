import Verif.Spec.Shift
import Verif.Props.C145
import Verif.Props.C150

/-! # C159: a relay that shifts the clocks of a stream -/

namespace Mpegts
open Spec Spec.Table

namespace Shift

/-- What a collector of PES packets looks at. -/
structure SameUnit (p : Profile) (ts ts' : List UInt8) : Prop where
  pid : Ts.getPid ts' = Ts.getPid ts
  payload : Ts.isPayload ts' = Ts.isPayload ts
  offset : Ts.getPayloadOffset p ts' = Ts.getPayloadOffset p ts
  start : Ts.isPusi ts' = Ts.isPusi ts
  data : ∀ o, Ts.getPayloadOffset p ts = .ok o → sliceFrom ts' o.toNat = sliceFrom ts o.toNat

theorem SameUnit.refl (p : Profile) (ts : List UInt8) : SameUnit p ts ts := ⟨rfl, rfl, rfl, rfl, fun _ _ => rfl⟩

theorem stamped_unit (p : Profile) (ts : List UInt8) (hk : IsPacket ts) (pcr : UInt64) (h : Ts.isPcr ts = .ok true) (ts' : List UInt8)
    (hs : Ts.setPcr ts pcr = .ok ts') : SameUnit p ts ts' := by
  have hl : 12 ≤ ts.length := by rw [hk.1]; omega
  have hl6 : 6 ≤ ts.length := by omega
  have h7 : hasAdaptation ts = true ∧ 7 ≤ (ts.getD 4 0).toNat := by
    obtain ⟨g, rest, hv, hr, rfl⟩ := packet_split hk.1
    match rest, hr with
    | a :: b :: r, _ =>
      rw [C07_is_pcr g hv a b r] at h
      injection h with h
      rw [(raw_fields hv _).2.1, raw_len hv]
      simp only [Bool.and_eq_true, decide_eq_true_eq] at h
      exact h.1
  have hx : (pcrField (pcr.toNat / 300) 0x3F (pcr.toNat % 300)).length = 6 := by unfold pcrField; rw [beBytes_length]
  rw [C06_set_pcr ts pcr hl] at hs
  generalize pcrField (pcr.toNat / 300) 0x3F (pcr.toNat % 300) = x at hx hs
  injection hs with hs
  subst hs
  have h12 : 12 ≤ offsetOf ts := by unfold offsetOf; rw [h7.1]; simp only [if_true]; omega
  have hlen : (ts.take 6 ++ x ++ ts.drop 12).length = ts.length := by
    rw [List.length_append, List.length_append, List.length_take, List.length_drop, hx]
    omega
  have hdrop : ∀ o, 12 ≤ o → (ts.take 6 ++ x ++ ts.drop 12).drop o = ts.drop o := by
    intro o ho
    rw [List.drop_append, List.drop_eq_nil_of_le (by rw [List.length_append, List.length_take, hx]; omega), List.nil_append,
      List.length_append, List.length_take, hx, List.drop_drop, Nat.min_eq_left hl6]
    congr 1
    omega
  refine ⟨?_, ?_, ?_, ?_, ?_⟩
  · unfold Ts.getPid; rw [idx_front (by omega) hl6, idx_front (by omega) hl6]
  · unfold Ts.isPayload; rw [idx_front (by omega) hl6]
  · unfold Ts.getPayloadOffset Ts.isAdaptation Ts.getAdaptationSize
    rw [idx_front (by omega) hl6, idx_front (by omega) hl6]
  · unfold Ts.isPusi; rw [idx_front (by omega) hl6]
  · intro o ho
    obtain ⟨g, rest, hv, hr, rfl⟩ := packet_split hk.1
    unfold sliceFrom
    rw [hlen, hdrop _ (by rw [(Psi.offset_ge hv hk ho).1]; exact h12)]

theorem collect_same {p : Profile} {pks pks' : List (List UInt8)} (h : List.Forall₂ (SameUnit p) pks pks') (pid : UInt16) (unit : Option (List UInt8)) :
    collectUnits p pid unit pks' = collectUnits p pid unit pks := by
  induction h generalizing unit with
  | nil => rfl
  | @cons ts ts' r r' hx _ ih =>
    simp only [collectUnits, hx.pid, hx.payload, hx.offset, hx.start, ih]
    cases Ts.getPid ts with
    | error e => rfl
    | ok q =>
      simp only [ok_bind]
      cases Ts.isPayload ts with
      | error e => rfl
      | ok b =>
        simp only [ok_bind]
        split
        · cases ho : Ts.getPayloadOffset p ts with
          | error e => rfl
          | ok o => simp only [ok_bind, hx.data o ho]
        · rfl

/-- One packet. -/
theorem shifted (p : Profile) (offset : UInt64) (ho : offset.toNat < pcrPeriod) (ts : List UInt8) (hk : IsPacket ts) :
    ∃ ts', shiftClock offset ts = .ok ts' ∧
      (SamePayload ts ts' ∧ pidOf ts' = pidOf ts ∧ ccOf ts' = ccOf ts ∧ SameUnit p ts ts' ∧
        pcrOf ts' = (pcrOf ts).map fun x => (x.1, (x.2 + offset.toNat) % pcrPeriod)) ∧ ∀ s : Psi, s.mux p ts' = s.mux p ts := by
  have hl : 12 ≤ ts.length := by rw [hk.1]; omega
  obtain ⟨g1, g2⟩ := pcrOf_eq ts hl
  cases hx : pcrOf ts with
  | none =>
    refine ⟨ts, by rw [shiftClock, g1 hx]; rfl, ⟨⟨hk, rfl, rfl, rfl, rfl⟩, rfl, rfl, SameUnit.refl p ts, hx⟩, fun _ => rfl⟩
  | some x =>
    obtain ⟨q, old⟩ := x
    obtain ⟨-, k2, -, v, k4, k5⟩ := g2 q old hx
    have hv : v.toNat < 2 * pcrPeriod := by
      rw [k5]
      unfold pcrOf at hx
      split at hx
      · have := (Prod.mk.inj (Option.some.inj hx)).2
        rw [← this]
        have hb : beNat ((ts.drop 6).take 6) < 256 ^ 6 := by
          have := beNat_lt ((ts.drop 6).take 6)
          rwa [show ((ts.drop 6).take 6).length = 6 by rw [List.length_take, List.length_drop]; omega] at this
        unfold pcrPeriod
        generalize beNat ((ts.drop 6).take 6) = n at hb
        omega
      · cases hx
    have e : (v + offset) % 2576980377600 = UInt64.ofNat ((old + offset.toNat) % pcrPeriod) := by
      apply UInt64.toNat.inj
      rw [UInt64.toNat_mod, UInt64.toNat_add, UInt64.toNat_ofNat', k5]
      rw [k5] at hv
      unfold pcrPeriod at hv ho ⊢
      rw [show (2576980377600 : UInt64).toNat = 2576980377600 from rfl]
      omega
    obtain ⟨ts', s1, s2, s3, s4, -, -, s7⟩ := stamped p ts hk ((v + offset) % 2576980377600) k2
    obtain ⟨ts'', t1, -, -, t4⟩ := C147_stamp ts hl q old hx (old + offset.toNat)
    rw [← e, s1] at t1
    injection t1 with t1
    subst t1
    refine ⟨ts', ?_, ⟨s2, s3, s4, stamped_unit p ts hk _ k2 ts' s1, t4⟩, s7⟩
    rw [shiftClock, k2, ok_bind, if_pos rfl, k4, ok_bind, s1]

theorem clocks {pks pks' : List (List UInt8)} {f : Nat → Nat}
    (h : List.Forall₂ (fun ts ts' => pcrOf ts' = (pcrOf ts).map fun x => (x.1, f x.2)) pks pks') (pid : Nat) :
    clockValues pid pks' = (clockValues pid pks).map f := by
  induction h with
  | nil => rfl
  | @cons ts ts' r r' hx _ ih =>
    unfold clockValues at ih ⊢
    rw [List.filterMap_cons, List.filterMap_cons, hx]
    cases pcrOf ts with
    | none => exact ih
    | some x =>
      simp only [Option.map_some, List.filter_cons]
      split
      · rw [List.map_cons, List.map_cons, List.map_cons, ih]
      · exact ih

/-- A part of the packets, chosen by PID. -/
theorem filtered {P : List UInt8 → List UInt8 → Prop} {pks pks' : List (List UInt8)} (pid : Nat)
    (h : List.Forall₂ (fun ts ts' => P ts ts' ∧ pidOf ts' = pidOf ts) pks pks') :
    List.Forall₂ P (pks.filter fun pk => pidOf pk = pid) (pks'.filter fun pk => pidOf pk = pid) := by
  induction h with
  | nil => exact .nil
  | @cons ts ts' r r' hx _ ih =>
    by_cases hp : pidOf ts = pid
    · rw [List.filter_cons_of_pos (by simpa using hp), List.filter_cons_of_pos (by simpa [hx.2] using hp)]
      exact .cons hx.1 ih
    · rw [List.filter_cons_of_neg (by simpa using hp), List.filter_cons_of_neg (by simpa [hx.2] using hp)]
      exact ih

theorem receive_same {p : Profile} {pks pks' : List (List UInt8)} (h : List.Forall₂ (fun ts ts' => ∀ s : Psi, s.mux p ts' = s.mux p ts) pks pks')
    {α : Type} (parse : α → Psi → R α) (t : α) (s : Psi) : receive parse p t s pks' = receive parse p t s pks := by
  induction h generalizing t s with
  | nil => rfl
  | @cons ts ts' r r' hx _ ih =>
    unfold receive at ih ⊢
    simp only [List.foldlM_cons, hx, bind_assoc, pure_bind]
    cases s.mux p ts with
    | error e => rfl
    | ok s1 =>
      simp only [ok_bind]
      cases parse t s1 with
      | error e => rfl
      | ok t1 => simp only [ok_bind]; exact ih t1 s1

theorem all (p : Profile) (offset : UInt64) (ho : offset.toNat < pcrPeriod) (pks : List (List UInt8)) (hk : ∀ ts ∈ pks, IsPacket ts) :
    ∃ pks', pks.mapM (shiftClock offset) = .ok pks' ∧
      List.Forall₂ (fun ts ts' => (SamePayload ts ts' ∧ pidOf ts' = pidOf ts ∧ ccOf ts' = ccOf ts ∧ SameUnit p ts ts' ∧
        pcrOf ts' = (pcrOf ts).map fun x => (x.1, (x.2 + offset.toNat) % pcrPeriod)) ∧ ∀ s : Psi, s.mux p ts' = s.mux p ts) pks pks' := by
  induction pks with
  | nil => exact ⟨[], rfl, .nil⟩
  | cons ts r ih =>
    obtain ⟨ts', h1, h2⟩ := shifted p offset ho ts (hk ts (by simp))
    obtain ⟨r', i1, i2⟩ := ih fun x hx => hk x (List.mem_cons_of_mem _ hx)
    exact ⟨ts' :: r', by rw [List.mapM_cons, h1, ok_bind, i1, ok_bind, pure_eq_ok], .cons h2 i2⟩

/-- A clock below the period can always be measured. -/
theorem elapsed_ok (p : Profile) (vs : List UInt64) (h : ∀ v ∈ vs, v.toNat < pcrPeriod) : ∃ n, elapsed (Ts.pcrDelta p) vs = .ok n := by
  induction vs with
  | nil => exact ⟨0, rfl⟩
  | cons a l ih =>
    cases l with
    | nil => exact ⟨0, rfl⟩
    | cons b l =>
      obtain ⟨n, hn⟩ := ih fun v hv => h v (List.mem_cons_of_mem _ hv)
      have : ∃ d, Ts.pcrDelta p a b = .ok d := by
        by_cases hab : a ≤ b
        · obtain ⟨d, hd, -⟩ := C08_pcr_delta_partial p a b hab; exact ⟨d, hd⟩
        · obtain ⟨d, hd, -⟩ := C08_pcr_delta_wrap_refuted p a b (by simpa using hab) (h a (by simp)); exact ⟨d, hd⟩
      obtain ⟨d, hd⟩ := this
      exact ⟨d.toNat + n, by rw [elapsed, hd, ok_bind, hn, ok_bind, pure_eq_ok]⟩

end Shift

/-- C159: packets of any kinds, all clocks among them shifted by an offset.  No call fails; payloads, PIDs and counters stay; every clock
shows what it showed plus the offset, modulo the period; and whoever collects PES packets, sections or tables gets what they got before. -/
theorem C159_shift (p : Profile) (offset : UInt64) (ho : offset.toNat < pcrPeriod) (pks : List (List UInt8)) (hk : ∀ ts ∈ pks, IsPacket ts) :
    ∃ pks', pks.mapM (shiftClock offset) = .ok pks' ∧
      List.Forall₂ (fun ts ts' => SamePayload ts ts' ∧ pidOf ts' = pidOf ts ∧ ccOf ts' = ccOf ts) pks pks' ∧
      (∀ pid, clockValues pid pks' = (clockValues pid pks).map fun v => (v + offset.toNat) % pcrPeriod) ∧
      (∀ pid unit, collectUnits p pid unit pks' = collectUnits p pid unit pks) ∧
      ∀ (α : Type) (parse : α → Psi → R α) (t : α) (s : Psi), receive parse p t s pks' = receive parse p t s pks := by
  obtain ⟨pks', h1, h2⟩ := Shift.all p offset ho pks hk
  refine ⟨pks', h1, h2.imp fun _ _ h => ⟨h.1.1, h.1.2.1, h.1.2.2.1⟩, ?_, ?_, ?_⟩
  · exact Shift.clocks (h2.imp fun _ _ h => h.1.2.2.2.2)
  · exact Shift.collect_same (h2.imp fun _ _ h => h.1.2.2.2.1)
  · exact fun α parse t s => Shift.receive_same (h2.imp fun _ _ h => h.2) parse t s

/-- C159: the time a receiver of the shifted stream measures.  It is the time that passed, less one tick for every restart of the shifted
clock; a shift across the end of the period makes a tick disappear that was there before. -/
theorem C159_time_refuted (p : Profile) (offset : UInt64) (ho : offset.toNat < pcrPeriod) (pks : List (List UInt8)) (hk : ∀ ts ∈ pks, IsPacket ts)
    (pid : UInt16) (a : Nat) (times : List Nat) (hrun : Running pcrPeriod (a :: times)) (hc : clockValues pid.toNat pks = (a :: times).map (· % pcrPeriod)) :
    ∃ pks', pks.mapM (shiftClock offset) = .ok pks' ∧ ∀ src buf fuel, Streams pks' src buf fuel →
      ∃ n, (do elapsed (Ts.pcrDelta p) (← readClock pid (← readAll fuel src buf))) = .ok n ∧
        n + restarts pcrPeriod (a + offset.toNat) ((a :: times).getLast (by simp) + offset.toNat) = (a :: times).getLast (by simp) - a := by
  obtain ⟨pks', h1, -, h3, -⟩ := C159_shift p offset ho pks hk
  refine ⟨pks', h1, fun src buf fuel hs => ?_⟩
  have hrun' : ∀ l : List Nat, Running pcrPeriod l → Running pcrPeriod (l.map (· + offset.toNat)) := by
    intro l
    induction l with
    | nil => intro _; trivial
    | cons x l ih =>
      cases l with
      | nil => intro _; trivial
      | cons y l =>
        intro h
        exact ⟨Nat.add_le_add_right h.1 _, by have := h.2.1; show y + offset.toNat < x + offset.toNat + pcrPeriod; omega, ih h.2.2⟩
  obtain ⟨n, g1, g2⟩ := C147_elapsed_refuted p (a + offset.toNat) (times.map (· + offset.toNat)) (hrun' _ hrun)
  obtain ⟨vs, r1, r2⟩ := C147_read pid pks' (fun pk hx => by have := (hs.packets pk hx).1; omega)
  have hvs : vs = readings pcrPeriod ((a + offset.toNat) :: times.map (· + offset.toNat)) := by
    refine (List.map_inj_right (f := UInt64.toNat) fun _ _ h => UInt64.toNat.inj h).1 ?_
    rw [r2, h3, hc, readings, List.map_map, List.map_map, ← List.map_cons (f := (· + offset.toNat)), List.map_map]
    apply List.map_congr_left
    intro t _
    have := pcrPeriod_lt
    simp only [Function.comp]
    rw [UInt64.toNat_ofNat', Nat.mod_add_mod,
      Nat.mod_eq_of_lt (Nat.lt_trans (Nat.mod_lt _ (by decide)) this : (t + offset.toNat) % pcrPeriod < 2 ^ 64)]
  refine ⟨n, ?_, ?_⟩
  · rw [streams_readAll hs, ok_bind, r1, ok_bind, hvs, g1]
  · have e : ((a + offset.toNat) :: times.map (· + offset.toNat)).getLast (by simp) = (a :: times).getLast (by simp) + offset.toNat := by
      have : ((a :: times).map (· + offset.toNat)).getLast (by simp) = (a :: times).getLast (by simp) + offset.toNat := List.getLast_map _
      exact this
    rw [e] at g2
    omega

/-- C159: so the time is the same if neither clock starts again on the way. -/
theorem C159_time_partial (p : Profile) (offset : UInt64) (ho : offset.toNat < pcrPeriod) (pks : List (List UInt8)) (hk : ∀ ts ∈ pks, IsPacket ts)
    (pid : UInt16) (a : Nat) (times : List Nat) (hrun : Running pcrPeriod (a :: times)) (hc : clockValues pid.toNat pks = (a :: times).map (· % pcrPeriod))
    (hno : restarts pcrPeriod (a + offset.toNat) ((a :: times).getLast (by simp) + offset.toNat) = 0) :
    ∃ pks', pks.mapM (shiftClock offset) = .ok pks' ∧ ∀ src buf fuel, Streams pks' src buf fuel →
      (do elapsed (Ts.pcrDelta p) (← readClock pid (← readAll fuel src buf))) = .ok ((a :: times).getLast (by simp) - a) := by
  obtain ⟨pks', h1, h2⟩ := C159_time_refuted p offset ho pks hk pid a times hrun hc
  refine ⟨pks', h1, fun src buf fuel hs => ?_⟩
  obtain ⟨n, g1, g2⟩ := h2 src buf fuel hs
  rw [g1]
  congr 1
  omega

/-- C159: who receives a program of the shifted stream gets the same streams, with the same PES packets, as who receives it from the stream
as it was. -/
theorem C159_program (p : Profile) (pnr : UInt16) (offset : UInt64) (ho : offset.toNat < pcrPeriod) (pks : List (List UInt8)) (hk : ∀ ts ∈ pks, IsPacket ts) :
    ∃ pks', pks.mapM (shiftClock offset) = .ok pks' ∧
      ∀ src buf fuel src' buf' fuel', Streams pks src buf fuel → Streams pks' src' buf' fuel' →
        (tune p pnr fuel src buf = .ok none → tune p pnr fuel' src' buf' = .ok none) ∧
        ∀ time streams, tune p pnr fuel src buf = .ok (some (time, streams)) →
          ∃ time', tune p pnr fuel' src' buf' = .ok (some (time', streams)) := by
  obtain ⟨pks', h1, h2⟩ := Shift.all p offset ho pks hk
  obtain ⟨pks'', g1, -, g3, -⟩ := C159_shift p offset ho pks hk
  rw [h1] at g1
  injection g1 with g1
  subst g1
  refine ⟨pks', h1, fun src buf fuel src' buf' fuel' hs hs' => ?_⟩
  have hlisten : ∀ {α : Type} (parse : α → Psi → R α) (pid : Nat) (t : α) (s : Psi),
      listen parse p pid t s fuel' src' buf' = listen parse p pid t s fuel src buf := by
    intro α parse pid t s
    rw [streams_listen hs, streams_listen hs']
    exact Shift.receive_same (Shift.filtered pid (h2.imp fun _ _ h => ⟨h.2, h.1.2.1⟩)) parse t s
  have hunits := Shift.collect_same (h2.imp fun _ _ h => h.1.2.2.2.1)
  unfold tune
  simp only [hlisten]
  cases listen (Pat.parse p) p 0 Pat.default Psi.default fuel src buf with
  | error e => exact ⟨fun h => (by cases h), fun _ _ h => by cases h⟩
  | ok x =>
    obtain ⟨pat, s⟩ := x
    simp only [ok_bind]
    cases pat.items.find? (·.pnr == pnr) with
    | none => exact ⟨fun h => h, fun _ _ h => by cases h⟩
    | some i =>
      simp only []
      cases listen (Pmt.parse p) p i.pid.toNat Pmt.default Psi.default fuel src buf with
      | error e => exact ⟨fun h => (by cases h), fun _ _ h => by cases h⟩
      | ok y =>
        obtain ⟨pmt, s'⟩ := y
        simp only [ok_bind, streams_readAll hs, streams_readAll hs', receiveProgram, hunits]
        obtain ⟨vs, r1, r2⟩ := C147_read pmt.pcr pks' (fun pk hx => by have := (hs'.packets pk hx).1; omega)
        obtain ⟨n, hn⟩ := Shift.elapsed_ok p vs (by
          intro v hv
          have : v.toNat ∈ vs.map UInt64.toNat := List.mem_map_of_mem hv
          rw [r2, g3] at this
          obtain ⟨w, -, hw⟩ := List.mem_map.1 this
          rw [← hw]
          exact Nat.mod_lt _ (by decide))
        rw [r1, ok_bind, hn, ok_bind]
        obtain ⟨ws, q1, -⟩ := C147_read pmt.pcr pks (fun pk hx => by have := (hs.packets pk hx).1; omega)
        rw [q1, ok_bind]
        cases elapsed (Ts.pcrDelta p) ws with
        | error e => exact ⟨fun h => (by cases h), fun _ _ h => by cases h⟩
        | ok m =>
          simp only [ok_bind]
          generalize (pmt.items.mapM fun s => (do
            let units ← collectUnits p s.pid none pks
            pure (s.streamType, ← units.mapM readPes) : R (UInt8 × List (Option Nat × Option Nat × List UInt8)))) = r
          cases r with
          | error e => exact ⟨fun h => (by cases h), fun _ _ h => by cases h⟩
          | ok streams =>
            refine ⟨fun h => (by cases h), fun time out h => ⟨n, ?_⟩⟩
            injection h with h
            injection h with h
            injection h with h3 h4
            subst h4
            rfl

/-! ## The hypotheses are met -/

/-- The stream of C149, whose clock starts again on the way, with its clock shifted by 600 ticks less than the period, so that it does not: the
receiver measures 6 ticks, not 5. -/
example : ∃ pat pmt pks', tunePat.demux .debug 0 4 [] = .ok (5, pat) ∧ tunePmt.demux .debug 512 15 [] = .ok (0, pmt) ∧
    let pks := tunePackets pat pmt
    (∀ ts ∈ pks, IsPacket ts) ∧ pks.mapM (shiftClock 2576980377000) = .ok pks' ∧ pks' ≠ pks ∧
    clockValues tunePmt.pcr.toNat pks' = (clockValues tunePmt.pcr.toNat pks).map (fun v => (v + 2576980377000) % pcrPeriod) ∧
    Streams pks' ⟨pks'.flatten, [.chunk 1000]⟩ (List.replicate 200 0) 1600 ∧
    (tune .debug 2 1600 ⟨pks.flatten, [.chunk 1000]⟩ (List.replicate 200 0)).map (·.map (·.1)) = .ok (some 5) ∧
    (tune .debug 2 1600 ⟨pks'.flatten, [.chunk 1000]⟩ (List.replicate 200 0)).map (·.map (·.1)) = .ok (some 6) := by
  let pat : List UInt8 := match tunePat.demux .debug 0 4 [] with | .ok x => x.2 | .error _ => []
  let pmt : List UInt8 := match tunePmt.demux .debug 512 15 [] with | .ok x => x.2 | .error _ => []
  let pks' : List (List UInt8) := match (tunePackets pat pmt).mapM (shiftClock 2576980377000) with | .ok x => x | .error _ => []
  refine ⟨pat, pmt, pks', by decide +kernel, by decide +kernel, by decide +kernel, by decide +kernel, by decide +kernel, by decide +kernel,
    ⟨by decide +kernel, ⟨[], List.not_mem_nil, by simp only [List.nil_append]⟩, ?_, by decide +kernel, by decide +kernel⟩,
    by decide +kernel, by decide +kernel⟩
  intro e h; simp at h; subst h; exact ⟨_, rfl⟩

end Mpegts
