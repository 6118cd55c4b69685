import Verif.Props.C149

/-! # C150: only the packets of a program matter to it -/

namespace Mpegts
open Spec

/-- The PID in the record of a PCR is that of the packet. -/
theorem pcrOf_pid (pk : List UInt8) (h : 4 ≤ pk.length) (q v : Nat) (hq : pcrOf pk = some (q, v)) : q = pidOf pk := by
  obtain ⟨a, b, c, d, r, rfl⟩ := exists_cons4 h
  unfold pcrOf at hq
  split at hq
  · have := (Prod.mk.inj (Option.some.inj hq)).1
    rw [← this, pidOf]
    have hb := b.toNat_lt
    have hc := c.toNat_lt
    simp only [List.drop_succ_cons, List.drop_zero, List.take_succ_cons, List.take_zero, beNat_two, List.getD_cons_succ, List.getD_cons_zero]
    omega
  · cases hq

/-- The clock of a PID is on the packets of the PID. -/
theorem clockValues_pid (pid : Nat) (pks : List (List UInt8)) (hl : ∀ pk ∈ pks, 4 ≤ pk.length) :
    clockValues pid pks = clockValues pid (pks.filter fun pk => pidOf pk = pid) := by
  induction pks with
  | nil => rfl
  | cons pk pks ih =>
    have ih := ih fun x hx => hl x (List.mem_cons_of_mem _ hx)
    unfold clockValues at ih ⊢
    by_cases hp : pidOf pk = pid
    · rw [List.filter_cons_of_pos (by simpa using hp), List.filterMap_cons, List.filterMap_cons]
      cases pcrOf pk with
      | none => exact ih
      | some x =>
        simp only [List.filter_cons]
        split
        · rw [List.map_cons, List.map_cons, ih]
        · exact ih
    · rw [List.filter_cons_of_neg (by simpa using hp), List.filterMap_cons]
      cases hx : pcrOf pk with
      | none => exact ih
      | some x =>
        have := pcrOf_pid pk (hl pk (by simp)) x.1 x.2 hx
        rw [List.filter_cons_of_neg (by simp only [decide_eq_true_eq]; omega)]
        exact ih

/-- The packets of the program's PIDs give the program. -/
theorem receiveProgram_congr (p : Profile) (pmt : Pmt) (pks pks' : List (List UInt8)) (hl : ∀ pk ∈ pks, pk.length = 188)
    (hl' : ∀ pk ∈ pks', pk.length = 188)
    (h : ∀ q, q = pmt.pcr ∨ (∃ x ∈ pmt.items, x.pid = q) →
      (pks.filter fun pk => pidOf pk = q.toNat) = (pks'.filter fun pk => pidOf pk = q.toNat)) :
    receiveProgram p pmt pks = receiveProgram p pmt pks' := by
  have h4 : ∀ pk ∈ pks, 4 ≤ pk.length := fun pk hx => by have := hl pk hx; omega
  have h4' : ∀ pk ∈ pks', 4 ≤ pk.length := fun pk hx => by have := hl' pk hx; omega
  have hclock : readClock pmt.pcr pks = readClock pmt.pcr pks' := by
    obtain ⟨vs, a1, a2⟩ := C147_read pmt.pcr pks (fun pk hx => by have := hl pk hx; omega)
    obtain ⟨vs', b1, b2⟩ := C147_read pmt.pcr pks' (fun pk hx => by have := hl' pk hx; omega)
    have : vs = vs' := by
      refine (List.map_inj_right (f := UInt64.toNat) fun _ _ h => UInt64.toNat.inj h).1 ?_
      rw [a2, b2, clockValues_pid _ pks h4, clockValues_pid _ pks' h4', h _ (.inl rfl)]
    rw [a1, b1, this]
  have hes : ∀ l : List PmtItem, (∀ x ∈ l, x ∈ pmt.items) →
      (l.mapM fun s => (do
        let units ← collectUnits p s.pid none pks
        pure (s.streamType, ← units.mapM readPes) : R (UInt8 × List (Option Nat × Option Nat × List UInt8)))) =
      (l.mapM fun s => (do
        let units ← collectUnits p s.pid none pks'
        pure (s.streamType, ← units.mapM readPes) : R (UInt8 × List (Option Nat × Option Nat × List UInt8)))) := by
    intro l
    induction l with
    | nil => intro _; rfl
    | cons i l ih =>
      intro hm
      have e : collectUnits p i.pid none pks = collectUnits p i.pid none pks' := by
        rw [collect_pid p i.pid none pks h4, collect_pid p i.pid none pks' h4', h _ (.inr ⟨i, hm i (by simp), rfl⟩)]
      rw [List.mapM_cons, List.mapM_cons, ih fun x hx => hm x (List.mem_cons_of_mem _ hx), e]
  rw [receiveProgram, receiveProgram, hclock, hes _ fun _ h => h]

theorem streams_listen {pks : List (List UInt8)} {src : Source} {buf : List UInt8} {fuel : Nat} (h : Streams pks src buf fuel) {α : Type}
    (parse : α → Psi → R α) (p : Profile) (pid : Nat) (t : α) (s : Psi) :
    listen parse p pid t s fuel src buf = receive parse p t s (pks.filter fun pk => pidOf pk = pid) := by
  obtain ⟨g, hg, hd⟩ := h.data
  refine C76_listen parse p pid t s src h.steady _ ?_ buf h.buffer fuel h.fuel
  rw [hd]
  exact carries_mixed pid g hg pks fun pk hx => ⟨_, (h.packets pk hx).1, (h.packets pk hx).2, rfl⟩

theorem streams_readAll {pks : List (List UInt8)} {src : Source} {buf : List UInt8} {fuel : Nat} (h : Streams pks src buf fuel) :
    readAll fuel src buf = .ok pks := by
  obtain ⟨g, hg, hd⟩ := h.data
  rw [C70_all fuel src h.steady buf h.buffer h.fuel, hd, Slip.packetsOf_quiet_packets hg pks h.packets]

/-- C150: what is received of a program is determined by the packets of the PAT, of its PMT, of its clock and of its elementary streams.  Two
streams that have these in common, in the same order on each PID, give the same result, even if it is a panic, whatever is on other PIDs,
however the packets of different PIDs follow each other, and however the streams are read. -/
theorem C150_independent (p : Profile) (pnr : UInt16) (pks pks' : List (List UInt8)) (src src' : Source) (buf buf' : List UInt8) (fuel fuel' : Nat)
    (hs : Streams pks src buf fuel) (hs' : Streams pks' src' buf' fuel')
    (h0 : (pks.filter fun pk => pidOf pk = 0) = (pks'.filter fun pk => pidOf pk = 0))
    (h1 : ∀ pat s, listen (Pat.parse p) p 0 Pat.default Psi.default fuel src buf = .ok (pat, s) → ∀ i ∈ pat.items.find? (·.pnr == pnr),
      (pks.filter fun pk => pidOf pk = i.pid.toNat) = (pks'.filter fun pk => pidOf pk = i.pid.toNat) ∧
      ∀ pmt s, listen (Pmt.parse p) p i.pid.toNat Pmt.default Psi.default fuel src buf = .ok (pmt, s) →
        ∀ q, q = pmt.pcr ∨ (∃ x ∈ pmt.items, x.pid = q) →
          (pks.filter fun pk => pidOf pk = q.toNat) = (pks'.filter fun pk => pidOf pk = q.toNat)) :
    tune p pnr fuel src buf = tune p pnr fuel' src' buf' := by
  rw [tune, tune, streams_listen hs', ← h0, ← streams_listen hs]
  cases hp : listen (Pat.parse p) p 0 Pat.default Psi.default fuel src buf with
  | error e => rfl
  | ok x =>
    obtain ⟨pat, s⟩ := x
    simp only [ok_bind]
    cases hi : pat.items.find? (·.pnr == pnr) with
    | none => rfl
    | some i =>
      obtain ⟨g1, g2⟩ := h1 pat s hp i hi
      simp only []
      rw [streams_listen hs', ← g1, ← streams_listen hs]
      cases hm : listen (Pmt.parse p) p i.pid.toNat Pmt.default Psi.default fuel src buf with
      | error e => rfl
      | ok y =>
        obtain ⟨pmt, s'⟩ := y
        simp only [ok_bind, streams_readAll hs, streams_readAll hs']
        rw [receiveProgram_congr p pmt pks pks' (fun pk h => (hs.packets pk h).1) (fun pk h => (hs'.packets pk h).1) (g2 pmt s' hm)]

/-- C150: extracting a program.  A stream with a new PAT that lists the program, perhaps only this one, and with the packets of its PMT, its clock
and its elementary streams, gives of the program what the old stream gives. -/
theorem C150_extract (p : Profile) (pnr : UInt16) (pks : List (List UInt8)) (src : Source) (buf : List UInt8) (fuel : Nat)
    (hs : Streams pks src buf fuel) (pat : Pat) (s : Psi)
    (hpat : listen (Pat.parse p) p 0 Pat.default Psi.default fuel src buf = .ok (pat, s)) (i : PatItem) (hi : pat.items.find? (·.pnr == pnr) = some i)
    (new : Pat) (hv : new.version.toNat < 32) (hn : new.items.length ≤ 253) (hr : ∀ i ∈ new.items, i.pid.toNat < 8192)
    (hnew : new.items.find? (·.pnr == pnr) = some i) (cc : UInt8) (hcc : cc.toNat < 16) :
    ∃ cc' pa, new.demux p 0 cc [] = .ok (cc', pa.flatten) ∧
      ∀ (pks' : List (List UInt8)) (src' : Source) (buf' : List UInt8) (fuel' : Nat), Streams pks' src' buf' fuel' →
        (pks'.filter fun pk => pidOf pk = 0) = pa →
        (pks.filter fun pk => pidOf pk = i.pid.toNat) = (pks'.filter fun pk => pidOf pk = i.pid.toNat) →
        (∀ pmt s, listen (Pmt.parse p) p i.pid.toNat Pmt.default Psi.default fuel src buf = .ok (pmt, s) →
          ∀ q, q = pmt.pcr ∨ (∃ x ∈ pmt.items, x.pid = q) →
            (pks.filter fun pk => pidOf pk = q.toNat) = (pks'.filter fun pk => pidOf pk = q.toNat)) →
        tune p pnr fuel' src' buf' = tune p pnr fuel src buf := by
  obtain ⟨cc', pa, s0, g1, g2, g3⟩ := Pat.C53_round_trip p new 0 cc [] Psi.default (by decide) hcc hv hn hr
  rw [List.nil_append] at g1
  refine ⟨cc', pa, g1, fun pks' src' buf' fuel' hs' ha hm hq => ?_⟩
  rw [tune, tune, hpat, streams_listen hs', ha, g3]
  simp only [ok_bind, hi, hnew]
  rw [streams_listen hs', ← hm, ← streams_listen hs]
  cases hl : listen (Pmt.parse p) p i.pid.toNat Pmt.default Psi.default fuel src buf with
  | error e => rfl
  | ok y =>
    obtain ⟨pmt, s'⟩ := y
    simp only [ok_bind, streams_readAll hs, streams_readAll hs']
    rw [receiveProgram_congr p pmt pks pks' (fun pk h => (hs.packets pk h).1) (fun pk h => (hs'.packets pk h).1) (hq pmt s' hl)]

/-! ## The hypotheses are met -/

/-- Extracting a program: another PAT, without the first program and with another version, and no null
packets.  The old and the new stream have the packets on PIDs 512, 257 and 258 in common. -/
example : ∃ pat pmt pat', tunePat.demux .debug 0 4 [] = .ok (5, pat) ∧ tunePmt.demux .debug 512 15 [] = .ok (0, pmt) ∧
    (⟨4, 7, [⟨2, 512⟩]⟩ : Pat).demux .debug 0 9 [] = .ok (10, pat') ∧
    let pks := tunePackets pat pmt
    let pks' := pat' :: pks.filter fun pk => pidOf pk = 512 ∨ pidOf pk = 257 ∨ pidOf pk = 258
    Streams pks ⟨[1, 2] ++ pks.flatten, [.chunk 100, .chunk 300]⟩ (List.replicate 188 0) 1600 ∧
    Streams pks' ⟨pks'.flatten, [.chunk 1000]⟩ (List.replicate 200 0) 1600 ∧ pks.length = 7 ∧ pks'.length = 6 ∧
    (pks'.filter fun pk => pidOf pk = 0) = [pat'] ∧
    (∀ q ∈ [512, 257, 258], (pks.filter fun pk => pidOf pk = q) = (pks'.filter fun pk => pidOf pk = q)) ∧
    (tune .debug 2 1600 ⟨pks'.flatten, [.chunk 1000]⟩ (List.replicate 200 0)).map (·.map (·.1)) = .ok (some 5) := by
  let pat : List UInt8 := match tunePat.demux .debug 0 4 [] with | .ok x => x.2 | .error _ => []
  let pmt : List UInt8 := match tunePmt.demux .debug 512 15 [] with | .ok x => x.2 | .error _ => []
  let pat' : List UInt8 := match (⟨4, 7, [⟨2, 512⟩]⟩ : Pat).demux .debug 0 9 [] with | .ok x => x.2 | .error _ => []
  refine ⟨pat, pmt, pat', by decide +kernel, by decide +kernel, by decide +kernel, ?_⟩
  refine ⟨⟨by decide +kernel, ⟨[1, 2], by decide, rfl⟩, ?_, by decide +kernel, by decide +kernel⟩,
    ⟨by decide +kernel, ⟨[], List.not_mem_nil, by simp only [List.nil_append]⟩, ?_, by decide +kernel, by decide +kernel⟩,
    by decide +kernel, by decide +kernel, by decide +kernel, by decide +kernel, by decide +kernel⟩
  · intro e h; simp at h; rcases h with rfl | rfl <;> exact ⟨_, rfl⟩
  · intro e h; simp at h; subst h; exact ⟨_, rfl⟩

end Mpegts
