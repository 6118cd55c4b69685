import Verif.Props.C159

/-! # C160: moving a program to other PIDs -/

namespace Mpegts
open Spec Spec.Table

namespace Move

/-- What a collector of PES packets and a reader of clocks look at in a packet that gets another PID. -/
structure Same (p : Profile) (r : UInt16) (ts ts' : List UInt8) : Prop where
  pid : Ts.getPid ts' = .ok r
  payload : Ts.isPayload ts' = Ts.isPayload ts
  offset : Ts.getPayloadOffset p ts' = Ts.getPayloadOffset p ts
  start : Ts.isPusi ts' = Ts.isPusi ts
  data : ∀ o, Ts.getPayloadOffset p ts = .ok o → sliceFrom ts' o.toNat = sliceFrom ts o.toNat
  clock : pcrOf ts' = (pcrOf ts).map fun x => (r.toNat, x.2)

theorem moved_same (p : Profile) (ts : List UInt8) (hk : IsPacket ts) (pid : UInt16) (hp : pid.toNat < 8192) (ts' : List UInt8)
    (hs : Ts.setPid p ts pid = .ok ts') : Same p pid ts ts' := by
  obtain ⟨h, rest, hv, hr, rfl⟩ := packet_split hk.1
  have hv' : ({ h with pid := pid.toNat } : Header).Valid := ⟨hv.1, hp, hv.2.2.1, hv.2.2.2⟩
  rw [(C02_set_pid p h hv rest pid hp).1] at hs
  injection hs with hs
  subst hs
  have f := C04_header_fields h hv rest
  have f' := C04_header_fields _ hv' rest
  have len : ∀ g : Header, g.Valid → g.encode.length = 4 := by intro g hg; rw [header_encode hg]; rfl
  have ho : Ts.getPayloadOffset p (({ h with pid := pid.toNat } : Header).encode ++ rest) = Ts.getPayloadOffset p (h.encode ++ rest) := by
    unfold Ts.getPayloadOffset Ts.getAdaptationSize
    rw [f.2.2.2.2.2.1, f'.2.2.2.2.2.1]
    have : idx (({ h with pid := pid.toNat } : Header).encode ++ rest) 4 = idx (h.encode ++ rest) 4 := by
      rw [header_encode hv, header_encode hv']
      rfl
    rw [this]
  have hpid : pidOf (({ h with pid := pid.toNat } : Header).encode ++ rest) = pid.toNat := (raw_fields hv' rest).2.2.2.2
  refine ⟨?_, ?_, ho, ?_, ?_, ?_⟩
  · obtain ⟨q, e1, e2⟩ := f'.2.2.2.1
    rw [e1, UInt16.toNat.inj e2]
  · rw [f.2.2.2.2.2.2.1, f'.2.2.2.2.2.2.1]
  · rw [f.2.2.1, f'.2.2.1]
  · intro o e
    have := (Psi.offset_ge hv hk e).2
    unfold sliceFrom
    rw [List.length_append, List.length_append, List.drop_append, List.drop_append, len _ hv, len _ hv',
      List.drop_eq_nil_of_le (as := h.encode) (by rw [len _ hv]; exact this),
      List.drop_eq_nil_of_le (as := ({ h with pid := pid.toNat } : Header).encode) (by rw [len _ hv']; exact this)]
  · have key : ∀ x, pcrOf (({ h with pid := pid.toNat } : Header).encode ++ rest) = some x → x.1 = pid.toNat := by
      intro x hx
      rw [← hpid]
      exact pcrOf_pid _ (by rw [List.length_append, len _ hv']; omega) x.1 x.2 hx
    have e3 : (({ h with pid := pid.toNat } : Header).encode ++ rest).getD 3 0 = (h.encode ++ rest).getD 3 0 := by
      rw [header_encode hv, header_encode hv']; rfl
    have e4 : (({ h with pid := pid.toNat } : Header).encode ++ rest).getD 4 0 = (h.encode ++ rest).getD 4 0 := by
      rw [header_encode hv, header_encode hv']; rfl
    have e5 : (({ h with pid := pid.toNat } : Header).encode ++ rest).getD 5 0 = (h.encode ++ rest).getD 5 0 := by
      rw [header_encode hv, header_encode hv']; rfl
    have e6 : (({ h with pid := pid.toNat } : Header).encode ++ rest).drop 6 = (h.encode ++ rest).drop 6 := by
      rw [header_encode hv, header_encode hv']; rfl
    generalize ({ h with pid := pid.toNat } : Header).encode ++ rest = b at *
    generalize h.encode ++ rest = a at *
    unfold pcrOf at key ⊢
    simp only [e3, e4, e5, e6] at key ⊢
    split
    · rename_i hc
      rw [if_pos hc] at key
      have := key _ rfl
      simp only [Option.map_some]
      rw [← this]
    · rfl

theorem collect_moved {p : Profile} {q r : UInt16} {pks pks' : List (List UInt8)}
    (h : List.Forall₂ (fun ts ts' => Ts.getPid ts = .ok q ∧ Same p r ts ts') pks pks') (unit : Option (List UInt8)) :
    collectUnits p r unit pks' = collectUnits p q unit pks := by
  induction h generalizing unit with
  | nil => rfl
  | @cons ts ts' l l' hx _ ih =>
    obtain ⟨h1, hx⟩ := hx
    simp only [collectUnits, hx.pid, h1, hx.payload, hx.offset, hx.start, ih, ok_bind, beq_self_eq_true, Bool.true_and]
    cases Ts.isPayload ts with
    | error e => rfl
    | ok b =>
      simp only [ok_bind]
      split
      · cases ho : Ts.getPayloadOffset p ts with
        | error e => rfl
        | ok o => simp only [ok_bind, hx.data o ho]
      · rfl

theorem clock_moved {p : Profile} {q r : UInt16} {pks pks' : List (List UInt8)}
    (h : List.Forall₂ (fun ts ts' => (4 ≤ ts.length ∧ pidOf ts = q.toNat) ∧ Same p r ts ts') pks pks') :
    clockValues r.toNat pks' = clockValues q.toNat pks := by
  induction h with
  | nil => rfl
  | @cons ts ts' l l' hx _ ih =>
    obtain ⟨⟨hl, hq⟩, hx⟩ := hx
    unfold clockValues at ih ⊢
    rw [List.filterMap_cons, List.filterMap_cons, hx.clock]
    cases hc : pcrOf ts with
    | none => exact ih
    | some x =>
      have := pcrOf_pid ts hl x.1 x.2 hc
      simp only [Option.map_some]
      rw [List.filter_cons_of_pos (by simp), List.filter_cons_of_pos (by simp [this, hq]), List.map_cons, List.map_cons, ih]

theorem mapM_same {p : Profile} {r : UInt16} (hr : r.toNat < 8192) {pks pks' : List (List UInt8)} (hk : ∀ ts ∈ pks, IsPacket ts)
    (h : pks.mapM (Ts.setPid p · r) = .ok pks') : List.Forall₂ (Same p r) pks pks' := by
  induction pks generalizing pks' with
  | nil => cases h; exact .nil
  | cons ts l ih =>
    rw [List.mapM_cons] at h
    cases h1 : Ts.setPid p ts r with
    | error e => rw [h1] at h; cases h
    | ok ts' =>
      rw [h1, ok_bind] at h
      cases h2 : l.mapM (Ts.setPid p · r) with
      | error e => rw [h2] at h; cases h
      | ok l' =>
        rw [h2, ok_bind] at h
        cases h
        exact .cons (moved_same p ts (hk ts (by simp)) r hr ts' h1) (ih (fun x hx => hk x (List.mem_cons_of_mem _ hx)) h2)

theorem getPid_of {ts : List UInt8} (hl : 4 ≤ ts.length) {q : UInt16} (h : pidOf ts = q.toNat) : Ts.getPid ts = .ok q := by
  obtain ⟨g, hv, he⟩ := header_complete ts hl
  generalize ts.drop 4 = rest at he
  subst he
  obtain ⟨-, -, -, ⟨q', h4, h4'⟩, -⟩ := C04_header_fields g hv rest
  rw [(raw_fields hv rest).2.2.2.2, ← h4'] at h
  rw [h4, UInt16.toNat.inj h]

/-- The program on its new PIDs. -/
theorem program_moved (p : Profile) (pmt new : Pmt) (f : UInt16 → UInt16) (pks pks' : List (List UInt8)) (hk : ∀ ts ∈ pks, IsPacket ts)
    (hl' : ∀ ts ∈ pks', ts.length = 188) (hpcr : new.pcr = f pmt.pcr)
    (hitems : new.items.map (fun i => (i.streamType, i.pid)) = pmt.items.map fun i => (i.streamType, f i.pid))
    (h : ∀ q, q = pmt.pcr ∨ (∃ x ∈ pmt.items, x.pid = q) → (f q).toNat < 8192 ∧
      (pks.filter fun pk => pidOf pk = q.toNat).mapM (Ts.setPid p · (f q)) = .ok (pks'.filter fun pk => pidOf pk = (f q).toNat)) :
    receiveProgram p new pks' = receiveProgram p pmt pks := by
  have h4 : ∀ pk ∈ pks, 4 ≤ pk.length := fun pk hx => by have := (hk pk hx).1; omega
  have h4' : ∀ pk ∈ pks', 4 ≤ pk.length := fun pk hx => by have := hl' pk hx; omega
  have hsame : ∀ q, q = pmt.pcr ∨ (∃ x ∈ pmt.items, x.pid = q) →
      List.Forall₂ (fun ts ts' => (4 ≤ ts.length ∧ pidOf ts = q.toNat) ∧ Same p (f q) ts ts') (pks.filter fun pk => pidOf pk = q.toNat)
        (pks'.filter fun pk => pidOf pk = (f q).toNat) := by
    intro q hq
    obtain ⟨a1, a2⟩ := h q hq
    have := mapM_same a1 (fun ts hts => hk ts (List.mem_of_mem_filter hts)) a2
    have hm : ∀ ts ∈ (pks.filter fun pk => pidOf pk = q.toNat), 4 ≤ ts.length ∧ pidOf ts = q.toNat := by
      intro ts hts
      exact ⟨h4 ts (List.mem_of_mem_filter hts), by simpa using (List.mem_filter.1 hts).2⟩
    clear a2
    generalize (pks.filter fun pk => pidOf pk = q.toNat) = A at *
    generalize (pks'.filter fun pk => pidOf pk = (f q).toNat) = B at *
    induction this with
    | nil => exact .nil
    | cons hx _ ih => exact .cons ⟨hm _ (by simp), hx⟩ (ih fun x hx => hm x (List.mem_cons_of_mem _ hx))
  have hclock : readClock new.pcr pks' = readClock pmt.pcr pks := by
    obtain ⟨vs, a1, a2⟩ := C147_read pmt.pcr pks (fun pk hx => by have := (hk pk hx).1; omega)
    obtain ⟨vs', b1, b2⟩ := C147_read new.pcr pks' (fun pk hx => by have := hl' pk hx; omega)
    have : vs' = vs := by
      refine (List.map_inj_right (f := UInt64.toNat) fun _ _ h => UInt64.toNat.inj h).1 ?_
      rw [a2, b2, clockValues_pid _ pks h4, clockValues_pid _ pks' h4', hpcr, clock_moved (hsame _ (.inl rfl))]
    rw [a1, b1, this]
  have hes : ∀ (l l' : List PmtItem), (∀ x ∈ l, x ∈ pmt.items) → l'.map (fun i => (i.streamType, i.pid)) = l.map (fun i => (i.streamType, f i.pid)) →
      (l'.mapM fun s => (do
        let units ← collectUnits p s.pid none pks'
        pure (s.streamType, ← units.mapM readPes) : R (UInt8 × List (Option Nat × Option Nat × List UInt8)))) =
      (l.mapM fun s => (do
        let units ← collectUnits p s.pid none pks
        pure (s.streamType, ← units.mapM readPes) : R (UInt8 × List (Option Nat × Option Nat × List UInt8)))) := by
    intro l
    induction l with
    | nil => intro l' _ e; cases l' with
      | nil => rfl
      | cons _ _ => cases e
    | cons i l ih =>
      intro l' hm e
      cases l' with
      | nil => cases e
      | cons i' l' =>
        rw [List.map_cons, List.map_cons] at e
        injection e with e0 e1
        injection e0 with e2 e3
        have e : collectUnits p i'.pid none pks' = collectUnits p i.pid none pks := by
          rw [collect_pid p i.pid none pks h4, collect_pid p i'.pid none pks' h4', e3]
          refine collect_moved ((hsame _ (.inr ⟨i, hm i (by simp), rfl⟩)).imp fun _ _ h => ⟨getPid_of h.1.1 h.1.2, h.2⟩) none
        rw [List.mapM_cons, List.mapM_cons, ih l' (fun x hx => hm x (List.mem_cons_of_mem _ hx)) e1, e, e2]
  rw [receiveProgram, receiveProgram, hclock, hes _ _ (fun _ h => h) hitems]

end Move

/-- C160: a relay moves a program to other PIDs: the packets of its clock and its elementary streams get their new PID (`set_pid`), and a new
PAT and a new PMT, with the new PIDs and any descriptors, are sent.  Who receives the program of the new stream, however its packets are mixed
and read, gets what the old stream gives: the same time, the same streams, the same PES packets.  (If the program descriptors of the new PMT
make the parser panic, C55, the receiver panics.) -/
theorem C160_move_partial (p : Profile) (pks : List (List UInt8)) (src : Source) (buf : List UInt8) (fuel : Nat) (hs : Streams pks src buf fuel)
    (hk : ∀ ts ∈ pks, IsPacket ts) (pnr : UInt16) (pat : Pat) (s : Psi) (hpat : listen (Pat.parse p) p 0 Pat.default Psi.default fuel src buf = .ok (pat, s))
    (i : PatItem) (hi : pat.items.find? (·.pnr == pnr) = some i) (pmt : Pmt) (s' : Psi)
    (hpmt : listen (Pmt.parse p) p i.pid.toNat Pmt.default Psi.default fuel src buf = .ok (pmt, s')) (f : UInt16 → UInt16)
    (newPat : Pat) (hv : newPat.version.toNat < 32) (hn : newPat.items.length ≤ 253) (hr : ∀ i ∈ newPat.items, i.pid.toNat < 8192) (pmtPid : UInt16)
    (newPmt : Pmt) (hin : newPmt.InRange) (hnew : newPat.items.find? (·.pnr == pnr) = some ⟨pnr, pmtPid⟩) (hpcr : newPmt.pcr = f pmt.pcr)
    (hitems : newPmt.items.map (fun i => (i.streamType, i.pid)) = pmt.items.map fun i => (i.streamType, f i.pid))
    (ca cb : UInt8) (hca : ca.toNat < 16) (hcb : cb.toNat < 16) :
    ∃ ca' pa cb' pb, newPat.demux p 0 ca [] = .ok (ca', pa.flatten) ∧ newPmt.demux p pmtPid cb [] = .ok (cb', pb.flatten) ∧
      ∀ (pks' : List (List UInt8)) (src' : Source) (buf' : List UInt8) (fuel' : Nat), Streams pks' src' buf' fuel' →
        (pks'.filter fun pk => pidOf pk = 0) = pa → (pks'.filter fun pk => pidOf pk = pmtPid.toNat) = pb →
        (∀ q, q = pmt.pcr ∨ (∃ x ∈ pmt.items, x.pid = q) → (f q).toNat < 8192 ∧
          (pks.filter fun pk => pidOf pk = q.toNat).mapM (Ts.setPid p · (f q)) = .ok (pks'.filter fun pk => pidOf pk = (f q).toNat)) →
        (∀ ds, readBackShifted p newPmt.descriptors = .ok ds → tune p pnr fuel' src' buf' = tune p pnr fuel src buf) ∧
        (readBackShifted p newPmt.descriptors = panic → tune p pnr fuel' src' buf' = panic) := by
  have hpid : pmtPid.toNat < 8192 := hr ⟨pnr, pmtPid⟩ (List.mem_of_find?_eq_some hnew)
  obtain ⟨ca', pa, s0, g1, g2, g3⟩ := Pat.C53_round_trip p newPat 0 ca [] Psi.default (by decide) hca hv hn hr
  obtain ⟨cb', pb, k1, k2, k3, k4⟩ := Pmt.C55_received_partial p newPmt hin pmtPid cb [] Psi.default hpid hcb
  rw [List.nil_append] at g1 k1
  refine ⟨ca', pa, cb', pb, g1, k1, fun pks' src' buf' fuel' hs' ha hb hq => ?_⟩
  have hmis : readBackShifted p newPmt.descriptors = Pmt.misread p newPmt := by
    rw [readBackShifted_good p _ hin.program.fits.1]; rfl
  constructor
  · intro ds hds
    obtain ⟨s1, hrec⟩ := k3 ds (by rw [← hmis, hds])
    rw [tune, tune, hpat, streams_listen hs', ha, g3]
    simp only [ok_bind, hi, hnew]
    rw [streams_listen hs', hb, hrec, hpmt]
    simp only [ok_bind, streams_readAll hs, streams_readAll hs']
    rw [Move.program_moved p pmt { newPmt with descriptors := ds } f pks pks' hk (fun ts h => (hs'.packets ts h).1) hpcr hitems hq]
  · intro hpan
    rw [tune, streams_listen hs', ha, g3]
    simp only [ok_bind, hnew]
    rw [streams_listen hs', hb, k4 (by rw [← hmis, hpan])]
    rfl

/-! ## The hypotheses are met -/

/-- The new PIDs of the video (with the clock) and the audio of the program of C149. -/
def moveTo (q : UInt16) : UInt16 := if q = 257 then 300 else 301

/-- Its new PMT. -/
def movedPmt : Pmt := { tunePmt with version := 9, pcr := 300, items := tunePmt.items.map fun i => { i with pid := moveTo i.pid } }

/-- The program of C149 on its new PIDs, with the audio after the video, and the tables in front. -/
example : ∃ pat pmt pat' pmt' video audio, tunePat.demux .debug 0 4 [] = .ok (5, pat) ∧ tunePmt.demux .debug 512 15 [] = .ok (0, pmt) ∧
    (⟨4, 7, [⟨2, 600⟩]⟩ : Pat).demux .debug 0 9 [] = .ok (10, pat') ∧ movedPmt.demux .debug 600 3 [] = .ok (4, pmt') ∧
    let pks := tunePackets pat pmt
    let pks' := pat' :: pmt' :: video ++ audio
    (∀ ts ∈ pks, IsPacket ts) ∧ (∀ pk ∈ pks', pk.length = 188 ∧ pk.head? = some 0x47) ∧
    (pks.filter fun pk => pidOf pk = 257).mapM (Ts.setPid .debug · 300) = .ok video ∧
    (pks.filter fun pk => pidOf pk = 258).mapM (Ts.setPid .debug · 301) = .ok audio ∧
    (pks'.filter fun pk => pidOf pk = 300) = video ∧ (pks'.filter fun pk => pidOf pk = 301) = audio ∧
    (pks'.filter fun pk => pidOf pk = 0) = [pat'] ∧ (pks'.filter fun pk => pidOf pk = 600) = [pmt'] ∧
    (tune .debug 2 1600 ⟨pks'.flatten, [.chunk 1000]⟩ (List.replicate 200 0)).map (·.map (·.1)) = .ok (some 5) ∧
    (tune .debug 2 1600 ⟨pks'.flatten, [.chunk 1000]⟩ (List.replicate 200 0)).map (·.map fun x => x.2.map fun y => (y.1, y.2.map (·.1))) =
      .ok (some [(0x1B, [some 225220]), (3, [some 225000])]) := by
  let pat : List UInt8 := match tunePat.demux .debug 0 4 [] with | .ok x => x.2 | .error _ => []
  let pmt : List UInt8 := match tunePmt.demux .debug 512 15 [] with | .ok x => x.2 | .error _ => []
  let pat' : List UInt8 := match (⟨4, 7, [⟨2, 600⟩]⟩ : Pat).demux .debug 0 9 [] with | .ok x => x.2 | .error _ => []
  let pmt' : List UInt8 := match movedPmt.demux .debug 600 3 [] with | .ok x => x.2 | .error _ => []
  let video : List (List UInt8) := match ((tunePackets pat pmt).filter fun pk => pidOf pk = 257).mapM (Ts.setPid .debug · 300) with | .ok x => x | .error _ => []
  let audio : List (List UInt8) := match ((tunePackets pat pmt).filter fun pk => pidOf pk = 258).mapM (Ts.setPid .debug · 301) with | .ok x => x | .error _ => []
  exact ⟨pat, pmt, pat', pmt', video, audio, by decide +kernel, by decide +kernel, by decide +kernel, by decide +kernel, by decide +kernel, by decide +kernel,
    by decide +kernel, by decide +kernel, by decide +kernel, by decide +kernel, by decide +kernel, by decide +kernel, by decide +kernel, by decide +kernel⟩

end Mpegts
