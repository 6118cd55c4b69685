import Verif.Spec.Tune
import Verif.Props.C108
import Verif.Props.C122
import Verif.Props.C147
import Verif.Props.C148

/-! # C149: receiving a program -/

namespace Mpegts
open Spec

/-- Packets of other PIDs do not matter to an elementary stream. -/
theorem collect_pid (p : Profile) (pid : UInt16) (cur : Option (List UInt8)) (pks : List (List UInt8)) (hl : ∀ pk ∈ pks, 4 ≤ pk.length) :
    collectUnits p pid cur pks = collectUnits p pid cur (pks.filter fun pk => pidOf pk = pid.toNat) := by
  induction pks generalizing cur with
  | nil => rfl
  | cons pk pks ih =>
    have hl' : ∀ pk ∈ pks, 4 ≤ pk.length := fun x hx => hl x (List.mem_cons_of_mem _ hx)
    obtain ⟨h, hv, he⟩ := header_complete pk (hl pk (by simp))
    generalize pk.drop 4 = rest at he
    subst he
    obtain ⟨-, -, -, ⟨q, h4, h4'⟩, -, -, h7, -⟩ := C04_header_fields h hv rest
    have hp := (raw_fields hv rest).2.2.2.2
    by_cases hq : q = pid
    · rw [List.filter_cons_of_pos (by simp [hp, ← h4', hq])]
      simp only [collectUnits, ih _ hl']
    · rw [List.filter_cons_of_neg (by
        simp only [hp, ← h4', decide_eq_true_eq]
        exact fun e => hq (UInt16.toNat.inj e)), collectUnits, h4, ok_bind, h7, ok_bind, if_neg (by simp [hq]), ih _ hl']

theorem mapM_readPes (us : List PesUnit) (hu : ∀ u ∈ us, u.Proper) :
    (us.map PesUnit.bytes).mapM readPes = .ok (us.map fun u => (u.pts, u.dts, u.data)) := by
  induction us with
  | nil => rfl
  | cons u us ih =>
    rw [List.map_cons, List.mapM_cons, (C148_pes u (hu u (by simp))).2, ok_bind, ih fun x hx => hu x (List.mem_cons_of_mem _ hx), ok_bind]
    rfl

theorem carriesPes_collect (p : Profile) (pid : UInt16) (pks : List (List UInt8)) (us : List PesUnit)
    (h : CarriesPes pid.toNat pks us) : (do (← collectUnits p pid none pks).mapM readPes) = .ok (us.map fun u => (u.pts, u.dts, u.data)) := by
  obtain ⟨cs, before, gs, rfl, hc, hd, hb, hg, hu, hgu⟩ := h
  rw [C148_collect p pid cs hc before gs hd hb hg, ok_bind, hgu, mapM_readPes us hu]

theorem streams_read (p : Profile) (pks : List (List UInt8)) (hl : ∀ pk ∈ pks, 4 ≤ pk.length) (us : UInt16 → List PesUnit) (l : List PmtItem)
    (hes : ∀ i ∈ l, CarriesPes i.pid.toNat (pks.filter fun pk => pidOf pk = i.pid.toNat) (us i.pid)) :
    (l.mapM fun s => (do
      let units ← collectUnits p s.pid none pks
      pure (s.streamType, ← units.mapM readPes) : R (UInt8 × List (Option Nat × Option Nat × List UInt8)))) =
      .ok (l.map fun i => (i.streamType, (us i.pid).map fun u => (u.pts, u.dts, u.data))) := by
  induction l with
  | nil => rfl
  | cons i l ih =>
    have h := carriesPes_collect p i.pid _ (us i.pid) (hes i (by simp))
    rw [← collect_pid p i.pid none pks hl] at h
    rw [List.mapM_cons, ih fun x hx => hes x (List.mem_cons_of_mem _ hx)]
    cases hc : collectUnits p i.pid none pks with
    | error e => rw [hc] at h; cases h
    | ok units =>
      rw [hc, ok_bind] at h
      rw [ok_bind, h]
      rfl

theorem program_received (p : Profile) (pmt : Pmt) (pks : List (List UInt8)) (hpk : ∀ pk ∈ pks, pk.length = 188) (a : Nat) (times : List Nat)
    (hrun : Running pcrPeriod (a :: times)) (hclock : clockValues pmt.pcr.toNat pks = (a :: times).map (· % pcrPeriod)) (us : UInt16 → List PesUnit)
    (hes : ∀ i ∈ pmt.items, CarriesPes i.pid.toNat (pks.filter fun pk => pidOf pk = i.pid.toNat) (us i.pid)) :
    ∃ time, time + restarts pcrPeriod a ((a :: times).getLast (by simp)) = (a :: times).getLast (by simp) - a ∧
      receiveProgram p pmt pks = .ok (time, pmt.items.map fun i => (i.streamType, (us i.pid).map fun u => (u.pts, u.dts, u.data))) := by
  obtain ⟨vs, h1, h2⟩ := C147_read pmt.pcr pks (fun pk hx => by have := hpk pk hx; omega)
  obtain ⟨time, ht1, ht2⟩ := C147_elapsed_refuted p a times hrun
  have hvs : vs = readings pcrPeriod (a :: times) := by
    rw [hclock] at h2
    refine (List.map_inj_right (f := UInt64.toNat) fun _ _ h => UInt64.toNat.inj h).1 ?_
    rw [h2, readings, List.map_map]
    apply List.map_congr_left
    intro t _
    have := pcrPeriod_lt
    have hlt : t % pcrPeriod < pcrPeriod := Nat.mod_lt _ (by decide)
    simp only [Function.comp, UInt64.toNat_ofNat']
    omega
  refine ⟨time, ht2, ?_⟩
  rw [receiveProgram, h1, ok_bind, hvs, ht1, ok_bind, streams_read p pks (fun pk hx => by have := hpk pk hx; omega) us pmt.items hes, ok_bind]
  rfl

/-- C149: a stream with a PAT, the PMT of a program, its clock and its elementary streams, in packets mixed in any way with each other and with
packets of other PIDs, behind any bytes without sync bytes, from a source in pieces of any size.  Knowing only the program number, the user
gets all PES packets of all its streams, with their time stamps, and the time that passed (short of one tick for every restart of the clock,
C147).  This is so whenever the program descriptors of the PMT, as they are misread (C55), do not make the parser panic; then the user's
program panics. -/
theorem C149_tune_partial (p : Profile) (pat : Pat) (hv : pat.version.toNat < 32) (hn : pat.items.length ≤ 253)
    (hi : ∀ i ∈ pat.items, i.pid.toNat < 8192) (pmtPid : UInt16) (pmt : Pmt) (hpmt : pmt.InRange)
    (hfind : pat.items.find? (·.pnr == pmt.pnr) = some ⟨pmt.pnr, pmtPid⟩) (ca cb : UInt8) (hca : ca.toNat < 16) (hcb : cb.toNat < 16) :
    ∃ ca' pa cb' pb, pat.demux p 0 ca [] = .ok (ca', pa.flatten) ∧ pmt.demux p pmtPid cb [] = .ok (cb', pb.flatten) ∧
      ∀ (pks : List (List UInt8)), (∀ pk ∈ pks, pk.length = 188 ∧ pk.head? = some 0x47) →
        (pks.filter fun pk => pidOf pk = 0) = pa → (pks.filter fun pk => pidOf pk = pmtPid.toNat) = pb →
      ∀ (a : Nat) (times : List Nat), Running pcrPeriod (a :: times) → clockValues pmt.pcr.toNat pks = (a :: times).map (· % pcrPeriod) →
      ∀ (us : UInt16 → List PesUnit), (∀ i ∈ pmt.items, CarriesPes i.pid.toNat (pks.filter fun pk => pidOf pk = i.pid.toNat) (us i.pid)) →
      ∀ (garbage : List UInt8) (src : Source), 0x47 ∉ garbage → src.data = garbage ++ pks.flatten → Steady src →
      ∀ buf : List UInt8, 188 ≤ buf.length → ∀ fuel, src.data.length < fuel →
        (∀ ds, readBackShifted p pmt.descriptors = .ok ds → ∃ time, time + restarts pcrPeriod a ((a :: times).getLast (by simp)) = (a :: times).getLast (by simp) - a ∧
          tune p pmt.pnr fuel src buf =
            .ok (some (time, pmt.items.map fun i => (i.streamType, (us i.pid).map fun u => (u.pts, u.dts, u.data))))) ∧
        (readBackShifted p pmt.descriptors = panic → tune p pmt.pnr fuel src buf = panic) := by
  have hpid : pmtPid.toNat < 8192 := hi ⟨pmt.pnr, pmtPid⟩ (List.mem_of_find?_eq_some hfind)
  obtain ⟨ca', pa, s0, g1, g2, g3⟩ := Pat.C53_round_trip p pat 0 ca [] Psi.default (by decide) hca hv hn hi
  obtain ⟨cb', pb, k1, k2, k3, k4⟩ := Pmt.C55_received_partial p pmt hpmt pmtPid cb [] Psi.default hpid hcb
  rw [List.nil_append] at g1 k1
  refine ⟨ca', pa, cb', pb, g1, k1, fun pks hpk ha hb a times hrun hclock us hes garbage src hg hsrc hs buf hbuf fuel hf => ?_⟩
  have hall : ∀ pk ∈ pks, ∃ q, IsTsPacket q pk := fun pk h => ⟨_, (hpk pk h).1, (hpk pk h).2, rfl⟩
  have hcar : ∀ pid, Carries pid src.data (pks.filter fun pk => pidOf pk = pid) := by
    intro pid; rw [hsrc]; exact carries_mixed pid garbage hg pks hall
  have hread : readAll fuel src buf = .ok pks := by
    rw [C70_all fuel src hs buf hbuf hf, hsrc, Slip.packetsOf_quiet_packets hg pks hpk]
  have hmis : readBackShifted p pmt.descriptors = Pmt.misread p pmt := by
    rw [readBackShifted_good p _ hpmt.program.fits.1]; rfl
  have hpat : listen (Pat.parse p) p 0 Pat.default Psi.default fuel src buf = .ok (pat, s0) := by
    rw [C76_listen _ p 0 _ _ src hs _ (hcar 0) buf hbuf fuel hf, ha, g3]
  have hl := C76_listen (Pmt.parse p) p pmtPid.toNat Pmt.default Psi.default src hs _ (hcar pmtPid.toNat) buf hbuf fuel hf
  rw [hb] at hl
  constructor
  · intro ds hds
    obtain ⟨s', hr⟩ := k3 ds (by rw [← hmis, hds])
    obtain ⟨time, ht1, ht2⟩ := program_received p { pmt with descriptors := ds } pks (fun pk h => (hpk pk h).1) a times hrun hclock us hes
    refine ⟨time, ht1, ?_⟩
    rw [tune, hpat, ok_bind]
    simp only [hfind, hl, hr, ok_bind, hread, ht2]
    rfl
  · intro hpan
    rw [tune, hpat, ok_bind]
    simp only [hfind, hl, k4 (by rw [← hmis, hpan])]
    rfl

/-- C149: a program that the PAT does not list is not found. -/
theorem C149_unknown (p : Profile) (pat : Pat) (hv : pat.version.toNat < 32) (hn : pat.items.length ≤ 253)
    (hi : ∀ i ∈ pat.items, i.pid.toNat < 8192) (pnr : UInt16) (hno : ∀ i ∈ pat.items, i.pnr ≠ pnr) (ca : UInt8) (hca : ca.toNat < 16) :
    ∃ ca' pa, pat.demux p 0 ca [] = .ok (ca', pa.flatten) ∧
      ∀ (pks : List (List UInt8)), (∀ pk ∈ pks, pk.length = 188 ∧ pk.head? = some 0x47) → (pks.filter fun pk => pidOf pk = 0) = pa →
      ∀ (garbage : List UInt8) (src : Source), 0x47 ∉ garbage → src.data = garbage ++ pks.flatten → Steady src →
      ∀ buf : List UInt8, 188 ≤ buf.length → ∀ fuel, src.data.length < fuel → tune p pnr fuel src buf = .ok none := by
  obtain ⟨ca', pa, s0, g1, g2, g3⟩ := Pat.C53_round_trip p pat 0 ca [] Psi.default (by decide) hca hv hn hi
  rw [List.nil_append] at g1
  refine ⟨ca', pa, g1, fun pks hpk ha garbage src hg hsrc hs buf hbuf fuel hf => ?_⟩
  have hall : ∀ pk ∈ pks, ∃ q, IsTsPacket q pk := fun pk h => ⟨_, (hpk pk h).1, (hpk pk h).2, rfl⟩
  have hcar : Carries 0 src.data (pks.filter fun pk => pidOf pk = 0) := by rw [hsrc]; exact carries_mixed 0 garbage hg pks hall
  have hfind : pat.items.find? (·.pnr == pnr) = none := by
    rw [List.find?_eq_none]
    intro i h
    simpa using hno i h
  rw [tune, C76_listen _ p 0 _ _ src hs _ hcar buf hbuf fuel hf, ha, g3, ok_bind]
  simp only [hfind]
  rfl

/-! ## Any sender -/

theorem find?_same {α : Type} (f g : α → Bool) (l : List α) (h : ∀ x ∈ l, f x = g x) : l.find? f = l.find? g := by
  induction l with
  | nil => rfl
  | cons x l ih => rw [List.find?_cons, List.find?_cons, h x (by simp), ih fun y hy => h y (List.mem_cons_of_mem _ hy)]

theorem pat_collected (pats : List Foreign.Pat) (t : Pat) : (pats.foldl Pat.take t).items =
    t.items ++ (pats.flatMap (·.programs)).map fun x => ⟨UInt16.ofNat x.pnr, UInt16.ofNat x.pid⟩ := by
  induction pats generalizing t with
  | nil => simp
  | cons s r ih => rw [List.foldl_cons, ih, Pat.take]; simp

theorem pmt_collected (p : Profile) (f : Foreign.Pmt → List UInt8) (ss : List Foreign.Pmt) (t m : Pmt) (h : ss.foldlM (Pmt.take p f) t = .ok m) :
    m.pcr = ((ss.getLast?.map fun s => UInt16.ofNat s.pcr).getD t.pcr) ∧
    m.items.map (fun i => (i.streamType, i.pid)) = t.items.map (fun i => (i.streamType, i.pid)) ++
      (ss.flatMap (·.streams)).map fun x => (UInt8.ofNat x.type, UInt16.ofNat x.pid) := by
  induction ss generalizing t with
  | nil => cases h; simp
  | cons s r ih =>
    rw [List.foldlM_cons] at h
    cases hd : readLoop p (f s) with
    | error e => rw [Pmt.take, hd] at h; cases h
    | ok ds =>
      cases hi : s.streams.mapM (Pmt.readStream p) with
      | error e => rw [Pmt.take, hd, ok_bind, hi] at h; cases h
      | ok is =>
        rw [Pmt.take, hd, ok_bind, hi, ok_bind, ok_bind] at h
        obtain ⟨h1, h2⟩ := ih _ h
        have hm : is.map (fun i => (i.streamType, i.pid)) = s.streams.map fun x => (UInt8.ofNat x.type, UInt16.ofNat x.pid) := by
          clear h h1 h2 hd ih
          generalize s.streams = l at hi
          induction l generalizing is with
          | nil => cases hi; rfl
          | cons x l ih =>
            rw [List.mapM_cons, Pmt.readStream] at hi
            cases hx : readLoop p x.descs with
            | error e => rw [hx] at hi; cases hi
            | ok dx =>
              rw [hx, map_ok, ok_bind] at hi
              cases hl : l.mapM (Pmt.readStream p) with
              | error e => rw [hl] at hi; cases hi
              | ok il =>
                rw [hl, ok_bind] at hi
                cases hi
                simp [ih il hl]
        constructor
        · rw [h1]
          cases r <;> simp [List.getLast?_cons]
        · rw [h2]
          simp [hm]

/-- C149 for any sender: PAT and PMT in any number of sections with any values in the free bits, laid out in packets in any way in which at most
one section begins in a packet (C121).  The program is the first one of this number, its clock is on the PID that the last PMT section gives. -/
theorem C149_foreign_partial (p : Profile) (pats : List Foreign.Pat) (hpat : ∀ s ∈ pats, s.Ok) (pnr : UInt16) (x : Foreign.Program)
    (hx : (pats.flatMap (·.programs)).find? (fun x => x.pnr = pnr.toNat) = some x) (pmts : List Foreign.Pmt) (last : Foreign.Pmt)
    (hpmt : ∀ s ∈ pmts ++ [last], s.Ok) (pks : List (List UInt8)) (hpk : ∀ pk ∈ pks, pk.length = 188 ∧ pk.head? = some 0x47)
    (ca cb : Nat) (ha : Packing [] [] ca (pks.filter fun pk => pidOf pk = 0) (pats.map fun s => complete s.body))
    (hb : Packing [] [] cb (pks.filter fun pk => pidOf pk = x.pid) ((pmts ++ [last]).map fun s => complete s.body))
    (a : Nat) (times : List Nat) (hrun : Running pcrPeriod (a :: times)) (hclock : clockValues last.pcr pks = (a :: times).map (· % pcrPeriod))
    (us : Nat → List PesUnit)
    (hes : ∀ s ∈ (pmts ++ [last]).flatMap (·.streams), CarriesPes s.pid (pks.filter fun pk => pidOf pk = s.pid) (us s.pid))
    (garbage : List UInt8) (src : Source) (hg : 0x47 ∉ garbage) (hsrc : src.data = garbage ++ pks.flatten) (hs : Steady src)
    (buf : List UInt8) (hbuf : 188 ≤ buf.length) (fuel : Nat) (hf : src.data.length < fuel) :
    (∀ m, (pmts ++ [last]).foldlM (Pmt.take p fun s => Pmt.shifted s.descs) Pmt.default = .ok m →
      ∃ time, time + restarts pcrPeriod a ((a :: times).getLast (by simp)) = (a :: times).getLast (by simp) - a ∧
        tunePacked p pnr fuel src buf = .ok (some (time, ((pmts ++ [last]).flatMap (·.streams)).map fun s =>
          (UInt8.ofNat s.type, (us s.pid).map fun u => (u.pts, u.dts, u.data))))) ∧
    (∀ e, (pmts ++ [last]).foldlM (Pmt.take p fun s => Pmt.shifted s.descs) Pmt.default = .error e → tunePacked p pnr fuel src buf = .error e) := by
  have hall : ∀ pk ∈ pks, ∃ q, IsTsPacket q pk := fun pk h => ⟨_, (hpk pk h).1, (hpk pk h).2, rfl⟩
  have hcar : ∀ pid, Carries pid src.data (pks.filter fun pk => pidOf pk = pid) := by
    intro pid; rw [hsrc]; exact carries_mixed pid garbage hg pks hall
  have hread : readAll fuel src buf = .ok pks := by
    rw [C70_all fuel src hs buf hbuf hf, hsrc, Slip.packetsOf_quiet_packets hg pks hpk]
  obtain ⟨s1, e1⟩ := C122_pat p Pat.default pats hpat 0 src hs ⟨ca, _, hcar 0, ha⟩ Psi.default buf hbuf fuel hf
  obtain ⟨s2, e2⟩ := C122_pmt_partial p Pmt.default (pmts ++ [last]) hpmt x.pid src hs ⟨cb, _, hcar x.pid, hb⟩ Psi.default buf hbuf fuel hf
  have hmem := List.mem_of_find?_eq_some hx
  have hprog : ∀ y ∈ pats.flatMap (·.programs), y.Ok := by
    intro y hy
    obtain ⟨s, hs, hy⟩ := List.mem_flatMap.1 hy
    exact (hpat s hs).programs y hy
  have hpid : (UInt16.ofNat x.pid).toNat = x.pid := by
    have := (hprog x hmem).pid
    rw [UInt16.toNat_ofNat']; omega
  have hfind : (pats.foldl Pat.take Pat.default).items.find? (·.pnr == pnr) = some ⟨UInt16.ofNat x.pnr, UInt16.ofNat x.pid⟩ := by
    rw [pat_collected]
    show ([] ++ _ : List PatItem).find? _ = _
    rw [List.nil_append, List.find?_map]
    have : (pats.flatMap (·.programs)).find? ((fun i : PatItem => i.pnr == pnr) ∘ fun x => ⟨UInt16.ofNat x.pnr, UInt16.ofNat x.pid⟩) = some x := by
      rw [← hx]
      apply find?_same
      intro y hy
      have := (hprog y hy).pnr
      have e : UInt16.ofNat y.pnr = pnr ↔ y.pnr = pnr.toNat := by
        rw [← UInt16.toNat_inj, UInt16.toNat_ofNat', Nat.mod_eq_of_lt (by omega)]
      simp only [Function.comp, beq_eq_decide, e]
    rw [this]; rfl
  constructor
  · intro m hm
    obtain ⟨c1, c2⟩ := pmt_collected p _ _ _ _ hm
    rw [List.getLast?_concat] at c1
    have hst : ∀ s ∈ (pmts ++ [last]).flatMap (·.streams), s.pid < 8192 := by
      intro y hy
      obtain ⟨s, hs, hy⟩ := List.mem_flatMap.1 hy
      exact ((hpmt s hs).streams y hy).pid
    have c3 : m.pcr.toNat = last.pcr := by
      have := (hpmt last (by simp)).pcr
      rw [c1]
      simp only [Option.map_some, Option.getD_some, UInt16.toNat_ofNat']
      omega
    have hitem : ∀ i ∈ m.items, ∃ s ∈ (pmts ++ [last]).flatMap (·.streams), i.pid.toNat = s.pid := by
      intro i hi
      have : (i.streamType, i.pid) ∈ m.items.map fun i => (i.streamType, i.pid) := List.mem_map_of_mem hi
      rw [c2] at this
      obtain ⟨s, hs, he⟩ := List.mem_map.1 (List.mem_append.1 this |>.resolve_left (by simp [Pmt.default]))
      refine ⟨s, hs, ?_⟩
      have := hst s hs
      rw [← (Prod.mk.inj he).2, UInt16.toNat_ofNat']
      omega
    obtain ⟨time, ht1, ht2⟩ := program_received p m pks (fun pk h => (hpk pk h).1) a times hrun (by rw [c3, hclock]) (fun q => us q.toNat) (by
      intro i hi
      obtain ⟨s, hs, he⟩ := hitem i hi
      rw [he]
      exact hes s hs)
    refine ⟨time, ht1, ?_⟩
    rw [tunePacked, e1, ok_bind]
    simp only [hfind, hpid, e2, hm, map_ok, ok_bind, hread, ht2]
    have e : m.items.map (fun i => (i.streamType, (us i.pid.toNat).map fun u => (u.pts, u.dts, u.data))) =
        (m.items.map fun i => (i.streamType, i.pid)).map (fun x => (x.1, (us x.2.toNat).map fun u => (u.pts, u.dts, u.data))) := by
      rw [List.map_map]; rfl
    rw [e, c2]
    show Except.ok (some (time, List.map _ ([] ++ _))) = _
    rw [List.nil_append, List.map_map]
    congr 3
    apply List.map_congr_left
    intro s hs
    have := hst s hs
    simp only [Function.comp, UInt16.toNat_ofNat', show s.pid % 2 ^ 16 = s.pid by omega]
  · intro e he
    rw [tunePacked, e1, ok_bind]
    simp only [hfind, hpid, e2, he]
    rfl

/-- C149 for any sender: a program that no PAT section names is not found, whatever else is in the stream. -/
theorem C149_foreign_unknown (p : Profile) (pats : List Foreign.Pat) (hpat : ∀ s ∈ pats, s.Ok) (pnr : UInt16)
    (hno : ∀ s ∈ pats, ∀ x ∈ s.programs, x.pnr ≠ pnr.toNat) (pks : List (List UInt8)) (hpk : ∀ pk ∈ pks, pk.length = 188 ∧ pk.head? = some 0x47)
    (ca : Nat) (ha : Packing [] [] ca (pks.filter fun pk => pidOf pk = 0) (pats.map fun s => complete s.body))
    (garbage : List UInt8) (src : Source) (hg : 0x47 ∉ garbage) (hsrc : src.data = garbage ++ pks.flatten) (hs : Steady src)
    (buf : List UInt8) (hbuf : 188 ≤ buf.length) (fuel : Nat) (hf : src.data.length < fuel) :
    tunePacked p pnr fuel src buf = .ok none := by
  have hall : ∀ pk ∈ pks, ∃ q, IsTsPacket q pk := fun pk h => ⟨_, (hpk pk h).1, (hpk pk h).2, rfl⟩
  have hcar : Carries 0 src.data (pks.filter fun pk => pidOf pk = 0) := by rw [hsrc]; exact carries_mixed 0 garbage hg pks hall
  obtain ⟨s1, e1⟩ := C122_pat p Pat.default pats hpat 0 src hs ⟨ca, _, hcar, ha⟩ Psi.default buf hbuf fuel hf
  have hfind : (pats.foldl Pat.take Pat.default).items.find? (·.pnr == pnr) = none := by
    rw [pat_collected, List.find?_eq_none]
    show ∀ x ∈ ([] ++ _ : List PatItem), _
    rw [List.nil_append]
    intro i hi
    obtain ⟨x, hx, rfl⟩ := List.mem_map.1 hi
    obtain ⟨s, hs, hx⟩ := List.mem_flatMap.1 hx
    have h1 := ((hpat s hs).programs x hx).pnr
    have h2 := hno s hs x hx
    simp only [beq_iff_eq, ← UInt16.toNat_inj, UInt16.toNat_ofNat']
    omega
  rw [tunePacked, e1, ok_bind]
  simp only [hfind]
  rfl

/-! ## The hypotheses are met -/

/-- A PAT, the PMT of program 2, and a PES packet of 183 bytes for the first of its two streams. -/
def tunePat : Pat := ⟨3, 7, [⟨1, 256⟩, ⟨2, 512⟩]⟩
def tunePmt : Pmt := ⟨1, 2, 257, [], [⟨0x1B, 257, []⟩, ⟨3, 258, []⟩]⟩
def tuneVideo : PesUnit := ⟨0xE0, (0, 0), 0x80, some 225220, some 221616, 0, [], List.replicate 164 7⟩
def tuneAudio : PesUnit := ⟨0xC0, (0, 8), 0x80, some 225000, none, 0, [], [4, 5]⟩

/-- The packets of both: the first one of the video carries a PCR, another one without payload comes later, just before the clock starts again. -/
def tuneVideoCells : List Cell :=
  [⟨⟨0x47, false, true, false, 257, 0, true, true, 1⟩, [0x10, 0xFF, 0xFF, 0xFF, 0xFF, 0xFF, 0x2B], tuneVideo.bytes.take 176⟩,
   ⟨⟨0x47, false, false, false, 257, 0, true, true, 2⟩, List.replicate 176 0, tuneVideo.bytes.drop 176⟩,
   ⟨⟨0x47, false, false, false, 257, 0, true, false, 2⟩, [0x10, 0, 0, 0, 0, 0x7E, 5] ++ List.replicate 176 0xFF, []⟩]
def tuneAudioCells : List Cell := [⟨⟨0x47, false, true, false, 258, 0, true, true, 9⟩, List.replicate 167 0, tuneAudio.bytes⟩]

/-- The stream: the audio first, then the packets of the video, with the PMT and the PAT in between, and a null packet. -/
def tunePackets (pat pmt : List UInt8) : List (List UInt8) :=
  tuneAudioCells.map Cell.bytes ++ (tuneVideoCells.take 1).map Cell.bytes ++ [pmt, [0x47, 0x1F, 0xFF, 0x10] ++ List.replicate 184 0xFF] ++
    (tuneVideoCells.drop 1).map Cell.bytes ++ [pat]

example : CarriesPes 257 (tuneVideoCells.map Cell.bytes) [tuneVideo] := by
  refine ⟨tuneVideoCells, [], [tuneVideoCells.take 2], rfl, ?_, by rfl, by simp, ?_, ?_, by decide +kernel⟩
  · simp only [tuneVideoCells, List.forall_mem_cons]
    refine ⟨?_, ?_, ?_, by simp⟩ <;> refine ⟨by decide, rfl, by decide +kernel, by simp, by simp⟩
  · intro g hg
    rw [List.mem_singleton.1 hg]
    exact ⟨_, _, rfl, rfl, by simp⟩
  · intro u hu
    rw [List.mem_singleton.1 hu]
    refine ⟨by decide, by decide, ?_, ?_, by decide, by decide⟩ <;> (intro t h; cases h; decide)

example : CarriesPes 258 (tuneAudioCells.map Cell.bytes) [tuneAudio] := by
  refine ⟨tuneAudioCells, [], [tuneAudioCells], rfl, ?_, by rfl, by simp, ?_, ?_, by decide +kernel⟩
  · simp only [tuneAudioCells, List.forall_mem_cons]
    refine ⟨?_, by simp⟩
    refine ⟨by decide, rfl, by decide +kernel, by simp, by simp⟩
  · intro g hg
    rw [List.mem_singleton.1 hg]
    exact ⟨_, _, rfl, rfl, by simp⟩
  · intro u hu
    rw [List.mem_singleton.1 hu]
    refine ⟨by decide, by decide, ?_, ?_, by decide, by decide⟩ <;> (intro t h; cases h)
    decide

example : tunePmt.InRange ∧ tunePat.items.find? (·.pnr == 2) = some ⟨2, 512⟩ := by
  refine ⟨⟨by decide, by decide, ⟨by decide +kernel, by decide +kernel⟩, ?_⟩, rfl⟩
  decide +kernel

local instance tuneStreams : DecidableEq (List (UInt8 × List (Option Nat × Option Nat × List UInt8))) :=
  have : DecidableEq (List (Option Nat × Option Nat × List UInt8)) := inferInstance
  inferInstance

example : ∃ pat pmt, tunePat.demux .debug 0 4 [] = .ok (5, pat) ∧ tunePmt.demux .debug 512 15 [] = .ok (0, pmt) ∧
    (∀ pk ∈ tunePackets pat pmt, pk.length = 188 ∧ pk.head? = some 0x47) ∧ (tunePackets pat pmt).filter (fun pk => pidOf pk = 0) = [pat] ∧
    (tunePackets pat pmt).filter (fun pk => pidOf pk = 512) = [pmt] ∧
    (tunePackets pat pmt).filter (fun pk => pidOf pk = 257) = tuneVideoCells.map Cell.bytes ∧
    (tunePackets pat pmt).filter (fun pk => pidOf pk = 258) = tuneAudioCells.map Cell.bytes ∧
    clockValues 257 (tunePackets pat pmt) = [pcrPeriod - 1, pcrPeriod + 5].map (· % pcrPeriod) ∧
    (tune .debug 2 1600 ⟨[1, 2] ++ (tunePackets pat pmt).flatten, [.chunk 100, .chunk 300]⟩ (List.replicate 188 0)).map (·.map (·.1)) = .ok (some 5) ∧
    (tune .debug 2 1600 ⟨[1, 2] ++ (tunePackets pat pmt).flatten, [.chunk 100, .chunk 300]⟩ (List.replicate 188 0)).map (·.map (·.2)) =
      .ok (some [(0x1B, [(some 225220, some 221616, List.replicate 164 7)]), (3, [(some 225000, none, [4, 5])])]) := by
  let pat : List UInt8 := match tunePat.demux .debug 0 4 [] with | .ok x => x.2 | .error _ => []
  let pmt : List UInt8 := match tunePmt.demux .debug 512 15 [] with | .ok x => x.2 | .error _ => []
  exact ⟨pat, pmt, by decide +kernel, by decide +kernel, by decide +kernel, by decide +kernel, by decide +kernel, by decide +kernel, by decide +kernel, by decide +kernel, by decide +kernel, by decide +kernel⟩

/-- With a program descriptor of 77 bytes with the tag 5 the user's program can panic: the length is taken for the tag of a short event
descriptor of five bytes. -/
example : readBackShifted .release [.raw ⟨5, [1, 2, 200] ++ List.replicate 72 0⟩] = panic := by decide +kernel

/-- Another sender: the PAT of `packing_two`, and a PMT section with a stream identifier for the video and other reserved bits. -/
def tuneForeign : Foreign.Pmt :=
  { head := { tableId := 2, flags := 11, ext := 2, reserved := 3, version := 4, current := 1, number := 0, last := 0 }, reserved := 5, pcr := 257,
    reserved2 := 9, descs := [], streams := [⟨0x1B, 4, 257, 3, [0x52, 1, 9]⟩, ⟨3, 7, 258, 15, []⟩] }

def tuneForeignPacket : List UInt8 := [0x47, 0x40, 200, 0x1A, 0] ++ complete tuneForeign.body ++ List.replicate 154 0xFF

example : tuneForeign.Ok ∧ Packing [] [] 3 [tuneForeignPacket] ([tuneForeign].map fun s => complete s.body) ∧
    (∃ m, [tuneForeign].foldlM (Pmt.take .debug fun s => Pmt.shifted s.descs) Pmt.default = .ok m ∧ m.items.length = 2) := by
  refine ⟨⟨by constructor <;> decide, rfl, by decide, by decide, by decide, ?_, by decide⟩, ?_, ?_⟩
  · simp only [tuneForeign, List.forall_mem_cons]
    refine ⟨?_, ?_, by simp⟩ <;> constructor <;> decide
  · have := Packing.start (got := []) (piece := complete tuneForeign.body) (rest := []) (cc := 3) tuneForeignPacket 154
      ⟨by decide +kernel, by decide +kernel, by decide +kernel, by decide +kernel⟩ (by decide +kernel) (by decide +kernel) (by decide +kernel) (.inr rfl)
      (.done _ _)
    rwa [List.append_nil] at this
  · exact ⟨⟨4, 2, 257, [], [⟨0x1B, 257, [.d52 ⟨9⟩]⟩, ⟨3, 258, []⟩]⟩, by decide +kernel, rfl⟩

example :
    let one := [0, 176, 13, 0, 1, 201, 0, 1, 0, 1, 224, 100, 191, 117, 51, 129]
    let two := [0, 176, 13, 0, 1, 201, 1, 1, 0, 2, 224, 200, 98, 23, 6, 26]
    let p1 : List UInt8 := [0x47, 0x40, 0x00, 0x35, 177, 0x00] ++ List.replicate 176 0xFF ++ [0x00] ++ one.take 5
    let p2 : List UInt8 := [0x47, 0x00, 0x00, 0x25, 183, 0x00] ++ List.replicate 182 0xFF
    let p3 : List UInt8 := [0x47, 0x40, 0x00, 0x16, 0x0B] ++ one.drop 5 ++ two ++ List.replicate 156 0xFF
    let pks := p1 :: p2 :: tunePackets p3 tuneForeignPacket
    (∀ pk ∈ pks, pk.length = 188 ∧ pk.head? = some 0x47) ∧ pks.filter (fun pk => pidOf pk = 0) = [p1, p2, p3] ∧
    pks.filter (fun pk => pidOf pk = 200) = [tuneForeignPacket] ∧
    (tunePacked .debug 2 2000 ⟨[1, 2] ++ pks.flatten, [.chunk 100, .chunk 300]⟩ (List.replicate 188 0)).map (·.map (·.1)) = .ok (some 5) ∧
    (tunePacked .debug 2 2000 ⟨[1, 2] ++ pks.flatten, [.chunk 100, .chunk 300]⟩ (List.replicate 188 0)).map (·.map (·.2)) =
      .ok (some [(0x1B, [(some 225220, some 221616, List.replicate 164 7)]), (3, [(some 225000, none, [4, 5])])]) := by
  refine ⟨by decide +kernel, by decide +kernel, by decide +kernel, by decide +kernel, by decide +kernel⟩

end Mpegts
