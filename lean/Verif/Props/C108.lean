import Verif.Spec.Discover
import Verif.Props.C107
import Verif.Props.C76

/-! # C108: finding the programs of a stream -/

namespace Mpegts
open Spec Spec.Table

/-- The PMT object that collects the PMTs `l` (program descriptors as they are misread, C55). -/
def mergePmts (p : Profile) (l : List Pmt) : R Pmt := (l.map AnyTable.pmt).foldlM (collectPmt p) Pmt.default

theorem carries_mixed (pid : Nat) (garbage : List UInt8) (hg : 0x47 ∉ garbage) (pks : List (List UInt8))
    (hp : ∀ pk ∈ pks, ∃ q, IsTsPacket q pk) : Carries pid (garbage ++ pks.flatten) (pks.filter fun pk => pidOf pk = pid) := by
  have hi : ∀ l : List (List UInt8), interleave (l.map (fun pk => ([], pk))) = l.flatten := by
    intro l
    induction l with
    | nil => rfl
    | cons a l ih => rw [List.map_cons, interleave, ih]; rfl
  cases pks with
  | nil => exact ⟨[], garbage, [], by simp [interleave], by simp, hg, .inl rfl, by decide, rfl⟩
  | cons pk pks =>
    refine ⟨(garbage, pk) :: pks.map (fun pk => ([], pk)), [], [], ?_, ?_, by simp, .inl rfl, by decide, ?_⟩
    · rw [interleave, hi]; simp
    · intro x hx
      rcases List.mem_cons.1 hx with rfl | hx
      · obtain ⟨q, h⟩ := hp pk (by simp)
        exact ⟨hg, h.1, h.2.1⟩
      · obtain ⟨q, hq, rfl⟩ := List.mem_map.1 hx
        obtain ⟨_, h⟩ := hp q (List.mem_cons_of_mem _ hq)
        exact ⟨by simp, h.1, h.2.1⟩
    · rw [List.map_cons, List.map_map]
      congr 2
      conv_rhs => rw [← List.map_id pks]
      rfl

theorem filter_pid (pid q : Nat) (pks : List (List UInt8)) (h : ∀ pk ∈ pks, IsTsPacket q pk) :
    (pks.filter fun pk => pidOf pk = pid) = if q = pid then pks else [] := by
  by_cases hq : q = pid
  · rw [if_pos hq, List.filter_eq_self]
    intro pk hpk
    rw [(h pk hpk).2.2, hq]
    simp
  · rw [if_neg hq, List.filter_eq_nil_iff]
    intro pk hpk
    rw [(h pk hpk).2.2]
    simpa using hq

/-- What is needed of each program: a PMT with fields in range, on a PID other than that of the PAT. -/
def ProgramOk (x : UInt16 × Pmt) : Prop := x.2.InRange ∧ x.1.toNat < 8192 ∧ x.1 ≠ 0

theorem programs_sent (p : Profile) (programs : List (UInt16 × Pmt)) (h : ∀ x ∈ programs, ProgramOk x) (dst : List UInt8) :
    ∃ pks : List (List UInt8), programs.foldlM (fun dst x => (do
        let (_, dst) ← x.2.demux p x.1 0 dst
        pure dst : R (List UInt8))) dst = .ok (dst ++ pks.flatten) ∧
      (∀ pk ∈ pks, ∃ q, IsTsPacket q pk) ∧ (pks.filter fun pk => pidOf pk = 0) = [] ∧
      ∀ (pid : UInt16) (u : Pmt) (s : Psi), ∃ s', receive (Pmt.parse p) p u s (pks.filter fun pk => pidOf pk = pid.toNat) = (fun v => (v, s')) <$>
        ((programs.filter (·.1 = pid)).map fun x => AnyTable.pmt x.2).foldlM (collectPmt p) u := by
  induction programs generalizing dst with
  | nil => exact ⟨[], by simp [pure_eq_ok], by simp, rfl, fun _ u s => ⟨s, rfl⟩⟩
  | cons x l ih =>
    obtain ⟨hr, hp, h0⟩ := h x List.mem_cons_self
    obtain ⟨secs, hs, ho⟩ := (Pmt.own p x.2 hr).own
    have hpk := stream_packets x.1.toNat 0 hp secs
    obtain ⟨pks, h1, h2, h3, h4⟩ := ih (fun y hy => h y (List.mem_cons_of_mem _ hy)) (dst ++ (stream x.1.toNat 0 secs).flatten)
    refine ⟨stream x.1.toNat 0 secs ++ pks, ?_, ?_, ?_, ?_⟩
    · rw [List.foldlM_cons, show x.2.demux p x.1 0 dst = _ from hs.send x.1 0 dst hp (by decide)]
      simp only [ok_bind, pure_eq_ok]
      simp only [pure_eq_ok] at h1
      rw [show stream x.1.toNat (0 : UInt8).toNat secs = stream x.1.toNat 0 secs from rfl, h1, List.flatten_append, List.append_assoc]
    · intro pk hm
      rcases List.mem_append.1 hm with hm | hm
      · exact ⟨_, hpk pk hm⟩
      · exact h2 pk hm
    · rw [List.filter_append, h3, filter_pid 0 _ _ hpk, if_neg]
      · rfl
      · intro e; exact h0 (UInt16.toNat_inj.1 e)
    · intro pid u s
      rw [List.filter_append, filter_pid pid.toNat _ _ hpk, receive_append]
      by_cases he : x.1 = pid
      · subst he
        rw [if_pos rfl, List.filter_cons_of_pos (by simp), List.map_cons, List.foldlM_cons]
        obtain ⟨s1, g1⟩ := ho x.1.toNat hp u s 0
        rw [g1]
        cases ha : collectPmt p u (.pmt x.2) with
        | error e => exact ⟨s, rfl⟩
        | ok v =>
          obtain ⟨s2, g2⟩ := h4 x.1 v s1
          exact ⟨s2, g2⟩
      · rw [if_neg (fun e => he (UInt16.toNat_inj.1 e)), List.filter_cons_of_neg (by simpa using he)]
        exact h4 pid u s

/-- C108, in general: the program numbers are those of the PAT; the PMT found for a program is made from all PMTs sent on its PID. -/
theorem C108_discover (p : Profile) (pat : Pat) (programs : List (UInt16 × Pmt)) (hv : pat.version.toNat < 32) (hl : Lists pat programs)
    (hn : programs.length ≤ 253) (h : ∀ x ∈ programs, ProgramOk x) :
    ∃ data, broadcast p pat programs = .ok data ∧
      ∀ (garbage : List UInt8) (src : Source), 0x47 ∉ garbage → src.data = garbage ++ data → Steady src →
        ∀ buf : List UInt8, 188 ≤ buf.length → ∀ fuel, src.data.length < fuel →
          discover p fuel src buf = programs.mapM fun x =>
            (fun pmt => (x.2.pnr, pmt)) <$> mergePmts p ((programs.filter (·.1 = x.1)).map (·.2)) := by
  have hlen : pat.items.length = programs.length := by rw [hl, List.length_map]
  have hpid : ∀ i ∈ pat.items, i.pid.toNat < 8192 := by
    intro i hi
    rw [hl] at hi
    obtain ⟨x, hx, rfl⟩ := List.mem_map.1 hi
    exact (h x hx).2.1
  obtain ⟨cc', pks0, s0, g1, g2, g3⟩ := Pat.C53_round_trip p pat 0 0 [] Psi.default (by decide) (by decide) hv (by omega) hpid
  obtain ⟨pks, h1, h2, h3, h4⟩ := programs_sent p programs h ([] ++ pks0.flatten)
  refine ⟨[] ++ pks0.flatten ++ pks.flatten, ?_, ?_⟩
  · rw [broadcast, g1, ok_bind]
    exact h1
  intro garbage src hg hsrc hs buf hb fuel hf
  have hall : ∀ pk ∈ pks0 ++ pks, ∃ q, IsTsPacket q pk := by
    intro pk hm
    rcases List.mem_append.1 hm with hm | hm
    · exact ⟨_, g2 pk hm⟩
    · exact h2 pk hm
  have hcar : ∀ pid, Carries pid src.data ((pks0 ++ pks).filter fun pk => pidOf pk = pid) := by
    intro pid
    have := carries_mixed pid garbage hg (pks0 ++ pks) hall
    rw [hsrc, List.nil_append, ← List.flatten_append]
    exact this
  have hz : ((0 : UInt16).toNat) = 0 := rfl
  unfold discover
  rw [C76_listen _ p 0 _ _ src hs _ (hcar 0) buf hb fuel hf, List.filter_append, h3, filter_pid 0 0 pks0 g2, if_pos rfl, List.append_nil, g3, ok_bind]
  simp only []
  rw [hl]
  have key : ∀ l : List (UInt16 × Pmt), (∀ x ∈ l, x ∈ programs) → (l.map fun x => (⟨x.2.pnr, x.1⟩ : PatItem)).mapM (fun i => (do
      let (pmt, _) ← listen (Pmt.parse p) p i.pid.toNat Pmt.default Psi.default fuel src buf
      pure (i.pnr, pmt) : R (UInt16 × Pmt))) = l.mapM fun x =>
        (fun pmt => (x.2.pnr, pmt)) <$> mergePmts p ((programs.filter (·.1 = x.1)).map (·.2)) := by
    intro l
    induction l with
    | nil => intro _; rfl
    | cons x l ih =>
      intro hm
      rw [List.map_cons, List.mapM_cons, List.mapM_cons, ih fun y hy => hm y (List.mem_cons_of_mem _ hy)]
      simp only []
      obtain ⟨s', hr⟩ := h4 x.1 Pmt.default Psi.default
      have hx0 : (0 : Nat) ≠ x.1.toNat := fun e => (h x (hm x List.mem_cons_self)).2.2 (UInt16.toNat_inj.1 e.symm)
      rw [C76_listen _ p _ _ _ src hs _ (hcar x.1.toNat) buf hb fuel hf, List.filter_append, filter_pid x.1.toNat 0 pks0 g2, if_neg hx0,
        List.nil_append, hr, mergePmts, List.map_map]
      simp only [Function.comp_def]
      cases ((programs.filter (·.1 = x.1)).map fun x => AnyTable.pmt x.2).foldlM (collectPmt p) Pmt.default <;> rfl
  exact key programs fun _ h => h

/-- C108: if every program has a PID of its own, following the PAT finds exactly the programs sent, in order, each with its own PMT (program
descriptors as they are misread, C55). -/
theorem C108_programs_partial (p : Profile) (pat : Pat) (programs : List (UInt16 × Pmt)) (hv : pat.version.toNat < 32) (hl : Lists pat programs)
    (hn : programs.length ≤ 253) (h : ∀ x ∈ programs, ProgramOk x) (hd : (programs.map (·.1)).Nodup) :
    ∃ data, broadcast p pat programs = .ok data ∧
      ∀ (garbage : List UInt8) (src : Source), 0x47 ∉ garbage → src.data = garbage ++ data → Steady src →
        ∀ buf : List UInt8, 188 ≤ buf.length → ∀ fuel, src.data.length < fuel →
          discover p fuel src buf = programs.mapM fun x =>
            (fun ds => (x.2.pnr, { x.2 with descriptors := ds })) <$> readBackShifted p x.2.descriptors := by
  obtain ⟨data, h1, h2⟩ := C108_discover p pat programs hv hl hn h
  refine ⟨data, h1, fun garbage src hg hsrc hs buf hb fuel hf => ?_⟩
  rw [h2 garbage src hg hsrc hs buf hb fuel hf]
  have hone : ∀ l : List (UInt16 × Pmt), (l.map (·.1)).Nodup → ∀ x ∈ l, l.filter (fun y => y.1 = x.1) = [x] := by
    intro l
    induction l with
    | nil => intro _ x hx; cases hx
    | cons y l ih =>
      intro hd x hx
      rw [List.map_cons, List.nodup_cons] at hd
      rcases List.mem_cons.1 hx with rfl | hx
      · rw [List.filter_cons_of_pos (by simp), List.filter_eq_nil_iff.2]
        intro z hz
        simp only [decide_eq_true_eq]
        intro e
        exact hd.1 (e ▸ List.mem_map_of_mem hz)
      · rw [List.filter_cons_of_neg, ih hd.2 x hx]
        simp only [decide_eq_true_eq]
        intro e
        exact hd.1 (e ▸ List.mem_map_of_mem hx)
  have key : ∀ l : List (UInt16 × Pmt), (∀ x ∈ l, x ∈ programs) → (l.mapM fun x =>
      (fun pmt => (x.2.pnr, pmt)) <$> mergePmts p ((programs.filter (·.1 = x.1)).map (·.2))) = l.mapM fun x =>
        (fun ds => (x.2.pnr, { x.2 with descriptors := ds })) <$> readBackShifted p x.2.descriptors := by
    intro l
    induction l with
    | nil => intro _; rfl
    | cons x l ih =>
      intro hm
      rw [List.mapM_cons, List.mapM_cons, ih fun y hy => hm y (List.mem_cons_of_mem _ hy), hone programs hd x (hm x List.mem_cons_self)]
      have : mergePmts p ([x].map (·.2)) = (fun ds => { x.2 with descriptors := ds }) <$> readBackShifted p x.2.descriptors := by
        rw [mergePmts, List.map_singleton, List.map_singleton, List.foldlM_cons, collectPmt]
        cases readBackShifted p x.2.descriptors <;> rfl
      rw [this]
      cases readBackShifted p x.2.descriptors <;> rfl
  exact key programs fun _ h => h

/-- C108 fails for programs that share a PID, as ISO 13818-1 allows: following the PAT finds for both of two such programs one and the same
PMT, with the program number of the second and the streams of both. -/
theorem C108_shared_pid_refuted (p : Profile) (pat : Pat) (pid : UInt16) (a b : Pmt) (hv : pat.version.toNat < 32) (hl : Lists pat [(pid, a), (pid, b)])
    (ha : ProgramOk (pid, a)) (hb : ProgramOk (pid, b)) (hda : a.descriptors = []) (hdb : b.descriptors = []) :
    ∃ data, broadcast p pat [(pid, a), (pid, b)] = .ok data ∧
      ∀ (garbage : List UInt8) (src : Source), 0x47 ∉ garbage → src.data = garbage ++ data → Steady src →
        ∀ buf : List UInt8, 188 ≤ buf.length → ∀ fuel, src.data.length < fuel →
          discover p fuel src buf = .ok [(a.pnr, { b with items := a.items ++ b.items }), (b.pnr, { b with items := a.items ++ b.items })] := by
  obtain ⟨data, h1, h2⟩ := C108_discover p pat [(pid, a), (pid, b)] hv hl (by simp) (by
    intro x hx
    rcases List.mem_cons.1 hx with rfl | hx
    · exact ha
    · rw [List.mem_singleton.1 hx]; exact hb)
  refine ⟨data, h1, fun garbage src hg hsrc hs buf hb fuel hf => ?_⟩
  rw [h2 garbage src hg hsrc hs buf hb fuel hf]
  have hz : readBackShifted p [] = .ok [] := by
    rw [readBackShifted_good p [] (by simp [Good])]
    exact Pmt.shifted_nil p
  have hm : mergePmts p ((([(pid, a), (pid, b)] : List (UInt16 × Pmt)).filter (·.1 = pid)).map (·.2)) = .ok { b with items := a.items ++ b.items } := by
    rw [List.filter_cons_of_pos (by simp), List.filter_cons_of_pos (by simp), mergePmts]
    simp only [List.filter_nil, List.map_cons, List.map_nil, List.foldlM_cons, List.foldlM_nil, collectPmt, hda, hdb, hz, map_ok, ok_bind, pure_eq_ok]
    simp [Pmt.default]
  simp only [List.mapM_cons, List.mapM_nil]
  rw [hm]
  rfl

/-! ## Concrete cases -/

/-- Two programs. -/
def samplePrograms : List (UInt16 × Pmt) := [(0x100, samplePmt), (0x101, samplePmt2)]
def sampleProgramPat : Pat := { version := 3, tsid := 1, items := samplePrograms.map fun x => ⟨x.2.pnr, x.1⟩ }

example : ∃ data, broadcast .debug sampleProgramPat samplePrograms = .ok data ∧
    discover .debug (data.length + 1) ⟨data, []⟩ (List.replicate 188 0) = .ok [(samplePmt.pnr, samplePmt), (samplePmt2.pnr, { samplePmt2 with descriptors := [] })] := by
  obtain ⟨data, h1, h2⟩ := C108_programs_partial .debug sampleProgramPat samplePrograms (by decide) rfl (by decide) (by
    intro x hx
    simp only [samplePrograms, List.mem_cons, List.not_mem_nil, or_false] at hx
    rcases hx with rfl | rfl
    · exact ⟨samplePmt_inRange, by decide, by decide⟩
    · exact ⟨samplePmt2_inRange, by decide, by decide⟩) (by decide)
  refine ⟨data, h1, ?_⟩
  rw [h2 [] ⟨data, []⟩ (by simp) (by simp) (fun e h => nomatch h) _ (by decide +kernel) _ (by simp)]
  decide +kernel

end Mpegts
