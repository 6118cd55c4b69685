import Verif.Spec.Multiplex
import Verif.Props.C108

/-! # C109: a stream of tables on several PIDs -/

namespace Mpegts
open Spec Spec.Table

theorem multiplex_sent (p : Profile) (l : List (UInt16 × AnyTable)) (h : ∀ x ∈ l, TableOk x.2 ∧ x.1.toNat < 8192) (cc : UInt16 → UInt8)
    (hc : ∀ q, (cc q).toNat < 16) (dst : List UInt8) :
    ∃ pks : List (List UInt8), multiplex p l cc dst = .ok (dst ++ pks.flatten) ∧ (∀ pk ∈ pks, ∃ q, IsTsPacket q pk) ∧
      ∀ pid : UInt16, pid.toNat < 8192 → ∃ W, List.Forall₂ (Shared p) (onPid pid l) W ∧
        (pks.filter fun pk => pidOf pk = pid.toNat) = stream pid.toNat (cc pid).toNat W.flatten := by
  induction l generalizing cc dst with
  | nil => exact ⟨[], by simp [multiplex], by simp, fun pid _ => ⟨[], .nil, rfl⟩⟩
  | cons x l ih =>
    obtain ⟨q, x⟩ := x
    obtain ⟨hx, hq⟩ := h (q, x) List.mem_cons_self
    obtain ⟨secs, hS⟩ := shared p x hx
    have hcc : (UInt8.ofNat (((cc q).toNat + streamCount secs) % 16)).toNat = ((cc q).toNat + streamCount secs) % 16 := by rw [UInt8.toNat_ofNat']; omega
    have hpk := stream_packets q.toNat (cc q).toNat hq secs
    obtain ⟨pks, h1, h2, h3⟩ := ih (fun y hy => h y (List.mem_cons_of_mem _ hy))
      (fun r => if r = q then UInt8.ofNat (((cc q).toNat + streamCount secs) % 16) else cc r) (by
        intro r
        by_cases hr : r = q
        · simp only [if_pos hr]; rw [hcc]; omega
        · simp only [if_neg hr]; exact hc r) (dst ++ (stream q.toNat (cc q).toNat secs).flatten)
    refine ⟨stream q.toNat (cc q).toNat secs ++ pks, ?_, ?_, ?_⟩
    · rw [multiplex, hS.sent.send q (cc q) dst hq (hc q), ok_bind]
      simp only []
      rw [h1, List.flatten_append, List.append_assoc]
    · intro pk hm
      rcases List.mem_append.1 hm with hm | hm
      · exact ⟨_, hpk pk hm⟩
      · exact h2 pk hm
    · intro pid hp
      obtain ⟨W, hW, hf⟩ := h3 pid hp
      rw [List.filter_append, filter_pid pid.toNat _ _ hpk, hf]
      by_cases he : q = pid
      · subst he
        refine ⟨secs :: W, ?_, ?_⟩
        · rw [onPid, List.filter_cons_of_pos (by simp), List.map_cons]
          exact .cons hS hW
        · rw [if_pos rfl, List.flatten_cons, stream_append, if_pos rfl, hcc, stream_cc]
      · refine ⟨W, ?_, ?_⟩
        · rw [onPid, List.filter_cons_of_neg (by simpa using he)]
          exact hW
        · rw [if_neg (fun e => he (UInt16.toNat_inj.1 e)), if_neg (fun e => he e.symm), List.nil_append]

/-- C109: tables of any kinds, each sent on the PID given with it, with one continuity counter per PID.  Whoever listens to a PID, with an
object of any kind, collects exactly the tables of that kind sent on that PID - however the packets of the PIDs are interleaved on their way,
and whatever lies between them. -/
theorem C109_multiplex (p : Profile) (l : List (UInt16 × AnyTable)) (h : ∀ x ∈ l, TableOk x.2 ∧ x.1.toNat < 8192) (cc : UInt16 → UInt8)
    (hc : ∀ q, (cc q).toNat < 16) (dst : List UInt8) :
    ∃ pks : List (List UInt8), multiplex p l cc dst = .ok (dst ++ pks.flatten) ∧
      (∀ (pid : UInt16) (garbage : List UInt8), 0x47 ∉ garbage → CarriesPid pid (garbage ++ pks.flatten) pks) ∧
      ∀ (pid : UInt16) (src : Source), pid.toNat < 8192 → CarriesPid pid src.data pks → Steady src →
        ∀ buf : List UInt8, 188 ≤ buf.length → ∀ fuel, src.data.length < fuel → ∀ s : Psi,
          (∀ u, ∃ s', listen (Pat.parse p) p pid.toNat u s fuel src buf = .ok ((onPid pid l).foldl collectPat u, s')) ∧
          (∀ u, ∃ s', listen (Pmt.parse p) p pid.toNat u s fuel src buf = (do .ok (← (onPid pid l).foldlM (collectPmt p) u, s'))) ∧
          (∀ u, ∃ s', listen (Nit.parse p) p pid.toNat u s fuel src buf = .ok ((onPid pid l).foldl collectNit u, s')) ∧
          (∀ u, ∃ s', listen (Sdt.parse p) p pid.toNat u s fuel src buf = .ok ((onPid pid l).foldl collectSdt u, s')) ∧
          (∀ u, ∃ s', listen (Eit.parse p) p pid.toNat u s fuel src buf = .ok ((onPid pid l).foldl collectEit u, s')) ∧
          (∀ u, ∃ s', listen (Tdt.parse p) p pid.toNat u s fuel src buf = .ok ((onPid pid l).foldl collectTdt u, s')) ∧
          ∀ u, ∃ s', listen (Tot.parse p) p pid.toNat u s fuel src buf = .ok ((onPid pid l).foldl collectTot u, s') := by
  obtain ⟨pks, h1, h2, h3⟩ := multiplex_sent p l h cc hc dst
  refine ⟨pks, h1, fun pid garbage hg => carries_mixed pid.toNat garbage hg pks h2, ?_⟩
  intro pid src hp hcar hs buf hb fuel hf s
  obtain ⟨W, hW, hfil⟩ := h3 pid hp
  rw [CarriesPid, hfil] at hcar
  have total : ∀ {α : Type} (parse : α → Psi → R α) (after : α → AnyTable → α) (_ : List.Forall₂ (fun x secs => ∀ (u : α) (s : Psi) (cc : Nat),
      ∃ s', Spec.receive parse p u s (stream pid.toNat cc secs) = .ok (after u x, s')) (onPid pid l) W) (u : α),
      ∃ s', listen parse p pid.toNat u s fuel src buf = .ok ((onPid pid l).foldl after u, s') := by
    intro α parse after hf' u
    obtain ⟨s', h'⟩ := receiveAll parse (fun u x => .ok (after u x)) p pid.toNat (onPid pid l) W hf' u s (cc pid).toNat
    exact ⟨s', by rw [C76_listen parse p pid.toNat u s src hs _ hcar buf hb fuel hf, h', foldlM_ok, map_ok]⟩
  refine ⟨total _ _ (forall₂_imp hW fun _ _ h => h.pat _ hp), ?_, total _ _ (forall₂_imp hW fun _ _ h => h.nit _ hp),
    total _ _ (forall₂_imp hW fun _ _ h => h.sdt _ hp), total _ _ (forall₂_imp hW fun _ _ h => h.eit _ hp), total _ _ (forall₂_imp hW fun _ _ h => h.tdt _ hp),
    total _ _ (forall₂_imp hW fun _ _ h => h.tot _ hp)⟩
  intro u
  obtain ⟨s', h'⟩ := receiveAll (Pmt.parse p) (collectPmt p) p pid.toNat (onPid pid l) W (forall₂_imp hW fun _ _ h => h.pmt _ hp) u s (cc pid).toNat
  refine ⟨s', ?_⟩
  rw [C76_listen _ p pid.toNat u s src hs _ hcar buf hb fuel hf, h']
  cases (onPid pid l).foldlM (collectPmt p) u <;> rfl

theorem foldl_onPid {α : Type} (after : α → AnyTable → α) (pid : UInt16) (l : List (UInt16 × AnyTable)) (h : ∀ x ∈ l, x.1 ≠ pid → ∀ u, after u x.2 = u)
    (u : α) : (onPid pid l).foldl after u = (l.map (·.2)).foldl after u := by
  induction l generalizing u with
  | nil => rfl
  | cons x l ih =>
    have ih := ih fun y hy => h y (List.mem_cons_of_mem _ hy)
    by_cases he : x.1 = pid
    · rw [onPid, List.filter_cons_of_pos (by simpa using he), List.map_cons, List.foldl_cons, List.map_cons, List.foldl_cons]
      exact ih _
    · rw [onPid, List.filter_cons_of_neg (by simpa using he), List.map_cons, List.foldl_cons, h x List.mem_cons_self he]
      exact ih u

/-- C109: if every table is sent on the PID the crate's constants give for it, then a receiver finds the PATs on PID 0x0000, the NITs on 0x0010,
the SDTs on 0x0011, the EITs on 0x0012, the TDTs and the TOTs on 0x0014 (EN 300 468, table 1): every table of each kind. -/
theorem C109_standard_pids (p : Profile) (l : List (UInt16 × AnyTable)) (h : ∀ x ∈ l, TableOk x.2 ∧ x.2.home x.1) (cc : UInt16 → UInt8)
    (hc : ∀ q, (cc q).toNat < 16) (dst : List UInt8) :
    ∃ pks : List (List UInt8), multiplex p l cc dst = .ok (dst ++ pks.flatten) ∧
      ∀ src : Source, (∀ pid, CarriesPid pid src.data pks) → Steady src →
        ∀ buf : List UInt8, 188 ≤ buf.length → ∀ fuel, src.data.length < fuel → ∀ s : Psi,
          (∀ u, ∃ s', listen (Pat.parse p) p 0x0000 u s fuel src buf = .ok ((l.map (·.2)).foldl collectPat u, s')) ∧
          (∀ u, ∃ s', listen (Nit.parse p) p 0x0010 u s fuel src buf = .ok ((l.map (·.2)).foldl collectNit u, s')) ∧
          (∀ u, ∃ s', listen (Sdt.parse p) p 0x0011 u s fuel src buf = .ok ((l.map (·.2)).foldl collectSdt u, s')) ∧
          (∀ u, ∃ s', listen (Eit.parse p) p 0x0012 u s fuel src buf = .ok ((l.map (·.2)).foldl collectEit u, s')) ∧
          (∀ u, ∃ s', listen (Tdt.parse p) p 0x0014 u s fuel src buf = .ok ((l.map (·.2)).foldl collectTdt u, s')) ∧
          ∀ u, ∃ s', listen (Tot.parse p) p 0x0014 u s fuel src buf = .ok ((l.map (·.2)).foldl collectTot u, s') := by
  have hpid : ∀ x ∈ l, TableOk x.2 ∧ x.1.toNat < 8192 := by
    intro x hx
    obtain ⟨h1, h2⟩ := h x hx
    refine ⟨h1, ?_⟩
    obtain ⟨q, x⟩ := x
    show q.toNat < 8192
    cases x <;> simp only [AnyTable.home] at h2 <;> first | (rw [h2]; decide) | omega
  obtain ⟨pks, h1, -, h2⟩ := C109_multiplex p l hpid cc hc dst
  refine ⟨pks, h1, fun src hcar hs buf hb fuel hf s => ?_⟩
  have H := fun pid hp => h2 pid src hp (hcar pid) hs buf hb fuel hf s
  have e : ∀ {α : Type} (after : α → AnyTable → α) (pid : UInt16), (∀ (q : UInt16) (x : AnyTable), x.home q → q ≠ pid → ∀ u, after u x = u) → ∀ u,
      (onPid pid l).foldl after u = (l.map (·.2)).foldl after u :=
    fun after pid ha u => foldl_onPid after pid l (fun x hx hne u => ha x.1 x.2 (h x hx).2 hne u) u
  refine ⟨fun u => ?_, fun u => ?_, fun u => ?_, fun u => ?_, fun u => ?_, fun u => ?_⟩
  · rw [← e collectPat 0x0000 (by intro q x hx hne u; cases x <;> first | rfl | exact absurd hx hne)]
    exact (H 0x0000 (by decide)).1 u
  · rw [← e collectNit 0x0010 (by intro q x hx hne u; cases x <;> first | rfl | exact absurd hx hne)]
    exact (H 0x0010 (by decide)).2.2.1 u
  · rw [← e collectSdt 0x0011 (by intro q x hx hne u; cases x <;> first | rfl | exact absurd hx hne)]
    exact (H 0x0011 (by decide)).2.2.2.1 u
  · rw [← e collectEit 0x0012 (by intro q x hx hne u; cases x <;> first | rfl | exact absurd hx hne)]
    exact (H 0x0012 (by decide)).2.2.2.2.1 u
  · rw [← e collectTdt 0x0014 (by intro q x hx hne u; cases x <;> first | rfl | exact absurd hx hne)]
    exact (H 0x0014 (by decide)).2.2.2.2.2.1 u
  · rw [← e collectTot 0x0014 (by intro q x hx hne u; cases x <;> first | rfl | exact absurd hx hne)]
    exact (H 0x0014 (by decide)).2.2.2.2.2.2 u

/-! ## A concrete case -/

/-- A stream with every kind of table on its PID. -/
example : ∀ x ∈ [(PAT_PID, AnyTable.pat samplePat), (SDT_PID, .sdt sampleSdt), (NIT_PID, .nit sampleNit), (EIT_PID, .eit sampleEit),
    (0x100, .pmt samplePmt2), (EIT_PID, .eit sampleSchedule), (TDT_PID, .tdt ⟨1700000000⟩)], TableOk x.2 ∧ x.2.home x.1 := by
  intro x hx
  simp only [List.mem_cons, List.not_mem_nil, or_false] at hx
  rcases hx with rfl | rfl | rfl | rfl | rfl | rfl | rfl
  · exact ⟨⟨by decide, by decide, by decide⟩, rfl⟩
  · exact ⟨sampleSdt_inRange, rfl⟩
  · exact ⟨sampleNit_inRange, rfl⟩
  · exact ⟨⟨sampleEit_inRange, .inl rfl⟩, rfl⟩
  · exact ⟨samplePmt2_inRange, by decide, by decide⟩
  · exact ⟨⟨sampleSchedule_inRange, .inr (.inr sampleSchedule_ok)⟩, rfl⟩
  · exact ⟨by unfold TableOk TimeInRange unixEpochMjd; decide, rfl⟩

end Mpegts
