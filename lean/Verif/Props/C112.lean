import Verif.Props.C111

/-! # C112: tables that are announced for later -/

namespace Mpegts
open Spec Spec.Table

theorem foldlM_one {α β : Type} (f : α → β → R α) (t : α) (x : β) : [x].foldlM f t = f t x := by
  rw [List.foldlM_cons]; cases f t x <;> rfl

theorem map_eq_ok {α β : Type} {f : α → β} {x : R α} {y : β} (h : f <$> x = .ok y) : ∃ a, x = .ok a ∧ f a = y := by
  cases x with
  | error e => cases h
  | ok a => exact ⟨a, rfl, Except.ok.inj h⟩

theorem mapM_ok_length {α β : Type} (f : α → R β) (l : List α) (r : List β) (h : l.mapM f = .ok r) : r.length = l.length := by
  induction l generalizing r with
  | nil => cases h; rfl
  | cons a l ih =>
    rw [List.mapM_cons] at h
    obtain ⟨b, -, h⟩ := bind_eq_ok.1 h
    obtain ⟨bs, h1, h⟩ := bind_eq_ok.1 h
    cases h
    rw [List.length_cons, List.length_cons, ih bs h1]

namespace Pat

/-- C112 fails for the PAT: a section that announces programs for later is taken like one in force. -/
theorem C112_pat_refuted (p : Profile) (t : Pat) (s : Foreign.Pat) (h : s.Ok) (pid cc : Nat)
    (hp : pid < 8192) (s0 : Psi) :
    ∃ s' s'', receive (Pat.parse p) p t s0 (stream pid cc [complete s.body]) = .ok (take t s, s') ∧
      receive (Pat.parse p) p t s0 (stream pid cc [complete { s with head := s.head.announced }.body]) = .ok (take t s, s'') ∧
      (s.programs ≠ [] → take t s ≠ t) := by
  have h2 : Foreign.Pat.Ok { s with head := s.head.announced } :=
    ⟨⟨h.1.1, h.1.2, h.1.3, h.1.4, h.1.5, Nat.zero_lt_two, h.1.7, h.1.8⟩, h.2, h.3, by
      have := h.fits
      simpa only [Foreign.Pat.body, List.length_append, head_length] using this⟩
  obtain ⟨s1, r1⟩ := C111_pat p t [s] (by simpa using h) pid cc hp s0
  obtain ⟨s2, r2⟩ := C111_pat p t [_] (by simpa using h2) pid cc hp s0
  refine ⟨s1, s2, r1, r2, fun hne e => ?_⟩
  have := congrArg (fun t : Pat => t.items.length) e
  simp only [take, List.length_append, List.length_map] at this
  exact hne (List.length_eq_zero_iff.1 (by omega))

end Pat

namespace Sdt

/-- C112 fails for the SDT: a section that announces services for later is taken like one in force. -/
theorem C112_sdt_refuted (p : Profile) (t : Sdt) (s : Foreign.Sdt) (h : s.Ok) (pid cc : Nat)
    (hp : pid < 8192) (s0 : Psi) :
    ∃ s' s'', receive (Sdt.parse p) p t s0 (stream pid cc [complete s.body]) = (fun u => (u, s')) <$> take p t s ∧
      receive (Sdt.parse p) p t s0 (stream pid cc [complete { s with head := s.head.announced }.body]) =
        (fun u => (u, s'')) <$> take p t s ∧
      (s.services ≠ [] → take p t s ≠ .ok t) := by
  have h2 : Foreign.Sdt.Ok { s with head := s.head.announced } :=
    ⟨⟨h.1.1, h.1.2, h.1.3, h.1.4, h.1.5, Nat.zero_lt_two, h.1.7, h.1.8⟩, h.2, h.3, h.4, h.5, by
      have := h.fits
      simpa only [Foreign.Sdt.body, List.length_append, head_length] using this⟩
  obtain ⟨s1, r1⟩ := C111_sdt p t [s] (by simpa using h) pid cc hp s0
  obtain ⟨s2, r2⟩ := C111_sdt p t [_] (by simpa using h2) pid cc hp s0
  rw [foldlM_one] at r1 r2
  refine ⟨s1, s2, r1, r2, fun hne e => ?_⟩
  unfold take at e
  obtain ⟨items, e1, e2⟩ := map_eq_ok e
  have := congrArg (fun t : Sdt => t.items.length) e2
  have hl := mapM_ok_length _ _ _ e1
  simp only [List.length_append] at this
  exact hne (List.length_eq_zero_iff.1 (by omega))

end Sdt

namespace Nit

/-- C112 fails for the NIT: a section that announces transports for later is taken like one in force. -/
theorem C112_nit_refuted (p : Profile) (t : Nit) (s : Foreign.Nit) (h : s.Ok) (pid cc : Nat)
    (hp : pid < 8192) (s0 : Psi) :
    ∃ s' s'', receive (Nit.parse p) p t s0 (stream pid cc [complete s.body]) = (fun u => (u, s')) <$> take p t s ∧
      receive (Nit.parse p) p t s0 (stream pid cc [complete { s with head := s.head.announced }.body]) =
        (fun u => (u, s'')) <$> take p t s ∧
      (s.transports ≠ [] → take p t s ≠ .ok t) := by
  have h2 : Foreign.Nit.Ok { s with head := s.head.announced } :=
    ⟨⟨h.1.1, h.1.2, h.1.3, h.1.4, h.1.5, Nat.zero_lt_two, h.1.7, h.1.8⟩, h.2, h.3, h.4, h.5, by
      have := h.fits
      simpa only [Foreign.Nit.body, List.length_append, head_length] using this⟩
  obtain ⟨s1, r1⟩ := C111_nit p t [s] (by simpa using h) pid cc hp s0
  obtain ⟨s2, r2⟩ := C111_nit p t [_] (by simpa using h2) pid cc hp s0
  rw [foldlM_one] at r1 r2
  refine ⟨s1, s2, r1, r2, fun hne e => ?_⟩
  unfold take at e
  obtain ⟨ds, -, e⟩ := bind_eq_ok.1 e
  obtain ⟨items, e1, e⟩ := bind_eq_ok.1 e
  have e2 := Except.ok.inj e
  have := congrArg (fun t : Nit => t.items.length) e2
  have hl := mapM_ok_length _ _ _ e1
  simp only [List.length_append] at this
  exact hne (List.length_eq_zero_iff.1 (by omega))

end Nit

namespace Eit

/-- C112 fails for the EIT: a section that announces events for later is taken like one in force. -/
theorem C112_eit_refuted (p : Profile) (t : Eit) (s : Foreign.Eit) (h : s.Ok) (pid cc : Nat)
    (hp : pid < 8192) (s0 : Psi) :
    ∃ s' s'', receive (Eit.parse p) p t s0 (stream pid cc [complete s.body]) = (fun u => (u, s')) <$> take p t s ∧
      receive (Eit.parse p) p t s0 (stream pid cc [complete { s with head := s.head.announced }.body]) =
        (fun u => (u, s'')) <$> take p t s ∧
      (s.events ≠ [] → take p t s ≠ .ok t) := by
  have h2 : Foreign.Eit.Ok { s with head := s.head.announced } :=
    ⟨⟨h.1.1, h.1.2, h.1.3, h.1.4, h.1.5, Nat.zero_lt_two, h.1.7, h.1.8⟩, h.2, h.3, h.4, h.5, h.6, h.7, by
      have := h.fits
      simpa only [Foreign.Eit.body, List.length_append, head_length] using this⟩
  obtain ⟨s1, r1⟩ := C111_eit p t [s] (by simpa using h) pid cc hp s0
  obtain ⟨s2, r2⟩ := C111_eit p t [_] (by simpa using h2) pid cc hp s0
  rw [foldlM_one] at r1 r2
  refine ⟨s1, s2, r1, r2, fun hne e => ?_⟩
  unfold take at e
  obtain ⟨items, e1, e2⟩ := map_eq_ok e
  have := congrArg (fun t : Eit => t.items.length) e2
  have hl := mapM_ok_length _ _ _ e1
  simp only [List.length_append] at this
  exact hne (List.length_eq_zero_iff.1 (by omega))

end Eit

namespace Pmt

/-- C112 fails for the PMT: a section that announces streams for later is taken like one in force. -/
theorem C112_pmt_refuted (p : Profile) (t : Pmt) (s : Foreign.Pmt) (h : s.Ok) (pid cc : Nat)
    (hp : pid < 8192) (s0 : Psi) :
    ∃ s' s'', receive (Pmt.parse p) p t s0 (stream pid cc [complete s.body]) = (fun u => (u, s')) <$> take p (fun s => shifted s.descs) t s ∧
      receive (Pmt.parse p) p t s0 (stream pid cc [complete { s with head := s.head.announced }.body]) =
        (fun u => (u, s'')) <$> take p (fun s => shifted s.descs) t s ∧
      (s.streams ≠ [] → take p (fun s => shifted s.descs) t s ≠ .ok t) := by
  have h2 : Foreign.Pmt.Ok { s with head := s.head.announced } :=
    ⟨⟨h.1.1, h.1.2, h.1.3, h.1.4, h.1.5, Nat.zero_lt_two, h.1.7, h.1.8⟩, h.2, h.3, h.4, h.5, h.6, by
      have := h.fits
      simpa only [Foreign.Pmt.body, List.length_append, head_length] using this⟩
  obtain ⟨s1, r1⟩ := receive_foreign p t [s] (by simpa using h) pid cc hp s0
  obtain ⟨s2, r2⟩ := receive_foreign p t [_] (by simpa using h2) pid cc hp s0
  rw [foldlM_one] at r1 r2
  refine ⟨s1, s2, r1, r2, fun hne e => ?_⟩
  unfold take at e
  obtain ⟨ds, -, e⟩ := bind_eq_ok.1 e
  obtain ⟨items, e1, e⟩ := bind_eq_ok.1 e
  have e2 := Except.ok.inj e
  have := congrArg (fun t : Pmt => t.items.length) e2
  have hl := mapM_ok_length _ _ _ e1
  simp only [List.length_append] at this
  exact hne (List.length_eq_zero_iff.1 (by omega))

end Pmt

/-- The hypotheses are met. -/
example (p : Profile) (s0 : Psi) : ∃ s' s'',
    receive (Sdt.parse p) p Sdt.default s0 (stream 0x11 3 [complete foreignSdt.body]) = (fun u => (u, s')) <$> Sdt.take p Sdt.default foreignSdt ∧
    receive (Sdt.parse p) p Sdt.default s0 (stream 0x11 3 [complete { foreignSdt with head := foreignSdt.head.announced }.body]) =
      (fun u => (u, s'')) <$> Sdt.take p Sdt.default foreignSdt ∧ (foreignSdt.services ≠ [] → Sdt.take p Sdt.default foreignSdt ≠ .ok Sdt.default) :=
  Sdt.C112_sdt_refuted p Sdt.default foreignSdt foreignSdt_ok 0x11 3 (by decide) s0

end Mpegts
