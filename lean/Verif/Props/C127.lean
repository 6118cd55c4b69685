import Verif.Props.C122
import Verif.Props.C126
import Verif.Lemmas.Receiver

/-! # C127: any sections on a PID, from any source

The sections need not be of the table that is received, nor of any table the crate knows, nor intact. -/

namespace Mpegts
open Spec Spec.Reassembly AnyPacket

namespace AnySection

theorem listen_any {α : Type} (parse : α → Psi → R α) (p : Profile) (reading : α → List UInt8 → Option α) (P : List UInt8 → Prop)
    (hread : ∀ t (psi : Psi), psi.size = declaredSize psi.buffer → parse t psi = orPanic (reading t psi.buffer))
    (hmore : ∀ t (psi : Psi) a x, P a → psi.buffer = a ++ x → psi.size = a.length → a ≠ [] → parse t psi = parse t { psi with buffer := a })
    (hshort : ∀ t (psi : Psi), psi.buffer ≠ [] → psi.size = 0 ∨ psi.buffer.length < psi.size → parse t psi = .ok t)
    (t : α) (pid : Nat) (src : Source) (hs : Steady src) {pks secs : List (List UInt8)} {cc : Nat} (hc : Carries pid src.data pks)
    (hp : Packing [] [] cc pks secs) (hsec : ∀ s ∈ secs, Real s ∧ P s) (s0 : Psi) (buf : List UInt8) (hb : 188 ≤ buf.length) (fuel : Nat)
    (hf : src.data.length < fuel) :
    sectionsIn pks = secs ∧
    ∃ s', listenPacked parse p pid t s0 fuel src buf = (fun u => (u, s')) <$> orPanic ((sectionsIn pks).foldlM reading t) := by
  have hin : sectionsIn pks = secs := by
    have := sections_packing hp (fun s h => (hsec s h).1) (fun h => absurd rfl h) ⟨[], [], 0⟩ (fun _ => rfl) (fun h => absurd rfl h)
    simpa [sectionsIn] using this
  refine ⟨hin, ?_⟩
  rw [hin, C122_listen parse p pid t s0 src hs pks hc buf hb fuel hf]
  obtain ⟨s', h⟩ := (receive_packing parse p id (fun t s => orPanic (reading t s)) (fun s => Real s ∧ P s) (fun s h => h.1.1)
    (fun t s hs psi more hbuf hsize => by
      simp only [id] at *
      have h3 := hs.1.1.1
      have hne : s ≠ [] := by rintro rfl; simp at h3
      rw [hmore t psi s more hs.2 hbuf hsize hne]
      exact hread t _ (hsize.trans (Psi.declaredSize_section hs.1.1).symm))
    (fun t s hs psi rest hbuf hr he hsize => by
      simp only [id] at *
      refine hshort t psi hbuf ?_
      have := List.length_pos_iff.2 hr
      split at hsize
      · exact .inl hsize
      · right; rw [hsize, he, List.length_append]; omega) hp secs hsec (by simp) t s0).1 rfl
  refine ⟨s', h.trans ?_⟩
  clear h
  congr 1
  generalize secs = l
  induction l generalizing t with
  | nil => rfl
  | cons a l ih =>
    rw [List.foldlM_cons, List.foldlM_cons]
    cases reading t a with
    | none => rfl
    | some u => exact ih u

end AnySection

open AnySection

/-- C127 for the SDT. -/
theorem Sdt.C127_sdt (p : Profile) (t : Sdt) (pid : Nat) (src : Source) (hs : Steady src) (pks secs : List (List UInt8)) (cc : Nat)
    (hc : Carries pid src.data pks) (hp : Packing [] [] cc pks secs) (hsec : ∀ s ∈ secs, Real s) (s0 : Psi) (buf : List UInt8)
    (hb : 188 ≤ buf.length) (fuel : Nat) (hf : src.data.length < fuel) :
    sectionsIn pks = secs ∧ ∃ s', listenPacked (Sdt.parse p) p pid t s0 fuel src buf =
      (fun u => (u, s')) <$> orPanic ((sectionsIn pks).foldlM (Sdt.reading p) t) :=
  listen_any (Sdt.parse p) p (Sdt.reading p) (fun _ => True)
    (fun t psi h => by
      obtain ⟨b, z, pid, cc⟩ := psi
      simp only at h
      subst h
      exact outcome_eq (Sdt.C125_sdt p t ⟨b, declaredSize b, pid, cc⟩))
    (fun t psi a x _ hb hz ha => Sdt.parse_more p t psi a x hb hz ha)
    (fun t psi hne h => Sdt.C65_sdt p t psi (.inr hne) (by
      rintro ⟨-, h1, h2, -⟩
      rcases h with h | h <;> omega))
    t pid src hs hc hp (fun s h => ⟨hsec s h, trivial⟩) s0 buf hb fuel hf

/-- C127 for the PAT. -/
theorem Pat.C127_pat (p : Profile) (t : Pat) (pid : Nat) (src : Source) (hs : Steady src) (pks secs : List (List UInt8)) (cc : Nat)
    (hc : Carries pid src.data pks) (hp : Packing [] [] cc pks secs) (hsec : ∀ s ∈ secs, Real s) (s0 : Psi) (buf : List UInt8)
    (hb : 188 ≤ buf.length) (fuel : Nat) (hf : src.data.length < fuel) :
    sectionsIn pks = secs ∧ ∃ s', listenPacked (Pat.parse p) p pid t s0 fuel src buf =
      (fun u => (u, s')) <$> orPanic ((sectionsIn pks).foldlM (Pat.reading p) t) :=
  listen_any (Pat.parse p) p (Pat.reading p) (fun _ => True)
    (fun t psi h => by
      obtain ⟨b, z, pid, cc⟩ := psi
      simp only at h
      subst h
      exact outcome_eq (Pat.C125_pat p t ⟨b, declaredSize b, pid, cc⟩))
    (fun t psi a x _ hb hz ha => Pat.parse_more p t psi a x hb hz ha)
    (fun t psi hne h => Pat.C65_pat p t psi (.inr hne) (by
      rintro ⟨-, h1, h2, -⟩
      rcases h with h | h <;> omega))
    t pid src hs hc hp (fun s h => ⟨hsec s h, trivial⟩) s0 buf hb fuel hf

/-- C127 for the NIT. -/
theorem Nit.C127_nit (p : Profile) (t : Nit) (pid : Nat) (src : Source) (hs : Steady src) (pks secs : List (List UInt8)) (cc : Nat)
    (hc : Carries pid src.data pks) (hp : Packing [] [] cc pks secs) (hsec : ∀ s ∈ secs, Real s) (s0 : Psi) (buf : List UInt8)
    (hb : 188 ≤ buf.length) (fuel : Nat) (hf : src.data.length < fuel) :
    sectionsIn pks = secs ∧ ∃ s', listenPacked (Nit.parse p) p pid t s0 fuel src buf =
      (fun u => (u, s')) <$> orPanic ((sectionsIn pks).foldlM (Nit.reading p) t) :=
  listen_any (Nit.parse p) p (Nit.reading p) (fun _ => True)
    (fun t psi h => by
      obtain ⟨b, z, pid, cc⟩ := psi
      simp only at h
      subst h
      exact outcome_eq (Nit.C125_nit p t ⟨b, declaredSize b, pid, cc⟩))
    (fun t psi a x _ hb hz ha => Nit.parse_more p t psi a x hb hz ha)
    (fun t psi hne h => Nit.C65_nit p t psi (.inr hne) (by
      rintro ⟨-, h1, h2, -⟩
      rcases h with h | h <;> omega))
    t pid src hs hc hp (fun s h => ⟨hsec s h, trivial⟩) s0 buf hb fuel hf

/-- C127 for the EIT. -/
theorem Eit.C127_eit (p : Profile) (t : Eit) (pid : Nat) (src : Source) (hs : Steady src) (pks secs : List (List UInt8)) (cc : Nat)
    (hc : Carries pid src.data pks) (hp : Packing [] [] cc pks secs) (hsec : ∀ s ∈ secs, Real s) (s0 : Psi) (buf : List UInt8)
    (hb : 188 ≤ buf.length) (fuel : Nat) (hf : src.data.length < fuel) :
    sectionsIn pks = secs ∧ ∃ s', listenPacked (Eit.parse p) p pid t s0 fuel src buf =
      (fun u => (u, s')) <$> orPanic ((sectionsIn pks).foldlM (Eit.reading p) t) :=
  listen_any (Eit.parse p) p (Eit.reading p) (fun _ => True)
    (fun t psi h => by
      obtain ⟨b, z, pid, cc⟩ := psi
      simp only at h
      subst h
      exact outcome_eq (Eit.C125_eit p t ⟨b, declaredSize b, pid, cc⟩))
    (fun t psi a x _ hb hz ha => Eit.parse_more p t psi a x hb hz ha)
    (fun t psi hne h => Eit.C65_eit p t psi (.inr hne) (by
      rintro ⟨-, h1, h2, -⟩
      rcases h with h | h <;> omega))
    t pid src hs hc hp (fun s h => ⟨hsec s h, trivial⟩) s0 buf hb fuel hf

/-- C127 for the PMT, with the program descriptors read one byte too early (C125_pmt_partial). -/
theorem Pmt.C127_pmt_partial (p : Profile) (t : Pmt) (pid : Nat) (src : Source) (hs : Steady src) (pks secs : List (List UInt8)) (cc : Nat)
    (hc : Carries pid src.data pks) (hp : Packing [] [] cc pks secs) (hsec : ∀ s ∈ secs, Real s) (s0 : Psi) (buf : List UInt8)
    (hb : 188 ≤ buf.length) (fuel : Nat) (hf : src.data.length < fuel) :
    sectionsIn pks = secs ∧ ∃ s', listenPacked (Pmt.parse p) p pid t s0 fuel src buf =
      (fun u => (u, s')) <$> orPanic ((sectionsIn pks).foldlM (Pmt.reading p) t) :=
  listen_any (Pmt.parse p) p (Pmt.reading p) (fun _ => True)
    (fun t psi h => by
      obtain ⟨b, z, pid, cc⟩ := psi
      simp only at h
      subst h
      exact outcome_eq (Pmt.C125_pmt_partial p t ⟨b, declaredSize b, pid, cc⟩))
    (fun t psi a x _ hb hz ha => Pmt.parse_more p t psi a x hb hz ha)
    (fun t psi hne h => Pmt.C65_pmt p t psi (.inr hne) (by
      rintro ⟨-, h1, h2, -⟩
      rcases h with h | h <;> omega))
    t pid src hs hc hp (fun s h => ⟨hsec s h, trivial⟩) s0 buf hb fuel hf

/-- C127 for the TOT; a TOT whose descriptors are announced to end behind it is left out, what is read there depends on what follows (C125_tot_refuted). -/
theorem Tot.C127_tot_partial (p : Profile) (t : Tot) (pid : Nat) (src : Source) (hs : Steady src) (pks secs : List (List UInt8)) (cc : Nat)
    (hc : Carries pid src.data pks) (hp : Packing [] [] cc pks secs) (hsec : ∀ s ∈ secs, Real s ∧ (s.head? = some 0x73 → 10 + field s 8 2 % 4096 ≤ s.length)) (s0 : Psi) (buf : List UInt8)
    (hb : 188 ≤ buf.length) (fuel : Nat) (hf : src.data.length < fuel) :
    sectionsIn pks = secs ∧ ∃ s', listenPacked (Tot.parse p) p pid t s0 fuel src buf =
      (fun u => (u, s')) <$> orPanic ((sectionsIn pks).foldlM (Tot.reading p) t) :=
  listen_any (Tot.parse p) p (Tot.reading p) (fun s => s.head? = some 0x73 → 10 + field s 8 2 % 4096 ≤ s.length)
    (fun t psi h => by
      obtain ⟨b, z, pid, cc⟩ := psi
      simp only at h
      subst h
      exact outcome_eq (Tot.C125_tot_partial p t ⟨b, declaredSize b, pid, cc⟩))
    (fun t psi a x h hb hz ha => by
      by_cases h73 : a.head? = some 0x73
      · exact Tot.parse_more p t psi a x hb hz ha (h h73)
      · rw [Tot.C65_tot p t psi (.inr (by rw [hb]; simp [ha])) (fun c => h73 (by rw [← c.1, hb, head_of_append ha])),
          Tot.C65_tot p t { psi with buffer := a } (.inr ha) (fun c => h73 c.1)])
    (fun t psi hne h => Tot.C65_tot p t psi (.inr hne) (by
      rintro ⟨-, h1, h2, -⟩
      rcases h with h | h <;> omega))
    t pid src hs hc hp hsec s0 buf hb fuel hf

/-! Concrete cases: the two PAT sections of `packing_two`, the second one also damaged in its CRC, with garbage before and between the packets and a
packet of another PID. -/

private def one : List UInt8 := [0, 176, 13, 0, 1, 201, 0, 1, 0, 1, 224, 100, 191, 117, 51, 129]
private def two (crc : UInt8) : List UInt8 := [0, 176, 13, 0, 1, 201, 1, 1, 0, 2, 224, 200, 98, 23, 6, crc]
private def pk1 : List UInt8 := [0x47, 0x40, 0x00, 0x35, 177, 0x00] ++ List.replicate 176 0xFF ++ [0x00] ++ one.take 5
private def pk2 : List UInt8 := [0x47, 0x00, 0x00, 0x25, 183, 0x00] ++ List.replicate 182 0xFF
private def pk3 (crc : UInt8) : List UInt8 := [0x47, 0x40, 0x00, 0x16, 0x0B] ++ one.drop 5 ++ two crc ++ List.replicate 156 0xFF
private def other : List UInt8 := [0x47, 0x41, 0x00, 0x10] ++ List.replicate 184 0x00
private def bytes (crc : UInt8) : List UInt8 := [1, 2, 3] ++ pk1 ++ pk2 ++ other ++ [9] ++ pk3 crc ++ [8] ++ [0x47, 0x00]

private theorem packing : Packing [] [] 0 [pk1, pk2, pk3 27] [one, two 27] :=
  .start (piece := one.take 5) (rest := one.drop 5) _ 0
    ⟨⟨by decide +kernel, by decide +kernel⟩, by decide +kernel, by decide +kernel, by decide +kernel⟩ (by decide +kernel)
    (by decide +kernel) (by decide +kernel) (.inl rfl)
    (.empty _ (by decide +kernel) (by decide +kernel)
      (.turn (piece := two 27) (rest := []) _ 156
        ⟨⟨by decide +kernel, by decide +kernel⟩, by decide +kernel, by decide +kernel, by decide +kernel⟩ (by decide +kernel) (by decide +kernel)
        (by decide +kernel) (by decide +kernel) (by decide +kernel) (.inr rfl) (.done _ _)))
private theorem carries : Carries 0 (bytes 27) [pk1, pk2, pk3 27] :=
  ⟨[([1, 2, 3], pk1), ([], pk2), ([], other), ([9], pk3 27)], [8], [0x47, 0x00], by decide +kernel, by decide +kernel, by decide, by decide, by decide,
    by decide +kernel⟩
private theorem real : ∀ s ∈ [one, two 27], Real s := by unfold Real IsSection; decide +kernel
private theorem noTot : ∀ s ∈ [one, two 27], Real s ∧ (s.head? = some 0x73 → 10 + field s 8 2 % 4096 ≤ s.length) :=
  fun s h => ⟨real s h, by revert s; decide +kernel⟩
private theorem steady : Steady ⟨bytes 27, [.chunk 7, .chunk 200]⟩ := by
  intro e h
  simp only [List.mem_cons, List.not_mem_nil, or_false] at h
  rcases h with rfl | rfl <;> exact ⟨_, rfl⟩

/-- The damaged section is a section for the receiver of the standard; the table takes the other one only. -/
example : sectionsIn [pk1, pk2, pk3 27] = [one, two 27] ∧
    (listenPacked (Pat.parse .debug) .debug 0 Pat.default Psi.default 1000 ⟨bytes 27, [.chunk 7, .chunk 200]⟩ (List.replicate 188 0)).map
      (fun r => r.1) = .ok ⟨4, 1, [⟨1, 100⟩]⟩ := by
  refine ⟨(Pat.C127_pat .debug Pat.default 0 ⟨bytes 27, [.chunk 7, .chunk 200]⟩ steady _ _ 0 carries packing real Psi.default
    (List.replicate 188 0) (by rw [List.length_replicate]) 1000 (by decide +kernel)).1, by decide +kernel⟩
example : ∃ s', listenPacked (Sdt.parse .debug) .debug 0 Sdt.default Psi.default 1000 ⟨bytes 27, [.chunk 7, .chunk 200]⟩ (List.replicate 188 0) =
    (fun u => (u, s')) <$> orPanic ((sectionsIn [pk1, pk2, pk3 27]).foldlM (Sdt.reading .debug) Sdt.default) :=
  (Sdt.C127_sdt .debug Sdt.default 0 ⟨bytes 27, [.chunk 7, .chunk 200]⟩ steady _ _ 0 carries packing real Psi.default (List.replicate 188 0) (by rw [List.length_replicate])
    1000 (by decide +kernel)).2
example : ∃ s', listenPacked (Nit.parse .debug) .debug 0 Nit.default Psi.default 1000 ⟨bytes 27, [.chunk 7, .chunk 200]⟩ (List.replicate 188 0) =
    (fun u => (u, s')) <$> orPanic ((sectionsIn [pk1, pk2, pk3 27]).foldlM (Nit.reading .debug) Nit.default) :=
  (Nit.C127_nit .debug Nit.default 0 ⟨bytes 27, [.chunk 7, .chunk 200]⟩ steady _ _ 0 carries packing real Psi.default (List.replicate 188 0) (by rw [List.length_replicate])
    1000 (by decide +kernel)).2
example : ∃ s', listenPacked (Eit.parse .debug) .debug 0 Eit.default Psi.default 1000 ⟨bytes 27, [.chunk 7, .chunk 200]⟩ (List.replicate 188 0) =
    (fun u => (u, s')) <$> orPanic ((sectionsIn [pk1, pk2, pk3 27]).foldlM (Eit.reading .debug) Eit.default) :=
  (Eit.C127_eit .debug Eit.default 0 ⟨bytes 27, [.chunk 7, .chunk 200]⟩ steady _ _ 0 carries packing real Psi.default (List.replicate 188 0) (by rw [List.length_replicate])
    1000 (by decide +kernel)).2
example : ∃ s', listenPacked (Pmt.parse .debug) .debug 0 Pmt.default Psi.default 1000 ⟨bytes 27, [.chunk 7, .chunk 200]⟩ (List.replicate 188 0) =
    (fun u => (u, s')) <$> orPanic ((sectionsIn [pk1, pk2, pk3 27]).foldlM (Pmt.reading .debug) Pmt.default) :=
  (Pmt.C127_pmt_partial .debug Pmt.default 0 ⟨bytes 27, [.chunk 7, .chunk 200]⟩ steady _ _ 0 carries packing real Psi.default (List.replicate 188 0) (by rw [List.length_replicate])
    1000 (by decide +kernel)).2
example : ∃ s', listenPacked (Tot.parse .debug) .debug 0 ⟨0, []⟩ Psi.default 1000 ⟨bytes 27, [.chunk 7, .chunk 200]⟩ (List.replicate 188 0) =
    (fun u => (u, s')) <$> orPanic ((sectionsIn [pk1, pk2, pk3 27]).foldlM (Tot.reading .debug) ⟨0, []⟩) :=
  (Tot.C127_tot_partial .debug ⟨0, []⟩ 0 ⟨bytes 27, [.chunk 7, .chunk 200]⟩ steady _ _ 0 carries packing noTot Psi.default (List.replicate 188 0) (by rw [List.length_replicate])
    1000 (by decide +kernel)).2

end Mpegts
