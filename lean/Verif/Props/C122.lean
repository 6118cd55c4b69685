import Verif.Spec.ListenPacked
import Verif.Props.C76
import Verif.Props.C121

/-! # C122: a stream of any sender

From the bytes of a source to the tables: whatever the source, the other PIDs, the garbage between packets, the layout of the sections. -/

namespace Mpegts
open Spec

/-- C122: listening to a stream does with the packets of the PID, in order, what the receiving loop does, however the source splits its
reads, and whatever is between the packets and on other PIDs. -/
theorem C122_listen {α : Type} (parse : α → Psi → R α) (p : Profile) (pid : Nat) (t : α) (s : Psi) (src : Source) (hs : Steady src)
    (pks : List (List UInt8)) (hc : Carries pid src.data pks) (buf : List UInt8) (hb : 188 ≤ buf.length) (fuel : Nat)
    (hf : src.data.length < fuel) : listenPacked parse p pid t s fuel src buf = receivePacked parse p t s pks := by
  obtain ⟨data, evs⟩ := src
  obtain ⟨l, gap, part, rfl, hl, hg, hp, hlen, rfl⟩ := hc
  unfold listenPacked receivePacked
  rw [C71_stream l hl gap part hg hp hlen evs hs buf hb fuel hf]
  simp only [ok_bind]
  have h188 : ∀ pk ∈ l.map (·.2), pk.length = 188 := by
    intro pk h
    obtain ⟨x, hx, rfl⟩ := List.mem_map.1 h
    exact (hl x hx).2.1
  generalize l.map (·.2) = pks at h188
  clear hl hf hs
  generalize hst : (t, s) = st
  clear hst
  induction pks generalizing st with
  | nil => rfl
  | cons pk pks ih =>
    obtain ⟨q, hq, hqp⟩ := getPid_eq (h188 pk (by simp))
    have ih' := ih (fun pk h => h188 pk (List.mem_cons_of_mem _ h))
    by_cases hpid : pidOf pk = pid
    · rw [List.filter_cons_of_pos (by simpa using hpid)]
      simp only [List.foldlM_cons, hq, ok_bind, hqp, if_pos hpid]
      cases hm : packedStep parse p st pk with
      | error e => rfl
      | ok st1 => simp only [ok_bind]; exact ih' st1
    · rw [List.filter_cons_of_neg (by simpa using hpid)]
      simp only [List.foldlM_cons, hq, ok_bind, hqp, if_neg hpid, pure_bind]
      exact ih' st

/-- C122, for the SDT: from any source and any sender, the sections of the PID are all received, each once and in order. -/
theorem C122_sdt (p : Profile) (t : Sdt) (ss : List Foreign.Sdt) (h : ∀ s ∈ ss, s.Ok) (pid : Nat) (src : Source) (hs : Steady src)
    (hc : CarriesSections pid src.data (ss.map fun s => complete s.body)) (s0 : Psi) (buf : List UInt8) (hb : 188 ≤ buf.length) (fuel : Nat)
    (hf : src.data.length < fuel) :
    ∃ s', listenPacked (Sdt.parse p) p pid t s0 fuel src buf = (fun u => (u, s')) <$> ss.foldlM (Sdt.take p) t := by
  obtain ⟨cc, pks, hc, hp⟩ := hc
  rw [C122_listen _ p pid t s0 src hs pks hc buf hb fuel hf]
  exact Sdt.C121_sdt_partial p t ss h s0 cc pks hp

/-- C122, for the NIT: from any source and any sender, the sections of the PID are all received, each once and in order. -/
theorem C122_nit (p : Profile) (t : Nit) (ss : List Foreign.Nit) (h : ∀ s ∈ ss, s.Ok) (pid : Nat) (src : Source) (hs : Steady src)
    (hc : CarriesSections pid src.data (ss.map fun s => complete s.body)) (s0 : Psi) (buf : List UInt8) (hb : 188 ≤ buf.length) (fuel : Nat)
    (hf : src.data.length < fuel) :
    ∃ s', listenPacked (Nit.parse p) p pid t s0 fuel src buf = (fun u => (u, s')) <$> ss.foldlM (Nit.take p) t := by
  obtain ⟨cc, pks, hc, hp⟩ := hc
  rw [C122_listen _ p pid t s0 src hs pks hc buf hb fuel hf]
  exact Nit.C121_nit_partial p t ss h s0 cc pks hp

/-- C122, for the EIT: from any source and any sender, the sections of the PID are all received, each once and in order. -/
theorem C122_eit (p : Profile) (t : Eit) (ss : List Foreign.Eit) (h : ∀ s ∈ ss, s.Ok) (pid : Nat) (src : Source) (hs : Steady src)
    (hc : CarriesSections pid src.data (ss.map fun s => complete s.body)) (s0 : Psi) (buf : List UInt8) (hb : 188 ≤ buf.length) (fuel : Nat)
    (hf : src.data.length < fuel) :
    ∃ s', listenPacked (Eit.parse p) p pid t s0 fuel src buf = (fun u => (u, s')) <$> ss.foldlM (Eit.take p) t := by
  obtain ⟨cc, pks, hc, hp⟩ := hc
  rw [C122_listen _ p pid t s0 src hs pks hc buf hb fuel hf]
  exact Eit.C121_eit_partial p t ss h s0 cc pks hp

/-- C122, for the TOT: from any source and any sender, the sections of the PID are all received, each once and in order. -/
theorem C122_tot (p : Profile) (t : Tot) (ss : List Foreign.Tot) (h : ∀ s ∈ ss, s.Ok) (pid : Nat) (src : Source) (hs : Steady src)
    (hc : CarriesSections pid src.data (ss.map fun s => complete s.body)) (s0 : Psi) (buf : List UInt8) (hb : 188 ≤ buf.length) (fuel : Nat)
    (hf : src.data.length < fuel) :
    ∃ s', listenPacked (Tot.parse p) p pid t s0 fuel src buf = (fun u => (u, s')) <$> ss.foldlM (Tot.take p) t := by
  obtain ⟨cc, pks, hc, hp⟩ := hc
  rw [C122_listen _ p pid t s0 src hs pks hc buf hb fuel hf]
  exact Tot.C121_tot_partial p t ss h s0 cc pks hp

/-- C122, for the PAT. -/
theorem C122_pat (p : Profile) (t : Pat) (ss : List Foreign.Pat) (h : ∀ s ∈ ss, s.Ok) (pid : Nat) (src : Source) (hs : Steady src)
    (hc : CarriesSections pid src.data (ss.map fun s => complete s.body)) (s0 : Psi) (buf : List UInt8) (hb : 188 ≤ buf.length) (fuel : Nat)
    (hf : src.data.length < fuel) :
    ∃ s', listenPacked (Pat.parse p) p pid t s0 fuel src buf = .ok (ss.foldl Pat.take t, s') := by
  obtain ⟨cc, pks, hc, hp⟩ := hc
  rw [C122_listen _ p pid t s0 src hs pks hc buf hb fuel hf]
  exact Pat.C121_pat_partial p t ss h s0 cc pks hp

/-- C122, for the PMT, with the program descriptors read one byte too early (C111_pmt_refuted). -/
theorem C122_pmt_partial (p : Profile) (t : Pmt) (ss : List Foreign.Pmt) (h : ∀ s ∈ ss, s.Ok) (pid : Nat) (src : Source) (hs : Steady src)
    (hc : CarriesSections pid src.data (ss.map fun s => complete s.body)) (s0 : Psi) (buf : List UInt8) (hb : 188 ≤ buf.length) (fuel : Nat)
    (hf : src.data.length < fuel) :
    ∃ s', listenPacked (Pmt.parse p) p pid t s0 fuel src buf = (fun u => (u, s')) <$> ss.foldlM (Pmt.take p fun s => Pmt.shifted s.descs) t := by
  obtain ⟨cc, pks, hc, hp⟩ := hc
  rw [C122_listen _ p pid t s0 src hs pks hc buf hb fuel hf]
  exact Pmt.C121_pmt_partial p t ss h s0 cc pks hp

/-- C122: finding the programs of any sender's stream.  The PAT may come in any number of sections; `pmts q` are the sections of PID `q`.
The programs found are those the PAT sections name, in their order, each with what the sections on its PID say (program descriptors read one
byte too early, C111_pmt_refuted). -/
theorem C122_discover_partial (p : Profile) (pats : List Foreign.Pat) (hpat : ∀ s ∈ pats, s.Ok) (pmts : Nat → List Foreign.Pmt)
    (hpmt : ∀ q, ∀ s ∈ pmts q, s.Ok) (src : Source) (hs : Steady src) (hc : CarriesSections 0 src.data (pats.map fun s => complete s.body))
    (hm : ∀ s ∈ pats, ∀ x ∈ s.programs, CarriesSections x.pid src.data ((pmts x.pid).map fun s => complete s.body))
    (buf : List UInt8) (hb : 188 ≤ buf.length) (fuel : Nat) (hf : src.data.length < fuel) :
    discoverPacked p fuel src buf = (pats.flatMap (·.programs)).mapM fun x =>
      (fun m => (UInt16.ofNat x.pnr, m)) <$> (pmts x.pid).foldlM (Pmt.take p fun s => Pmt.shifted s.descs) Pmt.default := by
  obtain ⟨s', e⟩ := C122_pat p Pat.default pats hpat 0 src hs hc Psi.default buf hb fuel hf
  unfold discoverPacked
  rw [e, ok_bind]
  have hitems : ∀ (l : List Foreign.Pat) (t : Pat), (l.foldl Pat.take t).items =
      t.items ++ (l.flatMap (·.programs)).map fun x => ⟨UInt16.ofNat x.pnr, UInt16.ofNat x.pid⟩ := by
    intro l
    induction l with
    | nil => intro t; simp
    | cons a l ih => intro t; rw [List.foldl_cons, ih]; simp [Pat.take]
  simp only [hitems, show Pat.default.items = [] from rfl, List.nil_append, List.mapM_map]
  refine mapM_congr fun x hx => ?_
  obtain ⟨s, hss, hxs⟩ := List.mem_flatMap.1 hx
  have hx16 : (UInt16.ofNat x.pid).toNat = x.pid := by
    have := ((hpat s hss).programs x hxs).pid
    rw [UInt16.toNat_ofNat']; omega
  obtain ⟨s1, e1⟩ := C122_pmt_partial p Pmt.default (pmts x.pid) (hpmt _) x.pid src hs (hm s hss x hxs) Psi.default buf hb fuel hf
  show (do let r ← listenPacked (Pmt.parse p) p (UInt16.ofNat x.pid).toNat Pmt.default Psi.default fuel src buf; pure (UInt16.ofNat x.pnr, r.1)) = _
  rw [hx16, e1]
  cases (pmts x.pid).foldlM (Pmt.take p fun s => Pmt.shifted s.descs) Pmt.default <;> rfl

/-! ## A concrete case -/

/-- The two sections of `packing_two` on PID 0, with garbage before and between the packets and a packet of another PID. -/
example :
    let one := [0, 176, 13, 0, 1, 201, 0, 1, 0, 1, 224, 100, 191, 117, 51, 129]
    let two := [0, 176, 13, 0, 1, 201, 1, 1, 0, 2, 224, 200, 98, 23, 6, 26]
    let p1 := [0x47, 0x40, 0x00, 0x35, 177, 0x00] ++ List.replicate 176 0xFF ++ [0x00] ++ one.take 5
    let p2 := [0x47, 0x00, 0x00, 0x25, 183, 0x00] ++ List.replicate 182 0xFF
    let p3 := [0x47, 0x40, 0x00, 0x16, 0x0B] ++ one.drop 5 ++ two ++ List.replicate 156 0xFF
    let other := [0x47, 0x41, 0x00, 0x10] ++ List.replicate 184 0x00
    CarriesSections 0 ([1, 2, 3] ++ p1 ++ p2 ++ other ++ [9] ++ p3 ++ [8] ++ [0x47, 0x00]) [one, two] := by
  intro one two p1 p2 p3 other
  exact ⟨0, [p1, p2, p3], ⟨[([1, 2, 3], p1), ([], p2), ([], other), ([9], p3)], [8], [0x47, 0x00], by decide +kernel, by decide +kernel, by decide,
    by decide, by decide, by decide +kernel⟩, packing_two⟩

end Mpegts
