import Verif.Spec.ByName
import Verif.Props.C149
import Verif.Props.C152

/-! # C157: watching a service by its name -/

namespace Mpegts
open Spec Spec.Table

namespace ByName

/-- An SDT with names given as texts that can be written. -/
structure Named (t : Sdt) (ss : List NamedService) : Prop where
  id : t.tableId = 0x42 ∨ t.tableId = 0x46
  version : t.version.toNat < 32
  items : t.items = ss.map NamedService.entry
  range : ∀ x ∈ ss, Sdt.ItemInRange x.entry
  others : ∀ x ∈ ss, ∀ d ∈ x.item.descriptors, d.Exact ∧ ∀ e, d ≠ .d48 e
  writable : ∀ x ∈ ss, Writable x.provider x.providerTable ∧ Writable x.name x.nameTable

/-- The first service listed with a name. -/
theorem listed (ss : List NamedService) (name : List Char) :
    ((ss.map fun x => (x.item.pnr, [(x.type, x.provider, x.name)])).find? fun s => s.2.any (·.2.2 == name)) =
      (ss.find? (·.name == name)).map fun x => (x.item.pnr, [(x.type, x.provider, x.name)]) := by
  induction ss with
  | nil => rfl
  | cons x ss ih =>
    rw [List.map_cons, List.find?_cons, List.find?_cons]
    by_cases h : x.name = name
    · simp [h]
    · simp only [List.any_cons, List.any_nil, Bool.or_false, beq_eq_false_iff_ne.2 h]
      exact ih

/-- What `watchService` does with a stream that carries this SDT. -/
theorem watched (p : Profile) (t : Sdt) (ss : List NamedService) (h : Named t ss) (cc : UInt8) (hc : cc.toNat < 16) :
    ∃ cc' ps, t.demux p 0x11 cc [] = .ok (cc', ps.flatten) ∧
      ∀ (pks : List (List UInt8)), (∀ pk ∈ pks, pk.length = 188 ∧ pk.head? = some 0x47) → (pks.filter fun pk => pidOf pk = 0x11) = ps →
      ∀ (garbage : List UInt8) (src : Source), 0x47 ∉ garbage → src.data = garbage ++ pks.flatten → Steady src →
      ∀ buf : List UInt8, 188 ≤ buf.length → ∀ fuel, src.data.length < fuel → ∀ name,
        watchService p name fuel src buf = match ss.find? (·.name == name) with
          | none => .ok none
          | some x => tune p x.item.pnr fuel src buf := by
  obtain ⟨cc', ps, h1, -, h3⟩ := C152_services p t ss h.id h.version h.items h.range h.others h.writable 0x11 cc Psi.default (by decide) hc
  refine ⟨cc', ps, h1, fun pks hpk hps garbage src hg hsrc hs buf hbuf fuel hf name => ?_⟩
  have hcar : Carries 0x11 src.data ps := by
    rw [hsrc, ← hps]
    exact carries_mixed _ garbage hg pks fun pk h => ⟨_, (hpk pk h).1, (hpk pk h).2, rfl⟩
  have h4 := h3 src hs hcar buf hbuf fuel hf
  rw [show (0x11 : UInt16).toNat = 0x11 from rfl] at h4
  rw [watchService, h4, ok_bind]
  simp only [listed]
  cases ss.find? (·.name == name) <;> rfl

end ByName

/-- C157: a stream with an SDT whose services have names given as texts, a PAT, the PMT of a program, its clock and its elementary streams,
mixed in any way.  Knowing only the name of the service, the user gets all PES packets of all streams of its program, with their time stamps,
and the time that passed, as if they knew the program number (C149).  If several services have the name, it is the first of them. -/
theorem C157_watch_partial (p : Profile) (t : Sdt) (ss : List NamedService) (ht : ByName.Named t ss) (pat : Pat) (hv : pat.version.toNat < 32)
    (hn : pat.items.length ≤ 253) (hi : ∀ i ∈ pat.items, i.pid.toNat < 8192) (pmtPid : UInt16) (pmt : Pmt) (hpmt : pmt.InRange)
    (hfind : pat.items.find? (·.pnr == pmt.pnr) = some ⟨pmt.pnr, pmtPid⟩) (name : List Char) (x : NamedService)
    (hx : ss.find? (·.name == name) = some x) (hp : x.item.pnr = pmt.pnr) (ca cb cs : UInt8) (hca : ca.toNat < 16) (hcb : cb.toNat < 16)
    (hcs : cs.toNat < 16) :
    ∃ ca' pa cb' pb cs' ps, pat.demux p 0 ca [] = .ok (ca', pa.flatten) ∧ pmt.demux p pmtPid cb [] = .ok (cb', pb.flatten) ∧
      t.demux p 0x11 cs [] = .ok (cs', ps.flatten) ∧
      ∀ (pks : List (List UInt8)), (∀ pk ∈ pks, pk.length = 188 ∧ pk.head? = some 0x47) →
        (pks.filter fun pk => pidOf pk = 0) = pa → (pks.filter fun pk => pidOf pk = pmtPid.toNat) = pb → (pks.filter fun pk => pidOf pk = 0x11) = ps →
      ∀ (a : Nat) (times : List Nat), Running pcrPeriod (a :: times) → clockValues pmt.pcr.toNat pks = (a :: times).map (· % pcrPeriod) →
      ∀ (us : UInt16 → List PesUnit), (∀ i ∈ pmt.items, CarriesPes i.pid.toNat (pks.filter fun pk => pidOf pk = i.pid.toNat) (us i.pid)) →
      ∀ (garbage : List UInt8) (src : Source), 0x47 ∉ garbage → src.data = garbage ++ pks.flatten → Steady src →
      ∀ buf : List UInt8, 188 ≤ buf.length → ∀ fuel, src.data.length < fuel →
        (∀ ds, readBackShifted p pmt.descriptors = .ok ds → ∃ time, time + restarts pcrPeriod a ((a :: times).getLast (by simp)) = (a :: times).getLast (by simp) - a ∧
          watchService p name fuel src buf =
            .ok (some (time, pmt.items.map fun i => (i.streamType, (us i.pid).map fun u => (u.pts, u.dts, u.data))))) ∧
        (readBackShifted p pmt.descriptors = panic → watchService p name fuel src buf = panic) := by
  obtain ⟨ca', pa, cb', pb, h1, h2, h3⟩ := C149_tune_partial p pat hv hn hi pmtPid pmt hpmt hfind ca cb hca hcb
  obtain ⟨cs', ps, g1, g2⟩ := ByName.watched p t ss ht cs hcs
  refine ⟨ca', pa, cb', pb, cs', ps, h1, h2, g1, fun pks hpk ha hb hps a times hrun hclock us hes garbage src hg hsrc hs buf hbuf fuel hf => ?_⟩
  rw [g2 pks hpk hps garbage src hg hsrc hs buf hbuf fuel hf name, hx]
  simp only [hp]
  exact h3 pks hpk ha hb a times hrun hclock us hes garbage src hg hsrc hs buf hbuf fuel hf

/-- C157: a name that no service of the SDT has finds nothing, whatever else is in the stream. -/
theorem C157_unknown_name (p : Profile) (t : Sdt) (ss : List NamedService) (ht : ByName.Named t ss) (name : List Char) (hno : ∀ x ∈ ss, x.name ≠ name)
    (cs : UInt8) (hcs : cs.toNat < 16) :
    ∃ cs' ps, t.demux p 0x11 cs [] = .ok (cs', ps.flatten) ∧
      ∀ (pks : List (List UInt8)), (∀ pk ∈ pks, pk.length = 188 ∧ pk.head? = some 0x47) → (pks.filter fun pk => pidOf pk = 0x11) = ps →
      ∀ (garbage : List UInt8) (src : Source), 0x47 ∉ garbage → src.data = garbage ++ pks.flatten → Steady src →
      ∀ buf : List UInt8, 188 ≤ buf.length → ∀ fuel, src.data.length < fuel → watchService p name fuel src buf = .ok none := by
  obtain ⟨cs', ps, g1, g2⟩ := ByName.watched p t ss ht cs hcs
  refine ⟨cs', ps, g1, fun pks hpk hps garbage src hg hsrc hs buf hbuf fuel hf => ?_⟩
  have : ss.find? (·.name == name) = none := by
    rw [List.find?_eq_none]
    intro x hx
    simpa using hno x hx
  rw [g2 pks hpk hps garbage src hg hsrc hs buf hbuf fuel hf name, this]

/-- C157: nor does the name of a service whose program the PAT does not list. -/
theorem C157_off_air (p : Profile) (t : Sdt) (ss : List NamedService) (ht : ByName.Named t ss) (pat : Pat) (hv : pat.version.toNat < 32)
    (hn : pat.items.length ≤ 253) (hi : ∀ i ∈ pat.items, i.pid.toNat < 8192) (name : List Char) (x : NamedService)
    (hx : ss.find? (·.name == name) = some x) (hno : ∀ i ∈ pat.items, i.pnr ≠ x.item.pnr) (ca cs : UInt8) (hca : ca.toNat < 16) (hcs : cs.toNat < 16) :
    ∃ ca' pa cs' ps, pat.demux p 0 ca [] = .ok (ca', pa.flatten) ∧ t.demux p 0x11 cs [] = .ok (cs', ps.flatten) ∧
      ∀ (pks : List (List UInt8)), (∀ pk ∈ pks, pk.length = 188 ∧ pk.head? = some 0x47) → (pks.filter fun pk => pidOf pk = 0) = pa →
        (pks.filter fun pk => pidOf pk = 0x11) = ps →
      ∀ (garbage : List UInt8) (src : Source), 0x47 ∉ garbage → src.data = garbage ++ pks.flatten → Steady src →
      ∀ buf : List UInt8, 188 ≤ buf.length → ∀ fuel, src.data.length < fuel → watchService p name fuel src buf = .ok none := by
  obtain ⟨ca', pa, h1, h2⟩ := C149_unknown p pat hv hn hi x.item.pnr hno ca hca
  obtain ⟨cs', ps, g1, g2⟩ := ByName.watched p t ss ht cs hcs
  refine ⟨ca', pa, cs', ps, h1, g1, fun pks hpk ha hps garbage src hg hsrc hs buf hbuf fuel hf => ?_⟩
  rw [g2 pks hpk hps garbage src hg hsrc hs buf hbuf fuel hf name, hx]
  exact h2 pks hpk ha garbage src hg hsrc hs buf hbuf fuel hf

/-! ## The hypotheses are met -/

/-- Two services with a name each, the second one in Cyrillic, of program 2 of the example of C149, and a third one that is not in the PAT. -/
def watchServices : List NamedService :=
  [⟨⟨1, 0, 1, 4, 0, []⟩, 1, [], 0, "One".toList, 0⟩, ⟨⟨2, 0, 1, 4, 0, []⟩, 1, [], 0, "Второй".toList, 5⟩, ⟨⟨3, 0, 0, 1, 0, []⟩, 1, [], 0, "Three".toList, 0⟩]

def watchSdt : Sdt := ⟨0x42, 0, 7, 9, watchServices.map NamedService.entry⟩

theorem watch_named : ByName.Named watchSdt watchServices := by
  refine ⟨by decide, by decide, rfl, ?_, ?_, ?_⟩ <;> intro x hx <;> simp only [watchServices, List.mem_cons, List.not_mem_nil, or_false] at hx <;>
    rcases hx with rfl | rfl | rfl
  iterate 3
    refine ⟨by decide, by decide, by decide, by decide, ?_, by decide +kernel⟩
    intro d hd
    simp only [NamedService.entry, List.mem_cons, List.not_mem_nil, or_false] at hd
    subst hd
    exact ⟨by simp only [Desc.InRange]; decide +kernel, by simp [Desc.HasItems]⟩
  iterate 3 simp
  iterate 3 exact ⟨.inr ⟨_, rfl, by simp, by simp⟩, .inr ⟨_, rfl, by decide +kernel, by simp⟩⟩

example : watchServices.find? (·.name == "Второй".toList) = some ⟨⟨2, 0, 1, 4, 0, []⟩, 1, [], 0, "Второй".toList, 5⟩ := rfl

local instance watchStreams : DecidableEq (List (UInt8 × List (Option Nat × Option Nat × List UInt8))) :=
  have : DecidableEq (List (Option Nat × Option Nat × List UInt8)) := inferInstance
  inferInstance

/-- The stream of the example of C149 with this SDT in the middle: program 2 is received by its name, the service that is not in the PAT and a
name that no service has are not found. -/
example : ∃ pat pmt sdt, tunePat.demux .debug 0 4 [] = .ok (5, pat) ∧ tunePmt.demux .debug 512 15 [] = .ok (0, pmt) ∧
    watchSdt.demux .debug 0x11 7 [] = .ok (8, sdt) ∧
    (∀ pk ∈ [pat, sdt] ++ tunePackets pat pmt, pk.length = 188 ∧ pk.head? = some 0x47) ∧
    (sdt :: tunePackets pat pmt).filter (fun pk => pidOf pk = 0x11) = [sdt] ∧
    (watchService .debug "Второй".toList 1800 ⟨[1, 2] ++ (sdt :: tunePackets pat pmt).flatten, [.chunk 100, .chunk 300]⟩ (List.replicate 188 0)).map (·.map (·.2)) =
      .ok (some [(0x1B, [(some 225220, some 221616, List.replicate 164 7)]), (3, [(some 225000, none, [4, 5])])]) ∧
    watchService .debug "Three".toList 1800 ⟨(sdt :: tunePackets pat pmt).flatten, []⟩ (List.replicate 188 0) = .ok none ∧
    watchService .debug "Four".toList 1800 ⟨(sdt :: tunePackets pat pmt).flatten, []⟩ (List.replicate 188 0) = .ok none := by
  let pat : List UInt8 := match tunePat.demux .debug 0 4 [] with | .ok x => x.2 | .error _ => []
  let pmt : List UInt8 := match tunePmt.demux .debug 512 15 [] with | .ok x => x.2 | .error _ => []
  let sdt : List UInt8 := match watchSdt.demux .debug 0x11 7 [] with | .ok x => x.2 | .error _ => []
  exact ⟨pat, pmt, sdt, by decide +kernel, by decide +kernel, by decide +kernel, by decide +kernel, by decide +kernel, by decide +kernel, by decide +kernel,
    by decide +kernel⟩

end Mpegts
