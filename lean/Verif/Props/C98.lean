import Verif.Props.Sdt
import Verif.Props.Nit
import Verif.Props.Pmt

/-! # C98: entries that are too large for a section

ISO/IEC 13818-1 and EN 300 468 limit PMT, NIT and SDT sections to 1024 bytes.  What is sent for entries (or first descriptor loops) that do
not fit is given exactly; it is received back in full by this crate, but breaks the limit. -/

namespace Mpegts
open Spec Spec.Table

/-- C98, the part that holds: whatever the size of the services (up to what the length fields can say), all of them are sent, in order,
each too large one in a section of its own, and the packets give the table back.  (Full property: and no section is larger than 1024
bytes; false, see `C98_sdt_refuted`.) -/
theorem C98_sdt_partial (p : Profile) (t : Sdt) (ht : t.Fits) (pid : UInt16) (cc : UInt8) (dst : List UInt8) (hp : pid.toNat < 8192)
    (hc : cc.toNat < 16) :
    (∃ gs, Spread (fun i => (Sdt.entry i).length) 1020 11 11 t.items gs ∧
      t.demux p pid cc dst = .ok (UInt8.ofNat ((cc.toNat + streamCount (t.wire gs)) % 16),
        dst ++ (stream pid.toNat cc.toNat (t.wire gs)).flatten)) ∧
    ∀ s, ∃ cc' pks s', t.demux p pid cc dst = .ok (cc', dst ++ pks.flatten) ∧ (∀ pk ∈ pks, IsTsPacket pid.toNat pk) ∧
      receive (Sdt.parse p) p Sdt.default s pks = .ok (t, s') :=
  ⟨Sdt.demux_fill p t (fun i hi => (ht.items i hi).1) pid cc dst hp hc, fun s => Sdt.round_trip_fits p t ht pid cc dst s hp hc⟩

/-- Every service that does not fit is sent all the same, alone in a section of more than 1024 bytes. -/
theorem sdt_oversized (t : Sdt) (gs : List (List SdtItem)) (P : Spread (fun i => (Sdt.entry i).length) 1020 11 11 t.items gs)
    (i : SdtItem) (hi : i ∈ t.items) (ho : 1020 < 11 + (Sdt.entry i).length) :
    ∃ n, 0 < n ∧ gs[n]? = some [i] ∧
      ∃ sec ∈ t.wire gs, sec.length = 15 + (Sdt.entry i).length ∧ 1024 < sec.length := by
  obtain ⟨n, hn, hg⟩ := spread_alone P (Nat.le_refl _) i hi ho
  refine ⟨n, hn, hg, _, List.mem_map_of_mem (a := ([i], n)) (List.mk_mem_zipIdx_iff_getElem?.2 hg), ?_⟩
  rw [complete_length (by simp [Table.sdt]; omega)]
  simp only [Table.sdt, List.length_append, header_length, beBytes_length, List.length_cons, List.length_nil, List.flatMap_cons,
    List.flatMap_nil, List.append_nil]
  omega

/-- C98, the part that holds for NITs. -/
theorem C98_nit_partial (p : Profile) (t : Nit) (ht : t.Fits) (pid : UInt16) (cc : UInt8) (dst : List UInt8) (hp : pid.toNat < 8192)
    (hc : cc.toNat < 16) :
    (∃ gs, Spread (fun i => (Nit.entry i).length) 1020 (12 + (t.descriptors.flatMap Desc.wire).length) 12 t.items gs ∧
      t.demux p pid cc dst = .ok (UInt8.ofNat ((cc.toNat + streamCount (t.wire gs)) % 16),
        dst ++ (stream pid.toNat cc.toNat (t.wire gs)).flatten)) ∧
    ∀ s, ∃ cc' pks s', t.demux p pid cc dst = .ok (cc', dst ++ pks.flatten) ∧ (∀ pk ∈ pks, IsTsPacket pid.toNat pk) ∧
      receive (Nit.parse p) p Nit.default s pks = .ok (t, s') :=
  ⟨Nit.demux_fill p t ht.network.1 (fun i hi => (ht.items i hi).1) pid cc dst hp hc,
    fun s => Nit.round_trip_fits p t ht pid cc dst s hp hc⟩

/-- Network descriptors that do not fit are sent all the same, alone in a first section of more than 1024 bytes, and
so is every transport stream that does not fit, alone in a later one. -/
theorem nit_oversized (t : Nit) (gs : List (List NitItem))
    (P : Spread (fun i => (Nit.entry i).length) 1020 (12 + (t.descriptors.flatMap Desc.wire).length) 12 t.items gs) :
    (1020 < 12 + (t.descriptors.flatMap Desc.wire).length → gs[0]? = some [] ∧
      ∃ sec, (t.wire gs)[0]? = some sec ∧ sec.length = 16 + (t.descriptors.flatMap Desc.wire).length ∧ 1024 < sec.length) ∧
    ∀ i ∈ t.items, 1020 < 12 + (Nit.entry i).length → ∃ n, 0 < n ∧ gs[n]? = some [i] ∧
      ∃ sec, (t.wire gs)[n]? = some sec ∧ sec.length = 16 + (Nit.entry i).length ∧ 1024 < sec.length := by
  have hsec : ∀ n g, gs[n]? = some g → ∃ sec, (t.wire gs)[n]? = some sec ∧
      sec.length = 16 + (if n = 0 then (t.descriptors.flatMap Desc.wire).length else 0) + (g.flatMap Nit.entry).length := by
    intro n g hg
    refine ⟨_, by rw [Nit.wire, List.getElem?_map, List.getElem?_zipIdx, hg]; rfl, ?_⟩
    have h3 : (t.network (0 + n)).length = if n = 0 then (t.descriptors.flatMap Desc.wire).length else 0 := by
      rw [Nat.zero_add]; unfold Nit.network; split <;> rfl
    rw [complete_length (by simp [Table.nit]; omega)]
    simp only [Table.nit, List.length_append, header_length, sized12_length, h3]
    omega
  refine ⟨fun h => ?_, fun i hi ho => ?_⟩
  · obtain ⟨g, r, hgr⟩ := List.exists_cons_of_ne_nil P.nonempty
    have h0 : gs[0]? = some g := by rw [hgr]; rfl
    have hg : g = [] := by
      rcases P.fits 0 g h0 with h1 | h1 | h1
      · rw [if_pos rfl] at h1; omega
      · exact h1.2.1
      · exact absurd h1.1 (by omega)
    subst hg
    obtain ⟨sec, h1, h2⟩ := hsec 0 [] h0
    refine ⟨h0, sec, h1, ?_⟩
    simp only [if_true, List.flatMap_nil, List.length_nil] at h2
    omega
  · obtain ⟨n, hn, hg⟩ := spread_alone P (by omega) i hi ho
    obtain ⟨sec, h1, h2⟩ := hsec n [i] hg
    refine ⟨n, hn, hg, sec, h1, ?_⟩
    rw [if_neg (by omega)] at h2
    simp only [List.flatMap_cons, List.flatMap_nil, List.append_nil] at h2
    omega

/-- C98, the part that holds for PMTs: as for the others, except for the program descriptors, which are misread as C55 describes. -/
theorem C98_pmt_partial (p : Profile) (t : Pmt) (ht : t.Fits) (pid : UInt16) (cc : UInt8) (dst : List UInt8) (hp : pid.toNat < 8192)
    (hc : cc.toNat < 16) :
    (∃ gs, Spread (fun i => (Pmt.entry i).length) 1020 (12 + (t.descriptors.flatMap Desc.wire).length) 12 t.items gs ∧
      t.demux p pid cc dst = .ok (UInt8.ofNat ((cc.toNat + streamCount (t.wire gs)) % 16),
        dst ++ (stream pid.toNat cc.toNat (t.wire gs)).flatten)) ∧
    (t.descriptors = [] → ∀ s, ∃ cc' pks s', t.demux p pid cc dst = .ok (cc', dst ++ pks.flatten) ∧
      (∀ pk ∈ pks, IsTsPacket pid.toNat pk) ∧ receive (Pmt.parse p) p Pmt.default s pks = .ok (t, s')) := by
  refine ⟨Pmt.demux_fill p t ht.program (fun i hi => (ht.items i hi).1) pid cc dst hp hc, fun hd s => ?_⟩
  obtain ⟨cc', pks, h1, h2, h3, -⟩ := Pmt.received_fits p t ht pid cc dst s hp hc
  obtain ⟨s', hr⟩ := h3 [] (by unfold Pmt.misread; rw [hd]; exact Pmt.shifted_nil p)
  exact ⟨cc', pks, s', h1, h2, by rw [hr, ← hd]⟩

/-- Program descriptors and elementary streams that do not fit are sent in sections of more than 1024 bytes. -/
theorem pmt_oversized (t : Pmt) (gs : List (List PmtItem))
    (P : Spread (fun i => (Pmt.entry i).length) 1020 (12 + (t.descriptors.flatMap Desc.wire).length) 12 t.items gs) :
    (1020 < 12 + (t.descriptors.flatMap Desc.wire).length → gs[0]? = some [] ∧
      ∃ sec, (t.wire gs)[0]? = some sec ∧ sec.length = 16 + (t.descriptors.flatMap Desc.wire).length ∧ 1024 < sec.length) ∧
    ∀ i ∈ t.items, 1020 < 12 + (Pmt.entry i).length → ∃ n, 0 < n ∧ gs[n]? = some [i] ∧
      ∃ sec, (t.wire gs)[n]? = some sec ∧ sec.length = 16 + (Pmt.entry i).length ∧ 1024 < sec.length := by
  have hsec : ∀ n g, gs[n]? = some g → ∃ sec, (t.wire gs)[n]? = some sec ∧
      sec.length = 16 + (if n = 0 then (t.descriptors.flatMap Desc.wire).length else 0) + (g.flatMap Pmt.entry).length := by
    intro n g hg
    refine ⟨_, by rw [Pmt.wire, List.getElem?_map, List.getElem?_zipIdx, hg]; rfl, ?_⟩
    have h3 : (t.program (0 + n)).length = if n = 0 then (t.descriptors.flatMap Desc.wire).length else 0 := by
      rw [Nat.zero_add]; unfold Pmt.program; split <;> rfl
    rw [complete_length (by simp [Table.pmt]; omega)]
    simp only [Table.pmt, List.length_append, header_length, beBytes_length, sized12_length, h3]
    omega
  refine ⟨fun h => ?_, fun i hi ho => ?_⟩
  · obtain ⟨g, r, hgr⟩ := List.exists_cons_of_ne_nil P.nonempty
    have h0 : gs[0]? = some g := by rw [hgr]; rfl
    have hg : g = [] := by
      rcases P.fits 0 g h0 with h1 | h1 | h1
      · rw [if_pos rfl] at h1; omega
      · exact h1.2.1
      · exact absurd h1.1 (by omega)
    subst hg
    obtain ⟨sec, h1, h2⟩ := hsec 0 [] h0
    refine ⟨h0, sec, h1, ?_⟩
    simp only [if_true, List.flatMap_nil, List.length_nil] at h2
    omega
  · obtain ⟨n, hn, hg⟩ := spread_alone P (by omega) i hi ho
    obtain ⟨sec, h1, h2⟩ := hsec n [i] hg
    refine ⟨n, hn, hg, sec, h1, ?_⟩
    rw [if_neg (by omega)] at h2
    simp only [List.flatMap_cons, List.flatMap_nil, List.append_nil] at h2
    omega

/-- C98 fails for SDTs: with a service that does not fit, a section of more than 1024 bytes is sent. -/
theorem C98_sdt_refuted (p : Profile) (t : Sdt) (ht : t.Fits) (pid : UInt16) (cc : UInt8) (dst : List UInt8) (hp : pid.toNat < 8192)
    (hc : cc.toNat < 16) (i : SdtItem) (hi : i ∈ t.items) (ho : 1020 < 11 + (Sdt.entry i).length) :
    ∃ cc' secs, t.demux p pid cc dst = .ok (cc', dst ++ (stream pid.toNat cc.toNat secs).flatten) ∧
      ∃ sec ∈ secs, sec.length = 15 + (Sdt.entry i).length ∧ 1024 < sec.length := by
  obtain ⟨⟨gs, P, h⟩, -⟩ := C98_sdt_partial p t ht pid cc dst hp hc
  obtain ⟨_, _, _, h3⟩ := sdt_oversized t gs P i hi ho
  exact ⟨_, _, h, h3⟩

/-- C98 fails for NITs: with network descriptors or a transport stream that do not fit, a section of more than 1024 bytes is sent. -/
theorem C98_nit_refuted (p : Profile) (t : Nit) (ht : t.Fits) (pid : UInt16) (cc : UInt8) (dst : List UInt8) (hp : pid.toNat < 8192)
    (hc : cc.toNat < 16) (n : Nat)
    (hn : n = (t.descriptors.flatMap Desc.wire).length ∨ ∃ i ∈ t.items, n = (Nit.entry i).length) (ho : 1020 < 12 + n) :
    ∃ cc' secs, t.demux p pid cc dst = .ok (cc', dst ++ (stream pid.toNat cc.toNat secs).flatten) ∧
      ∃ sec ∈ secs, sec.length = 16 + n ∧ 1024 < sec.length := by
  obtain ⟨⟨gs, P, h⟩, -⟩ := C98_nit_partial p t ht pid cc dst hp hc
  obtain ⟨h1, h2⟩ := nit_oversized t gs P
  refine ⟨_, _, h, ?_⟩
  rcases hn with rfl | ⟨i, hi, rfl⟩
  · obtain ⟨_, sec, h3, h4⟩ := h1 ho
    exact ⟨sec, List.mem_of_getElem? h3, h4⟩
  · obtain ⟨_, _, _, sec, h3, h4⟩ := h2 i hi ho
    exact ⟨sec, List.mem_of_getElem? h3, h4⟩

/-- C98 fails for PMTs: with program descriptors or an elementary stream that do not fit, a section of more than 1024 bytes is sent. -/
theorem C98_pmt_refuted (p : Profile) (t : Pmt) (ht : t.Fits) (pid : UInt16) (cc : UInt8) (dst : List UInt8) (hp : pid.toNat < 8192)
    (hc : cc.toNat < 16) (n : Nat)
    (hn : n = (t.descriptors.flatMap Desc.wire).length ∨ ∃ i ∈ t.items, n = (Pmt.entry i).length) (ho : 1020 < 12 + n) :
    ∃ cc' secs, t.demux p pid cc dst = .ok (cc', dst ++ (stream pid.toNat cc.toNat secs).flatten) ∧
      ∃ sec ∈ secs, sec.length = 16 + n ∧ 1024 < sec.length := by
  obtain ⟨⟨gs, P, h⟩, -⟩ := C98_pmt_partial p t ht pid cc dst hp hc
  obtain ⟨h1, h2⟩ := pmt_oversized t gs P
  refine ⟨_, _, h, ?_⟩
  rcases hn with rfl | ⟨i, hi, rfl⟩
  · obtain ⟨_, sec, h3, h4⟩ := h1 ho
    exact ⟨sec, List.mem_of_getElem? h3, h4⟩
  · obtain ⟨_, _, _, sec, h3, h4⟩ := h2 i hi ho
    exact ⟨sec, List.mem_of_getElem? h3, h4⟩

/-! ## A concrete case: a service with six descriptors of 202 bytes -/

def hugeService : SdtItem := ⟨1, 1, 0, 4, 1, List.replicate 6 (.raw ⟨0x7F, List.replicate 200 7⟩)⟩
def hugeSdt : Sdt := { sampleSdt with items := sampleSdt.items ++ [hugeService] ++ sampleSdt.items }

instance (i : SdtItem) : Decidable (Sdt.ItemFits i) := by unfold Sdt.ItemFits; infer_instance

theorem hugeSdt_fits : hugeSdt.Fits := ⟨by decide, by decide, by decide +kernel⟩

example : 1020 < 11 + (Sdt.entry hugeService).length := by decide +kernel
/-- The two small services before and after it share a section. -/
example : (fill (fun i => (Sdt.entry i).length) 1020 11 11 hugeSdt.items).map List.length = [2, 1, 2] := by decide +kernel
example : ∃ cc' pks s', hugeSdt.demux .debug 0x11 3 [] = .ok (cc', [] ++ pks.flatten) ∧ (∀ pk ∈ pks, IsTsPacket 0x11 pk) ∧
    receive (Sdt.parse .debug) .debug Sdt.default Psi.default pks = .ok (hugeSdt, s') :=
  (C98_sdt_partial .debug hugeSdt hugeSdt_fits 0x11 3 [] (by decide) (by decide)).2 Psi.default

end Mpegts
