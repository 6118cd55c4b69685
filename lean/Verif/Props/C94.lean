import Verif.Props.Pat
import Verif.Props.Pmt
import Verif.Props.Nit
import Verif.Props.Sdt
import Verif.Props.Eit
import Verif.Props.Tdt

/-! # C94: tables made from a section with `from(&psi)` -/

namespace Mpegts
open Spec Spec.Table

/-- C94: a fresh object of every kind has all numbers zero and no entries; the reassembler holds nothing. -/
theorem C94_fresh :
    Pat.default = { version := 0, tsid := 0, items := [] } ∧
    Pmt.default = { version := 0, pnr := 0, pcr := 0, descriptors := [], items := [] } ∧
    Nit.default = { tableId := 0, version := 0, networkId := 0, descriptors := [], items := [] } ∧
    Sdt.default = { tableId := 0, version := 0, tsid := 0, onid := 0, items := [] } ∧
    Eit.default = { tableId := 0, version := 0, pnr := 0, tsid := 0, onid := 0, items := [] } ∧
    Tdt.default = { time := 0 } ∧
    Tot.default = { time := 0, descriptors := [] } ∧
    Psi.default = { buffer := [], size := 0, pid := 0, cc := 0 } ∧
    StringDVB.default = { codepage := 0, data := [] } := ⟨rfl, rfl, rfl, rfl, rfl, rfl, rfl, rfl, rfl⟩

/-- C94 for the PAT. -/
theorem C94_pat (p : Profile) (psi : Psi) :
    (Pat.Accepts psi → Pat.ofPsi p psi = .ok
      { version := UInt8.ofNat (field psi.buffer 5 1 / 2 % 32)
        tsid := UInt16.ofNat (field psi.buffer 3 2)
        items := (chunks 4 ((psi.buffer.take (psi.size - 4)).drop 8)).map fun c =>
          ⟨UInt16.ofNat (field c 0 2), UInt16.ofNat (field c 2 2 % 8192)⟩ }) ∧
    (¬ Pat.Accepts psi → psi.size < 12 ∨ psi.buffer ≠ [] → Pat.ofPsi p psi = .ok { version := 0, tsid := 0, items := [] }) := by
  refine ⟨fun h => ?_, fun h hb => Pat.C65_pat p _ psi hb h⟩
  rw [Pat.ofPsi, Pat.C66_pat p _ psi h]; rfl

/-- C94 for the PMT. -/
theorem C94_pmt (p : Profile) (psi : Psi) :
    (Pmt.Accepts psi → 12 + Pmt.programLength psi ≤ psi.size - 4 → Pmt.ofPsi p psi = (do
      let ds ← (Descriptor.frames (Pmt.programLoop psi)).mapM (Desc.parse p)
      let items ← (entries 5 (Pmt.itemLoop psi)).mapM (Pmt.readItem p)
      .ok { version := UInt8.ofNat (field psi.buffer 5 1 / 2 % 32), pnr := UInt16.ofNat (field psi.buffer 3 2),
            pcr := UInt16.ofNat (field psi.buffer 8 2 % 8192), descriptors := ds, items := items })) ∧
    (¬ Pmt.Accepts psi → psi.size < 16 ∨ psi.buffer ≠ [] →
      Pmt.ofPsi p psi = .ok { version := 0, pnr := 0, pcr := 0, descriptors := [], items := [] }) := by
  refine ⟨fun h hd => ?_, fun h hb => Pmt.C65_pmt p _ psi hb h⟩
  rw [Pmt.ofPsi, Pmt.C66_pmt p _ psi h hd]; rfl

/-- C94 for the NIT. -/
theorem C94_nit (p : Profile) (psi : Psi) :
    (Nit.Accepts psi → 12 + Nit.networkLength psi ≤ psi.size - 4 → Nit.ofPsi p psi = (do
      let ds ← (Descriptor.frames (Nit.networkLoop psi)).mapM (Desc.parse p)
      let items ← (entries 6 (Nit.itemLoop psi)).mapM (Nit.readItem p)
      .ok { tableId := UInt8.ofNat (field psi.buffer 0 1), version := UInt8.ofNat (field psi.buffer 5 1 / 2 % 32),
            networkId := UInt16.ofNat (field psi.buffer 3 2), descriptors := ds, items := items })) ∧
    (¬ Nit.Accepts psi → psi.size < 16 ∨ psi.buffer ≠ [] →
      Nit.ofPsi p psi = .ok { tableId := 0, version := 0, networkId := 0, descriptors := [], items := [] }) := by
  refine ⟨fun h hd => ?_, fun h hb => Nit.C65_nit p _ psi hb h⟩
  rw [Nit.ofPsi, Nit.C66_nit p _ psi h hd]; rfl

/-- C94 for the SDT. -/
theorem C94_sdt (p : Profile) (psi : Psi) :
    (Sdt.Accepts psi → Sdt.ofPsi p psi =
      (fun items => { tableId := UInt8.ofNat (field psi.buffer 0 1), version := UInt8.ofNat (field psi.buffer 5 1 / 2 % 32),
                      tsid := UInt16.ofNat (field psi.buffer 3 2), onid := UInt16.ofNat (field psi.buffer 8 2), items := items }) <$>
        (entries 5 ((psi.buffer.take (psi.size - 4)).drop 11)).mapM (Sdt.readItem p)) ∧
    (¬ Sdt.Accepts psi → psi.size < 15 ∨ psi.buffer ≠ [] →
      Sdt.ofPsi p psi = .ok { tableId := 0, version := 0, tsid := 0, onid := 0, items := [] }) := by
  refine ⟨fun h => ?_, fun h hb => Sdt.C65_sdt p _ psi hb h⟩
  rw [Sdt.ofPsi, Sdt.C66_sdt p _ psi h]; rfl

/-- C94 for the EIT. -/
theorem C94_eit (p : Profile) (psi : Psi) :
    (Eit.Accepts psi → Eit.ofPsi p psi =
      (fun items => { tableId := UInt8.ofNat (field psi.buffer 0 1), version := UInt8.ofNat (field psi.buffer 5 1 / 2 % 32),
                      pnr := UInt16.ofNat (field psi.buffer 3 2), tsid := UInt16.ofNat (field psi.buffer 8 2),
                      onid := UInt16.ofNat (field psi.buffer 10 2), items := items }) <$>
        (entries 12 ((psi.buffer.take (psi.size - 4)).drop 14)).mapM (Eit.readItem p)) ∧
    (¬ Eit.Accepts psi → psi.size < 18 ∨ psi.buffer ≠ [] →
      Eit.ofPsi p psi = .ok { tableId := 0, version := 0, pnr := 0, tsid := 0, onid := 0, items := [] }) := by
  refine ⟨fun h => ?_, fun h hb => Eit.C65_eit p _ psi hb h⟩
  rw [Eit.ofPsi, Eit.C66_eit p _ psi h]; rfl

/-- C94 for the TDT. -/
theorem C94_tdt (p : Profile) (psi : Psi) :
    (Tdt.Accepts psi → 8 ≤ psi.buffer.length → unixEpochMjd ≤ field psi.buffer 3 2 → ValidBcd 6 (field psi.buffer 5 3) →
      ∃ v : UInt64, Tdt.ofPsi p psi = .ok { time := v } ∧ v.toNat = instant (field psi.buffer 3 2) (field psi.buffer 5 3)) ∧
    ((psi.size ≠ 8 ∨ ∃ b, psi.buffer.head? = some b ∧ b ≠ 0x70) → Tdt.ofPsi p psi = .ok { time := 0 }) :=
  ⟨fun h hl hd hb => Tdt.C66_tdt p _ psi h hl hd hb, fun h => Tdt.C65_tdt p _ psi h⟩

/-- C94 for the TOT. -/
theorem C94_tot (p : Profile) (psi : Psi) :
    (Tot.Accepts psi → unixEpochMjd ≤ field psi.buffer 3 2 → ValidBcd 6 (field psi.buffer 5 3) →
      10 + Tot.loopLength psi ≤ psi.buffer.length →
      ∃ v : UInt64, v.toNat = instant (field psi.buffer 3 2) (field psi.buffer 5 3) ∧ Tot.ofPsi p psi = (do
        let ds ← (Descriptor.frames (Tot.loop psi)).mapM (Desc.parse p)
        .ok { time := v, descriptors := ds })) ∧
    (¬ Tot.Accepts psi → psi.size < 14 ∨ psi.buffer ≠ [] → Tot.ofPsi p psi = .ok { time := 0, descriptors := [] }) := by
  refine ⟨fun h hd hb hl => ?_, fun h hb => Tot.C65_tot p _ psi hb h⟩
  obtain ⟨v, v1, v2⟩ := Tot.C66_tot p Tot.default psi h hd hb hl
  exact ⟨v, v1, v2⟩

/-- A concrete case: the section of a PAT with two programs. -/
example (p : Profile) : Pat.ofPsi p { Psi.default with buffer := samplePat.wire samplePat.items, size := 20 } = .ok samplePat := by
  rw [Pat.ofPsi, Pat.parse_wire p _ samplePat _ samplePat.items rfl (by decide +kernel)]
  decide +kernel

end Mpegts
