import Verif.Props.Pat
import Verif.Props.Pmt
import Verif.Props.Sdt
import Verif.Props.Nit
import Verif.Props.Tdt
import Verif.Props.Eit
import Verif.Props.EitSchedule
import Verif.Props.C55Exact
import Verif.Props.C66Release

/-! # Concrete cases for C53 to C67

Each theorem with hypotheses is applied to values that meet them. -/

namespace Mpegts.Examples
open Spec Table

/-- A section as the reassembler holds it. -/
abbrev held (b : List UInt8) : Psi := ⟨b, b.length, 17, 5⟩
/-- The same with another tenth byte. -/
abbrev broken (b : List UInt8) : Psi := ⟨b.set 9 0x5A, b.length, 17, 5⟩

abbrev patSection : List UInt8 := samplePat.wire samplePat.items
example := Pat.C54_wire .debug samplePat 0 3 [1] (by decide) (by decide)
example := Pat.C65_pat .debug samplePat (broken patSection) (.inr (by decide +kernel)) (by unfold Pat.Accepts; decide +kernel)
example := Pat.C66_pat .debug samplePat (held patSection) (by unfold Pat.Accepts; decide +kernel)
example := (Pat.C67_pat .debug samplePat ⟨[], 12, 0, 0⟩).1 (by decide)
example := Pat.C53_overflow .debug { samplePat with items := List.replicate 300 ⟨1, 0x1FFE⟩ } 0 3 [1] (held [1, 2]) (by decide) (by decide) (by decide)
  (by intro i hi; rw [List.eq_of_mem_replicate hi]; decide)

abbrev pmtSection : List UInt8 := (samplePmt2.wire [samplePmt2.items]).headD []
example := Pmt.C55_wire .debug samplePmt2 samplePmt2_inRange.program (fun i hi => (samplePmt2_inRange.items i hi).1) 0x100 3 [1] (by decide) (by decide)
example := Pmt.C65_pmt .debug samplePmt (broken pmtSection) (.inr (by decide +kernel)) (by unfold Pmt.Accepts; decide +kernel)
example := Pmt.C66_pmt .debug samplePmt (held pmtSection) (by unfold Pmt.Accepts; decide +kernel) (by decide +kernel)
example := Pmt.C55_received_partial .debug samplePmt2 samplePmt2_inRange 0x100 3 [1] (held [1, 2]) (by decide) (by decide)
example := Pmt.C55_exact_refuted .debug samplePmt2 samplePmt2_inRange 0x100 3 [1] (held [1, 2]) (by decide) (by decide)

abbrev sdtSection : List UInt8 := (sampleSdt.wire [sampleSdt.items]).headD []
example := Sdt.C57_wire .debug bigSdt (fun i hi => (bigSdt_inRange.items i hi).1) 17 3 [1] (by decide) (by decide)
example := Sdt.C65_sdt .debug sampleSdt (broken sdtSection) (.inr (by decide +kernel)) (by unfold Sdt.Accepts; decide +kernel)
example := Sdt.C66_sdt .debug sampleSdt (held sdtSection) (by unfold Sdt.Accepts; decide +kernel)
example := Sdt.C57_round_trip .debug bigSdt bigSdt_inRange 17 3 [1] (held [1, 2]) (by decide) (by decide)

abbrev nitSection : List UInt8 :=
  (sampleNit.wire [[⟨1, 2, [.d41 ⟨[⟨1, 2⟩, ⟨0xFFFF, 0xFF⟩]⟩]⟩, ⟨0xFFFF, 0x8000, []⟩]]).headD []
example := Nit.C56_wire .debug bigNit bigNit_inRange.network.1 (fun i hi => (bigNit_inRange.items i hi).1) 17 3 [1] (by decide) (by decide)
example := Nit.C65_nit .debug sampleNit (broken nitSection) (.inr (by decide +kernel)) (by unfold Nit.Accepts; decide +kernel)
example := Nit.C66_nit .debug sampleNit (held nitSection) (by unfold Nit.Accepts; decide +kernel) (by decide +kernel)
example := Nit.C56_round_trip .debug bigNit bigNit_inRange 17 3 [1] (held [1, 2]) (by decide) (by decide)

theorem time_ok : TimeInRange 1700000000 := by unfold TimeInRange unixEpochMjd; decide
theorem sampleTot_inRange : sampleTot.InRange := ⟨time_ok, by decide +kernel, by decide +kernel⟩
example := Tdt.C61_wire .debug ⟨1700000000⟩ time_ok 20 3 [1] (by decide) (by decide)
example := Tdt.C65_tdt .debug ⟨5⟩ ⟨[0x73, 1], 8, 20, 5⟩ (.inr ⟨0x73, rfl, by decide⟩)
example := Tdt.C66_tdt .debug ⟨5⟩ (held (Table.tdt 1700000000)) (by unfold Tdt.Accepts; decide +kernel) (by decide +kernel) (by decide +kernel) (by decide +kernel)
example := Tdt.C67_tdt_refuted .release ⟨5⟩ 4 (by decide) 1700000000
example := Tdt.C61_round_trip .debug ⟨1700000000⟩ ⟨5⟩ time_ok 20 3 [1] (held [1, 2]) (by decide) (by decide)
/-- A date before 1970 and digits that are not decimal. -/
example := C66_tdt_release ⟨5⟩ (held [0x70, 0x70, 5, 0x10, 0x00, 0xAB, 0x59, 0xFF]) (by unfold Tdt.Accepts; decide +kernel) (by decide)
example := Tot.C62_wire .debug sampleTot sampleTot_inRange 20 3 [1] (by decide) (by decide)
example := Tot.C65_tot .debug sampleTot (broken sampleTot.wire) (.inr (by decide +kernel)) (by unfold Tot.Accepts; decide +kernel)
example := Tot.C66_tot .debug sampleTot (held sampleTot.wire) (by unfold Tot.Accepts; decide +kernel) (by decide +kernel) (by decide +kernel) (by decide +kernel)
example := Tot.C62_round_trip_partial .debug sampleTot ⟨5, []⟩ sampleTot_inRange (by decide +kernel) rfl 20 3 [1] (held [1, 2]) (by decide) (by decide)
example := C66_tot_release ⟨5, []⟩ (held (complete [0x73, 0x70, 0, 0x10, 0x00, 0xAB, 0x59, 0xFF, 0xF0, 0])) (by unfold Tot.Accepts; decide +kernel)
  (by decide +kernel)

abbrev eitSection : List UInt8 := sampleEit.wirePf.headD []
example := Eit.C58_wire .debug sampleEit (.inl rfl) (fun i hi => (sampleEit_inRange.items i hi).1) 18 3 [1] (by decide) (by decide)
example := Eit.C58_empty .debug { sampleEit with items := [] } rfl 18 3 [1]
example := Eit.C58_duration_refuted .debug ⟨1, 1700000000, 90000, 4, 1, [.d52 ⟨7⟩]⟩ time_ok (by decide) (by decide) (by decide +kernel) (by decide +kernel)
  (by decide) (by decide)
example := Eit.C65_eit .debug sampleEit (broken eitSection) (.inr (by decide +kernel)) (by unfold Eit.Accepts; decide +kernel)
example := Eit.C66_eit .debug sampleEit (held eitSection) (by unfold Eit.Accepts; decide +kernel)
example := Eit.C66_eit_event .debug [0, 1, 0xEB, 0x66, 0x22, 0x13, 0x20, 0x01, 0x00, 0x00, 0x90, 0] (by decide) (by decide) (by decide)
example := Eit.C60_wire_partial .debug sampleSchedule sampleSchedule_ok 18 3 [1] (by decide) (by decide)
example := Eit.C59_order_refuted { sampleSchedule with items := [⟨1, 1700000000, 3600, 4, 1, []⟩, ⟨2, 1690000000, 3600, 4, 1, []⟩] } (by decide) (by decide)
  (by decide +kernel) 18 3 [1]

end Mpegts.Examples
