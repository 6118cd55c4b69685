import Verif.Props.C101
import Verif.Props.C103Debug
import Verif.Props.C106
import Verif.Props.C107
import Verif.Props.C108
import Verif.Props.C109
import Verif.Props.C110
import Verif.Props.C112
import Verif.Examples.C87_C99

/-! # Concrete cases for C100 to C112

Each theorem with hypotheses is applied to values that meet them. -/

namespace Mpegts.Examples
open Spec Table

example := Eit.C100_wire_partial .debug (sampleDays 0x50) (by decide) (by decide +kernel) (by decide +kernel) 18 3 [1] (by decide) (by decide)
example := Eit.C100_delivery_partial .debug (sampleDays 0x60) (by decide) (by decide +kernel) sampleDays_inRange (fun h => sampleDays_noOverflow h.2) 18 3 [1] (held [1, 2])
  (by decide) (by decide)

/-- A counter of 30. -/
example := C101_counter ⟨List.replicate 200 0x11, 200, 0x12, 0x1E⟩ [1] (by decide) (by rw [List.length_replicate]) (by decide)
example := C101_spill_refuted sampleWide [1] (by decide) (by decide +kernel)

example := Eit.C105_schedule_partial .debug giantSchedule (by decide) (by decide) (fun h => h.2.elim giantSchedule_accepted giantSchedule_fine) 18 3 [1]
  (by decide) (by decide)
example := Sdt.C105_sdt_partial .debug { Sdt.default with items := [⟨1, 1, 0, 4, 1, giantDescriptors⟩] }
  (by simp only [List.mem_singleton, forall_eq]; exact ⟨by decide, by decide, by decide, by decide, giant_good⟩) 17 3 [1] (by decide) (by decide)
example := Pmt.C105_pmt_partial .debug { Pmt.default with items := [⟨0x1B, 0x100, giantDescriptors⟩] } (by decide +kernel)
  (by simp only [List.mem_singleton, forall_eq]; exact giant_good) 0x100 3 [1] (by decide) (by decide)
example := Nit.C105_nit_partial .debug { Nit.default with descriptors := giantDescriptors } giant_good (by simp [Nit.default]) 16 3 [1] (by decide) (by decide)
example := Tot.C105_tot_partial .debug ⟨1700000000, giantDescriptors⟩ time_ok giant_good 20 3 [1] (by decide) (by decide)
example := Eit.C105_eit_partial .debug { Eit.default with tableId := 0x4E, items := [⟨1, 1700000000, 3600, 4, 0, giantDescriptors⟩] } (.inl rfl)
  (by simp only [List.mem_singleton, forall_eq]; exact ⟨time_ok, by decide, by decide, by decide, giant_good⟩) 18 3 [1] (by decide) (by decide)

/-- A name that is not read back as it is. -/
example := Sdt.C106_sdt .debug { sampleSdt with items := [⟨1, 1, 0, 4, 1, [.d40 ⟨⟨0, [0x01, 0x41]⟩⟩]⟩] } (by decide) (by decide) (by decide +kernel) 17 3 [1] (held [1, 2])
  (by decide) (by decide)
example := Nit.C106_nit .debug sampleNit (.inl rfl) (by decide) (by decide +kernel) (by decide +kernel) 16 3 [1] (held [1, 2]) (by decide) (by decide)
example := Pmt.C106_pmt .debug samplePmt2 (by decide) (by decide) (by decide +kernel) (by decide +kernel) 0x100 3 [1] (held [1, 2]) (by decide) (by decide)
example := Tot.C106_tot .debug easternTot ⟨5, []⟩ easternTot_inRange rfl 20 3 [1] (held [1, 2]) (by decide) (by decide)
example := Eit.C106_eit_schedule .debug sampleSchedule sampleSchedule_ok (by decide) (fun i hi => (sampleSchedule_inRange.items i hi).1) 18 3 [1] (held [1, 2])
  (by decide) (by decide)
example := Eit.C106_eit_pf .debug extendedEit (by decide) (by decide) (by decide +kernel) (by decide) 18 3 [1] (held [1, 2]) (by decide) (by decide)

theorem tables_ok : ∀ x ∈ [Spec.AnyTable.sdt sampleSdt, .eit sampleEit, .tdt ⟨1700000000⟩, .eit sampleSchedule], TableOk x := by
  intro x hx
  simp only [List.mem_cons, List.not_mem_nil, or_false] at hx
  rcases hx with rfl | rfl | rfl | rfl
  · exact sampleSdt_inRange
  · exact ⟨sampleEit_inRange, .inl rfl⟩
  · exact time_ok
  · exact ⟨sampleSchedule_inRange, .inr (.inr sampleSchedule_ok)⟩
example := C107_shared_pid .debug _ tables_ok 17 3 [1] (by decide) (by decide)
example := C107_actual_other .debug sampleSdt { sampleSdt with tableId := 0x46 } sampleSdt_inRange
  ⟨.inr rfl, sampleSdt_inRange.version, sampleSdt_inRange.items⟩ 17 3 [1] (held [1, 2]) (by decide) (by decide)
example := C107_clock .debug ⟨1700000000⟩ ⟨1700000000⟩ sampleTot time_ok time_ok sampleTot_inRange (by decide +kernel) 3 [1] (held [1, 2]) (by decide)

theorem programs_ok : ∀ x ∈ samplePrograms, ProgramOk x := by
  intro x hx
  simp only [samplePrograms, List.mem_cons, List.not_mem_nil, or_false] at hx
  rcases hx with rfl | rfl
  · exact ⟨samplePmt_inRange, by decide, by decide⟩
  · exact ⟨samplePmt2_inRange, by decide, by decide⟩
example := C108_discover .debug sampleProgramPat samplePrograms (by decide) rfl (by decide) programs_ok
abbrev plainPmt : Pmt := { samplePmt2 with descriptors := [] }
theorem plainPmt_inRange : plainPmt.InRange := ⟨samplePmt2_inRange.1, samplePmt2_inRange.2, by decide +kernel, samplePmt2_inRange.items⟩
example := C108_shared_pid_refuted .debug { sampleProgramPat with items := [⟨plainPmt.pnr, 0x100⟩, ⟨plainPmt.pnr + 1, 0x100⟩] } 0x100 plainPmt
  { plainPmt with pnr := plainPmt.pnr + 1 } (by decide) rfl ⟨plainPmt_inRange, by decide, by decide⟩
  ⟨⟨plainPmt_inRange.1, plainPmt_inRange.2, plainPmt_inRange.3, plainPmt_inRange.4⟩, by decide, by decide⟩ rfl rfl
theorem home_ok : ∀ x ∈ [((0x11 : UInt16), Spec.AnyTable.sdt sampleSdt), (0x12, .eit sampleEit), (0x14, .tdt ⟨1700000000⟩)], TableOk x.2 ∧ x.2.home x.1 := by
  intro x hx
  simp only [List.mem_cons, List.not_mem_nil, or_false] at hx
  rcases hx with rfl | rfl | rfl
  · exact ⟨sampleSdt_inRange, rfl⟩
  · exact ⟨⟨sampleEit_inRange, .inl rfl⟩, rfl⟩
  · exact ⟨time_ok, rfl⟩
example := C109_multiplex .debug [((0x11 : UInt16), Spec.AnyTable.sdt sampleSdt), (0x12, .eit sampleEit), (0x14, .tdt ⟨1700000000⟩)]
  (fun x hx => ⟨(home_ok x hx).1, by revert x; decide⟩) (fun q => if q = 0x11 then 15 else 3) (fun q => by split <;> decide) [1]
example := C109_standard_pids .debug _ home_ok (fun q => if q = 0x11 then 15 else 3) (fun q => by split <;> decide) [1]
/-- A time that is not in range. -/
example := Tdt.C110_tdt .debug ⟨0xFFFFFFFFFFFFFFFF⟩ 20 3 [1] (by decide) (by decide)

/-! Sections of another sender, with reserved bits of its own. -/

abbrev foreignPat : Foreign.Pat := ⟨⟨0x00, 0b1000, 0x1234, 0b01, 9, 1, 3, 7⟩, [⟨1, 0b101, 8191⟩, ⟨2, 0, 100⟩]⟩
theorem foreignPat_ok : foreignPat.Ok :=
  ⟨⟨by decide, by decide, by decide, by decide, by decide, by decide, by decide, by decide⟩, by decide,
    fun x hx => by
      simp only [List.mem_cons, List.not_mem_nil, or_false] at hx
      rcases hx with rfl | rfl <;> exact ⟨by decide, by decide, by decide⟩, by decide⟩
abbrev foreignNit : Foreign.Nit := ⟨⟨0x41, 0b1000, 0x1234, 0b01, 9, 1, 3, 7⟩, 0b0101, [0x90, 1, 2, 0x52, 5], 0b1010, [⟨1, 2, 0b0110, [0x90, 1, 2]⟩, ⟨3, 4, 0, []⟩]⟩
theorem foreignNit_ok : foreignNit.Ok :=
  ⟨⟨by decide, by decide, by decide, by decide, by decide, by decide, by decide, by decide⟩, by decide, by decide, by decide,
    fun x hx => by
      simp only [List.mem_cons, List.not_mem_nil, or_false] at hx
      rcases hx with rfl | rfl <;> exact ⟨by decide, by decide, by decide⟩, by decide⟩
theorem plainForeignPmt_ok : Foreign.Pmt.Ok { foreignPmt with descs := [] } :=
  ⟨foreignPmt_ok.head, foreignPmt_ok.id, foreignPmt_ok.reserved, foreignPmt_ok.pcr, foreignPmt_ok.reserved2, foreignPmt_ok.streams, by decide⟩
example := Pat.C111_pat .debug Pat.default [foreignPat, foreignPat] (by simp [foreignPat_ok]) 0 5 (by decide) (held [1, 2])
example := Nit.C111_nit .debug Nit.default [foreignNit, foreignNit] (by simp [foreignNit_ok]) 16 5 (by decide) (held [1, 2])
example := Pmt.C111_pmt_partial .debug Pmt.default [{ foreignPmt with descs := [] }] (by simp [plainForeignPmt_ok]) (by simp) 0x100 5 (by decide) (held [1, 2])
example := Eit.C111_eit .debug Eit.default [foreignEit, foreignEit] (by simp [foreignEit_ok]) 18 5 (by decide) (held [1, 2])
example := Tdt.C111_tdt .debug ⟨5⟩ [⟨0b1010, 1700000000⟩] (by simpa using ⟨by decide, by unfold unixEpochMjd; decide⟩) 20 5 (by decide) (held [1, 2])
example := Tot.C111_tot .debug ⟨5, []⟩ [⟨0b1010, 1700000000, 0b0101, [0x90, 1, 2]⟩]
  (by simpa using ⟨by decide, by unfold unixEpochMjd; decide, by decide, by decide⟩) 20 5 (by decide) (held [1, 2])
example := Pat.C112_pat_refuted .debug Pat.default foreignPat foreignPat_ok 0 5 (by decide) (held [1, 2])
example := Nit.C112_nit_refuted .debug Nit.default foreignNit foreignNit_ok 16 5 (by decide) (held [1, 2])
example := Eit.C112_eit_refuted .debug Eit.default foreignEit foreignEit_ok 18 5 (by decide) (held [1, 2])
example := Pmt.C112_pmt_refuted .debug Pmt.default foreignPmt foreignPmt_ok 0x100 5 (by decide) (held [1, 2])

end Mpegts.Examples
