import Verif.Props.Pmt
import Verif.Props.C38

/-! # C55: exactly which PMTs are given back -/

namespace Mpegts
open Spec
namespace Pmt

/-- C55, exactly: a PMT is given back by its packets if and only if parsing its program descriptors from one byte too early
(the low byte of their length in front, their last byte missing) happens to give these descriptors. -/
theorem C55_exact_refuted (p : Profile) (t : Pmt) (ht : t.InRange) (pid : UInt16) (cc : UInt8) (dst : List UInt8) (s : Psi)
    (hp : pid.toNat < 8192) (hc : cc.toNat < 16) :
    ∃ cc' pks, t.demux p pid cc dst = .ok (cc', dst ++ pks.flatten) ∧ (∀ pk ∈ pks, IsTsPacket pid.toNat pk) ∧
      ((∃ s', receive (Pmt.parse p) p Pmt.default s pks = .ok (t, s')) ↔
        Descriptors.parse p [] ((UInt8.ofNat (t.descriptors.flatMap Desc.wire).length :: t.descriptors.flatMap Desc.wire).dropLast) =
            .ok t.descriptors) := by
  obtain ⟨cc', pks, h1, h2, h3, h4⟩ := C55_received_partial p t ht pid cc dst s hp hc
  have e : Descriptors.parse p []
      ((UInt8.ofNat (t.descriptors.flatMap Desc.wire).length :: t.descriptors.flatMap Desc.wire).dropLast) = misread p t := by
    rw [C37_frames, misread, shifted, List.dropLast_eq_take, List.length_cons, Nat.add_sub_cancel]
    simp only [List.nil_append]
    cases List.mapM (Desc.parse p) (Descriptor.frames
      (List.take (t.descriptors.flatMap Desc.wire).length (UInt8.ofNat (t.descriptors.flatMap Desc.wire).length :: t.descriptors.flatMap Desc.wire))) <;> rfl
  refine ⟨cc', pks, h1, h2, ?_⟩
  rw [e]
  have cases : misread p t = panic ∨ ∃ ds, misread p t = .ok ds := by
    rw [← e]
    have k := C38_loop_partial p [] ((UInt8.ofNat (t.descriptors.flatMap Desc.wire).length :: t.descriptors.flatMap Desc.wire).dropLast)
    by_cases h : ∃ t' n body, t' :: n :: body ∈ Descriptor.frames
        ((UInt8.ofNat (t.descriptors.flatMap Desc.wire).length :: t.descriptors.flatMap Desc.wire).dropLast) ∧ Panics p t' body
    · exact .inl (k.1 h)
    · exact .inr (k.2 fun a b c hm hp => h ⟨a, b, c, hm, hp⟩)
  rcases cases with h | ⟨ds, h⟩
  · rw [h4 h, h]
    constructor
    · rintro ⟨s', h⟩; cases h
    · intro h; cases h
  · obtain ⟨s', hs⟩ := h3 ds h
    rw [hs, h]
    constructor
    · rintro ⟨s'', h⟩
      rw [← congrArg Pmt.descriptors (congrArg Prod.fst (Except.ok.inj h))]
    · intro h
      rw [Except.ok.inj h]
      exact ⟨s', rfl⟩

/-- Such a coincidence exists: three descriptors with tag `7D`, 125 bytes long and filled with `7D` (381 bytes, the low byte of
which is `7D` too).  `C55_refuted` says that there is none with program descriptors of 255 bytes or less. -/
example : ∃ ds : Descriptors, ds ≠ [] ∧ (ds.flatMap Desc.wire).length = 381 ∧ (∀ d ∈ ds, d.InRange ∧ d.Exact ∧ ¬ d.HasItems) ∧
    ∀ p, Descriptors.parse p [] ((UInt8.ofNat (ds.flatMap Desc.wire).length :: ds.flatMap Desc.wire).dropLast) = .ok ds := by
  refine ⟨List.replicate 3 (.raw ⟨0x7D, List.replicate 125 0x7D⟩), by decide, by decide +kernel, ?_, ?_⟩
  · intro d hd
    rw [List.mem_replicate] at hd
    rw [hd.2]
    decide +kernel
  · intro p
    cases p <;> decide +kernel

end Pmt
end Mpegts
