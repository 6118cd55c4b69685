import Verif.Examples.C113_C122
import Verif.Props.C156Foreign

/-! # C156 for any sender: a concrete case -/

namespace Mpegts.Examples
open Spec Spec.Table

/-- The section of another service, with an event at the same time. -/
def foreignOther : Foreign.Eit := ⟨⟨0x4E, 0b1011, 8, 0b11, 3, 1, 0, 1⟩, 1, 2, 1, 0x4E, [⟨6, 1700000000, 3600, 4, 0, []⟩]⟩
theorem foreignOther_ok : foreignOther.Ok :=
  ⟨⟨by decide, by decide, by decide, by decide, by decide, by decide, by decide, by decide⟩, by decide, by decide, by decide, by decide, by decide,
    fun x hx => by
      simp only [foreignOther, List.mem_cons, List.not_mem_nil, or_false] at hx
      rcases hx with rfl; exact ⟨by decide, by unfold unixEpochMjd; decide, by decide, by decide, by decide⟩, by decide⟩

/-- An event of 99 hours of service 7, asked for after 98 hours: it is shown, and that of service 8 is not. -/
example : ∃ events, whatIsOnPacked .debug 18 7 1700352800 (held [1, 2]) 1000
      ⟨(stream 18 5 [complete foreignEit.body, complete foreignOther.body]).flatten, []⟩ packetBuffer = .ok events ∧
    events.map (fun i => (i.eventId.toNat, i.start.toNat, i.duration.toNat)) = [(5, 1700000000, 356400)] :=
  (C156_foreign_partial .debug [foreignEit, foreignOther] (by simp [foreignEit_ok, foreignOther_ok]) 18 _ (no_trouble _)
    (carries_stream 18 5 (by decide) [complete foreignEit.body, complete foreignOther.body] (by simp [complete_ne]) (by decide +kernel)) 7 1700352800
    (held [1, 2]) packetBuffer packetBuffer_ok 1000 (by decide +kernel)).1 (fun x hx => by
      have he : eventsIn 7 [foreignEit, foreignOther] = [⟨5, 1700000000, 356400, 4, 0, []⟩] := by decide
      rw [he, List.mem_singleton] at hx
      exact ⟨[], by rw [hx]; decide +kernel⟩)

end Mpegts.Examples
