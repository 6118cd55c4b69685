import Verif.Spec.Listen
import Verif.Spec.StreamType
import Verif.Model.Pmt

/-! # Specification: choosing an audio track by its language, and finding the keys of a scrambled program -/

namespace Spec
open Mpegts

/-- An elementary stream: its PID and type, its languages (code and audio type), where the entitlement control messages for it are (CA system, PID,
private data), and anything else that is said about it. -/
structure Track where
  pid : UInt16
  type : UInt8
  languages : List (List Char × UInt8)
  keys : List (UInt16 × UInt16 × List UInt8)
  others : Descriptors

/-- One entry of a language descriptor, as a user of the crate writes it. -/
def languageEntry (l : List Char × UInt8) : Desc0Ai := ⟨StringDVB.fromStr l.1 0, l.2⟩

/-- A conditional access descriptor, as a user of the crate writes it. -/
def keyDesc (k : UInt16 × UInt16 × List UInt8) : Desc := .d09 ⟨k.1, k.2.1, k.2.2⟩

/-- The stream as a user of the crate puts it into a PMT. -/
def Track.entry (x : Track) : PmtItem := ⟨x.type, x.pid, (Desc.d0A ⟨x.languages.map languageEntry⟩ :: x.keys.map keyDesc) ++ x.others⟩

/-- It is an audio stream, by its type or by the tags of its other descriptors. -/
def Track.Audio (x : Track) : Prop := StreamType.kind x.type.toNat (x.others.map (·.tag.toNat)) = .audio

instance (x : Track) : Decidable x.Audio := by unfold Track.Audio; infer_instance

/-- The entries of a language descriptor, if it is one. -/
def asLanguages : Desc → List Desc0Ai
  | .d0A d => d.items
  | _ => []

/-- The CA system and the PID of a conditional access descriptor, if it is one. -/
def asKey : Desc → Option (UInt16 × UInt16)
  | .d09 d => some (d.caid, d.pid)
  | _ => none

/-- The PIDs of the audio streams with an entry for the language. -/
def audioIn (lang : List Char) : List PmtItem → R (List UInt16)
  | [] => pure []
  | i :: r => do
    let codes ← (i.descriptors.flatMap asLanguages).mapM fun l => l.code.toStringR
    let rest ← audioIn lang r
    pure (if i.getStreamType = .AUDIO ∧ lang ∈ codes then i.pid :: rest else rest)

/-- What a user does to find the audio in a language: receive the PMT and look at the languages of all audio streams. -/
def findAudio (p : Profile) (pid : Nat) (s : Psi) (lang : List Char) (fuel : Nat) (src : Source) (buf : List UInt8) : R (List UInt16) := do
  let (t, _) ← listen (Pmt.parse p) p pid Pmt.default s fuel src buf
  audioIn lang t.items

/-- What a user does to find the keys for their CA system: receive the PMT and look at the conditional access descriptors of the program and
of all streams. -/
def findKeys (p : Profile) (pid : Nat) (s : Psi) (system : UInt16) (fuel : Nat) (src : Source) (buf : List UInt8) : R (List UInt16) := do
  let (t, _) ← listen (Pmt.parse p) p pid Pmt.default s fuel src buf
  pure (((t.descriptors ++ t.items.flatMap (·.descriptors)).filterMap asKey |>.filter (·.1 = system)).map (·.2))

end Spec
