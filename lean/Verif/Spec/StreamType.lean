/-! # Specification: kinds of elementary streams (ISO/IEC 13818-1 table 2-34, EN 300 468 table 12) -/

namespace Spec.StreamType

/-- Kinds of streams. -/
inductive Kind where
  | video | audio | data | teletext | subtitles | ait
deriving DecidableEq, Repr

/-- stream_type values of MPEG-1, MPEG-2, MPEG-4, H.264 and H.265 video. -/
def videoTypes : List Nat := [0x01, 0x02, 0x10, 0x1B, 0x24]
/-- stream_type values of MPEG-1, MPEG-2, AAC (ADTS) and AAC (LATM) audio. -/
def audioTypes : List Nat := [0x03, 0x04, 0x0F, 0x11]

/-- Descriptors that tell the kind of a private stream (stream_type 6): teletext, DVB subtitles, AC-3, enhanced AC-3, ATSC AC-3. -/
def privateKinds : List (Nat × Kind) := [(0x56, .teletext), (0x59, .subtitles), (0x6A, .audio), (0x7A, .audio), (0x81, .audio)]

/-- The kind of a stream with this stream_type and descriptors with these tags. -/
def kind (streamType : Nat) (tags : List Nat) : Kind :=
  if streamType ∈ videoTypes then .video
  else if streamType ∈ audioTypes then .audio
  else if streamType = 0x05 ∧ 0x6F ∈ tags then .ait
  else if streamType = 0x06 then (tags.findSome? fun t => privateKinds.lookup t).getD .data
  else .data

example : kind 0x06 [0x0A, 0x59, 0x6A] = .subtitles := by decide
example : kind 0x05 [0x0A, 0x6F] = .ait := by decide

end Spec.StreamType
