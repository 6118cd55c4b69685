import Verif.Props.Pmt
import Verif.Spec.StreamType

/-! # C69: the kind of an elementary stream -/

namespace Mpegts
open Spec Spec.Table

/-- The kind a classification stands for. -/
def StreamType.kind : StreamType → Spec.StreamType.Kind
  | .VIDEO => .video | .AUDIO => .audio | .DATA => .data | .TTX => .teletext | .SUB => .subtitles | .AIT => .ait

theorem streamType05_eq (ds : Descriptors) : (PmtItem.streamType05 ds).kind = if 0x6F ∈ ds.map (·.tag.toNat) then .ait else .data := by
  induction ds with
  | nil => rfl
  | cons d r ih =>
    rw [PmtItem.streamType05]
    have e : d.tag = 0x6F ↔ 0x6F = d.tag.toNat := by rw [← UInt8.toNat_inj]; exact eq_comm
    by_cases h : d.tag = 0x6F
    · rw [if_pos h, List.map_cons, if_pos (by rw [List.mem_cons]; exact .inl (e.1 h))]; rfl
    · rw [if_neg h, ih, List.map_cons]
      simp only [List.mem_cons, mt e.2 h, false_or]

theorem streamType06_eq (ds : Descriptors) : (PmtItem.streamType06 ds).kind =
    ((ds.map (·.tag.toNat)).findSome? fun t => Spec.StreamType.privateKinds.lookup t).getD .data := by
  induction ds with
  | nil => rfl
  | cons d r ih =>
    rw [PmtItem.streamType06, List.map_cons, List.findSome?_cons]
    generalize d.tag = t
    have key : ∀ t : UInt8, Spec.StreamType.privateKinds.lookup t.toNat =
        if t = 0x56 then some .teletext else if t = 0x59 then some .subtitles else if t = 0x6A then some .audio else if t = 0x7A then some .audio
        else if t = 0x81 then some .audio else none := by decide +kernel
    rw [key]
    by_cases h1 : t = 0x56
    · rw [if_pos h1, if_pos h1]; rfl
    · rw [if_neg h1, if_neg h1]
      by_cases h2 : t = 0x59
      · rw [if_pos h2, if_pos h2]; rfl
      · rw [if_neg h2, if_neg h2]
        by_cases h3 : t = 0x6A
        · rw [if_pos h3, if_pos h3]; rfl
        · rw [if_neg h3, if_neg h3]
          by_cases h4 : t = 0x7A
          · rw [if_pos h4, if_pos h4]; rfl
          · rw [if_neg h4, if_neg h4]
            by_cases h5 : t = 0x81
            · rw [if_pos h5, if_pos h5]; rfl
            · rw [if_neg h5, if_neg h5]; exact ih

/-- C69: the classification of a stream is determined by its stream_type and, for private sections and private data, by the tags of its
descriptors: the first that is recognised decides. -/
theorem C69_stream_type (i : PmtItem) : i.getStreamType.kind = Spec.StreamType.kind i.streamType.toNat (i.descriptors.map (·.tag.toNat)) := by
  obtain ⟨st, pid, ds⟩ := i
  simp only [PmtItem.getStreamType]
  have h5 := streamType05_eq ds
  have h6 := streamType06_eq ds
  have hlt := st.toNat_lt
  generalize st.toNat = n at *
  split
  all_goals try (simp [Spec.StreamType.kind, Spec.StreamType.videoTypes, Spec.StreamType.audioTypes, StreamType.kind]; done)
  · rw [h5]; simp [Spec.StreamType.kind, Spec.StreamType.videoTypes, Spec.StreamType.audioTypes]
  · rw [h6]; simp [Spec.StreamType.kind, Spec.StreamType.videoTypes, Spec.StreamType.audioTypes]
  · simp_all [Spec.StreamType.kind, Spec.StreamType.videoTypes, Spec.StreamType.audioTypes, StreamType.kind]

theorem frames_tags (p : Profile) (fs : List (List UInt8)) (hf : ∀ f ∈ fs, f ≠ []) (ds : List Desc) (h : fs.mapM (Desc.parse p) = .ok ds) :
    ds.map (·.tag.toNat) = fs.map (field · 0 1) := by
  induction fs generalizing ds with
  | nil => simp only [List.mapM_nil, pure_eq_ok] at h; cases h; rfl
  | cons f r ih =>
    rw [List.mapM_cons] at h
    cases h1 : Desc.parse p f with
    | error e => rw [h1] at h; cases h
    | ok d =>
      rw [h1, ok_bind] at h
      cases h2 : r.mapM (Desc.parse p) with
      | error e => rw [h2] at h; cases h
      | ok ds' =>
        rw [h2, ok_bind] at h
        cases h
        cases f with
        | nil => exact (hf [] List.mem_cons_self rfl).elim
        | cons t s =>
          rw [List.map_cons, List.map_cons, ih (fun x hx => hf x (List.mem_cons_of_mem _ hx)) ds' h2, C35_tag p t s d h1]
          simp [field, beNat]

/-- C69 from the bytes on: the classification of a stream read from an entry of a PMT is the one its bytes say. -/
theorem C69_from_bytes (p : Profile) (e : List UInt8) (h : 5 ≤ e.length) (i : PmtItem) (hi : PmtItem.parse p e = .ok i) :
    i.getStreamType.kind = Spec.StreamType.kind (field e 0 1) ((Descriptor.frames (e.drop 5)).map (field · 0 1)) := by
  rw [Pmt.item_parse p e h, Pmt.readItem] at hi
  cases hd : (Descriptor.frames (e.drop 5)).mapM (Desc.parse p) with
  | error x => rw [hd] at hi; cases hi
  | ok ds =>
    rw [hd, map_ok] at hi
    cases hi
    rw [C69_stream_type]
    simp only []
    rw [frames_tags p _ (fun f hf e => by obtain ⟨t, n, b, h1, -⟩ := frames_framed _ f hf; rw [e] at h1; cases h1) ds hd, u8_field]

example : (PmtItem.mk 0x06 100 [.d0A ⟨[]⟩, .raw ⟨0x59, []⟩, .raw ⟨0x6A, [1]⟩]).getStreamType = .SUB := by decide
example : (PmtItem.mk 0x1B 100 []).getStreamType = .VIDEO := by decide
example : PmtItem.parse .debug [0x06, 0xE0, 0x64, 0xF0, 3, 0x7A, 1, 0x80] = .ok ⟨0x06, 100, [.raw ⟨0x7A, [0x80]⟩]⟩ := by decide

end Mpegts
