import Verif.Spec.Tracks
import Verif.Props.C152
import Verif.Props.C153
import Verif.Props.C69
import Verif.Props.C76

/-! # C154: choosing an audio track by its language, and finding the keys of a scrambled program -/

namespace Mpegts
open Spec Spec.Table

namespace Tracks

theorem codes (x : Track) (h : ∀ l ∈ x.languages, l.1.length = 3 ∧ ∀ c ∈ l.1, 0x20 ≤ c.val.toNat ∧ c.val.toNat < 0x80)
    (ho : ∀ d ∈ x.others, (∀ e, d ≠ .d0A e) ∧ ∀ e, d ≠ .d09 e) :
    (x.entry.descriptors.flatMap asLanguages).mapM (fun l => l.code.toStringR) = .ok (x.languages.map (·.1)) := by
  have h1 : (x.keys.map keyDesc).flatMap asLanguages = [] := by
    rw [List.flatMap_eq_nil_iff]
    intro d hd
    obtain ⟨k, -, rfl⟩ := List.mem_map.1 hd
    rfl
  have h2 : x.others.flatMap asLanguages = [] := by
    rw [List.flatMap_eq_nil_iff]
    intro d hd
    have := (ho d hd).1
    cases d <;> first | rfl | exact absurd rfl (this _)
  rw [Track.entry]
  simp only [List.cons_append, List.flatMap_cons, List.flatMap_append, h1, h2, List.append_nil, asLanguages]
  rw [List.mapM_map]
  refine Pieces.mapM_ok _ _ _ fun l hl => ?_
  exact (LocalTime.letters l.1 (h l hl).1 (h l hl).2).2.1

theorem keys (x : Track) (ho : ∀ d ∈ x.others, (∀ e, d ≠ .d0A e) ∧ ∀ e, d ≠ .d09 e) :
    x.entry.descriptors.filterMap asKey = x.keys.map fun k => (k.1, k.2.1) := by
  have h2 : x.others.filterMap asKey = [] := by
    rw [List.filterMap_eq_nil_iff]
    intro d hd
    have := (ho d hd).2
    cases d <;> first | rfl | exact absurd rfl (this _)
  rw [Track.entry]
  simp only [List.cons_append, List.filterMap_cons, asKey, List.filterMap_append, h2, List.append_nil, List.filterMap_map]
  induction x.keys with
  | nil => rfl
  | cons k r ih => rw [List.filterMap_cons, List.map_cons, ih]; rfl

theorem kind (x : Track) : x.entry.getStreamType = .AUDIO ↔ x.Audio := by
  have h := C69_stream_type x.entry
  have e : Spec.StreamType.kind x.entry.streamType.toNat (x.entry.descriptors.map (·.tag.toNat)) =
      Spec.StreamType.kind x.type.toNat (x.others.map (·.tag.toNat)) := by
    have hk : ∀ (ks : List (UInt16 × UInt16 × List UInt8)) (l : List Nat),
        (((ks.map keyDesc).map (·.tag.toNat) ++ l).findSome? fun t => Spec.StreamType.privateKinds.lookup t) =
          (l.findSome? fun t => Spec.StreamType.privateKinds.lookup t) ∧
        (0x6F ∈ (ks.map keyDesc).map (·.tag.toNat) ++ l ↔ 0x6F ∈ l) := by
      intro ks l
      induction ks with
      | nil => exact ⟨rfl, Iff.rfl⟩
      | cons k r ih =>
        refine ⟨?_, ?_⟩
        · rw [List.map_cons, List.map_cons, List.cons_append, List.findSome?_cons, ih.1]; rfl
        · rw [List.map_cons, List.map_cons, List.cons_append, List.mem_cons, ih.2]
          exact ⟨fun h => h.resolve_left (by show ¬ (0x6F : Nat) = 9; decide), .inr⟩
    have := hk x.keys (x.others.map (·.tag.toNat))
    show Spec.StreamType.kind x.type.toNat (((Desc.d0A _ :: x.keys.map keyDesc) ++ x.others).map (·.tag.toNat)) = _
    rw [List.cons_append, List.map_cons, List.map_append]
    unfold Spec.StreamType.kind
    rw [List.findSome?_cons, this.1]
    have h6 : ((0x6F : Nat) = (Desc.d0A ⟨x.languages.map languageEntry⟩).tag.toNat) ↔ False := by
      show (0x6F : Nat) = 10 ↔ False; decide
    simp only [List.mem_cons, this.2, h6, false_or]
    rfl
  rw [Track.Audio, ← e, ← h]
  cases x.entry.getStreamType <;> simp [StreamType.kind]

theorem audio (ts : List Track) (h : ∀ x ∈ ts, (∀ l ∈ x.languages, l.1.length = 3 ∧ ∀ c ∈ l.1, 0x20 ≤ c.val.toNat ∧ c.val.toNat < 0x80) ∧
    ∀ d ∈ x.others, (∀ e, d ≠ .d0A e) ∧ ∀ e, d ≠ .d09 e) (lang : List Char) :
    audioIn lang (ts.map Track.entry) = .ok ((ts.filter fun x => x.Audio ∧ lang ∈ x.languages.map (·.1)).map (·.pid)) := by
  induction ts with
  | nil => rfl
  | cons x r ih =>
    rw [List.map_cons, audioIn, codes x (h x (by simp)).1 (h x (by simp)).2, ok_bind, ih fun y hy => h y (by simp [hy]), ok_bind, pure_eq_ok]
    simp only [kind]
    rw [List.filter_cons]
    by_cases hb : x.Audio ∧ lang ∈ x.languages.map (·.1)
    · rw [if_pos hb, if_pos (by simpa using hb)]; rfl
    · rw [if_neg hb, if_neg (by simpa using hb)]

theorem allKeys (ts : List Track) (ho : ∀ x ∈ ts, ∀ d ∈ x.others, (∀ e, d ≠ .d0A e) ∧ ∀ e, d ≠ .d09 e) (system : UInt16) :
    ((((ts.map Track.entry).flatMap (·.descriptors)).filterMap asKey).filter (·.1 = system)).map (·.2) =
      ((ts.flatMap (·.keys)).filter (fun k => k.1 = system)).map (·.2.1) := by
  induction ts with
  | nil => rfl
  | cons x r ih =>
    have := ih fun y hy => ho y (by simp [hy])
    simp only [List.map_cons, List.flatMap_cons, List.filterMap_append, List.filter_append, List.map_append] at this ⊢
    rw [this, keys x (ho x (by simp)), List.filter_map, List.map_map]
    rfl

theorem range (t : Pmt) (ts : List Track) (ht : t.items = ts.map Track.entry) (hd : Pmt.ProgramInRange t)
    (hv : t.version.toNat < 32) (hpcr : t.pcr.toNat < 8192) (hr : ∀ x ∈ ts, Pmt.ItemInRange x.entry ∧ x.pid.toNat < 8192)
    (hl : ∀ x ∈ ts, ∀ l ∈ x.languages, l.1.length = 3 ∧ ∀ c ∈ l.1, 0x20 ≤ c.val.toNat ∧ c.val.toNat < 0x80)
    (ho : ∀ x ∈ ts, ∀ d ∈ x.others, d.Exact ∧ (∀ e, d ≠ .d0A e) ∧ ∀ e, d ≠ .d09 e) : t.InRange := by
  refine ⟨hv, hpcr, hd, ?_⟩
  intro i hi
  rw [ht] at hi
  obtain ⟨x, hx, rfl⟩ := List.mem_map.1 hi
  refine ⟨(hr x hx).1, (hr x hx).2, ?_⟩
  intro d hd'
  rw [Track.entry, List.mem_append, List.mem_cons] at hd'
  rcases hd' with (rfl | hd') | hd'
  · intro i hi
    obtain ⟨l, hll, rfl⟩ := List.mem_map.1 hi
    exact (LocalTime.letters l.1 (hl x hx l hll).1 (hl x hx l hll).2).1
  · obtain ⟨k, -, rfl⟩ := List.mem_map.1 hd'
    trivial
  · exact (ho x hx d hd').1

end Tracks

/-- C154, what holds: a PMT without descriptors of the program.  Whoever receives it finds, for every language, the PIDs of exactly the audio
streams that have it, and for every CA system the PIDs of all entitlement control messages for it, in order. -/
theorem C154_tracks_partial (p : Profile) (t : Pmt) (ts : List Track) (ht : t.items = ts.map Track.entry) (hd : t.descriptors = [])
    (hv : t.version.toNat < 32) (hpcr : t.pcr.toNat < 8192) (hr : ∀ x ∈ ts, Pmt.ItemInRange x.entry ∧ x.pid.toNat < 8192)
    (hl : ∀ x ∈ ts, ∀ l ∈ x.languages, l.1.length = 3 ∧ ∀ c ∈ l.1, 0x20 ≤ c.val.toNat ∧ c.val.toNat < 0x80)
    (ho : ∀ x ∈ ts, ∀ d ∈ x.others, d.Exact ∧ (∀ e, d ≠ .d0A e) ∧ ∀ e, d ≠ .d09 e)
    (pid : UInt16) (cc : UInt8) (s : Psi) (hp : pid.toNat < 8192) (hc : cc.toNat < 16) :
    ∃ cc' pks, t.demux p pid cc [] = .ok (cc', pks.flatten) ∧ (∀ pk ∈ pks, IsTsPacket pid.toNat pk) ∧
      ∀ src : Source, Steady src → Carries pid.toNat src.data pks → ∀ buf : List UInt8, 188 ≤ buf.length → ∀ fuel, src.data.length < fuel →
        (∀ lang, findAudio p pid.toNat s lang fuel src buf =
          .ok ((ts.filter fun x => x.Audio ∧ lang ∈ x.languages.map (·.1)).map (·.pid))) ∧
        ∀ system, findKeys p pid.toNat s system fuel src buf =
          .ok ((ts.flatMap (·.keys)).filter (fun k => k.1 = system) |>.map (·.2.1)) := by
  obtain ⟨cc', pks, s', h1, h2, h3⟩ := C76_pmt_partial p t (Tracks.range t ts ht (by simp [Pmt.ProgramInRange, hd, Good]) hv hpcr hr hl ho) hd pid cc s hp hc
  refine ⟨cc', pks, h1, h2, fun src hs hcar buf hb fuel hf => ⟨fun lang => ?_, fun system => ?_⟩⟩
  · rw [findAudio, h3 src hs hcar buf hb fuel hf, ok_bind]
    simp only [ht]
    exact Tracks.audio ts (fun x hx => ⟨hl x hx, fun d hd => (ho x hx d hd).2⟩) lang
  · rw [findKeys, h3 src hs hcar buf hb fuel hf, ok_bind]
    simp only [ht, hd, List.nil_append, pure_eq_ok]
    rw [Tracks.allKeys ts (fun x hx d hd => (ho x hx d hd).2)]

/-- C154 fails where the keys are usually announced, in the descriptors of the program: one conditional access descriptor there (with up to
four bytes of private data) is sent, but no receiver finds anything but the keys of the streams. -/
theorem C154_program_refuted (p : Profile) (t : Pmt) (ts : List Track) (ht : t.items = ts.map Track.entry)
    (system keyPid : UInt16) (priv : List UInt8) (hd : t.descriptors = [.d09 ⟨system, keyPid, priv⟩]) (hk : keyPid.toNat < 8192) (hpriv : priv.length ≤ 4)
    (hv : t.version.toNat < 32) (hpcr : t.pcr.toNat < 8192) (hr : ∀ x ∈ ts, Pmt.ItemInRange x.entry ∧ x.pid.toNat < 8192)
    (hl : ∀ x ∈ ts, ∀ l ∈ x.languages, l.1.length = 3 ∧ ∀ c ∈ l.1, 0x20 ≤ c.val.toNat ∧ c.val.toNat < 0x80)
    (ho : ∀ x ∈ ts, ∀ d ∈ x.others, d.Exact ∧ (∀ e, d ≠ .d0A e) ∧ ∀ e, d ≠ .d09 e)
    (pid : UInt16) (cc : UInt8) (s : Psi) (hp : pid.toNat < 8192) (hc : cc.toNat < 16) :
    ∃ cc' pks, t.demux p pid cc [] = .ok (cc', pks.flatten) ∧ (∀ pk ∈ pks, IsTsPacket pid.toNat pk) ∧
      ∀ src : Source, Steady src → Carries pid.toNat src.data pks → ∀ buf : List UInt8, 188 ≤ buf.length → ∀ fuel, src.data.length < fuel →
        ∀ any, findKeys p pid.toNat s any fuel src buf = .ok ((ts.flatMap (·.keys)).filter (fun k => k.1 = any) |>.map (·.2.1)) := by
  obtain ⟨cc', pks, h1, h2, h3⟩ := C76_pmt_received_partial p t (Tracks.range t ts ht (by
    rw [Pmt.ProgramInRange, hd]
    refine ⟨?_, ?_⟩
    · intro d h
      rw [List.mem_singleton] at h
      subst h
      exact ⟨⟨hk, by show 4 + priv.length ≤ 255; omega⟩, by simp [Desc.HasItems]⟩
    · simp only [List.flatMap_cons, List.flatMap_nil, List.append_nil, Desc.wire, Descriptor.conditionalAccess, Spec.Descriptor.descriptor, beBytes,
        List.length_append, List.length_cons, List.length_nil]
      omega) hv hpcr hr hl ho) pid cc s hp hc
  have hm : Pmt.misread p t = .ok [] := by
    rw [Pmt.misread, frames_truncated]
    · rfl
    · obtain ⟨rest, hw, hn⟩ : ∃ rest, t.descriptors.flatMap Desc.wire = 9 :: rest ∧ rest.length = 5 + priv.length := by
        rw [hd, List.flatMap_cons, List.flatMap_nil, List.append_nil, Desc.wire, Descriptor.conditionalAccess, Spec.Descriptor.descriptor]
        refine ⟨_, rfl, ?_⟩
        simp only [beBytes, List.length_append, List.length_cons, List.length_nil]
        omega
      rw [hw, Pmt.shifted, show (9 :: rest : List UInt8).length = 4 + priv.length + 2 by rw [List.length_cons]; omega,
        List.take_succ_cons, List.take_succ_cons]
      exact .inr ⟨_, 9, _, rfl, by
        rw [List.length_take]
        show min (4 + priv.length) rest.length < 9
        omega⟩
  refine ⟨cc', pks, h1, h2, fun src hs hcar buf hb fuel hf any => ?_⟩
  obtain ⟨s', h4⟩ := (h3 src hs hcar buf hb fuel hf).1 [] hm
  rw [findKeys, h4, ok_bind]
  simp only [ht, List.nil_append, pure_eq_ok]
  rw [Tracks.allKeys ts (fun x hx d hd => (ho x hx d hd).2)]

/-- A program with two audio streams, MPEG and AC-3, in English and in two languages, and a video stream; all are scrambled. -/
def trackVideo : Track := ⟨0x100, 0x02, [], [(0x0500, 0x1F0, [1, 2])], []⟩
def trackEnglish : Track := ⟨0x101, 0x03, [("eng".toList, 0)], [(0x0500, 0x1F1, []), (0x0B00, 0x1F2, [])], []⟩
def trackBoth : Track := ⟨0x102, 0x06, [("deu".toList, 0), ("eng".toList, 3)], [], [.raw ⟨0x6A, [0]⟩]⟩
def tracks : List Track := [trackVideo, trackEnglish, trackBoth]

theorem tracks_ok : (∀ x ∈ tracks, Pmt.ItemInRange x.entry ∧ x.pid.toNat < 8192) ∧
    (∀ x ∈ tracks, ∀ l ∈ x.languages, l.1.length = 3 ∧ ∀ c ∈ l.1, 0x20 ≤ c.val.toNat ∧ c.val.toNat < 0x80) ∧
    (∀ x ∈ tracks, ∀ d ∈ x.others, d.Exact ∧ (∀ e, d ≠ .d0A e) ∧ ∀ e, d ≠ .d09 e) := by
  refine ⟨?_, by decide, ?_⟩
  · intro x hx
    simp only [tracks, List.mem_cons, List.not_mem_nil, or_false] at hx
    rcases hx with rfl | rfl | rfl
    all_goals
      refine ⟨⟨?_, by decide +kernel⟩, by decide⟩
      intro d hd
      simp only [Track.entry, trackVideo, trackEnglish, trackBoth, List.map_cons, List.map_nil, List.cons_append, List.nil_append,
        List.mem_cons, List.not_mem_nil, or_false] at hd
      rcases hd with rfl | rfl | rfl <;> simp only [keyDesc, Desc.InRange, Desc.HasItems] <;> decide +kernel
  · intro x hx
    simp only [tracks, List.mem_cons, List.not_mem_nil, or_false] at hx
    rcases hx with rfl | rfl | rfl
    · simp [trackVideo]
    · simp [trackEnglish]
    · intro d hd
      simp only [trackBoth, List.mem_cons, List.not_mem_nil, or_false] at hd
      subst hd
      exact ⟨by simp only [Desc.Exact]; decide, by simp, by simp⟩

example (p : Profile) : ∃ cc' pks, Pmt.demux p ⟨1, 1, 0x100, [], tracks.map Track.entry⟩ 0x20 0 [] = .ok (cc', pks.flatten) ∧
    ∀ src : Source, Steady src → Carries 0x20 src.data pks → ∀ buf : List UInt8, 188 ≤ buf.length → ∀ fuel, src.data.length < fuel →
      findAudio p 0x20 Psi.default "eng".toList fuel src buf = .ok [0x101, 0x102] ∧
      findAudio p 0x20 Psi.default "deu".toList fuel src buf = .ok [0x102] ∧
      findKeys p 0x20 Psi.default 0x0500 fuel src buf = .ok [0x1F0, 0x1F1] := by
  obtain ⟨h1, h2, h3⟩ := tracks_ok
  obtain ⟨cc', pks, a, -, b⟩ := C154_tracks_partial p ⟨1, 1, 0x100, [], tracks.map Track.entry⟩ tracks rfl rfl (by decide) (by decide) h1 h2 h3
    0x20 0 Psi.default (by decide) (by decide)
  exact ⟨cc', pks, a, fun src hs hc buf hb fuel hf =>
    ⟨((b src hs hc buf hb fuel hf).1 _).trans (congrArg Except.ok (by decide)),
      ((b src hs hc buf hb fuel hf).1 _).trans (congrArg Except.ok (by decide)),
      ((b src hs hc buf hb fuel hf).2 _).trans (congrArg Except.ok (by decide))⟩⟩

/-- The same with the keys of CA system 0x1800 announced for the whole program: nothing is found. -/
example (p : Profile) : ∃ cc' pks, Pmt.demux p ⟨1, 1, 0x100, [.d09 ⟨0x1800, 0x1F5, []⟩], tracks.map Track.entry⟩ 0x20 0 [] = .ok (cc', pks.flatten) ∧
    ∀ src : Source, Steady src → Carries 0x20 src.data pks → ∀ buf : List UInt8, 188 ≤ buf.length → ∀ fuel, src.data.length < fuel →
      findKeys p 0x20 Psi.default 0x1800 fuel src buf = .ok [] := by
  obtain ⟨h1, h2, h3⟩ := tracks_ok
  obtain ⟨cc', pks, a, -, b⟩ := C154_program_refuted p ⟨1, 1, 0x100, [.d09 ⟨0x1800, 0x1F5, []⟩], tracks.map Track.entry⟩ tracks rfl 0x1800 0x1F5 [] rfl
    (by decide) (by decide) (by decide) (by decide) h1 h2 h3 0x20 0 Psi.default (by decide) (by decide)
  exact ⟨cc', pks, a, fun src hs hc buf hb fuel hf => (b src hs hc buf hb fuel hf _).trans (congrArg Except.ok (by decide))⟩

end Mpegts
