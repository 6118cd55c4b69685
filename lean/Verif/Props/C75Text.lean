import Verif.Lemmas.DebugText
import Verif.Props.C75
import Verif.Props.C69

/-! # C75: the text written for packets, and for readers and multiplexers -/

namespace Mpegts
open Spec Spec.Shown

/-- How the adaptation field that starts with the bytes `len` and `flags` is shown; `rest` is what follows. -/
def adaptationShown (present : Bool) (len flags : UInt8) (rest : List UInt8) : Shown :=
  if present then .record t!"TsAdaptation" ([(t!"length", .num len.toNat)] ++ if len = 0 then [] else
    [(t!"discontinuity", .bool (flagBit flags 7)), (t!"random_access", .bool (flagBit flags 6)), (t!"es_priority", .bool (flagBit flags 5)),
     (t!"PCR_flag", .bool (flagBit flags 4)), (t!"OPCR_flag", .bool (flagBit flags 3)), (t!"splicing_point", .bool (flagBit flags 2)),
     (t!"private_data", .bool (flagBit flags 1)), (t!"af_extension", .bool (flagBit flags 0))] ++
    if flagBit flags 4 then [(t!"pcr", .num (beNat (rest.take 6) / 2 ^ 15 * 300 + beNat (rest.take 6) % 2 ^ 9))] else [])
  else .bool false

theorem adaptationShown_says (f : Fmt) (h : Header) (hv : h.Valid) (len flags : UInt8) (rest : List UInt8) (hl : 6 ≤ rest.length) :
    Says f (Ts.adaptationText f (h.encode ++ len :: flags :: rest)) (adaptationShown h.adaptation len flags rest) := by
  obtain ⟨a1, a2, a3⟩ := C75_adaptation h hv len flags rest hl
  unfold Ts.adaptationText adaptationShown
  cases hb : h.adaptation with
  | false => rw [a1 hb]; exact Says.bool f false
  | true =>
    simp only [if_true]
    by_cases hz : len = 0
    · rw [a2 hb hz, if_pos hz, hz]
      exact Says.struct f (by decide) (.cons (by decide) (Says.num f _) .nil) (by simp)
    · obtain ⟨x, e, s1, s2, s3, s4, s5, s6, s7, s8, s9, s10⟩ := a3 hb hz
      rw [e, if_neg hz, ok_bind]
      simp only [s1, s2, s3, s4, s5, s6, s7, s8]
      cases hp : flagBit flags 4 with
      | false =>
        rw [s9 hp]
        exact Says.struct f (by decide) (.cons (by decide) (Says.num f _) (.cons (by decide) (Says.bool f _) (.cons (by decide) (Says.bool f _)
          (.cons (by decide) (Says.bool f _) (.cons (by decide) (Says.bool f _) (.cons (by decide) (Says.bool f _) (.cons (by decide) (Says.bool f _)
          (.cons (by decide) (Says.bool f _) (.cons (by decide) (Says.bool f _) .nil))))))))) (by simp)
      | true =>
        obtain ⟨v, v1, v2⟩ := s10 hp
        rw [v1]
        simp only [← v2]
        exact Says.struct f (by decide) (.cons (by decide) (Says.num f _) (.cons (by decide) (Says.bool f _) (.cons (by decide) (Says.bool f _)
          (.cons (by decide) (Says.bool f _) (.cons (by decide) (Says.bool f _) (.cons (by decide) (Says.bool f _) (.cons (by decide) (Says.bool f _)
          (.cons (by decide) (Says.bool f _) (.cons (by decide) (Says.bool f _) (.cons (by decide) (Says.num f _) .nil)))))))))) (by simp)

theorem adaptationShown_strings (present : Bool) (len flags : UInt8) (rest : List UInt8) : (adaptationShown present len flags rest).strings = [] := by
  unfold adaptationShown
  cases present with
  | false => rfl
  | true =>
    rw [if_pos rfl]
    split
    · rfl
    · split <;> rfl

/-- C75: the text written for an adaptation field and for a packet, by `{:?}` on one line and by `{:#?}` on several lines. -/
theorem C75_text (f : Fmt) (p : Profile) (h : Header) (hv : h.Valid) (len flags : UInt8) (rest : List UInt8) (hl : 182 ≤ rest.length) :
    Ts.adaptationText f (h.encode ++ len :: flags :: rest) = .ok ((adaptationShown h.adaptation len flags rest).text f.alternate (qOf f)) ∧
    Ts.packetText f p (h.encode ++ len :: flags :: rest) = .ok ((Shown.record t!"TsPacket" [
      (t!"sync", .bool (decide (h.sync = 0x47))), (t!"error", .num (bit h.tei)), (t!"pusi", .bool h.pusi), (t!"pid", .num h.pid),
      (t!"scrambling", .num h.scrambling), (t!"adaptation", adaptationShown h.adaptation len flags rest),
      (t!"payload", .bool h.payload), (t!"cc", .num h.cc)]).text f.alternate (qOf f)) := by
  obtain ⟨d, a, -, -, e, -, g1, g2, g3, g4, g5, -, g7, g8⟩ := C75_packet p h hv (len :: flags :: rest) (by simp; omega)
  have hs := adaptationShown_says f h hv len flags rest (by omega)
  refine ⟨hs.good (by rw [adaptationShown_strings]; simp), ?_⟩
  refine Says.good ?_ (by simp [record, adaptationShown_strings, Shown.bool, Shown.num, Shown.atom])
  unfold Ts.packetText
  rw [e, ok_bind, ← g1, ← g2, ← g3, ← g4, ← g5, ← g7, ← g8]
  exact Says.struct f (by decide) (.cons (by decide) (Says.bool f _) (.cons (by decide) (Says.num f _) (.cons (by decide) (Says.bool f _)
    (.cons (by decide) (Says.num f _) (.cons (by decide) (Says.num f _) (.cons (by decide) hs
    (.cons (by decide) (Says.bool f _) (.cons (by decide) (Says.num f _) .nil)))))))) (by simp)

example : Ts.packetText ⟨false, id⟩ .debug ([0x47, 0x41, 0x00, 0x35, 7, 0x10, 0, 0, 0, 0, 0x7E, 5] ++ List.replicate 176 0xFF) = .ok
    ("TsPacket { sync: true, error: 0, pusi: true, pid: 256, scrambling: 0, adaptation: TsAdaptation { length: 7, discontinuity: false, " ++
     "random_access: false, es_priority: false, PCR_flag: true, OPCR_flag: false, splicing_point: false, private_data: false, " ++
     "af_extension: false, pcr: 5 }, payload: true, cc: 5 }").toList := by decide +kernel

/-- C75: a reader, a drain and a CBR multiplexer are shown by what they read from, and the multiplexer with its state. -/
theorem C75_wrappers {σ : Type} (f : Fmt) (inner : σ → R Text) (shown : σ → Shown) (hi : ∀ s, Says f (inner s) (shown s)) (s : σ)
    (d : TsDrain σ) (c : Cbr σ) :
    Says f (TsReader.debugText f (inner s)) (.record t!"TsReader" [(t!"inner", shown s)]) ∧
    Says f (d.debugText f inner) (.record t!"TsDrain" [(t!"inner", shown d.inner)]) ∧
    Says f (c.debugText f inner) (.record t!"Cbr" [(t!"inner", shown c.inner), (t!"parity", .num c.parity),
      (t!"blocks", .list (c.blocks.map fun b => .record t!"HttpBuffer" [(t!"pos", .num b.pos), (t!"cap", .num b.cap),
        (t!"pcr", .num b.pcr.toNat), (t!"delta", .num b.delta.toNat)])),
      (t!"pid", .num c.pid.toNat), (t!"last_pcr", .num c.lastPcr.toNat)]) := by
  refine ⟨Says.struct f (by decide) (.cons (by decide) (hi s) .nil) (by simp), Says.struct f (by decide) (.cons (by decide) (hi _) .nil) (by simp),
    Says.struct f (by decide) (.cons (by decide) (hi _) (.cons (by decide) (Says.num f _) (.cons (by decide) (Says.list f (SaysItems.map _ _ _ fun b _ => ?_))
      (.cons (by decide) (Says.num f _) (.cons (by decide) (Says.num f _) .nil))))) (by simp)⟩
  exact Says.struct f (by decide) (.cons (by decide) (Says.num f _) (.cons (by decide) (Says.num f _) (.cons (by decide) (Says.num f _)
    (.cons (by decide) (Says.num f _) .nil)))) (by simp)

/-- The name of a class of streams. -/
def kindName : Spec.StreamType.Kind → List Char
  | .video => t!"VIDEO" | .audio => t!"AUDIO" | .data => t!"DATA" | .teletext => t!"TTX" | .subtitles => t!"SUB" | .ait => t!"AIT"

/-- C69: the class of a stream is printed by its name. -/
theorem C69_name (i : PmtItem) :
    i.getStreamType.debugText = kindName (Spec.StreamType.kind i.streamType.toNat (i.descriptors.map (·.tag.toNat))) := by
  rw [← C69_stream_type]
  cases i.getStreamType <;> rfl

/-- C75: what makes formatting a packet panic in a release build (a debug build refuses everything shorter than 188 bytes): fewer than
four bytes; or an adaptation field without its length byte, without its flags, or with a PCR flag and without the six bytes of the PCR. -/
theorem C75_panic (s : List UInt8) : Ts.packetDebug .release s = panic ↔ s.length < 4 ∨ (field s 3 1 / 32 % 2 = 1 ∧
    (s.length < 5 ∨ (field s 4 1 ≠ 0 ∧ (s.length < 6 ∨ (field s 5 1 / 16 % 2 = 1 ∧ s.length < 12))))) := by
  match s with
  | [] => exact ⟨fun _ => .inl (by simp), fun _ => rfl⟩
  | [_] => exact ⟨fun _ => .inl (by simp), fun _ => rfl⟩
  | [_, _] => exact ⟨fun _ => .inl (by simp), fun _ => rfl⟩
  | [_, _, _] => exact ⟨fun _ => .inl (by simp), fun _ => rfl⟩
  | a :: b :: c :: d :: t =>
    have e : Ts.packetDebug .release (a :: b :: c :: d :: t) = panic ↔ Ts.adaptationDebug (a :: b :: c :: d :: t) = panic := by
      cases hx : Ts.adaptationDebug (a :: b :: c :: d :: t) with
      | error e =>
        have : Ts.packetDebug .release (a :: b :: c :: d :: t) = .error e := by
          unfold Ts.packetDebug; simp only [Ts.adaptationNew]; show (Ts.adaptationDebug _ >>= _) = _; rw [hx]; rfl
        rw [this]; constructor <;> (intro h; injection h with h; rw [h])
      | ok x =>
        have : ∃ y, Ts.packetDebug .release (a :: b :: c :: d :: t) = .ok y := by
          refine ⟨?_, ?_⟩
          rotate_left
          · unfold Ts.packetDebug; simp only [Ts.adaptationNew]; show (Ts.adaptationDebug _ >>= _) = _; rw [hx]; rfl
        obtain ⟨y, hy⟩ := this
        rw [hy]; constructor <;> (intro h; cases h)
    have d0 : (d.toNat / 32 % 2 = 1) ↔ ((d &&& 0x20) != 0x00) = true := (by decide +kernel : ∀ d : UInt8, (d.toNat / 32 % 2 = 1) ↔ ((d &&& 0x20) != 0x00) = true) d
    have f3 : field (a :: b :: c :: d :: t) 3 1 = d.toNat := by simp [field, beNat]
    rw [e, f3, d0]
    have hA : Ts.isAdaptation (a :: b :: c :: d :: t) = .ok ((d &&& 0x20) != 0x00) := rfl
    unfold Ts.adaptationDebug
    rw [hA, ok_bind]
    cases hd : ((d &&& 0x20) != 0x00) with
    | false => simp
    | true =>
      simp only [Bool.not_true, Bool.false_eq_true, if_false, true_and]
      match t with
      | [] => exact ⟨fun _ => .inr (.inl (by simp)), fun _ => rfl⟩
      | l :: t =>
        have f4 : field (a :: b :: c :: d :: l :: t) 4 1 = l.toNat := by simp [field, beNat]
        have hS : Ts.getAdaptationSize (a :: b :: c :: d :: l :: t) = .ok l := rfl
        rw [hS, ok_bind, f4]
        by_cases hz : l = 0
        · subst hz; simp
        · have hz' : l.toNat ≠ 0 := fun h => hz (UInt8.toNat_inj.mp h)
          rw [if_neg hz]
          match t with
          | [] => exact ⟨fun _ => .inr (.inr ⟨hz', .inl (by simp)⟩), fun _ => rfl⟩
          | g :: t =>
            have g0 : (g.toNat / 16 % 2 = 1) ↔ ((g &&& 0x10) != 0x00) = true :=
              (by decide +kernel : ∀ g : UInt8, (g.toNat / 16 % 2 = 1) ↔ ((g &&& 0x10) != 0x00) = true) g
            have f5 : field (a :: b :: c :: d :: l :: g :: t) 5 1 = g.toNat := by simp [field, beNat]
            have hF : sliceFrom (a :: b :: c :: d :: l :: g :: t) 5 = .ok (g :: t) := by
              rw [sliceFrom, if_pos (by simp)]; rfl
            rw [hF, ok_bind, idx_zero, ok_bind, f5, g0]
            cases hg : ((g &&& 0x10) != 0x00) with
            | false => simp
            | true =>
              simp only [if_true, true_and]
              by_cases hl : (a :: b :: c :: d :: l :: g :: t).length < 12
              · have hp : Ts.getPcr (a :: b :: c :: d :: l :: g :: t) = panic := (C06_short _ 0 hl).1
                rw [hp]
                exact ⟨fun _ => .inr (.inr ⟨hz', .inr hl⟩), fun _ => rfl⟩
              · obtain ⟨v, v1, -⟩ := getPcr_eq (a :: b :: c :: d :: l :: g :: t) (by omega)
                rw [v1]
                constructor
                · intro h; cases h
                · simp only [List.length_cons] at hl ⊢; intro h; omega

example : Ts.packetDebug .release [0x47, 0, 0, 0x30, 1, 0x10] = panic ∧ Ts.packetDebug .release [0x47, 0, 0, 0x30, 0] ≠ panic := by decide +kernel

end Mpegts
