import Verif.Spec.Receiver
import Verif.Spec.PackedStream
import Verif.Props.C83_C86

namespace Mpegts
open Spec Spec.Table

theorem statedSize_section {s : List UInt8} (h : IsSection s) : statedSize s = s.length := by
  rw [statedSize, ← h.2]

theorem statedSize_append (a b : List UInt8) (h : 3 ≤ a.length) : statedSize (a ++ b) = statedSize a := by
  unfold statedSize
  rw [List.drop_append_of_le_length (by omega), List.take_append_of_le_length (by rw [List.length_drop]; omega)]

theorem head_of_append {a b : List UInt8} (ha : a ≠ []) : (a ++ b).head? = a.head? := by
  cases a with
  | nil => exact absurd rfl ha
  | cons x a => rfl

theorem cut_pad (n : Nat) : cut (List.replicate n 0xFF) = ([], []) := by
  rw [cut, if_pos]
  cases n with
  | zero => exact .inl rfl
  | succ n => exact .inr rfl

/-- Beginning of a section, and stuffing behind its end. -/
theorem cut_piece (piece rest : List UInt8) (n : Nat) (h : IsSection (piece ++ rest)) (hf : (piece ++ rest).head? ≠ some 0xFF) (hp : piece ≠ [])
    (hn : n = 0 ∨ rest = []) :
    cut (piece ++ List.replicate n 0xFF) = if rest = [] then ([piece], []) else ([], piece) := by
  have hh : (piece ++ List.replicate n 0xFF).head? ≠ some 0xFF := by
    rw [head_of_append hp, ← head_of_append (b := rest) hp]; exact hf
  rw [cut, if_neg (by rintro (e | e); exact hp (List.append_eq_nil_iff.1 e).1; exact hh e)]
  by_cases hr : rest = []
  · subst hr
    rw [List.append_nil] at h
    have h3 := h.1
    rw [dif_pos (by rw [List.length_append, statedSize_append _ _ h3, statedSize_section h]; omega), statedSize_append _ _ h3, statedSize_section h,
      List.take_left' rfl, List.drop_left' rfl, cut_pad, if_pos rfl]
  · rw [if_neg hr]
    have hn : n = 0 := hn.resolve_right hr
    subst hn
    rw [List.replicate_zero, List.append_nil, dif_neg]
    rintro ⟨h3, h4⟩
    have := statedSize_section h
    rw [statedSize_append _ _ h3, List.length_append] at this
    have := List.length_pos_iff.2 hr
    omega

theorem sections_packing {got rest : List UInt8} {cc : Nat} {pks secs : List (List UInt8)} (h : Packing got rest cc pks secs) :
    (∀ s ∈ secs, Real s) → (rest ≠ [] → Real (got ++ rest) ∧ got ≠ []) → ∀ r : Reception, (rest = [] → r.pending = []) →
    (rest ≠ [] → r.pending = got ∧ cc % 16 = (r.counter + 1) % 16) →
    (pks.foldl Reception.packet r).sections = r.sections ++ (if rest = [] then [] else [got ++ rest]) ++ secs := by
  induction h with
  | done got cc => intro _ _ r _ _; simp
  | empty ts hl hn hp ih =>
    intro hs hg r h1 h2
    rw [List.foldl_cons, show Reception.packet r ts = r by simp [Reception.packet, hn]]
    exact ih hs hg r h1 h2
  | @start got piece rest cc pks secs ts n hl h0 hd hp hn hk ih =>
    intro hs _ r h1 _
    have hr := hs _ List.mem_cons_self
    have hc := cut_piece piece rest n hr.1 hr.2 hp hn
    have e : Reception.packet r ts = ⟨r.sections ++ if rest = [] then [piece] else [], if rest = [] then [] else piece, ccOf ts⟩ := by
      unfold Reception.packet
      simp only [hl.payload, hl.start, h1 rfl, ite_self, if_true, List.drop_drop, h0, List.drop_zero, hd, hc, Bool.true_eq_false, if_false, List.append_nil]
      split <;> rfl
    rw [List.foldl_cons, e, ih (fun s h => hs s (List.mem_cons_of_mem _ h)) (fun _ => ⟨hr, hp⟩) _ (fun h => by simp [h]) (fun h => by simp [h])]
    by_cases h : rest = [] <;> simp [h]
  | @next got piece rest cc pks secs ts n hl hcc hd hp h3 hn hk ih =>
    intro hs hg r _ h2
    have hne : piece ++ rest ≠ [] := by simp [hp]
    obtain ⟨hr, hgot⟩ := hg hne
    obtain ⟨h2, h2c⟩ := h2 hne
    rw [← List.append_assoc] at hr
    have hc := cut_piece (got ++ piece) rest n hr.1 hr.2 (by simp [hp]) hn
    have e : Reception.packet r ts = ⟨r.sections ++ if rest = [] then [got ++ piece] else [], if rest = [] then [] else got ++ piece, ccOf ts⟩ := by
      unfold Reception.packet
      simp only [hl.payload, hl.start, hcc, h2c, h2, if_true, hgot, if_false, Bool.true_eq_false, Bool.false_eq_true, hd]
      rw [← List.append_assoc, hc]
      split <;> simp
    rw [List.foldl_cons, e, ih hs (fun _ => ⟨hr, by simp [hgot]⟩) _ (fun h => by simp [h]) (fun h => by simp [h]), if_neg hne]
    by_cases h : rest = [] <;> simp [h]
  | @turn got tail piece rest cc pks secs ts n hl hcc ht h0 hd hp hn hk ih =>
    intro hs hg r _ h2
    obtain ⟨hr0, hgot⟩ := hg ht
    obtain ⟨h2, h2c⟩ := h2 ht
    have hr := hs _ List.mem_cons_self
    have hc := cut_piece piece rest n hr.1 hr.2 hp hn
    have hc0 := cut_piece (got ++ tail) [] 0 (by rw [List.append_nil]; exact hr0.1) (by rw [List.append_nil]; exact hr0.2) (by simp [ht]) (.inl rfl)
    rw [List.replicate_zero, List.append_nil, if_pos rfl] at hc0
    have e : Reception.packet r ts = ⟨r.sections ++ [got ++ tail] ++ if rest = [] then [piece] else [], if rest = [] then [] else piece, ccOf ts⟩ := by
      unfold Reception.packet
      simp only [hl.payload, hl.start, hcc, h2c, h2, if_true, hgot, if_false, Bool.true_eq_false, List.drop_drop]
      simp only [← List.drop_drop]
      rw [List.drop_drop, hd, h0, List.take_left' rfl, List.drop_left' rfl, hc0, hc]
      split <;> simp
    rw [List.foldl_cons, e, ih (fun s h => hs s (List.mem_cons_of_mem _ h)) (fun _ => ⟨hr, hp⟩) _ (fun h => by simp [h]) (fun h => by simp [h]), if_neg ht]
    by_cases h : rest = [] <;> simp [h]

theorem packetAt_drop (pid cc : Nat) (sec : List UInt8) (i : Nat) :
    (packetAt pid cc sec i).drop 4 = ((0x00 :: sec).drop (184 * i)).take 184 ++
      List.replicate (184 - (((0x00 :: sec).drop (184 * i)).take 184).length) 0xFF := by
  rw [packetAt, payloadPacket_eq, List.append_assoc, List.drop_left' (encode_length _)]

theorem packing_rest (pid cc : Nat) (hp : pid < 8192) (sec : List UInt8) (pks secs : List (List UInt8)) (hk : ∀ got c, Packing got [] c pks secs) :
    ∀ m i c, 1 ≤ i → i + m = packetCount sec.length → c % 16 = (cc + i) % 16 →
    Packing (sec.take (184 * i - 1)) (sec.drop (184 * i - 1)) c ((List.range' i m).map (packetAt pid cc sec) ++ pks) secs := by
  intro m
  induction m with
  | zero =>
    intro i c hi hn _
    unfold packetCount at hn
    rw [List.drop_eq_nil_of_le (by omega)]
    exact hk _ _
  | succ m ih =>
    intro i c hi hn hc
    unfold packetCount at hn
    obtain ⟨f1, f2, f3, f4, f5⟩ := packetAt_fields pid cc hp sec i
    rw [decide_eq_false (by omega)] at f3
    have hb : ((0x00 :: sec).drop (184 * i)).take 184 = (sec.drop (184 * i - 1)).take 184 := by
      obtain ⟨k, hk⟩ : ∃ k, 184 * i = k + 1 := ⟨184 * i - 1, by omega⟩
      rw [hk, List.drop_succ_cons, Nat.add_sub_cancel]
    have hl : ((sec.drop (184 * i - 1)).take 184).length = min 184 (sec.length - (184 * i - 1)) := by simp
    have e2 : sec.take (184 * i - 1) ++ (sec.drop (184 * i - 1)).take 184 = sec.take (184 * (i + 1) - 1) := by
      rw [show 184 * (i + 1) - 1 = (184 * i - 1) + 184 by omega, List.take_add]
    have e3 : (sec.drop (184 * i - 1)).take 184 ++ sec.drop (184 * (i + 1) - 1) = sec.drop (184 * i - 1) := by
      rw [show 184 * (i + 1) - 1 = (184 * i - 1) + 184 by omega, ← List.drop_drop, List.take_append_drop]
    have := Packing.next (got := sec.take (184 * i - 1)) (piece := (sec.drop (184 * i - 1)).take 184) (rest := sec.drop (184 * (i + 1) - 1)) (cc := c)
      (packetAt pid cc sec i) (184 - ((sec.drop (184 * i - 1)).take 184).length) ⟨f1, f2, f3, by omega⟩ (by omega) (by rw [f5, packetAt_drop, hb])
      (by intro e; rw [e, List.length_nil] at hl; omega) (by rw [List.length_take]; omega)
      (by
        by_cases hx : 184 * (i + 1) - 1 < sec.length
        · left; omega
        · right; exact List.drop_eq_nil_of_le (by omega))
      (by rw [e2]; exact ih (i + 1) _ (by omega) (by unfold packetCount; omega) (by omega))
    rw [e3] at this
    exact this

theorem packing_packets (pid cc : Nat) (hp : pid < 8192) (sec : List UInt8) (h : sec ≠ []) (pks secs : List (List UInt8))
    (hk : ∀ got c, Packing got [] c pks secs) (got : List UInt8) (c : Nat) : Packing got [] c (packets pid cc sec ++ pks) (sec :: secs) := by
  obtain ⟨n, hn⟩ : ∃ n, packetCount sec.length = 1 + n := ⟨packetCount sec.length - 1, by unfold packetCount; omega⟩
  have hpos := List.length_pos_iff.2 h
  have hn' := hn
  unfold packetCount at hn'
  obtain ⟨f1, f2, f3, f4, f5⟩ := packetAt_fields pid cc hp sec 0
  rw [packets, hn, List.range_eq_range', Nat.add_comm 1 n, List.range'_succ, List.map_cons, List.cons_append]
  have hb : ((0x00 :: sec).drop (184 * 0)).take 184 = 0 :: sec.take 183 := by simp
  have hd := packetAt_drop pid cc sec 0
  rw [hb] at hd
  have h0 : (packetAt pid cc sec 0).getD 4 0 = 0 := by
    have := congrArg (fun l => l.getD 0 0) hd
    simpa [List.getD_eq_getElem?_getD] using this
  have := Packing.start (got := got) (cc := c) (piece := sec.take 183) (rest := sec.drop 183) (packetAt pid cc sec 0) (184 - (0 :: sec.take 183).length)
    ⟨f1, f2, f3, by omega⟩ (by rw [pointerOf, f5, h0]; rfl) (by rw [f5, ← List.drop_drop, hd]; rfl)
    (by intro e; have := congrArg List.length e; rw [List.length_take, List.length_nil] at this; omega)
    (by
      by_cases hx : 183 < sec.length
      · left; rw [List.length_cons, List.length_take]; omega
      · right; exact List.drop_eq_nil_of_le (by omega))
    (packing_rest pid cc hp sec pks secs hk n 1 _ (by omega) (by omega) (by omega))
  rw [List.take_append_drop] at this
  exact this

/-- The crate's own packets are one of the layouts. -/
theorem packing_stream (pid : Nat) (hp : pid < 8192) (secs : List (List UInt8)) (h : ∀ s ∈ secs, s ≠ []) : ∀ cc got c,
    Packing got [] c (stream pid cc secs) secs := by
  induction secs with
  | nil => intro cc got c; exact .done _ _
  | cons s secs ih =>
    intro cc got c
    rw [stream]
    exact packing_packets pid cc hp s (h s (by simp)) _ _ (fun g c => ih (fun x hx => h x (by simp [hx])) _ g c) got c

theorem sections_stream (pid : Nat) (hp : pid < 8192) (cc : Nat) (secs : List (List UInt8)) (h : ∀ s ∈ secs, Real s) :
    sectionsIn (stream pid cc secs) = secs := by
  have := sections_packing (packing_stream pid hp secs (fun s hs e => by have := (h s hs).1.1; rw [e] at this; simp at this) cc [] 0) h
    (fun h => absurd rfl h) ⟨[], [], 0⟩ (fun _ => rfl) (fun h => absurd rfl h)
  simpa [sectionsIn] using this

end Mpegts
