import Verif.Spec.PackedStream
import Verif.Props.C106

/-! # Receiving sections one behind the other -/

namespace Mpegts
open Spec

theorem receivePacked_nil {α : Type} (parse : α → Psi → R α) (p : Profile) (t : α) (s : Psi) :
    receivePacked parse p t s [] = .ok (t, s) := rfl

theorem receivePacked_empty {α : Type} (parse : α → Psi → R α) (p : Profile) (t : α) (s : Psi) (ts : List UInt8) (l : List (List UInt8))
    (h : hasPayload ts = false) : receivePacked parse p t s (ts :: l) = receivePacked parse p t s l := by
  simp [receivePacked, packedStep, h]

theorem receivePacked_once {α : Type} (parse : α → Psi → R α) (p : Profile) (t : α) (s : Psi) (ts : List UInt8) (l : List (List UInt8))
    (h : hasPayload ts = true) (hn : ¬ (pusiOf ts = true ∧ pointerOf ts ≠ 0)) :
    receivePacked parse p t s (ts :: l) = (do let s ← s.mux p ts; let t ← parse t s; receivePacked parse p t s l) := by
  simp only [receivePacked, packedStep, List.foldlM_cons, h, if_neg hn]
  simp

theorem receivePacked_twice {α : Type} (parse : α → Psi → R α) (p : Profile) (t : α) (s : Psi) (ts : List UInt8) (l : List (List UInt8))
    (h : hasPayload ts = true) (hn : pusiOf ts = true ∧ pointerOf ts ≠ 0) :
    receivePacked parse p t s (ts :: l) = (do
      let s ← s.mux p ts
      let t ← parse t s
      let s ← s.mux p ts
      let t ← parse t s
      receivePacked parse p t s l) := by
  simp only [receivePacked, packedStep, List.foldlM_cons, h, if_pos hn]
  simp

/-- What starts a section. -/
theorem upToEnd_piece (piece rest pad : List UInt8) (h : IsSection (piece ++ rest)) (hn : pad = [] ∨ rest = []) :
    upToEnd (piece ++ pad) = piece ∧
    (declaredSize (piece ++ pad) = if piece.length < 3 then 0 else (piece ++ rest).length) := by
  rcases hn with rfl | rfl
  · rw [List.append_nil, upToEnd]
    by_cases h3 : 3 ≤ piece.length
    · have : declaredSize piece = (piece ++ rest).length := by
        rw [← Psi.declaredSize_append piece rest h3, Psi.declaredSize_section h]
      rw [if_pos h3, this, if_neg (by omega)]
      exact ⟨List.take_of_length_le (by simp), rfl⟩
    · rw [if_neg h3, if_pos (by omega)]
      exact ⟨rfl, by simp [declaredSize, h3]⟩
  · rw [List.append_nil] at *
    have h3 := h.1
    rw [upToEnd, if_pos (by simp; omega), Psi.declaredSize_append _ _ h3, Psi.declaredSize_section h, if_neg (by omega)]
    exact ⟨List.take_left' rfl, rfl⟩

/-- The state of the reassembler while a section is under way. -/
structure UnderWay (s : Psi) (got rest : List UInt8) (cc : Nat) : Prop where
  buffer : s.buffer = got
  some : got ≠ []
  size : s.size = if got.length < 3 then 0 else (got ++ rest).length
  cc : (s.cc.toNat + 1) % 16 = cc % 16
  low : s.cc.toNat < 16

theorem receive_packing {α β : Type} (parse : α → Psi → R α) (p : Profile) (f : β → List UInt8) (step : α → β → R α)
    (P : β → Prop) (hsec : ∀ x, P x → IsSection (f x))
    (hpar : ∀ t x, P x → ∀ (psi : Psi) more, psi.buffer = f x ++ more → psi.size = (f x).length → parse t psi = step t x)
    (hi : ∀ t x, P x → ∀ (psi : Psi) rest, psi.buffer ≠ [] → rest ≠ [] → f x = psi.buffer ++ rest →
      psi.size = (if psi.buffer.length < 3 then 0 else (f x).length) → parse t psi = .ok t)
    {got rest : List UInt8} {cc : Nat} {pks secs : List (List UInt8)} (h : Packing got rest cc pks secs) :
    (∀ l : List β, (∀ x ∈ l, P x) → secs = l.map f → ∀ (t : α) (s : Psi),
      (rest = [] → ∃ s', receivePacked parse p t s pks = (fun u => (u, s')) <$> l.foldlM step t) ∧
      (rest ≠ [] → UnderWay s got rest cc → ∀ x, P x → f x = got ++ rest →
        ∃ s', receivePacked parse p t s pks = (fun u => (u, s')) <$> (x :: l).foldlM step t)) := by
  have first : ∀ {piece rest : List UInt8} {pks secs : List (List UInt8)} (ts : List UInt8) (n : Nat), Laden ts true → piece ≠ [] →
      (n = 0 ∨ rest = []) → (offsetOf ts + 1 + pointerOf ts ≤ 188) → pointerOf ts < 183 →
      ts.drop (offsetOf ts + 1 + pointerOf ts) = piece ++ List.replicate n 0xFF →
      (∀ l : List β, (∀ x ∈ l, P x) → secs = l.map f → ∀ (t : α) (s : Psi),
        (rest = [] → ∃ s', receivePacked parse p t s pks = (fun u => (u, s')) <$> l.foldlM step t) ∧
        (rest ≠ [] → UnderWay s piece rest (ccOf ts + 1) → ∀ x, P x → f x = piece ++ rest →
          ∃ s', receivePacked parse p t s pks = (fun u => (u, s')) <$> (x :: l).foldlM step t)) →
      ∀ (t : α) (s : Psi), (pointerOf ts = 0 ∨ s.cc.toNat < 16 ∧ ccOf ts ≠ (s.cc.toNat + 1) % 16) → ∀ x l, P x → (∀ x ∈ l, P x) → f x = piece ++ rest →
        secs = l.map f →
        ∃ s', (do let s ← s.mux p ts; let t ← parse t s; receivePacked parse p t s pks) = (fun u => (u, s')) <$> (x :: l).foldlM step t := by
    intro piece rest pks secs ts n hl hp hn hfit h183 hd ih t s hr x l hx hls hf hsecs
    have hS := hsec x hx
    rw [hf] at hS
    obtain ⟨e1, e2⟩ := upToEnd_piece piece rest (List.replicate n 0xFF) hS (hn.imp_left (by rintro rfl; rfl))
    rw [Psi.mux_raw_start s hl.packet hl.payload hl.offset hl.start (fun h => by rcases hr with h' | h' <;> omega) h183
      (by rcases hr with h | h; exact .inl h; exact .inr (.inl h.2)), if_pos hfit, ok_bind, hd]
    generalize hst : s.started (UInt8.ofNat (ccOf ts)) (piece ++ List.replicate n 0xFF) = st
    have hbuf : st.buffer = piece := by rw [← hst]; exact e1
    have hsize : st.size = if piece.length < 3 then 0 else (piece ++ rest).length := by rw [← hst]; exact e2
    have hcc : st.cc.toNat = ccOf ts := by rw [← hst]; exact ofNat_ccOf ts
    by_cases hrest : rest = []
    · subst hrest
      have h3 := hS.1
      rw [List.append_nil] at h3 hf
      rw [hpar t x hx st [] (by rw [hbuf, hf, List.append_nil]) (by rw [hsize, if_neg (by omega), List.append_nil, hf]), List.foldlM_cons]
      cases step t x with
      | error e => exact ⟨s, rfl⟩
      | ok u =>
        simp only [ok_bind]
        exact (ih l hls hsecs u st).1 rfl
    · rw [hi t x hx st rest (by rw [hbuf]; exact hp) hrest (by rw [hbuf, hf]) (by rw [hbuf, hf, hsize]), ok_bind]
      have := ccOf_lt ts
      exact (ih l hls hsecs t st).2 hrest ⟨hbuf, hp, hsize, by rw [hcc], by omega⟩ x hx hf
  induction h with
  | done got cc =>
    intro l hl hsecs t s
    obtain rfl : l = [] := by cases l with
      | nil => rfl
      | cons => cases hsecs
    exact ⟨fun _ => ⟨s, rfl⟩, fun h => absurd rfl h⟩
  | empty ts hl hpay _ ih =>
    intro l hls hsecs t s
    rw [receivePacked_empty _ _ _ _ _ _ hpay]
    exact ih l hls hsecs t s
  | @start got piece rest cc pks secs ts n hl h0 hd hp hn _ ih =>
    intro l hls hsecs t s
    refine ⟨fun _ => ?_, fun h => absurd rfl h⟩
    cases l with
    | nil => cases hsecs
    | cons x l =>
      obtain ⟨hf, hsecs⟩ := List.cons.inj hsecs
      rw [receivePacked_once _ _ _ _ _ _ hl.payload (by simp [h0])]
      have := hl.offset
      exact first ts n hl hp hn (by omega) (by omega) (by rw [h0]; exact hd) ih t s (.inl h0) x l (hls x List.mem_cons_self)
        (fun y hy => hls y (List.mem_cons_of_mem _ hy)) hf.symm hsecs
  | @next got piece rest cc pks secs ts n hl hc hd hp h3 hn _ ih =>
    intro l hls hsecs t s
    refine ⟨fun h => absurd h (by simp [hp]), fun _ hu x hx hf => ?_⟩
    rw [receivePacked_once _ _ _ _ _ _ hl.payload (by simp [hl.start])]
    have hcn : ccOf ts = (s.cc.toNat + 1) % 16 := by rw [hc, hu.cc]
    have hlow := hu.low
    rw [Psi.mux_raw_cont s hl.packet hl.payload hl.offset hl.start (by omega) hcn, ok_bind, hd]
    have hS := hsec x hx
    have hS' : IsSection ((got ++ piece) ++ rest) := by rw [List.append_assoc, ← hf]; exact hS
    obtain ⟨e1, e2⟩ := upToEnd_piece (got ++ piece) rest (List.replicate n 0xFF) hS' (hn.imp_left (by rintro rfl; rfl))
    have hlen : 3 ≤ (got ++ piece).length := by rw [List.length_append]; exact h3
    rw [if_neg (by omega)] at e2
    have hsz : (s.pushed (piece ++ List.replicate n 0xFF)).size = (got ++ piece ++ rest).length := by
      simp only [Psi.pushed, hu.buffer, hu.size]
      by_cases hg : got.length < 3
      · rw [if_pos hg, if_pos rfl, ← List.append_assoc]; exact e2
      · rw [if_neg hg, if_neg (by rw [List.length_append]; omega), ← List.append_assoc]
    rw [upToEnd, if_pos (by simp at hlen ⊢; omega), e2] at e1
    have hb : (s.buffer ++ (piece ++ List.replicate n 0xFF)).take (s.pushed (piece ++ List.replicate n 0xFF)).size = got ++ piece := by
      rw [hsz, hu.buffer, ← List.append_assoc]; exact e1
    generalize hst : ({ s.pushed (piece ++ List.replicate n 0xFF) with
      buffer := (s.buffer ++ (piece ++ List.replicate n 0xFF)).take (s.pushed (piece ++ List.replicate n 0xFF)).size,
      cc := UInt8.ofNat (ccOf ts) } : Psi) = st
    have hbuf : st.buffer = got ++ piece := by rw [← hst]; exact hb
    have hsize : st.size = (got ++ piece ++ rest).length := by rw [← hst]; exact hsz
    have hcc : st.cc.toNat = ccOf ts := by rw [← hst]; exact ofNat_ccOf ts
    rw [← List.append_assoc] at hf
    by_cases hrest : rest = []
    · subst hrest
      rw [List.append_nil] at hf hsize
      rw [hpar t x hx st [] (by rw [hbuf, hf, List.append_nil]) (by rw [hsize, hf]), List.foldlM_cons]
      cases step t x with
      | error e => exact ⟨s, rfl⟩
      | ok u =>
        simp only [ok_bind]
        exact (ih l hls hsecs u st).1 rfl
    · have hne : got ++ piece ≠ [] := by simp [hp]
      rw [hi t x hx st rest (by rw [hbuf]; exact hne) hrest (by rw [hbuf, hf]) (by rw [hbuf, if_neg (by omega), hf, hsize]), ok_bind]
      have := ccOf_lt ts
      exact (ih l hls hsecs t st).2 hrest ⟨hbuf, hne, by rw [hsize, if_neg (by omega)], by rw [hcc], by omega⟩ x hx hf
  | @turn got tail piece rest cc pks secs ts n hl hc ht h0 hd hp hn _ ih =>
    intro l hls hsecs t s
    refine ⟨fun h => absurd h ht, fun _ hu x hx hf => ?_⟩
    cases l with
    | nil => cases hsecs
    | cons y l =>
      obtain ⟨hfy, hsecs⟩ := List.cons.inj hsecs
      have htl : 0 < tail.length := List.length_pos_iff.2 ht
      have hpl : 0 < piece.length := List.length_pos_iff.2 hp
      have hlen := congrArg List.length hd
      simp only [List.length_drop, hl.packet.1, List.length_append, List.length_replicate] at hlen
      have h4 : 4 ≤ offsetOf ts := by unfold offsetOf; split <;> omega
      rw [receivePacked_twice _ _ _ _ _ _ hl.payload ⟨hl.start, by omega⟩]
      have hcn : ccOf ts = (s.cc.toNat + 1) % 16 := by rw [hc, hu.cc]
      have hlow := hu.low
      rw [Psi.mux_raw_pusi_cont s hl.packet hl.payload hl.offset hl.start (by omega) (by omega) (by omega) hcn (by rw [hu.buffer]; exact hu.some), ok_bind, hd]
      have hS := hsec x hx
      have hdr : s.drained = s := by
        unfold Psi.drained
        rw [if_neg]
        rintro ⟨h1, h2⟩
        rw [hu.size, hu.buffer] at h2
        rw [hu.size] at h1
        split at h2
        · rename_i h3
          exact h1 (by rw [if_pos h3])
        · simp at h2
      rw [hdr]
      generalize hst : ({ s.pushed (tail ++ (piece ++ List.replicate n 0xFF)) with cc := UInt8.ofNat (ccOf ts) } : Psi) = st
      have hbuf : st.buffer = f x ++ (piece ++ List.replicate n 0xFF) := by
        rw [← hst]
        show s.buffer ++ _ = _
        rw [hu.buffer, hf, List.append_assoc]
      have hsize : st.size = (f x).length := by
        rw [← hst]
        show (s.pushed _).size = _
        simp only [Psi.pushed, hu.buffer, hu.size]
        by_cases hg : got.length < 3
        · rw [if_pos hg, if_pos rfl, ← List.append_assoc, ← hf, Psi.declaredSize_append _ _ hS.1, Psi.declaredSize_section hS]
        · rw [if_neg hg, if_neg (by rw [List.length_append]; omega), hf]
      have hcc : st.cc.toNat = ccOf ts := by rw [← hst]; exact ofNat_ccOf ts
      rw [hpar t x hx st _ hbuf hsize, List.foldlM_cons]
      cases step t x with
      | error e => exact ⟨s, rfl⟩
      | ok u =>
        simp only [ok_bind]
        have := ccOf_lt ts
        exact first ts n hl hp hn (by omega) (by omega) (by rw [h0, ← List.drop_drop, hd, List.drop_left' rfl]) ih u st
          (.inr ⟨by omega, by omega⟩) y l (hls y List.mem_cons_self) (fun z hz => hls z (List.mem_cons_of_mem _ hz)) hfy.symm hsecs

end Mpegts
