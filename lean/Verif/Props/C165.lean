import Verif.Spec.Splice
import Verif.Props.C76
import Verif.Props.C126
import Verif.Props.Pat

/-! # C165: recordings one behind the other -/

namespace Mpegts
open Spec

namespace Splice

theorem nextPacket_quiet {gap : List UInt8} (hg : 0x47 ∉ gap) (rest : List UInt8) : nextPacket (gap ++ rest) = nextPacket rest := by
  have : (gap ++ rest).dropWhile (· != 0x47) = rest.dropWhile (· != 0x47) := by
    induction gap with
    | nil => rfl
    | cons x l ih =>
      simp only [List.mem_cons, not_or] at hg
      rw [List.cons_append, List.dropWhile_cons, if_pos (by simpa using fun h => hg.1 h.symm)]
      exact ih hg.2
  simp only [nextPacket, this]

theorem packetsOf_quiet {gap : List UInt8} (hg : 0x47 ∉ gap) (rest : List UInt8) : packetsOf (gap ++ rest) = packetsOf rest := by
  rw [packetsOf, packetsOf]
  split
  · next h =>
    rw [nextPacket_quiet hg] at h
    split
    · rfl
    · next h' => rw [h] at h'; cases h'
  · next pk r h =>
    rw [nextPacket_quiet hg] at h
    split
    · next h' => rw [h] at h'; cases h'
    · next h' => rw [h] at h'; cases h'; rfl

theorem packetsOf_whole (l : List (List UInt8 × List UInt8)) (hl : ∀ x ∈ l, 0x47 ∉ x.1 ∧ x.2.length = 188 ∧ x.2.head? = some 0x47) (rest : List UInt8) :
    packetsOf (interleave l ++ rest) = l.map (·.2) ++ packetsOf rest := by
  induction l with
  | nil => rfl
  | cons x l ih =>
    obtain ⟨gap, pk⟩ := x
    obtain ⟨h1, h2, h3⟩ := hl _ (List.mem_cons_self ..)
    have hn : nextPacket (interleave ((gap, pk) :: l) ++ rest) = some (pk, interleave l ++ rest) := by
      rw [interleave, List.append_assoc]; exact nextPacket_gap h1 h2 h3
    rw [packetsOf]
    split
    · next h => rw [hn] at h; cases h
    · next h =>
      rw [hn] at h; cases h
      rw [ih fun x hx => hl x (List.mem_cons_of_mem _ hx)]; rfl

theorem packetsOf_nil : packetsOf [] = [] := by
  rw [packetsOf]
  split
  · rfl
  · next h => simp [nextPacket] at h

end Splice

/-- C165: the packets of a file made of a whole recording and anything behind it are those of the recording, then those of what is behind it. -/
theorem C165_packets (a b : List UInt8) (ha : WholeRecording a) (evs : List ReadEvent) (he : Chunks evs) (buf : List UInt8) (hb : 188 ≤ buf.length) (fuel : Nat)
    (hf : a.length + b.length < fuel) : readAll fuel ⟨a ++ b, evs⟩ buf = .ok (packetsOf a ++ packetsOf b) := by
  rw [C70_all fuel ⟨a ++ b, evs⟩ he buf hb (by simpa using hf)]
  obtain ⟨l, gap, rfl, hl, hg⟩ := ha
  rw [List.append_assoc, Splice.packetsOf_whole l hl, Splice.packetsOf_whole l hl, Splice.packetsOf_quiet hg]
  have := Splice.packetsOf_quiet hg []
  rw [List.append_nil, Splice.packetsOf_nil] at this
  rw [this, List.append_nil]

namespace Splice

theorem mux_begins (p : Profile) (h h' : Reassembly.Held) (hh : h.last < 16) (hh' : h'.last < 16) (pk : List UInt8) (hl : pk.length = 188)
    (hpk : BeginsSection pk) : (Psi.holding h).mux p pk = (Psi.holding h').mux p pk := by
  obtain ⟨h1, h2, h3, h4⟩ := hpk
  rw [C126_packet p h hh pk hl, C126_packet p h' hh' pk hl]
  have ho : Reassembly.payloadAt (decide (p = .debug)) pk = some (offsetOf pk) := by
    unfold Reassembly.payloadAt offsetOf
    unfold offsetOf at h3
    cases ha : hasAdaptation pk
    · simp
    · rw [ha] at h3
      simp only [if_true] at h3
      simp only [if_true]
      rw [if_neg (by simp), if_pos (by omega)]
  have hp0 : (pk.getD (offsetOf pk) 0).toNat = 0 := h4
  have key : ∀ h : Reassembly.Held, Reassembly.packet (decide (p = .debug)) h pk = some ⟨upToEnd (pk.drop (offsetOf pk + 1)), ccOf pk⟩ := by
    intro h
    unfold Reassembly.packet
    rw [if_neg (by simp [h1]), ho]
    simp only [h2, if_true]
    rw [if_neg (by omega), Reassembly.start]
    rw [hp0, if_neg (by omega), if_neg (by simp), if_neg (by omega)]
  rw [key h, key h']

theorem mem_packetsOf (data : List UInt8) : ∀ pk ∈ packetsOf data, pk.length = 188 := by
  intro pk hpk
  induction data using packetsOf.induct with
  | case1 data h => rw [packetsOf] at hpk; split at hpk <;> simp_all
  | case2 data pk' rest h ih =>
    rw [packetsOf] at hpk
    split at hpk
    · simp at hpk
    · next h' =>
      rw [h] at h'; cases h'
      rcases List.mem_cons.1 hpk with rfl | hpk
      · simp only [nextPacket] at h
        split at h
        · cases h; rw [List.length_take]; omega
        · cases h
      · exact ih hpk

theorem listen_eq {α : Type} (parse : α → Psi → R α) (p : Profile) (pid : Nat) (t : α) (s : Psi) (src : Source) (hs : Steady src)
    (buf : List UInt8) (hb : 188 ≤ buf.length) (fuel : Nat) (hf : src.data.length < fuel) :
    listen parse p pid t s fuel src buf = receive parse p t s ((packetsOf src.data).filter fun pk => pidOf pk = pid) := by
  unfold listen receive
  rw [C70_all fuel src hs buf hb hf]
  simp only [ok_bind]
  have h188 := mem_packetsOf src.data
  generalize packetsOf src.data = pks at h188
  generalize hst : (t, s) = st
  clear hst
  induction pks generalizing st with
  | nil => rfl
  | cons pk pks ih =>
    obtain ⟨q, hq, hqp⟩ := getPid_eq (h188 pk (by simp))
    have ih' := ih (fun pk h => h188 pk (List.mem_cons_of_mem _ h))
    by_cases hpid : pidOf pk = pid
    · rw [List.filter_cons_of_pos (by simpa using hpid)]
      simp only [List.foldlM_cons, hq, ok_bind, hqp, if_pos hpid, bind_assoc, pure_bind]
      cases hm : st.2.mux p pk with
      | error e => rfl
      | ok s1 =>
        simp only [ok_bind]
        cases hpa : parse st.1 s1 with
        | error e => rfl
        | ok t1 => simp only [ok_bind]; exact ih' (t1, s1)
    · rw [List.filter_cons_of_neg (by simpa using hpid)]
      simp only [List.foldlM_cons, hq, ok_bind, hqp, if_neg hpid, pure_eq_ok]
      exact ih' st

/-- A receiver that begins with the beginning of a section does not know what was before. -/
theorem receive_begins {α : Type} (parse : α → Psi → R α) (p : Profile) (t : α) (h : Reassembly.Held) (hh : h.last < 16) (pks : List (List UInt8))
    (hl : ∀ pk ∈ pks, pk.length = 188) (hpk : ∀ pk, pks.head? = some pk → BeginsSection pk) :
    (receive parse p t (Psi.holding h) pks).map (·.1) = (receive parse p t Psi.default pks).map (·.1) := by
  cases pks with
  | nil => rfl
  | cons pk pks =>
    unfold receive
    simp only [List.foldlM_cons]
    rw [mux_begins p h ⟨[], 0⟩ hh (by decide) pk (hl pk (by simp)) (hpk pk rfl)]
    rfl

/-- What a receiver holds is always something it can hold. -/
theorem receive_holds {α : Type} (parse : α → Psi → R α) (p : Profile) (t : α) (h : Reassembly.Held) (hh : h.last < 16) (pks : List (List UInt8))
    (hl : ∀ pk ∈ pks, pk.length = 188) (r : α × Psi) (hr : receive parse p t (Psi.holding h) pks = .ok r) :
    ∃ h' : Reassembly.Held, h'.last < 16 ∧ r.2 = Psi.holding h' := by
  induction pks generalizing t h with
  | nil => cases hr; exact ⟨h, hh, rfl⟩
  | cons pk pks ih =>
    unfold receive at hr
    rw [List.foldlM_cons] at hr
    dsimp only at hr
    rw [C126_packet p h hh pk (hl pk (by simp))] at hr
    cases hp : Reassembly.packet (decide (p = .debug)) h pk with
    | none => rw [hp] at hr; cases hr
    | some h1 =>
      rw [hp] at hr
      simp only [Option.map_some, orPanic, ok_bind] at hr
      cases hq : parse t (Psi.holding h1) with
      | error e => rw [hq] at hr; cases hr
      | ok t1 =>
        rw [hq] at hr
        exact ih t1 h1 (AnyPacket.packet_last hh hp) (fun pk hpk => hl pk (List.mem_cons_of_mem _ hpk)) hr

theorem begins_all (pid : Nat) (l : List Source) (hw : ∀ r ∈ l, WholeRecording r.data) (hbs : ∀ r ∈ l, BeginsWithSection pid r.data) :
    ∀ pk, ((packetsOf (l.flatMap (·.data))).filter fun pk => pidOf pk = pid).head? = some pk → BeginsSection pk := by
  induction l with
  | nil => intro pk h; rw [List.flatMap_nil, packetsOf_nil] at h; simp at h
  | cons r l ih =>
    intro pk h
    obtain ⟨cells, gap, hd, hc, hg⟩ := hw r (by simp)
    have hgap : packetsOf gap = [] := by
      have := packetsOf_quiet hg []
      rwa [List.append_nil, packetsOf_nil] at this
    have hpk : packetsOf (r.data ++ l.flatMap (·.data)) = packetsOf r.data ++ packetsOf (l.flatMap (·.data)) := by
      rw [hd, List.append_assoc, packetsOf_whole cells hc, packetsOf_whole cells hc, packetsOf_quiet hg, hgap, List.append_nil]
    rw [List.flatMap_cons, hpk, List.filter_append, List.head?_append] at h
    have hr := hbs r (by simp)
    cases hh : ((packetsOf r.data).filter fun pk => pidOf pk = pid).head? with
    | some q => rw [hh] at h; cases h; exact hr pk hh
    | none =>
      rw [hh] at h
      exact ih (fun r hr => hw r (List.mem_cons_of_mem _ hr)) (fun r hr => hbs r (List.mem_cons_of_mem _ hr)) pk h

theorem receive_append {α : Type} (parse : α → Psi → R α) (p : Profile) (t : α) (s : Psi) (a b : List (List UInt8)) :
    receive parse p t s (a ++ b) = (do
      let r ← receive parse p t s a
      receive parse p r.1 r.2 b) := by
  unfold receive
  rw [List.foldlM_append]

end Splice

/-- C165: a file made of whole recordings, each beginning with the beginning of a section on the PID, gives a table exactly what the recordings
played one by one give it, wherever in a section each of them ends, and however each is read. -/
theorem C165_recordings {α : Type} (parse : α → Psi → R α) (p : Profile) (pid : Nat) (t : α) (recordings : List Source)
    (hw : ∀ r ∈ recordings, WholeRecording r.data) (hs : ∀ r ∈ recordings, Steady r) (hbs : ∀ r ∈ recordings, BeginsWithSection pid r.data)
    (file : Source) (hfile : file.data = recordings.flatMap (·.data)) (hsf : Steady file) (buf buf' : List UInt8) (hb : 188 ≤ buf.length)
    (hb' : 188 ≤ buf'.length) (fuel : Nat) (hf : file.data.length < fuel) :
    (listen parse p pid t Psi.default fuel file buf).map (·.1) = playEach parse p pid fuel buf' t recordings := by
  rw [Splice.listen_eq parse p pid t _ file hsf buf hb fuel hf]
  rw [hfile] at hf ⊢
  clear hfile hsf file hb buf
  induction recordings generalizing t with
  | nil => rw [List.flatMap_nil, Splice.packetsOf_nil]; rfl
  | cons r l ih =>
    rw [List.flatMap_cons] at hf ⊢
    rw [List.length_append] at hf
    obtain ⟨cells, gap, hd, hc, hg⟩ := hw r (by simp)
    have hgap : packetsOf gap = [] := by
      have := Splice.packetsOf_quiet hg []
      rwa [List.append_nil, Splice.packetsOf_nil] at this
    have hpk : packetsOf (r.data ++ l.flatMap (·.data)) = packetsOf r.data ++ packetsOf (l.flatMap (·.data)) := by
      rw [hd, List.append_assoc, Splice.packetsOf_whole cells hc, Splice.packetsOf_whole cells hc, Splice.packetsOf_quiet hg, hgap, List.append_nil]
    rw [hpk, List.filter_append, Splice.receive_append, playEach,
      Splice.listen_eq parse p pid t _ r (hs r (by simp)) buf' hb' fuel (by omega)]
    have hlen : ∀ d : List UInt8, ∀ pk ∈ (packetsOf d).filter fun pk => decide (pidOf pk = pid), pk.length = 188 :=
      fun d pk hpk => Splice.mem_packetsOf d pk (List.mem_filter.1 hpk).1
    cases hr : receive parse p t Psi.default ((packetsOf r.data).filter fun pk => pidOf pk = pid) with
    | error e => rfl
    | ok q =>
      obtain ⟨h', hh', hq⟩ := Splice.receive_holds parse p t ⟨[], 0⟩ (by decide) _ (hlen r.data) q hr
      simp only [ok_bind]
      rw [← ih q.1 (fun r hr => hw r (List.mem_cons_of_mem _ hr)) (fun r hr => hs r (List.mem_cons_of_mem _ hr))
        (fun r hr => hbs r (List.mem_cons_of_mem _ hr)) (by omega), hq]
      exact Splice.receive_begins parse p q.1 h' hh' _ (hlen _) (Splice.begins_all pid l (fun r hr => hw r (List.mem_cons_of_mem _ hr))
        (fun r hr => hbs r (List.mem_cons_of_mem _ hr)))

/-! ## A concrete case -/

/-- A recording of a PAT, with a packet of another PID and some noise before it. -/
def splicePat (items : List PatItem) (noise : List UInt8) : List UInt8 :=
  noise ++ (0x47 :: 0x1F :: 0xFF :: 0x10 :: List.replicate 184 0) ++
    ((Pat.demux .debug ⟨3, 7, items⟩ 0 5 []).toOption.map (·.2)).getD []

/-- The recordings are whole and begin with a section on PID 0. -/
theorem splice_example (items : List PatItem) (h : items = [⟨1, 256⟩] ∨ items = [⟨2, 512⟩]) :
    WholeRecording (splicePat items [1, 2]) ∧ BeginsWithSection 0 (splicePat items [1, 2]) := by
  have hw : ∃ pk : List UInt8, splicePat items [1, 2] = interleave [([1, 2], 0x47 :: 0x1F :: 0xFF :: 0x10 :: List.replicate 184 0), ([], pk)] ++ [] ∧
      pk.length = 188 ∧ pk.head? = some 0x47 ∧ pidOf pk = 0 ∧ hasPayload pk = true ∧ pusiOf pk = true ∧ offsetOf pk < 188 ∧ pointerOf pk = 0 := by
    refine ⟨((Pat.demux .debug ⟨3, 7, items⟩ 0 5 []).toOption.map (·.2)).getD [], by simp only [splicePat, interleave, List.append_nil, List.nil_append], ?_⟩
    rcases h with rfl | rfl <;> decide +kernel
  obtain ⟨pk, h1, h2, h3, h4, h5⟩ := hw
  have hl : ∀ x ∈ [(([1, 2] : List UInt8), (0x47 :: 0x1F :: 0xFF :: 0x10 :: List.replicate 184 0 : List UInt8)), ([], pk)],
      0x47 ∉ x.1 ∧ x.2.length = 188 ∧ x.2.head? = some 0x47 := by
    intro x hx
    rcases List.mem_cons.1 hx with rfl | hx
    · exact ⟨by decide, by decide +kernel, rfl⟩
    · rcases List.mem_singleton.1 hx with rfl
      exact ⟨by simp, h2, h3⟩
  refine ⟨⟨_, _, h1, hl, by simp⟩, ?_⟩
  intro q hq
  rw [h1, Splice.packetsOf_whole _ hl, Splice.packetsOf_nil] at hq
  rw [List.append_nil, List.map_cons, List.map_singleton, List.filter_cons_of_neg (by decide +kernel), List.filter_cons_of_pos (by simpa using h4)] at hq
  cases hq
  exact h5

/-- One after the other, into the same table. -/
example : ((listen (Pat.parse .debug) .debug 0 Pat.default Psi.default 800 ⟨splicePat [⟨1, 256⟩] [1, 2] ++ splicePat [⟨2, 512⟩] [1, 2], [.chunk 7]⟩
    (List.replicate 188 0)).toOption.map fun r => r.1) = some ⟨3, 7, [⟨1, 256⟩, ⟨2, 512⟩]⟩ := by decide +kernel

end Mpegts
