import Verif.Props.C106
import Verif.Props.C91
import Verif.Props.C140
import Verif.Spec.Watch

/-! # C146: reading a section only when it differs from the last one read -/

namespace Mpegts
open Spec Spec.Table

namespace Watch

theorem looksLike_refl (a : List UInt8) : looksLike a a = true := by simp [looksLike]

/-- A section in the reassembler. -/
def Held (s : Psi) : Prop := s.size = s.buffer.length ∧ (s.size = 0 ∨ 7 < s.size)

theorem eq_looksLike (p : Profile) (u v : Psi) (hu : u.size = u.buffer.length) (h7 : 7 < u.size) (hv : Held v) :
    u.eq p v = .ok (looksLike u.buffer v.buffer) := by
  obtain ⟨hv1, hv2⟩ := hv
  unfold Psi.eq looksLike
  by_cases hn : u.size = v.size
  · have e1 := Psi.getCrc32_ok p u (by omega) (by omega)
    have e2 := Psi.getCrc32_ok p v (by omega) (by omega)
    rw [e1, e2, hu, hv1, List.take_length, List.take_length, ok_bind, ok_bind]
    have hl : u.buffer.length = v.buffer.length := by omega
    simp only [hl, beq_self_eq_true, Bool.not_true, Bool.false_eq_true, if_false, pure_eq_ok, true_and]
    congr 1
    have l1 : (u.buffer.drop (v.buffer.length - 4)).length = 4 := by rw [List.length_drop]; omega
    have l2 : (v.buffer.drop (v.buffer.length - 4)).length = 4 := by rw [List.length_drop]; omega
    have b1 := beNat_lt (u.buffer.drop (v.buffer.length - 4))
    have b2 := beNat_lt (v.buffer.drop (v.buffer.length - 4))
    rw [l1] at b1
    rw [l2] at b2
    by_cases he : u.buffer.drop (v.buffer.length - 4) = v.buffer.drop (v.buffer.length - 4)
    · simp [he]
    · rw [decide_eq_false he, beq_eq_false_iff_ne]
      intro h
      apply he
      have h2 := congrArg UInt32.toNat h
      rw [UInt32.toNat_ofNat', UInt32.toNat_ofNat', Nat.mod_eq_of_lt (by omega), Nat.mod_eq_of_lt (by omega)] at h2
      rw [← beBytes_beNat (u.buffer.drop _), ← beBytes_beNat (v.buffer.drop _), l1, l2, h2]
  · have hl : ¬ u.buffer.length = v.buffer.length := by omega
    simp [hn, hl]

/-- Whatever sections are received, exactly those that do not look like the one before are read. -/
theorem watch_sections {α : Type} (parse : α → Psi → R α) (step : α → List UInt8 → R α) (p : Profile)
    (pks : List (List UInt8)) (hpk : ∀ pk ∈ pks, Plain pk) (t : α) (v : Psi) (hv : Held v) (s : Psi) (hs : s.Ok) (l : List (List UInt8))
    (hacc : ∀ t sec, sec ∈ l → ∀ psi : Psi, psi.buffer = sec → psi.size = sec.length → parse t psi = step t sec)
    (h : sections p s pks = .ok l) :
    ∃ last s', receive (watch parse p) p (t, v) s pks = (fun x => ((x, last), s')) <$> (changes id v.buffer l).foldlM step t := by
  induction pks generalizing t v s l with
  | nil =>
    cases h
    exact ⟨v, s, rfl⟩
  | cons pk r ih =>
    rw [sections_cons] at h
    rw [receive_cons]
    cases hm : s.mux p pk with
    | error e => rw [hm] at h; cases h
    | ok u =>
      obtain ⟨hu, hle⟩ := plain_mux hs (hpk pk List.mem_cons_self) hm
      rw [hm, ok_bind] at h
      rw [ok_bind]
      cases hr : sections p u r with
      | error e => rw [Psi.check_eq, ok_bind, hr] at h; cases h
      | ok l' =>
        have hpk' : ∀ pk ∈ r, Plain pk := fun x hx => hpk x (List.mem_cons_of_mem _ hx)
        have hck := Psi.check_eq p u
        by_cases hc : u.check p = .ok true
        · have hc' := hc
          rw [hck] at hc'
          have hc' := of_decide_eq_true (Except.ok.inj hc')
          have hb : u.buffer.take u.size = u.buffer := List.take_of_length_le (by omega)
          rw [hc, ok_bind, hr, ok_bind, if_pos rfl, hb] at h
          have hl : u.buffer :: l' = l := Except.ok.inj h
          subst hl
          have hlen : u.size = u.buffer.length := by omega
          have h7 : 7 < u.size := by omega
          have hh : Held u := ⟨hlen, .inr h7⟩
          unfold watch
          rw [hc, ok_bind, if_pos rfl, eq_looksLike p u v hlen h7 hv, ok_bind]
          simp only [changes, id_eq]
          cases hlk : looksLike u.buffer v.buffer with
          | true =>
            simp only [if_true, pure_eq_ok, ok_bind]
            exact ih hpk' t v hv u hu l' (fun t sec hsec => hacc t sec (List.mem_cons_of_mem _ hsec)) hr
          | false =>
            simp only [Bool.false_eq_true, if_false]
            rw [hacc t u.buffer List.mem_cons_self u rfl hlen, List.foldlM_cons]
            cases step t u.buffer with
            | error e => exact ⟨v, s, rfl⟩
            | ok t' =>
              simp only [ok_bind, pure_eq_ok]
              exact ih hpk' t' u hh u hu l' (fun t sec hsec => hacc t sec (List.mem_cons_of_mem _ hsec)) hr
        · have hf : u.check p = .ok false := by
            rw [hck] at hc ⊢
            refine congrArg _ ?_
            by_contra hne
            exact hc (congrArg _ (by simpa using hne))
          rw [hf, ok_bind, hr, ok_bind, if_neg (by decide)] at h
          have hl : l' = l := Except.ok.inj h
          subst hl
          rw [watch, hf, ok_bind, if_neg (by decide), pure_eq_ok, ok_bind]
          exact ih hpk' t v hv u hu l' hacc hr

theorem changes_map {β : Type} (f : β → List UInt8) (prev : List UInt8) (l : List β) :
    changes id prev (l.map f) = (changes f prev l).map f := by
  induction l generalizing prev with
  | nil => rfl
  | cons x r ih =>
    simp only [List.map_cons, changes, id_eq]
    split
    · exact ih prev
    · rw [ih, List.map_cons]

theorem changes_mem {β : Type} (f : β → List UInt8) (prev : List UInt8) (l : List β) : ∀ x ∈ changes f prev l, x ∈ l := by
  induction l generalizing prev with
  | nil => intro x h; exact h
  | cons y r ih =>
    intro x h
    rw [changes] at h
    split at h
    · exact List.mem_cons_of_mem _ (ih _ x h)
    · rcases List.mem_cons.1 h with rfl | h
      · exact List.mem_cons_self
      · exact List.mem_cons_of_mem _ (ih _ x h)

end Watch
open Watch

/-- C146: a receiver that reads a section only when it differs from the last one it read, over a channel that loses packets: the table is made
of exactly those of the sections arriving whole that are not of the same size and CRC as the one before. -/
theorem C146_lossy {α β : Type} {p : Profile} {parse : α → Psi → R α} {l : List β} {f : β → List UInt8} {step : α → β → α}
    (hsec : ∀ x ∈ l, IsSection (f x) ∧ 7 < (f x).length ∧ crc32 (f x) = 0)
    (hpar : ∀ t x, x ∈ l → ∀ psi : Psi, psi.buffer = f x → psi.size = (f x).length → parse t psi = .ok (step t x)) (pid : Nat) (hp : pid < 8192) (keep : Nat → Bool) (h0 : keep 0 = true) (t : α) (s : Psi) (hok : s.Ok) (cc : Nat)
    (hu : Unambiguous keep (stream pid cc (l.map f))) :
    ∃ last s', receive (watch parse p) p (t, Psi.default) s (received keep 0 (stream pid cc (l.map f))) =
      .ok (((changes f [] (survivors f keep 0 l)).foldl step t, last), s') := by
  have h83 := C83_loss_partial p pid cc hp keep (l.map f) (by
    intro sec hs
    obtain ⟨x, hx, rfl⟩ := List.mem_map.1 hs
    exact hsec x hx) h0 hu s
  rw [intact_map] at h83
  obtain ⟨last, s', h⟩ := watch_sections parse (fun t sec => parse t ⟨sec, sec.length, 0, 0⟩) p _
    (fun pk hpk => stream_plain pid hp _ cc pk (received_mem _ _ _ pk hpk)) t Psi.default ⟨rfl, .inl rfl⟩ s hok _ (by
      intro t sec hsec psi h1 h2
      obtain ⟨x, hx, rfl⟩ := List.mem_map.1 hsec
      have hm := survivors_mem _ _ _ _ x hx
      rw [hpar t x hm psi h1 h2, hpar t x hm _ rfl rfl]) h83
  refine ⟨last, s', ?_⟩
  rw [h, show Psi.default.buffer = [] from rfl, changes_map]
  have hmem : ∀ x ∈ changes f [] (survivors f keep 0 l), x ∈ l := fun x hx => survivors_mem _ _ _ _ x (changes_mem _ _ _ x hx)
  clear h h83
  generalize changes f [] (survivors f keep 0 l) = m at hmem
  have : (m.map f).foldlM (fun t sec => parse t ⟨sec, sec.length, 0, 0⟩) t = .ok (m.foldl step t) := by
    induction m generalizing t with
    | nil => rfl
    | cons x r ih =>
      rw [List.map_cons, List.foldlM_cons, hpar t x (hmem x (by simp)) _ rfl rfl, ok_bind, List.foldl_cons]
      exact ih _ (fun y hy => hmem y (List.mem_cons_of_mem _ hy))
  rw [this]
  rfl

namespace Watch

/-- Without losses. -/
theorem all {α β : Type} {p : Profile} {parse : α → Psi → R α} {l : List β} {f : β → List UInt8} {step : α → β → α}
    (hsec : ∀ x ∈ l, IsSection (f x) ∧ 7 < (f x).length ∧ crc32 (f x) = 0)
    (hpar : ∀ t x, x ∈ l → ∀ psi : Psi, psi.buffer = f x → psi.size = (f x).length → parse t psi = .ok (step t x)) (pid : Nat) (hp : pid < 8192)
    (t : α) (s : Psi) (hok : s.Ok) (cc : Nat) :
    ∃ last s', receive (watch parse p) p (t, Psi.default) s (stream pid cc (l.map f)) = .ok (((changes f [] l).foldl step t, last), s') := by
  have h := C146_lossy (p := p) hsec hpar pid hp (fun _ => true) rfl t s hok cc (by intro i j _ _ _ h; cases h)
  have e : ∀ n, survivors f (fun _ => true) n l = l := by
    clear h hsec hpar
    induction l with
    | nil => intro n; rfl
    | cons x r ih => intro n; rw [survivors, ih, if_pos (by simp)]
  have e2 : ∀ (q : List (List UInt8)) n, received (fun _ => true) n q = q := by
    intro q
    induction q with
    | nil => intro n; rfl
    | cons x r ih => intro n; rw [received, ih, if_pos rfl]
  rwa [e, e2] at h

theorem changes_again {β : Type} (f : β → List UInt8) (x : β) (prev : List UInt8) (h : looksLike (f x) prev = true) (n : Nat) (r : List β) :
    changes f prev (List.replicate n x ++ r) = changes f prev r := by
  induction n with
  | zero => rfl
  | succ n ih => rw [List.replicate_succ, List.cons_append, changes, if_pos h, ih]

theorem changes_run {β : Type} (f : β → List UInt8) (x : β) (prev : List UInt8) (h : looksLike (f x) prev = false) (n : Nat) (hn : 0 < n) (r : List β) :
    changes f prev (List.replicate n x ++ r) = x :: changes f (f x) r := by
  obtain ⟨m, rfl⟩ : ∃ m, n = m + 1 := ⟨n - 1, by omega⟩
  rw [List.replicate_succ, List.cons_append, changes, if_neg (by simp [h]), changes_again f x _ (looksLike_refl _)]

theorem looksLike_nil {a : List UInt8} (h : 0 < a.length) : looksLike a [] = false := by
  simp only [looksLike, List.length_nil, decide_eq_false_iff_not, not_and]
  intro e
  omega

theorem times_one {β : Type} (n : Nat) (x : β) : (List.replicate n [x]).flatten = List.replicate n x := by
  induction n with
  | zero => rfl
  | succ n ih => rw [List.replicate_succ, List.flatten_cons, ih]; rfl

/-- A section sent `n` times is read once. -/
theorem once {α : Type} {p : Profile} {parse : α → Psi → R α} {w : List UInt8} {g : α → α}
    (hsec : IsSection w ∧ 7 < w.length ∧ crc32 w = 0)
    (hpar : ∀ t, ∀ psi : Psi, psi.buffer = w → psi.size = w.length → parse t psi = .ok (g t)) (pid : Nat) (hp : pid < 8192)
    (t : α) (s : Psi) (hok : s.Ok) (cc n : Nat) (hn : 0 < n) :
    ∃ last s', receive (watch parse p) p (t, Psi.default) s (stream pid cc (List.replicate n [w]).flatten) = .ok ((g t, last), s') := by
  obtain ⟨last, s', h⟩ := all (l := List.replicate n ()) (f := fun _ => w) (step := fun t _ => g t) (parse := parse) (p := p)
    (fun _ _ => hsec) (fun t _ _ => hpar t) pid hp t s hok cc
  refine ⟨last, s', ?_⟩
  have := changes_run (fun _ => w) () [] (looksLike_nil (by omega)) n hn []
  rw [List.append_nil] at this
  rw [times_one, ← List.map_replicate (f := fun _ : Unit => w) (a := ()), h, this]
  rfl

/-- What was sent determines the section. -/
theorem sends_unique {r : R (UInt8 × List UInt8)} {pid : UInt16} {cc : UInt8} {dst a b : List UInt8} (hp : pid.toNat < 8192)
    (ha : Sends r pid cc dst [a]) (hb : Sends r pid cc dst [b]) : a = b := by
  have e := sent_packets hp hb.2 ha.2 (stream_packets _ _ hp _)
  have q : ∀ w, IsSection w → (fun x : List UInt8 × Psi => x.1) <$> receive (fun t s => .ok (if s.buffer.length < s.size then t else s.buffer)) .debug [] Psi.default
      (stream pid.toNat cc.toNat [w]) = .ok w := by
    intro w hw
    rw [stream, stream, List.append_nil, receive_section _ _ _ _ _ _ _ hw hp]
    · simp only [ok_bind, pure_eq_ok, Nat.lt_irrefl, if_false]
      rfl
    · intro psi h1 h2 _
      rw [if_pos (by omega)]
  have := q a (ha.1 a (by simp))
  rw [e, q b (hb.1 b (by simp))] at this
  exact (Except.ok.inj this).symm

end Watch

/-- C146: a PAT that is sent `n` times, as broadcasters do, is read once: the receiver has every programme once (C92: without the comparison it has
each of them `n` times). -/
theorem C146_pat (p : Profile) (t : Pat) (hv : t.version.toNat < 32) (hl : t.items.length ≤ 253) (hi : ∀ i ∈ t.items, i.pid.toNat < 8192)
    (n : Nat) (hn : 0 < n) (pid : UInt16) (cc : UInt8) (dst : List UInt8) (s : Psi) (hs : s.Ok) (hp : pid.toNat < 8192) (hc : cc.toNat < 16) :
    ∃ cc' pks last s', sendTimes (t.demux p pid) n cc dst = .ok (cc', dst ++ pks.flatten) ∧ (∀ pk ∈ pks, IsTsPacket pid.toNat pk) ∧
      receive (watch (Pat.parse p) p) p (Pat.default, Psi.default) s pks = .ok ((t, last), s') := by
  obtain ⟨cc', h⟩ := sendTimes_stream (t.demux p pid) pid.toNat [t.wire t.items] (by
    intro cc dst hc
    have := Pat.C54_wire p t pid cc dst hp hc
    rw [List.take_of_length_le hl] at this
    rw [this]
    simp [stream, streamCount]) n cc hc dst
  have H := Pat.sent p t hv hl hi
  obtain ⟨last, s', h'⟩ := once (p := p) (H.sec () (by simp)) (fun t => H.par t () (by simp)) pid.toNat hp Pat.default s hs cc.toNat n hn
  exact ⟨cc', _, last, s', h, stream_packets _ _ hp _, h'⟩

/-- C146 for the TOT. -/
theorem C146_tot (p : Profile) (t u : Tot) (h : t.InRange) (he : ∀ d ∈ t.descriptors, d.Exact) (n : Nat) (hn : 0 < n)
    (pid : UInt16) (cc : UInt8) (dst : List UInt8) (s : Psi) (hs : s.Ok) (hp : pid.toNat < 8192) (hc : cc.toNat < 16) :
    ∃ cc' pks last s', sendTimes (t.demux p pid) n cc dst = .ok (cc', dst ++ pks.flatten) ∧ (∀ pk ∈ pks, IsTsPacket pid.toNat pk) ∧
      receive (watch (Tot.parse p) p) p (u, Psi.default) s pks = .ok (({ t with descriptors := u.descriptors ++ t.descriptors }, last), s') := by
  obtain ⟨cc', h1⟩ := sendTimes_stream (t.demux p pid) pid.toNat [t.wire] (by
    intro cc dst hc
    rw [(C91_tot p t u h he pid cc dst hp hc).1]
    simp [stream, streamCount]) n cc hc dst
  have H := Tot.sent p t h he
  obtain ⟨last, s', h'⟩ := once (p := p) (H.sec () (by simp)) (fun t => H.par t () (by simp)) pid.toNat hp u s hs cc.toNat n hn
  exact ⟨cc', _, last, s', h1, stream_packets _ _ hp _, h'⟩

/-- C146 for an SDT that fits into one section. -/
theorem C146_sdt (p : Profile) (t : Sdt) (ht : t.InRange) (hone : 11 + (t.items.map fun i => (Sdt.entry i).length).sum ≤ 1020) (n : Nat) (hn : 0 < n)
    (pid : UInt16) (cc : UInt8) (dst : List UInt8) (s : Psi) (hs : s.Ok) (hp : pid.toNat < 8192) (hc : cc.toNat < 16) :
    ∃ cc' pks last s', sendTimes (t.demux p pid) n cc dst = .ok (cc', dst ++ pks.flatten) ∧ (∀ pk ∈ pks, IsTsPacket pid.toNat pk) ∧
      receive (watch (Sdt.parse p) p) p (Sdt.default, Psi.default) s pks = .ok ((t, last), s') := by
  have P : Packed (fun i => (Sdt.entry i).length) 1020 11 11 t.items [t.items] := by
    refine ⟨by simp, by simp, by simp, ?_, ?_⟩
    · intro i g h
      match i, h with
      | 0, h => cases h; simpa using hone
    · intro i g h x h1 h2
      match i, h1, h2 with
      | 0, _, h2 => cases h2
  obtain ⟨cc', h⟩ := sendTimes_stream (t.demux p pid) pid.toNat (t.wire [t.items]) (by
    intro cc dst hc
    obtain ⟨gs', P', hw, -⟩ := C91_sdt p t ht pid cc dst hp hc
    rw [P.unique P']; exact hw) n cc hc dst
  have H := Sdt.sent p t ht _ P
  obtain ⟨last, s', h'⟩ := once (p := p) (H.sec (t.items, 0) (by simp)) (fun t => H.par t _ (by simp)) pid.toNat hp Sdt.default s hs cc.toNat n hn
  exact ⟨cc', _, last, s', h, stream_packets _ _ hp _, h'⟩

/-- C146 for a NIT that fits into one section. -/
theorem C146_nit (p : Profile) (t : Nit) (ht : t.InRange)
    (hone : 12 + (t.descriptors.flatMap Desc.wire).length + (t.items.map fun i => (Nit.entry i).length).sum ≤ 1020) (n : Nat) (hn : 0 < n)
    (pid : UInt16) (cc : UInt8) (dst : List UInt8) (s : Psi) (hs : s.Ok) (hp : pid.toNat < 8192) (hc : cc.toNat < 16) :
    ∃ cc' pks last s', sendTimes (t.demux p pid) n cc dst = .ok (cc', dst ++ pks.flatten) ∧ (∀ pk ∈ pks, IsTsPacket pid.toNat pk) ∧
      receive (watch (Nit.parse p) p) p (Nit.default, Psi.default) s pks = .ok ((t, last), s') := by
  have P : Packed (fun i => (Nit.entry i).length) 1020 (12 + (t.descriptors.flatMap Desc.wire).length) 12 t.items [t.items] := by
    refine ⟨by simp, by simp, by simp, ?_, ?_⟩
    · intro i g h
      match i, h with
      | 0, h => cases h; simpa using hone
    · intro i g h x h1 h2
      match i, h1, h2 with
      | 0, _, h2 => cases h2
  obtain ⟨cc', h⟩ := sendTimes_stream (t.demux p pid) pid.toNat (t.wire [t.items]) (by
    intro cc dst hc
    obtain ⟨gs', P', hw, -⟩ := C91_nit p t ht pid cc dst hp hc
    rw [P.unique P']; exact hw) n cc hc dst
  have H := Nit.sent p t ht _ P
  obtain ⟨last, s', h'⟩ := once (p := p) (H.sec (t.items, 0) (by simp)) (fun t => H.par t _ (by simp)) pid.toNat hp Nit.default s hs cc.toNat n hn
  exact ⟨cc', _, last, s', h, stream_packets _ _ hp _, h'⟩

/-- C146 for a PMT that fits into one section; its program descriptors are misread (C55). -/
theorem C146_pmt_partial (p : Profile) (t : Pmt) (ht : t.InRange) (ds : Descriptors) (hds : readBackShifted p t.descriptors = .ok ds)
    (hone : 12 + (t.descriptors.flatMap Desc.wire).length + (t.items.map fun i => (Pmt.entry i).length).sum ≤ 1020) (n : Nat) (hn : 0 < n)
    (pid : UInt16) (cc : UInt8) (dst : List UInt8) (s : Psi) (hs : s.Ok) (hp : pid.toNat < 8192) (hc : cc.toNat < 16) :
    ∃ cc' pks last s', sendTimes (t.demux p pid) n cc dst = .ok (cc', dst ++ pks.flatten) ∧ (∀ pk ∈ pks, IsTsPacket pid.toNat pk) ∧
      receive (watch (Pmt.parse p) p) p (Pmt.default, Psi.default) s pks = .ok (({ t with descriptors := ds }, last), s') := by
  have P : Packed (fun i => (Pmt.entry i).length) 1020 (12 + (t.descriptors.flatMap Desc.wire).length) 12 t.items [t.items] := by
    refine ⟨by simp, by simp, by simp, ?_, ?_⟩
    · intro i g h
      match i, h with
      | 0, h => cases h; simpa using hone
    · intro i g h x h1 h2
      match i, h1, h2 with
      | 0, _, h2 => cases h2
  have hmis : Pmt.misread p t = .ok ds := by
    rw [← hds, readBackShifted_good p _ ht.program.fits.1]; rfl
  obtain ⟨cc', h⟩ := sendTimes_stream (t.demux p pid) pid.toNat (t.wire [t.items]) (by
    intro cc dst hc
    obtain ⟨gs', P', hw, -⟩ := C91_pmt p t ht ds hmis pid cc dst hp hc
    rw [P.unique P']; exact hw) n cc hc dst
  have H := Pmt.sent p t ht ds hmis _ P
  obtain ⟨last, s', h'⟩ := once (p := p) (H.sec (t.items, 0) (by simp)) (fun t => H.par t _ (by simp)) pid.toNat hp Pmt.default s hs cc.toNat n hn
  exact ⟨cc', _, last, s', h, stream_packets _ _ hp _, h'⟩

namespace Watch

/-- The counter goes on. -/
theorem sendTimes_cc (send : UInt8 → List UInt8 → R (UInt8 × List UInt8)) (pid : Nat) (w : List UInt8)
    (h : ∀ cc dst, cc.toNat < 16 → send cc dst = .ok (UInt8.ofNat ((cc.toNat + streamCount [w]) % 16), dst ++ (stream pid cc.toNat [w]).flatten))
    (n : Nat) (cc : UInt8) (hc : cc.toNat < 16) (dst : List UInt8) :
    sendTimes send n cc dst = .ok (UInt8.ofNat ((cc.toNat + streamCount (List.replicate n w)) % 16),
      dst ++ (stream pid cc.toNat (List.replicate n w)).flatten) := by
  induction n generalizing cc dst with
  | zero =>
    have : UInt8.ofNat (cc.toNat % 16) = cc := by rw [Nat.mod_eq_of_lt hc]; simp
    simp [sendTimes, stream, streamCount, this]
  | succ n ih =>
    have hcc : (UInt8.ofNat ((cc.toNat + streamCount [w]) % 16)).toNat = (cc.toNat + streamCount [w]) % 16 := by rw [UInt8.toNat_ofNat']; omega
    have hcount : streamCount (List.replicate (n + 1) w) = streamCount [w] + streamCount (List.replicate n w) := by
      simp [streamCount, List.replicate_succ]
    rw [sendTimes, h cc dst hc, ok_bind]
    simp only []
    rw [ih _ (by rw [hcc]; omega), hcc, stream_cc, hcount]
    have e : List.replicate (n + 1) w = [w] ++ List.replicate n w := by rw [List.replicate_succ]; rfl
    rw [e, stream_append, List.flatten_append, List.append_assoc]
    congr 3
    omega

theorem Pat.send (p : Profile) (t : Pat) (hl : t.items.length ≤ 253) (pid : UInt16) (hp : pid.toNat < 8192) : ∀ cc dst, cc.toNat < 16 →
    t.demux p pid cc dst = .ok (UInt8.ofNat ((cc.toNat + streamCount [t.wire t.items]) % 16),
      dst ++ (stream pid.toNat cc.toNat [t.wire t.items]).flatten) := by
  intro cc dst hc
  have := Pat.C54_wire p t pid cc dst hp hc
  rw [List.take_of_length_le hl] at this
  rw [this]
  simp [stream, streamCount]

end Watch

/-- C146, exactly: a PAT is sent `n` times and then another one `m` times, to a receiver that makes a new table of every section that differs from
the last.  In the end it has the other PAT, unless the sections of the two are of the same size and have the same CRC: then it still has the first. -/
theorem C146_pat_update_partial (p : Profile) (t t' : Pat) (hv : t.version.toNat < 32) (hl : t.items.length ≤ 253)
    (hi : ∀ i ∈ t.items, i.pid.toNat < 8192) (hv' : t'.version.toNat < 32) (hl' : t'.items.length ≤ 253) (hi' : ∀ i ∈ t'.items, i.pid.toNat < 8192)
    (n m : Nat) (hn : 0 < n) (hm : 0 < m) (pid : UInt16) (cc : UInt8) (dst : List UInt8) (s : Psi) (hs : s.Ok) (hp : pid.toNat < 8192)
    (hc : cc.toNat < 16) :
    ∃ cc' dst' cc'' pks last s', sendTimes (t.demux p pid) n cc dst = .ok (cc', dst') ∧
      sendTimes (t'.demux p pid) m cc' dst' = .ok (cc'', dst ++ pks.flatten) ∧ (∀ pk ∈ pks, IsTsPacket pid.toNat pk) ∧
      receive (watch (fun _ => Pat.parse p Pat.default) p) p (Pat.default, Psi.default) s pks =
        .ok ((if looksLike (t'.wire t'.items) (t.wire t.items) then t else t', last), s') := by
  have h1 := sendTimes_cc (t.demux p pid) pid.toNat (t.wire t.items) (Watch.Pat.send p t hl pid hp) n cc hc dst
  have hcc : (UInt8.ofNat ((cc.toNat + streamCount (List.replicate n (t.wire t.items))) % 16)).toNat =
      (cc.toNat + streamCount (List.replicate n (t.wire t.items))) % 16 := by rw [UInt8.toNat_ofNat']; omega
  have h2 := sendTimes_cc (t'.demux p pid) pid.toNat (t'.wire t'.items) (Watch.Pat.send p t' hl' pid hp) m _ (by rw [hcc]; omega)
    (dst ++ (stream pid.toNat cc.toNat (List.replicate n (t.wire t.items))).flatten)
  rw [hcc, stream_cc, List.append_assoc, ← List.flatten_append, ← stream_append] at h2
  have H := Pat.sent p t hv hl hi
  have H' := Pat.sent p t' hv' hl' hi'
  obtain ⟨last, s', h⟩ := all (p := p) (parse := fun _ => Pat.parse p Pat.default) (l := List.replicate n t ++ List.replicate m t')
    (f := fun t => t.wire t.items) (step := fun _ t => t) (by
      intro x hx
      rcases List.mem_append.1 hx with hx | hx <;> rw [List.eq_of_mem_replicate hx]
      · exact H.sec () (by simp)
      · exact H'.sec () (by simp)) (by
      intro u x hx psi b1 b2
      rcases List.mem_append.1 hx with hx | hx <;> rw [List.eq_of_mem_replicate hx] at b1 b2 ⊢
      · exact H.par Pat.default () (by simp) psi b1 b2
      · exact H'.par Pat.default () (by simp) psi b1 b2) pid.toNat hp Pat.default s hs cc.toNat
  rw [List.map_append, List.map_replicate, List.map_replicate,
    changes_run _ t [] (looksLike_nil (by have := (H.sec () (by simp)).2.1; omega)) n hn] at h
  refine ⟨_, _, _, _, last, s', h1, h2, stream_packets _ _ hp _, ?_⟩
  rw [h]
  congr 3
  have e := List.append_nil (List.replicate m t')
  split
  · rename_i hk
    rw [← e, changes_again _ t' _ hk]
    rfl
  · rename_i hk
    rw [← e, changes_run _ t' _ (by simpa using hk) m hm]
    rfl

/-- C146 fails: in every PAT two neighbouring programmes can be changed in such a way that the receiver of C146_pat_update_partial does not notice and
keeps the PAT it has, however often the changed one is sent. -/
theorem C146_pat_update_refuted (p : Profile) (t : Pat) (l r : List PatItem) (a b : PatItem) (hi : t.items = l ++ a :: b :: r)
    (hv : t.version.toNat < 32) (hl : t.items.length ≤ 253) (hr : ∀ i ∈ t.items, i.pid.toNat < 8192) (n m : Nat) (hn : 0 < n) (hm : 0 < m)
    (pid : UInt16) (cc : UInt8) (dst : List UInt8) (s : Psi) (hs : s.Ok) (hp : pid.toNat < 8192) (hc : cc.toNat < 16) :
    let t' : Pat := { t with items := l ++ ⟨a.pnr ^^^ 1, a.pid ^^^ 0x04C1⟩ :: ⟨b.pnr ^^^ 0x1DB7, b.pid⟩ :: r }
    t' ≠ t ∧ ∃ cc' dst' cc'' pks last s', sendTimes (t.demux p pid) n cc dst = .ok (cc', dst') ∧
      sendTimes (t'.demux p pid) m cc' dst' = .ok (cc'', dst ++ pks.flatten) ∧ (∀ pk ∈ pks, IsTsPacket pid.toNat pk) ∧
      receive (watch (fun _ => Pat.parse p Pat.default) p) p (Pat.default, Psi.default) s pks = .ok ((t, last), s') := by
  intro t'
  have hlen : t'.items.length = t.items.length := by rw [hi]; simp [t']
  have hl2 : l.length + 2 ≤ 253 := by rw [hi] at hl; simp at hl; omega
  have hx : ∀ q : UInt16, q.toNat < 8192 → (q ^^^ 0x04C1).toNat < 8192 := by
    intro q hq
    rw [UInt16.toNat_xor]
    exact Nat.xor_lt_two_pow (n := 13) hq (by decide)
  have hi' : ∀ i ∈ t'.items, i.pid.toNat < 8192 := by
    intro i h
    rw [hi] at hr
    rcases List.mem_append.1 h with h | h
    · exact hr i (List.mem_append_left _ h)
    · rcases List.mem_cons.1 h with rfl | h
      · exact hx _ (hr a (by simp))
      · rcases List.mem_cons.1 h with rfl | h
        · exact hr b (by simp)
        · exact hr i (by simp [h])
  obtain ⟨sec, sec', e1, e2, hne, heq⟩ := Pat.C140_pat_refuted p t l r a b hi hl2 pid cc dst hp hc
  have u1 := sends_unique hp e1 (by have := Pat.sends p t pid cc dst hp hc; rwa [List.take_of_length_le hl] at this)
  have u2 := sends_unique hp e2 (by have := Pat.sends p t' pid cc dst hp hc; rwa [List.take_of_length_le (by omega)] at this)
  subst u1 u2
  refine ⟨fun h => hne (by rw [h]), ?_⟩
  obtain ⟨cc', dst', cc'', pks, last, s', h1, h2, h3, h4⟩ :=
    C146_pat_update_partial p t t' hv hl hr hv (by omega) hi' n m hn hm pid cc dst s hs hp hc
  refine ⟨cc', dst', cc'', pks, last, s', h1, h2, h3, ?_⟩
  have H := (Pat.sent p t hv hl hr).sec () (by simp)
  have H' := (Pat.sent p t' hv (by omega) hi').sec () (by simp)
  have hq := (heq ⟨t.wire t.items, (t.wire t.items).length, 0, 0⟩ ⟨t'.wire t'.items, (t'.wire t'.items).length, 0, 0⟩ rfl rfl rfl rfl).2.2
  rw [eq_looksLike p _ _ rfl H.2.1 ⟨rfl, .inr H'.2.1⟩] at hq
  have hq := Except.ok.inj hq
  simp only [looksLike, decide_eq_true_eq] at hq
  rw [h4, if_pos (by simp only [looksLike, decide_eq_true_eq]; exact ⟨hq.1.symm, hq.2.symm⟩)]

namespace Watch

theorem looksLike_size {a b : List UInt8} (h : a.length ≠ b.length) : looksLike a b = false := by
  simp [looksLike, h]

/-- Sections of different sizes by turns. -/
theorem changes_turns {β : Type} (f : β → List UInt8) (x y : β) (h : (f x).length ≠ (f y).length) (n : Nat) (prev : List UInt8)
    (hp : (f x).length ≠ prev.length) : changes f prev (List.replicate n [x, y]).flatten = (List.replicate n [x, y]).flatten := by
  induction n generalizing prev with
  | zero => rfl
  | succ n ih =>
    rw [List.replicate_succ, List.flatten_cons]
    simp only [List.cons_append, List.nil_append, changes, looksLike_size hp, looksLike_size (Ne.symm h), Bool.false_eq_true, if_false]
    rw [ih (f y) h]

end Watch

/-- C146 fails for tables of several sections, which come by turns: of a present/following EIT with two events of different lengths that is sent `n`
times the receiver has every event `n` times, in spite of the comparison. -/
theorem C146_eit_pf_refuted (p : Profile) (t : Eit) (hid : t.tableId = 0x4E ∨ t.tableId = 0x4F) (ht : t.InRange) (a b : EitItem)
    (hi : t.items = [a, b]) (hab : (Eit.entry a).length ≠ (Eit.entry b).length) (n : Nat) (hn : 0 < n)
    (pid : UInt16) (cc : UInt8) (dst : List UInt8) (s : Psi) (hs : s.Ok) (hp : pid.toNat < 8192) (hc : cc.toNat < 16) :
    ∃ cc' pks last s', sendTimes (t.demux p pid) n cc dst = .ok (cc', dst ++ pks.flatten) ∧ (∀ pk ∈ pks, IsTsPacket pid.toNat pk) ∧
      receive (watch (Eit.parse p) p) p (Eit.default, Psi.default) s pks =
        .ok (({ t with items := (List.replicate n [a, b]).flatten }, last), s') := by
  have hr : ∀ i ∈ t.items, Eit.ItemInRange i := fun i hi => (ht.items i hi).1
  obtain ⟨cc', h⟩ := sendTimes_stream (t.demux p pid) pid.toNat t.wirePf (fun cc dst hc => Eit.C58_wire p t hid hr pid cc dst hp hc) n cc hc dst
  have H := (Eit.sent_pf p t hid ht).sub (l' := (List.replicate n t.items.zipIdx).flatten) fun _ => mem_times
  obtain ⟨last, s', h'⟩ := all (p := p) H.sec H.par pid.toNat hp Eit.default s hs cc.toNat
  refine ⟨cc', _, last, s', h, stream_packets _ _ hp _, ?_⟩
  have hz : t.items.zipIdx = [(a, 0), (b, 1)] := by rw [hi]; rfl
  have hlen : ∀ tid n l sl lt (i : EitItem), (t.section' tid n l sl lt [i]).length = 18 + (Eit.entry i).length := by
    intro tid n l sl lt i
    rw [Eit.section_length, List.flatMap_cons, List.flatMap_nil, List.append_nil]
  rw [Eit.wirePf, map_times, h', hz, changes_turns]
  · rw [foldl_items _ (fun x => { t with items := x }) Eit.items (fun x : EitItem × Nat => [x.1]) (fun _ => rfl),
      if_neg (times_ne hn (by simp)), flatMap_times]
    rfl
  · rw [hlen, hlen]; exact fun h => hab (Nat.add_left_cancel h)
  · rw [hlen, List.length_nil]; omega

/-! ## Concrete cases -/

private def twoPrograms : Pat := { Pat.default with version := 3, tsid := 7, items := [⟨1, 0x100⟩, ⟨2, 0x200⟩] }

/-- A PAT with two programmes sent five times is read once. -/
example (p : Profile) : ∃ cc' pks last s', sendTimes (twoPrograms.demux p 0) 5 9 [] = .ok (cc', [] ++ pks.flatten) ∧
    (∀ pk ∈ pks, IsTsPacket (0 : UInt16).toNat pk) ∧
    receive (watch (Pat.parse p) p) p (Pat.default, Psi.default) Psi.default pks = .ok ((twoPrograms, last), s') :=
  C146_pat p twoPrograms (by decide) (by decide) (by decide) 5 (by decide) 0 9 [] Psi.default Psi.default_ok (by decide) (by decide)

/-- Without its second programme it is of another size, and noticed. -/
example (p : Profile) : ∃ cc' dst' cc'' pks last s', sendTimes (twoPrograms.demux p 0) 5 9 [] = .ok (cc', dst') ∧
    sendTimes ({ twoPrograms with items := [⟨1, 0x100⟩] }.demux p 0) 2 cc' dst' = .ok (cc'', [] ++ pks.flatten) ∧
    (∀ pk ∈ pks, IsTsPacket (0 : UInt16).toNat pk) ∧
    receive (watch (fun _ => Pat.parse p Pat.default) p) p (Pat.default, Psi.default) Psi.default pks =
      .ok (({ twoPrograms with items := [⟨1, 0x100⟩] }, last), s') := by
  have h := C146_pat_update_partial p twoPrograms { twoPrograms with items := [⟨1, 0x100⟩] } (by decide) (by decide) (by decide) (by decide) (by decide)
    (by decide) 5 2 (by decide) (by decide) 0 9 [] Psi.default Psi.default_ok (by decide) (by decide)
  rwa [if_neg (by decide +kernel)] at h

/-- With two other programmes, version 3 as before, it is not noticed. -/
example (p : Profile) : ∃ cc' dst' cc'' pks last s', sendTimes (twoPrograms.demux p 0) 5 9 [] = .ok (cc', dst') ∧
    sendTimes ({ twoPrograms with items := [⟨0, 0x5C1⟩, ⟨0x1DB5, 0x200⟩] }.demux p 0) 2 cc' dst' = .ok (cc'', [] ++ pks.flatten) ∧
    (∀ pk ∈ pks, IsTsPacket (0 : UInt16).toNat pk) ∧
    receive (watch (fun _ => Pat.parse p Pat.default) p) p (Pat.default, Psi.default) Psi.default pks = .ok ((twoPrograms, last), s') :=
  (C146_pat_update_refuted p twoPrograms [] [] ⟨1, 0x100⟩ ⟨2, 0x200⟩ rfl (by decide) (by decide) (by decide) 5 2 (by decide) (by decide) 0 9 []
    Psi.default Psi.default_ok (by decide) (by decide)).2

/-- A NIT and a PMT sent five times are read once. -/
example (p : Profile) : ∃ cc' pks last s', sendTimes (sampleNit.demux p 16) 5 9 [] = .ok (cc', [] ++ pks.flatten) ∧
    (∀ pk ∈ pks, IsTsPacket (16 : UInt16).toNat pk) ∧
    receive (watch (Nit.parse p) p) p (Nit.default, Psi.default) Psi.default pks = .ok ((sampleNit, last), s') :=
  C146_nit p sampleNit sampleNit_inRange (by decide +kernel) 5 (by decide) 16 9 [] Psi.default Psi.default_ok (by decide) (by decide)
example (p : Profile) : ∃ cc' pks last s', sendTimes (samplePmt.demux p 256) 5 9 [] = .ok (cc', [] ++ pks.flatten) ∧
    (∀ pk ∈ pks, IsTsPacket (256 : UInt16).toNat pk) ∧
    receive (watch (Pmt.parse p) p) p (Pmt.default, Psi.default) Psi.default pks = .ok ((samplePmt, last), s') :=
  C146_pmt_partial p samplePmt samplePmt_inRange [] (by cases p <;> decide +kernel) (by decide +kernel) 5 (by decide) 256 9 [] Psi.default
    Psi.default_ok (by decide) (by decide)

end Mpegts
