import Verif.Props.C83_C86
import Verif.Props.Sdt
import Verif.Props.Nit
import Verif.Props.EitSchedule
import Verif.Props.Pat
import Verif.Props.Pmt
import Verif.Props.Tdt
import Verif.Lemmas.PackedUnique

/-! # C91: tables over a channel that loses packets; C92: tables sent again and again -/

namespace Mpegts
open Spec Spec.Table Spec.Schedule

theorem intact_map {β : Type} (f : β → List UInt8) (keep : Nat → Bool) (n : Nat) (l : List β) :
    intact keep n (l.map f) = (survivors f keep n l).map f := by
  induction l generalizing n with
  | nil => rfl
  | cons x r ih =>
    rw [List.map_cons, intact, survivors, ih]
    split <;> rfl

theorem survivors_mem {β : Type} (f : β → List UInt8) (keep : Nat → Bool) (n : Nat) (l : List β) :
    ∀ x ∈ survivors f keep n l, x ∈ l := by
  induction l generalizing n with
  | nil => intro x h; exact h
  | cons y r ih =>
    intro x h
    rw [survivors] at h
    split at h
    · rcases List.mem_cons.1 h with rfl | h
      · exact List.mem_cons_self
      · exact List.mem_cons_of_mem _ (ih _ x h)
    · exact List.mem_cons_of_mem _ (ih _ x h)

/-- The packets a transmitter of this library makes: payload, and pointer_field 0 where a section starts. -/
def Plain (ts : List UInt8) : Prop := IsPacket ts ∧ hasPayload ts = true ∧ (pusiOf ts = true → pointerOf ts = 0)

theorem packetAt_plain (pid cc : Nat) (hp : pid < 8192) (sec : List UInt8) (i : Nat) : Plain (packetAt pid cc sec i) := by
  obtain ⟨f1, f2, f3, f4, f5⟩ := packetAt_fields pid cc hp sec i
  refine ⟨f1, f2, fun h => ?_⟩
  rw [f3, decide_eq_true_eq] at h
  subst h
  rw [pointerOf, f5]
  generalize hB : ((0x00 :: sec).drop (184 * 0)).take 184 = B
  have he : packetAt pid cc sec 0 = (secHdr pid ((cc + 0) % 16) (decide (0 = 0))).encode ++
      (B ++ List.replicate (184 - B.length) 0xFF) := by
    rw [packetAt, hB, payloadPacket_eq]; simp
  have hB0 : ∃ r, B = 0 :: r := ⟨sec.take 183, by rw [← hB]; rfl⟩
  obtain ⟨r, rfl⟩ := hB0
  rw [he, List.getD_eq_getElem?_getD, List.getElem?_append_right (by rw [encode_length]), encode_length]
  rfl

theorem stream_plain (pid : Nat) (hp : pid < 8192) (secs : List (List UInt8)) (cc : Nat) : ∀ pk ∈ stream pid cc secs, Plain pk := by
  induction secs generalizing cc with
  | nil => intro pk h; cases h
  | cons s r ih =>
    intro pk h
    rcases List.mem_append.1 h with h | h
    · obtain ⟨i, -, rfl⟩ := List.mem_map.1 h
      exact packetAt_plain pid cc hp s i
    · exact ih _ pk h

theorem received_mem (keep : Nat → Bool) (n : Nat) (l : List (List UInt8)) : ∀ pk ∈ received keep n l, pk ∈ l := by
  induction l generalizing n with
  | nil => intro x h; exact h
  | cons y r ih =>
    intro x h
    rw [received] at h
    split at h
    · rcases List.mem_cons.1 h with rfl | h
      · exact List.mem_cons_self
      · exact List.mem_cons_of_mem _ (ih _ x h)
    · exact List.mem_cons_of_mem _ (ih _ x h)

/-- After such a packet the reassembler holds no more than the announced section. -/
theorem plain_mux {p : Profile} {s s' : Psi} {ts : List UInt8} (hs : s.Ok) (h : Plain ts) (he : s.mux p ts = .ok s') :
    s'.Ok ∧ (s'.size = 0 ∨ s'.buffer.length ≤ s'.size) := by
  refine ⟨Psi.mux_ok hs h.1 he, ?_⟩
  have ho := Psi.mux_outcome p s ts hs h.1
  rw [he] at ho
  cases ho with
  | nopay h1 => rw [h.2.1] at h1; cases h1
  | clear _ => exact .inl rfl
  | cont h1 h2 h3 h4 => exact .inr (by simp only [List.length_take]; omega)
  | start h1 h2 h3 h4 h5 h6 =>
    simp only [Psi.started, upToEnd, declaredSize]
    generalize ts.drop (offsetOf ts + 1 + pointerOf ts) = b
    by_cases h3 : 3 ≤ b.length
    · right; simp only [h3, if_true, List.length_take]; omega
    · left; simp [h3]
  | pusiCont h1 h2 h3 h4 h5 h6 h7 => exact absurd (h.2.2 h2) h5

/-- Receiving a table parses exactly the sections the receiver gets. -/
theorem receive_sections {α : Type} (parse : α → Psi → R α) (step : α → List UInt8 → R α) (p : Profile)
    (hrej : ∀ t (psi : Psi), psi.check p = .ok false → (psi.size = 0 ∨ psi.buffer ≠ []) → parse t psi = .ok t)
    (pks : List (List UInt8)) (hpk : ∀ pk ∈ pks, Plain pk) (t : α) (s : Psi) (hs : s.Ok) (l : List (List UInt8))
    (hacc : ∀ t sec, sec ∈ l → ∀ psi : Psi, psi.buffer = sec → psi.size = sec.length → parse t psi = step t sec)
    (h : sections p s pks = .ok l) :
    ∃ s', receive parse p t s pks = (fun x => (x, s')) <$> l.foldlM step t := by
  induction pks generalizing t s l with
  | nil =>
    cases h
    exact ⟨s, rfl⟩
  | cons pk r ih =>
    rw [sections_cons] at h
    rw [receive_cons]
    cases hm : s.mux p pk with
    | error e => rw [hm] at h; cases h
    | ok u =>
      obtain ⟨hu, hle⟩ := plain_mux hs (hpk pk List.mem_cons_self) hm
      rw [hm, ok_bind, Psi.check_eq, ok_bind] at h
      rw [ok_bind]
      cases hr : sections p u r with
      | error e => rw [hr] at h; cases h
      | ok l' =>
        rw [hr, ok_bind] at h
        have hpk' : ∀ pk ∈ r, Plain pk := fun x hx => hpk x (List.mem_cons_of_mem _ hx)
        have hck := Psi.check_eq p u
        by_cases hc : u.check p = .ok true
        · rw [hck] at hc
          rw [Except.ok.inj hc, if_pos rfl] at h
          have hl : u.buffer.take u.size :: l' = l := Except.ok.inj h
          have hc' := of_decide_eq_true (Except.ok.inj hc)
          have hb : u.buffer.take u.size = u.buffer := List.take_of_length_le (by omega)
          rw [hb] at hl
          subst hl
          have hlen : u.size = u.buffer.length := by omega
          rw [hacc t u.buffer List.mem_cons_self u rfl hlen, List.foldlM_cons]
          cases step t u.buffer with
          | error e => exact ⟨s, rfl⟩
          | ok t' =>
            rw [ok_bind, ok_bind]
            exact ih hpk' t' u hu l' (fun t sec hsec => hacc t sec (List.mem_cons_of_mem _ hsec)) hr
        · have hf : u.check p = .ok false := by
            rw [hck] at hc ⊢
            refine congrArg _ ?_
            by_contra hne
            exact hc (congrArg _ (by simpa using hne))
          rw [hrej t u hf (by
            by_cases hb : u.buffer = []
            · exact .inl (hu.empty hb)
            · exact .inr hb), ok_bind]
          rw [hck] at hf
          rw [Except.ok.inj hf, if_neg (by decide)] at h
          have hl : l' = l := Except.ok.inj h
          subst hl
          exact ih hpk' t u hu l' hacc hr

/-- What is needed of a table whose sections are the `f x`: they are sections with a right CRC, `parse` makes `step` of each, and
it ignores what the reassembler does not accept. -/
structure Sent {α β : Type} (p : Profile) (parse : α → Psi → R α) (l : List β) (f : β → List UInt8) (step : α → β → α) : Prop where
  sec : ∀ x ∈ l, IsSection (f x) ∧ 7 < (f x).length ∧ crc32 (f x) = 0
  par : ∀ t x, x ∈ l → ∀ psi : Psi, psi.buffer = f x → psi.size = (f x).length → parse t psi = .ok (step t x)
  rej : ∀ t (psi : Psi), psi.check p = .ok false → (psi.size = 0 ∨ psi.buffer ≠ []) → parse t psi = .ok t

theorem Sent.sub {α β : Type} {p : Profile} {parse : α → Psi → R α} {l l' : List β} {f : β → List UInt8} {step : α → β → α}
    (h : Sent p parse l f step) (hl : ∀ x ∈ l', x ∈ l) : Sent p parse l' f step :=
  ⟨fun x hx => h.sec x (hl x hx), fun t x hx => h.par t x (hl x hx), h.rej⟩

/-- A table whose sections are sent one after the other over a channel that loses packets. -/
theorem Sent.lossy {α β : Type} {p : Profile} {parse : α → Psi → R α} {l : List β} {f : β → List UInt8} {step : α → β → α}
    (H : Sent p parse l f step) (pid : Nat) (hp : pid < 8192)
    (keep : Nat → Bool) (h0 : keep 0 = true) (t : α) (s : Psi) (hok : s.Ok) (cc : Nat)
    (hu : Unambiguous keep (stream pid cc (l.map f))) :
    ∃ s', receive parse p t s (received keep 0 (stream pid cc (l.map f))) = .ok ((survivors f keep 0 l).foldl step t, s') := by
  have h83 := C83_loss_partial p pid cc hp keep (l.map f) (by
    intro sec hsec
    obtain ⟨x, hx, rfl⟩ := List.mem_map.1 hsec
    exact H.sec x hx) h0 hu s
  rw [intact_map] at h83
  obtain ⟨s', h⟩ := receive_sections parse (fun t sec => parse t ⟨sec, sec.length, 0, 0⟩) p H.rej _
    (fun pk hpk => stream_plain pid hp _ cc pk (received_mem _ _ _ pk hpk)) t s hok _ (by
      intro t sec hsec psi h1 h2
      obtain ⟨x, hx, rfl⟩ := List.mem_map.1 hsec
      have hm := survivors_mem _ _ _ _ x hx
      rw [H.par t x hm psi h1 h2, H.par t x hm _ rfl rfl]) h83
  refine ⟨s', ?_⟩
  rw [h]
  have : ∀ (m : List β), (∀ x ∈ m, x ∈ l) → ∀ t, (m.map f).foldlM (fun t sec => parse t ⟨sec, sec.length, 0, 0⟩) t = .ok (m.foldl step t) := by
    intro m
    induction m with
    | nil => intro _ t; rfl
    | cons x m ih =>
      intro hm t
      rw [List.map_cons, List.foldlM_cons, H.par t x (hm x List.mem_cons_self) _ rfl rfl, ok_bind,
        ih (fun y hy => hm y (List.mem_cons_of_mem _ hy))]
      rfl
  rw [this _ (survivors_mem f keep 0 l), map_ok]

/-- A table whose sections all arrive. -/
theorem Sent.all {α β : Type} {p : Profile} {parse : α → Psi → R α} {l : List β} {f : β → List UInt8} {step : α → β → α}
    (H : Sent p parse l f step) (pid : Nat) (hp : pid < 8192) (t : α) (s : Psi) (cc : Nat) :
    ∃ s', receive parse p t s (stream pid cc (l.map f)) = .ok (l.foldl step t, s') := by
  refine receive_stream parse p pid hp l f (fun x hx => (H.sec x hx).1) step H.par ?_ t s cc
  intro t psi _ hlt h183
  refine H.rej t psi ?_ (.inr (by intro e; rw [e] at h183; simp at h183))
  rw [Psi.check_eq]
  refine congrArg _ (decide_eq_false ?_)
  rintro ⟨-, h, -⟩
  omega

theorem survivors_map {β γ : Type} (g : β → γ) (f : γ → List UInt8) (keep : Nat → Bool) (n : Nat) (l : List β) :
    survivors f keep n (l.map g) = (survivors (fun x => f (g x)) keep n l).map g := by
  induction l generalizing n with
  | nil => rfl
  | cons x r ih =>
    rw [List.map_cons, survivors, survivors, ih]
    split <;> rfl

theorem not_intact {p : Profile} {psi : Psi} {m : Nat} (hm : 8 ≤ m) (h : psi.check p = .ok false) : ¬ Intact m psi := by
  intro hi
  rw [check_intact p psi m hm hi.1, decide_eq_true hi] at h
  cases h

theorem small_or {psi : Psi} {m : Nat} (hm : 0 < m) (h : psi.size = 0 ∨ psi.buffer ≠ []) : psi.size < m ∨ psi.buffer ≠ [] := by
  rcases h with h | h
  · exact .inl (by omega)
  · exact .inr h

theorem complete_sent {b : List UInt8} (h3 : 3 ≤ b.length) (hb : (complete b).length ≤ 4098) (h8 : 4 ≤ b.length) :
    IsSection (complete b) ∧ 7 < (complete b).length ∧ crc32 (complete b) = 0 := by
  rw [complete_length h3] at hb
  exact ⟨complete_isSection h3 (by omega), by rw [complete_length h3]; omega, crc32_append_self _⟩

/-! ## The tables -/

theorem Sdt.sent (p : Profile) (t : Sdt) (ht : t.InRange) (gs : List (List SdtItem))
    (P : Packed (fun i => (entry i).length) 1020 11 11 t.items gs) :
    Sent p (Sdt.parse p) gs.zipIdx (fun x => complete (Table.sdt t.tableId.toNat t.tsid.toNat (t.version.toNat % 32) (x.2 % 256)
      ((gs.length - 1) % 256) t.onid.toNat (x.1.flatMap entry))) (fun u x => { t with items := u.items ++ x.1 }) := by
  have h63 := wire_le t gs P
  refine ⟨?_, ?_, ?_⟩
  · intro x hx
    refine complete_sent (by simp [Table.sdt]; omega) ?_ (by simp [Table.sdt]; omega)
    have := h63 _ (List.mem_map_of_mem hx)
    omega
  · intro u x hx psi hb hs
    have hg : x.1 ∈ gs := (List.mem_zipIdx' hx).2 ▸ List.getElem_mem _
    exact parse_section p u t ht _ _ (Nat.mod_lt _ (by omega)) (Nat.mod_lt _ (by omega)) x.1 (fun i hi => mem_of_group P.all hg hi) psi hb hs
  · intro u psi hc hb
    exact C65_sdt p u psi (small_or (by omega) hb) fun h => not_intact (by omega) hc h.2

theorem Nit.sent (p : Profile) (t : Nit) (ht : t.InRange) (gs : List (List NitItem))
    (P : Packed (fun i => (entry i).length) 1020 (12 + (t.descriptors.flatMap Desc.wire).length) 12 t.items gs) :
    Sent p (Nit.parse p) gs.zipIdx (fun x => complete (Table.nit t.tableId.toNat t.networkId.toNat (t.version.toNat % 32) (x.2 % 256)
      ((gs.length - 1) % 256) (t.network x.2) (x.1.flatMap entry)))
      (fun u x => { t with descriptors := u.descriptors ++ (if x.2 = 0 then t.descriptors else []), items := u.items ++ x.1 }) := by
  have h63 := wire_le t gs P
  refine ⟨?_, ?_, ?_⟩
  · intro x hx
    refine complete_sent (by simp [Table.nit]; omega) ?_ (by simp [Table.nit]; omega)
    have := h63 _ (List.mem_map_of_mem hx)
    omega
  · intro u x hx psi hb hs
    have hg : x.1 ∈ gs := (List.mem_zipIdx' hx).2 ▸ List.getElem_mem _
    exact parse_section p u t ht _ _ (Nat.mod_lt _ (by omega)) (Nat.mod_lt _ (by omega)) x.2 x.1 (fun i hi => mem_of_group P.all hg hi) psi hb hs
  · intro u psi hc hb
    exact C65_nit p u psi (small_or (by omega) hb) fun h => not_intact (by omega) hc h.2

theorem Eit.sent_pf (p : Profile) (t : Eit) (hid : t.tableId = 0x4E ∨ t.tableId = 0x4F) (ht : t.InRange) :
    Sent p (Eit.parse p) t.items.zipIdx (fun x => t.section' t.tableId.toNat (x.2 % 256)
      ((t.items.length - 1) % 256) ((t.items.length - 1) % 256) t.tableId.toNat [x.1]) (fun u x => { t with items := u.items ++ [x.1] }) := by
  have h63 := wirePf_le t fun i hi => (ht.items i hi).1
  refine ⟨?_, ?_, ?_⟩
  · intro x hx
    have := h63 _ (List.mem_map_of_mem hx)
    rw [section_eq] at this ⊢
    exact complete_sent (by simp; omega) (by omega) (by simp; omega)
  · intro u x hx psi hb hs
    have hi : x.1 ∈ t.items := (List.mem_zipIdx' hx).2 ▸ List.getElem_mem _
    have htid : t.tableId.toNat = 0x4E ∨ t.tableId.toNat = 0x4F := by rcases hid with h | h <;> simp [h]
    have := parse_section p u t ht.version t.tableId.toNat (x.2 % 256) ((t.items.length - 1) % 256) ((t.items.length - 1) % 256) t.tableId.toNat
      (by omega) (by omega) (by omega) (by omega) (by omega) [x.1] (by intro i hi'; rw [List.mem_singleton.1 hi']; exact ht.items _ hi) psi hb hs
    rw [this, UInt8.ofNat_toNat]
  · intro u psi hc hb
    exact C65_eit p u psi (small_or (by omega) hb) fun h => not_intact (by omega) hc h.2

theorem Eit.sent_schedule (p : Profile) (t : Eit) (h : t.Schedulable) (ht : t.InRange) :
    Sent p (Eit.parse p) (withLast t.slots) t.slotSection
      (fun u x => { t with tableId := UInt8.ofNat x.1.table, items := u.items ++ x.1.events }) := by
  have hlt := lastTable_lt t h
  have h63 := wireSchedule_le t h
  refine ⟨?_, ?_, ?_⟩
  · intro x hx
    have := h63 _ (List.mem_map_of_mem hx)
    rw [slotSection, section_eq] at this ⊢
    exact complete_sent (by simp; omega) (by omega) (by simp; omega)
  · intro u x hx psi hb hs
    obtain ⟨⟨-, a2, a3, -⟩, a6, a7, a4, a5⟩ := withLast_ok t h x hx
    exact parse_section p u t ht.version _ _ _ _ _ ⟨by omega, by omega⟩ a3 a5 a3 (by omega) x.1.events (fun i hi => ht.items i (a4 i hi)) psi hb hs
  · intro u psi hc hb
    exact C65_eit p u psi (small_or (by omega) hb) fun h => not_intact (by omega) hc h.2

theorem Pmt.sent (p : Profile) (t : Pmt) (ht : t.InRange) (ds : Descriptors) (hds : misread p t = .ok ds) (gs : List (List PmtItem))
    (P : Packed (fun i => (entry i).length) 1020 (12 + (t.descriptors.flatMap Desc.wire).length) 12 t.items gs) :
    Sent p (Pmt.parse p) gs.zipIdx (fun x => complete (Table.pmt t.pnr.toNat (t.version.toNat % 32) (x.2 % 256)
      ((gs.length - 1) % 256) (t.pcr.toNat % 8192) (t.program x.2) (x.1.flatMap entry)))
      (fun u x => { t with descriptors := u.descriptors ++ (if x.2 = 0 then ds else []), items := u.items ++ x.1 }) := by
  have h63 := wire_le t gs P
  refine ⟨?_, ?_, ?_⟩
  · intro x hx
    refine complete_sent (by simp [Table.pmt]; omega) ?_ (by simp [Table.pmt]; omega)
    have := h63 _ (List.mem_map_of_mem hx)
    omega
  · intro u x hx psi hb hs
    have hg : x.1 ∈ gs := (List.mem_zipIdx' hx).2 ▸ List.getElem_mem _
    rw [parse_section p u t ht _ _ (Nat.mod_lt _ (by omega)) (Nat.mod_lt _ (by omega)) x.2 x.1 (fun i hi => mem_of_group P.all hg hi) psi hb hs]
    by_cases h0 : x.2 = 0
    · have : t.program x.2 = t.descriptors.flatMap Desc.wire := by rw [program, if_pos h0]
      rw [this, show (Descriptor.frames (shifted (t.descriptors.flatMap Desc.wire))).mapM (Desc.parse p) = _ from hds, map_ok, if_pos h0]
    · have : t.program x.2 = [] := by rw [program, if_neg h0]
      rw [this, shifted_nil, map_ok, if_neg h0]
  · intro u psi hc hb
    exact C65_pmt p u psi (small_or (by omega) hb) fun h => not_intact (by omega) hc h.2

theorem Pat.sent (p : Profile) (t : Pat) (hv : t.version.toNat < 32) (hn : t.items.length ≤ 253) (hi : ∀ i ∈ t.items, i.pid.toNat < 8192) :
    Sent p (Pat.parse p) [()] (fun _ => t.wire t.items) (fun u _ => { t with items := u.items ++ t.items }) := by
  refine ⟨?_, ?_, ?_⟩
  · intro _ _
    refine complete_sent (by simp [Table.pat]; omega) ?_ (by simp [Table.pat]; omega)
    have := (wire_le t).1
    rw [List.take_of_length_le hn] at this
    have hw : t.wire t.items = complete (Table.pat t.tsid.toNat (t.version.toNat % 32) 0 0 (t.items.flatMap entry)) := rfl
    rw [← hw, this]
    omega
  · intro u _ _ psi hb hs
    rw [parse_wire p u t psi t.items hb hs, Nat.mod_eq_of_lt hv, UInt8.ofNat_toNat]
    refine congrArg (fun x => Except.ok (⟨t.version, t.tsid, u.items ++ x⟩ : Pat)) ?_
    refine map_id_of _ _ fun i him => ?_
    rw [Nat.mod_eq_of_lt (hi i him), UInt16.ofNat_toNat]
  · intro u psi hc hb
    exact C65_pat p u psi (small_or (by omega) hb) fun h => not_intact (by omega) hc h.2

theorem Tot.sent (p : Profile) (t : Tot) (h : t.InRange) (he : ∀ d ∈ t.descriptors, d.Exact) :
    Sent p (Tot.parse p) [()] (fun _ => t.wire) (fun u _ => { t with descriptors := u.descriptors ++ t.descriptors }) := by
  have hs := h.size
  have l := tot_length t.time.toNat (t.descriptors.flatMap Desc.wire)
  obtain ⟨f0, f1, f2, f3, f4, f5⟩ := wire_fields t h
  refine ⟨?_, ?_, ?_⟩
  · intro _ _
    exact complete_sent (by omega) (by rw [complete_length (by omega)]; omega) (by omega)
  · intro u _ _ psi hb hsz
    have hacc : Accepts psi := ⟨by rw [hb]; exact f1, complete_intact _ (by omega) _ hb hsz 14 (by rw [l]; omega)⟩
    have hl : loopLength psi = (t.descriptors.flatMap Desc.wire).length := by
      rw [loopLength, hb, f4]; omega
    rw [parse_accepted p u _ hacc]
    simp only [hl, hb, f2, f3]
    rw [readUtc_utc p _ h.time, ok_bind, slice, if_pos (by omega), ok_bind, List.drop_take, Nat.add_sub_cancel_left, f5,
      frames_good p t.descriptors fun d hd => ⟨(h.good d hd).1, he d hd⟩]
    simp only [ok_bind, UInt64.ofNat_toNat, pure_eq_ok]
  · intro u psi hc hb
    exact C65_tot p u psi (small_or (by omega) hb) fun h => not_intact (by omega) hc h.2

/-! ## C91: lost packets -/

theorem survivors_congr_length {β : Type} {f g : β → List UInt8} (keep : Nat → Bool) (n : Nat) (l : List β) (h : ∀ x ∈ l, (f x).length = (g x).length) :
    survivors f keep n l = survivors g keep n l := by
  induction l generalizing n with
  | nil => rfl
  | cons x r ih =>
    rw [survivors, survivors, h x List.mem_cons_self, ih _ fun y hy => h y (List.mem_cons_of_mem _ hy)]

theorem survivors_congr {β : Type} {f g : β → List UInt8} (keep : Nat → Bool) (n : Nat) (l : List β) (h : ∀ x ∈ l, f x = g x) :
    survivors f keep n l = survivors g keep n l := by
  induction l generalizing n with
  | nil => rfl
  | cons x r ih =>
    rw [survivors, survivors, h x List.mem_cons_self, ih _ fun y hy => h y (List.mem_cons_of_mem _ hy)]

theorem wire_getD {β : Type} (l : List β) (f : β × Nat → List UInt8) : ∀ x ∈ l.zipIdx, f x = (l.zipIdx.map f).getD x.2 [] := by
  intro x hx
  obtain ⟨h1, h2⟩ := List.mem_zipIdx' hx
  rw [List.getD_eq_getElem?_getD, List.getElem?_map, List.getElem?_zipIdx, List.getElem?_eq_getElem h1]
  simp only [Option.map_some, Option.getD_some, Nat.zero_add]
  rw [← h2]

theorem foldl_items {α β γ : Type} (l : List β) (mk : List γ → α) (items : α → List γ) (g : β → List γ) (hm : ∀ x, items (mk x) = x) (u : α) :
    l.foldl (fun u x => mk (items u ++ g x)) u = if l = [] then u else mk (items u ++ l.flatMap g) := by
  induction l generalizing u with
  | nil => rfl
  | cons x r ih =>
    rw [List.foldl_cons, ih, if_neg (List.cons_ne_nil _ _), hm]
    by_cases hr : r = []
    · subst hr; simp
    · rw [if_neg hr, List.flatMap_cons, List.append_assoc]

theorem flatMap_fst {β γ : Type} (l : List (β × γ)) : l.flatMap (fun x => [x.1]) = l.map (·.1) := by
  induction l with
  | nil => rfl
  | cons x r ih => rw [List.flatMap_cons, ih]; rfl

theorem Nit.foldl_sent (t : Nit) (l : List (List NitItem × Nat)) (u : Nit) :
    l.foldl (fun u x => ({ t with descriptors := u.descriptors ++ (if x.2 = 0 then t.descriptors else []), items := u.items ++ x.1 } : Nit)) u =
      if l = [] then u else { t with descriptors := u.descriptors ++ l.flatMap (fun x => if x.2 = 0 then t.descriptors else []), items := u.items ++ l.flatMap (·.1) } := by
  induction l generalizing u with
  | nil => rfl
  | cons x r ih =>
    rw [List.foldl_cons, ih, if_neg (List.cons_ne_nil _ _)]
    by_cases hr : r = []
    · subst hr; simp
    · rw [if_neg hr]; simp

theorem Eit.foldl_sent (t : Eit) (l : List (Slot EitItem × Nat)) (u : Eit) :
    l.foldl (fun u x => ({ t with tableId := UInt8.ofNat x.1.table, items := u.items ++ x.1.events } : Eit)) u =
      match l.getLast? with
      | none => u
      | some x => { t with tableId := UInt8.ofNat x.1.table, items := u.items ++ l.flatMap (·.1.events) } := by
  induction l generalizing u with
  | nil => rfl
  | cons x r ih =>
    rw [List.foldl_cons, ih]
    cases r with
    | nil => simp
    | cons y r =>
      rw [List.getLast?_cons_cons, List.getLast?_eq_some_getLast (List.cons_ne_nil y r)]
      simp

theorem Pmt.foldl_sent (t : Pmt) (ds : Descriptors) (l : List (List PmtItem × Nat)) (u : Pmt) :
    l.foldl (fun u x => ({ t with descriptors := u.descriptors ++ (if x.2 = 0 then ds else []), items := u.items ++ x.1 } : Pmt)) u =
      if l = [] then u else { t with descriptors := u.descriptors ++ l.flatMap (fun x => if x.2 = 0 then ds else []), items := u.items ++ l.flatMap (·.1) } := by
  induction l generalizing u with
  | nil => rfl
  | cons x r ih =>
    rw [List.foldl_cons, ih, if_neg (List.cons_ne_nil _ _)]
    by_cases hr : r = []
    · subst hr; simp
    · rw [if_neg hr]; simp

/-- C91 for the PAT, which is one section: all or nothing. -/
theorem C91_pat (p : Profile) (t : Pat) (hv : t.version.toNat < 32) (hn : t.items.length ≤ 253) (hi : ∀ i ∈ t.items, i.pid.toNat < 8192)
    (pid : UInt16) (cc : UInt8) (dst : List UInt8) (hp : pid.toNat < 8192) (hc : cc.toNat < 16) :
    t.demux p pid cc dst = .ok (UInt8.ofNat ((cc.toNat + packetCount (t.wire t.items).length) % 16),
        dst ++ (packets pid.toNat cc.toNat (t.wire t.items)).flatten) ∧
      ∀ (keep : Nat → Bool) (s : Psi), s.Ok → keep 0 = true →
        ∃ s', receive (Pat.parse p) p Pat.default s (received keep 0 (packets pid.toNat cc.toNat (t.wire t.items))) =
          .ok (if ∀ i < packetCount (t.wire t.items).length, keep i = true then t else Pat.default, s') := by
  have hd := Pat.C54_wire p t pid cc dst hp hc
  rw [List.take_of_length_le hn] at hd
  refine ⟨hd, ?_⟩
  intro keep s hs h0
  have hst : stream pid.toNat cc.toNat ([()].map fun _ => t.wire t.items) = packets pid.toNat cc.toNat (t.wire t.items) := by simp [stream]
  have hlen := (Pat.wire_le t).1
  rw [List.take_of_length_le hn] at hlen
  obtain ⟨s', h⟩ := (Pat.sent p t hv hn hi).lossy pid.toNat hp keep h0 Pat.default s hs cc.toNat (by
    intro i j h1 h2 _ _ _ h5 _
    rw [hst, packets_length] at h2
    unfold packetCount at h2
    omega)
  refine ⟨s', ?_⟩
  rw [hst] at h
  rw [h]
  refine congrArg (fun x => Except.ok (x, s')) ?_
  simp only [survivors, Nat.zero_add, List.all_eq_true, List.mem_range]
  split <;> rfl

/-- C91 for the PMT; `ds` is what the parser makes of the program descriptors (C55). -/
theorem C91_pmt (p : Profile) (t : Pmt) (ht : t.InRange) (ds : Descriptors) (hds : Pmt.misread p t = .ok ds)
    (pid : UInt16) (cc : UInt8) (dst : List UInt8) (hp : pid.toNat < 8192) (hc : cc.toNat < 16) :
    ∃ gs, Packed (fun i => (Pmt.entry i).length) 1020 (12 + (t.descriptors.flatMap Desc.wire).length) 12 t.items gs ∧
      t.demux p pid cc dst = .ok (UInt8.ofNat ((cc.toNat + streamCount (t.wire gs)) % 16), dst ++ (stream pid.toNat cc.toNat (t.wire gs)).flatten) ∧
      ∀ (keep : Nat → Bool) (s : Psi), s.Ok → keep 0 = true → Unambiguous keep (stream pid.toNat cc.toNat (t.wire gs)) →
        let arrived := survivors (fun x => (t.wire gs).getD x.2 []) keep 0 gs.zipIdx
        ∃ s', receive (Pmt.parse p) p Pmt.default s (received keep 0 (stream pid.toNat cc.toNat (t.wire gs))) =
          .ok (if arrived = [] then Pmt.default else
            { t with descriptors := arrived.flatMap (fun x => if x.2 = 0 then ds else []), items := arrived.flatMap (·.1) }, s') := by
  obtain ⟨gs, P, hw⟩ := Pmt.C55_wire p t ht.program (fun i hi => (ht.items i hi).1) pid cc dst hp hc
  refine ⟨gs, P, hw, ?_⟩
  intro keep s hs h0 hu
  obtain ⟨s', h⟩ := (Pmt.sent p t ht ds hds gs P).lossy pid.toNat hp keep h0 Pmt.default s hs cc.toNat hu
  refine ⟨s', ?_⟩
  rw [Pmt.wire, h, survivors_congr keep 0 gs.zipIdx (wire_getD gs _), Pmt.foldl_sent]
  rfl

/-- C91 for the TOT, which is one section: all or nothing. -/
theorem C91_tot (p : Profile) (t u : Tot) (h : t.InRange) (he : ∀ d ∈ t.descriptors, d.Exact)
    (pid : UInt16) (cc : UInt8) (dst : List UInt8) (hp : pid.toNat < 8192) (hc : cc.toNat < 16) :
    t.demux p pid cc dst = .ok (UInt8.ofNat ((cc.toNat + packetCount t.wire.length) % 16), dst ++ (packets pid.toNat cc.toNat t.wire).flatten) ∧
      ∀ (keep : Nat → Bool) (s : Psi), s.Ok → keep 0 = true → Unambiguous keep (packets pid.toNat cc.toNat t.wire) →
        ∃ s', receive (Tot.parse p) p u s (received keep 0 (packets pid.toNat cc.toNat t.wire)) =
          .ok (if ∀ i < packetCount t.wire.length, keep i = true then { t with descriptors := u.descriptors ++ t.descriptors } else u, s') := by
  refine ⟨Tot.C62_wire p t h pid cc dst hp hc, ?_⟩
  intro keep s hs h0 hu
  have hst : stream pid.toNat cc.toNat ([()].map fun _ => t.wire) = packets pid.toNat cc.toNat t.wire := by simp [stream]
  obtain ⟨s', h⟩ := (Tot.sent p t h he).lossy pid.toNat hp keep h0 u s hs cc.toNat (by rw [hst]; exact hu)
  refine ⟨s', ?_⟩
  rw [hst] at h
  rw [h]
  refine congrArg (fun x => Except.ok (x, s')) ?_
  simp only [survivors, Nat.zero_add, List.all_eq_true, List.mem_range]
  split <;> rfl

/-- C91: an SDT is sent and packets are lost (but not the first one, and the counter stays unambiguous): the receiver has exactly
the services of the sections all of whose packets arrive, in order, and the head of the table if there is such a section. -/
theorem C91_sdt (p : Profile) (t : Sdt) (ht : t.InRange) (pid : UInt16) (cc : UInt8) (dst : List UInt8) (hp : pid.toNat < 8192) (hc : cc.toNat < 16) :
    ∃ gs, Packed (fun i => (Sdt.entry i).length) 1020 11 11 t.items gs ∧
      t.demux p pid cc dst = .ok (UInt8.ofNat ((cc.toNat + streamCount (t.wire gs)) % 16), dst ++ (stream pid.toNat cc.toNat (t.wire gs)).flatten) ∧
      ∀ (keep : Nat → Bool) (s : Psi), s.Ok → keep 0 = true → Unambiguous keep (stream pid.toNat cc.toNat (t.wire gs)) →
        let arrived := survivors (fun x => (t.wire gs).getD x.2 []) keep 0 gs.zipIdx
        ∃ s', receive (Sdt.parse p) p Sdt.default s (received keep 0 (stream pid.toNat cc.toNat (t.wire gs))) =
          .ok (if arrived = [] then Sdt.default else { t with items := arrived.flatMap (·.1) }, s') := by
  obtain ⟨gs, P, hw⟩ := Sdt.C57_wire p t (fun i hi => (ht.items i hi).1) pid cc dst hp hc
  refine ⟨gs, P, hw, ?_⟩
  intro keep s hs h0 hu
  obtain ⟨s', h⟩ := (Sdt.sent p t ht gs P).lossy pid.toNat hp keep h0 Sdt.default s hs cc.toNat hu
  refine ⟨s', ?_⟩
  rw [Sdt.wire, h, survivors_congr keep 0 gs.zipIdx (wire_getD gs _),
    foldl_items _ (fun x => { t with items := x }) Sdt.items (fun x : List SdtItem × Nat => x.1) (fun _ => rfl)]
  rfl

/-- C91 for the NIT: moreover the network descriptors arrive with section 0. -/
theorem C91_nit (p : Profile) (t : Nit) (ht : t.InRange) (pid : UInt16) (cc : UInt8) (dst : List UInt8) (hp : pid.toNat < 8192) (hc : cc.toNat < 16) :
    ∃ gs, Packed (fun i => (Nit.entry i).length) 1020 (12 + (t.descriptors.flatMap Desc.wire).length) 12 t.items gs ∧
      t.demux p pid cc dst = .ok (UInt8.ofNat ((cc.toNat + streamCount (t.wire gs)) % 16), dst ++ (stream pid.toNat cc.toNat (t.wire gs)).flatten) ∧
      ∀ (keep : Nat → Bool) (s : Psi), s.Ok → keep 0 = true → Unambiguous keep (stream pid.toNat cc.toNat (t.wire gs)) →
        let arrived := survivors (fun x => (t.wire gs).getD x.2 []) keep 0 gs.zipIdx
        ∃ s', receive (Nit.parse p) p Nit.default s (received keep 0 (stream pid.toNat cc.toNat (t.wire gs))) =
          .ok (if arrived = [] then Nit.default else
            { t with descriptors := arrived.flatMap (fun x => if x.2 = 0 then t.descriptors else []), items := arrived.flatMap (·.1) }, s') := by
  obtain ⟨gs, P, hw⟩ := Nit.C56_wire p t ht.network.1 (fun i hi => (ht.items i hi).1) pid cc dst hp hc
  refine ⟨gs, P, hw, ?_⟩
  intro keep s hs h0 hu
  obtain ⟨s', h⟩ := (Nit.sent p t ht gs P).lossy pid.toNat hp keep h0 Nit.default s hs cc.toNat hu
  refine ⟨s', ?_⟩
  rw [Nit.wire, h, survivors_congr keep 0 gs.zipIdx (wire_getD gs _)]
  refine congrArg (fun x => Except.ok (x, s')) ?_
  rw [Nit.foldl_sent]
  rfl

/-- C91 for a present/following EIT: every event is a section of its own. -/
theorem C91_eit_pf (p : Profile) (t : Eit) (hid : t.tableId = 0x4E ∨ t.tableId = 0x4F) (ht : t.InRange) (pid : UInt16) (cc : UInt8)
    (dst : List UInt8) (hp : pid.toNat < 8192) (hc : cc.toNat < 16) :
    t.demux p pid cc dst = .ok (UInt8.ofNat ((cc.toNat + streamCount t.wirePf) % 16), dst ++ (stream pid.toNat cc.toNat t.wirePf).flatten) ∧
      ∀ (keep : Nat → Bool) (s : Psi), s.Ok → keep 0 = true → Unambiguous keep (stream pid.toNat cc.toNat t.wirePf) →
        let arrived := survivors (fun x => t.wirePf.getD x.2 []) keep 0 t.items.zipIdx
        ∃ s', receive (Eit.parse p) p Eit.default s (received keep 0 (stream pid.toNat cc.toNat t.wirePf)) =
          .ok (if arrived = [] then Eit.default else { t with items := arrived.map (·.1) }, s') := by
  refine ⟨Eit.C58_wire p t hid (fun i hi => (ht.items i hi).1) pid cc dst hp hc, ?_⟩
  intro keep s hs h0 hu
  obtain ⟨s', h⟩ := (Eit.sent_pf p t hid ht).lossy pid.toNat hp keep h0 Eit.default s hs cc.toNat hu
  refine ⟨s', ?_⟩
  rw [Eit.wirePf, h, survivors_congr keep 0 t.items.zipIdx (wire_getD t.items _),
    foldl_items _ (fun x => { t with items := x }) Eit.items (fun x : EitItem × Nat => [x.1]) (fun _ => rfl), flatMap_fst]
  rfl

/-- C91 for a schedule: the events of the sections that arrive; the table id is that of the last one. -/
theorem C91_eit_schedule (p : Profile) (t : Eit) (hs : t.Schedulable) (ht : t.InRange) (pid : UInt16) (cc : UInt8)
    (dst : List UInt8) (hp : pid.toNat < 8192) (hc : cc.toNat < 16) :
    t.demux p pid cc dst = .ok (UInt8.ofNat ((cc.toNat + streamCount t.wireSchedule) % 16),
        dst ++ (stream pid.toNat cc.toNat t.wireSchedule).flatten) ∧
      ∀ (keep : Nat → Bool) (s : Psi), s.Ok → keep 0 = true → Unambiguous keep (stream pid.toNat cc.toNat t.wireSchedule) →
        let arrived := survivors t.slotSection keep 0 (withLast t.slots)
        ∃ s', receive (Eit.parse p) p Eit.default s (received keep 0 (stream pid.toNat cc.toNat t.wireSchedule)) =
          .ok (match arrived.getLast? with
            | none => Eit.default
            | some x => { t with tableId := UInt8.ofNat x.1.table, items := arrived.flatMap (·.1.events) }, s') := by
  refine ⟨Eit.C60_wire_partial p t hs pid cc dst hp hc, ?_⟩
  intro keep s hok h0 hu
  obtain ⟨s', h⟩ := (Eit.sent_schedule p t hs ht).lossy pid.toNat hp keep h0 Eit.default s hok cc.toNat hu
  refine ⟨s', ?_⟩
  rw [Eit.wireSchedule, h]
  refine congrArg (fun x => Except.ok (x, s')) ?_
  rw [Eit.foldl_sent]
  rfl

/-! ## C92: the same table again and again -/

theorem packets_cc (pid cc : Nat) (sec : List UInt8) : packets pid (cc % 16) sec = packets pid cc sec := by
  simp only [packets]
  refine List.map_congr_left fun i _ => ?_
  rw [packetAt, packetAt]
  rw [show (cc % 16 + i) % 16 = (cc + i) % 16 by omega]

theorem stream_cc (pid : Nat) (secs : List (List UInt8)) (cc : Nat) : stream pid (cc % 16) secs = stream pid cc secs := by
  induction secs generalizing cc with
  | nil => rfl
  | cons s r ih =>
    rw [stream, stream, packets_cc, ← ih (cc % 16 + _), ← ih (cc + _)]
    rw [show (cc % 16 + packetCount s.length) % 16 = (cc + packetCount s.length) % 16 by omega]

theorem stream_append (pid cc : Nat) (a b : List (List UInt8)) : stream pid cc (a ++ b) = stream pid cc a ++ stream pid (cc + streamCount a) b := by
  induction a generalizing cc with
  | nil => simp [stream, streamCount]
  | cons x r ih =>
    rw [List.cons_append, stream, stream, ih, List.append_assoc]
    simp only [streamCount, List.map_cons, List.sum_cons, Nat.add_assoc]

/-- Sending `n` times is sending the sections `n` times over. -/
theorem sendTimes_stream (send : UInt8 → List UInt8 → R (UInt8 × List UInt8)) (pid : Nat) (W : List (List UInt8))
    (h : ∀ cc dst, cc.toNat < 16 → send cc dst = .ok (UInt8.ofNat ((cc.toNat + streamCount W) % 16), dst ++ (stream pid cc.toNat W).flatten))
    (n : Nat) (cc : UInt8) (hc : cc.toNat < 16) (dst : List UInt8) :
    ∃ cc', sendTimes send n cc dst = .ok (cc', dst ++ (stream pid cc.toNat (List.replicate n W).flatten).flatten) := by
  induction n generalizing cc dst with
  | zero => exact ⟨cc, by simp [sendTimes, stream]⟩
  | succ n ih =>
    have hcc : (UInt8.ofNat ((cc.toNat + streamCount W) % 16)).toNat = (cc.toNat + streamCount W) % 16 := by rw [UInt8.toNat_ofNat']; omega
    obtain ⟨cc', h'⟩ := ih (UInt8.ofNat ((cc.toNat + streamCount W) % 16)) (by rw [hcc]; omega) (dst ++ (stream pid cc.toNat W).flatten)
    refine ⟨cc', ?_⟩
    rw [sendTimes, h cc dst hc, ok_bind]
    simp only []
    rw [h', hcc, stream_cc, List.replicate_succ, List.flatten_cons, stream_append, List.flatten_append, List.append_assoc]

theorem mem_times {β : Type} {n : Nat} {l : List β} {x : β} (h : x ∈ (List.replicate n l).flatten) : x ∈ l := by
  obtain ⟨m, hm, hx⟩ := List.mem_flatten.1 h
  rw [(List.mem_replicate.1 hm).2] at hx
  exact hx

theorem map_times {β γ : Type} (f : β → γ) (n : Nat) (l : List β) : (List.replicate n (l.map f)).flatten = (List.replicate n l).flatten.map f := by
  rw [List.map_flatten, List.map_replicate]

theorem times_ne {β : Type} {n : Nat} {l : List β} (hn : 0 < n) (hl : l ≠ []) : (List.replicate n l).flatten ≠ [] := by
  obtain ⟨m, rfl⟩ : ∃ m, n = m + 1 := ⟨n - 1, by omega⟩
  simp [List.replicate_succ, hl]

theorem flatMap_times {β γ : Type} (f : β → List γ) (n : Nat) (l : List β) :
    (List.replicate n l).flatten.flatMap f = (List.replicate n (l.flatMap f)).flatten := by
  induction n with
  | zero => rfl
  | succ n ih => simp [List.replicate_succ, ih]

/-- C92: an SDT that is sent `n` times, as broadcasters do, is received with its head and every service `n` times over. -/
theorem C92_sdt (p : Profile) (t : Sdt) (ht : t.InRange) (n : Nat) (hn : 0 < n) (pid : UInt16) (cc : UInt8) (dst : List UInt8) (s : Psi)
    (hp : pid.toNat < 8192) (hc : cc.toNat < 16) :
    ∃ cc' pks s', sendTimes (t.demux p pid) n cc dst = .ok (cc', dst ++ pks.flatten) ∧ (∀ pk ∈ pks, IsTsPacket pid.toNat pk) ∧
      receive (Sdt.parse p) p Sdt.default s pks = .ok ({ t with items := (List.replicate n t.items).flatten }, s') := by
  have hr : ∀ i ∈ t.items, Sdt.ItemInRange i := fun i hi => (ht.items i hi).1
  obtain ⟨gs, P, -⟩ := Sdt.C57_wire p t hr pid cc dst hp hc
  obtain ⟨cc', h⟩ := sendTimes_stream (t.demux p pid) pid.toNat (t.wire gs) (by
    intro cc dst hc
    obtain ⟨gs', P', hw⟩ := Sdt.C57_wire p t hr pid cc dst hp hc
    rw [P.unique P']; exact hw) n cc hc dst
  have H := (Sdt.sent p t ht gs P).sub (l' := (List.replicate n gs.zipIdx).flatten) fun _ => mem_times
  obtain ⟨s', h'⟩ := H.all pid.toNat hp Sdt.default s cc.toNat
  refine ⟨cc', _, s', h, stream_packets _ _ hp _, ?_⟩
  rw [Sdt.wire, map_times, h', foldl_items _ (fun x => { t with items := x }) Sdt.items (fun x : List SdtItem × Nat => x.1) (fun _ => rfl),
    if_neg (times_ne hn (by simpa using P.nonempty)), flatMap_times]
  refine congrArg (fun x => Except.ok (x, s')) ?_
  have : gs.zipIdx.flatMap (fun x => x.1) = t.items := by rw [List.flatMap_def, List.zipIdx_map_fst, P.all]
  rw [this]
  rfl

theorem zip_first {α : Type} (gs : List (List α)) (h : gs ≠ []) {β : Type} (D : List β) :
    gs.zipIdx.flatMap (fun x => if x.2 = 0 then D else []) = D := by
  obtain ⟨g, r, rfl⟩ := List.exists_cons_of_ne_nil h
  rw [List.zipIdx_cons, List.flatMap_cons, if_pos rfl]
  have : (r.zipIdx (0 + 1)).flatMap (fun x => if x.2 = 0 then D else []) = [] := by
    rw [List.flatMap_eq_nil_iff]
    intro x hx
    have := List.le_snd_of_mem_zipIdx hx
    rw [if_neg (by omega)]
  rw [this, List.append_nil]

/-- C92 for the NIT: the network descriptors are repeated too. -/
theorem C92_nit (p : Profile) (t : Nit) (ht : t.InRange) (n : Nat) (hn : 0 < n) (pid : UInt16) (cc : UInt8) (dst : List UInt8) (s : Psi)
    (hp : pid.toNat < 8192) (hc : cc.toNat < 16) :
    ∃ cc' pks s', sendTimes (t.demux p pid) n cc dst = .ok (cc', dst ++ pks.flatten) ∧ (∀ pk ∈ pks, IsTsPacket pid.toNat pk) ∧
      receive (Nit.parse p) p Nit.default s pks = .ok ({ t with
        descriptors := (List.replicate n t.descriptors).flatten, items := (List.replicate n t.items).flatten }, s') := by
  have hr : ∀ i ∈ t.items, Nit.ItemInRange i := fun i hi => (ht.items i hi).1
  obtain ⟨gs, P, -⟩ := Nit.C56_wire p t ht.network.1 hr pid cc dst hp hc
  obtain ⟨cc', h⟩ := sendTimes_stream (t.demux p pid) pid.toNat (t.wire gs) (by
    intro cc dst hc
    obtain ⟨gs', P', hw⟩ := Nit.C56_wire p t ht.network.1 hr pid cc dst hp hc
    rw [P.unique P']; exact hw) n cc hc dst
  have H := (Nit.sent p t ht gs P).sub (l' := (List.replicate n gs.zipIdx).flatten) fun _ => mem_times
  obtain ⟨s', h'⟩ := H.all pid.toNat hp Nit.default s cc.toNat
  refine ⟨cc', _, s', h, stream_packets _ _ hp _, ?_⟩
  rw [Nit.wire, map_times, h', Nit.foldl_sent, if_neg (times_ne hn (by simpa using P.nonempty)), flatMap_times, flatMap_times,
    zip_first gs P.nonempty]
  refine congrArg (fun x => Except.ok (x, s')) ?_
  have : gs.zipIdx.flatMap (fun x => x.1) = t.items := by rw [List.flatMap_def, List.zipIdx_map_fst, P.all]
  rw [this]
  rfl

/-- C92 for a present/following EIT. -/
theorem C92_eit_pf (p : Profile) (t : Eit) (hid : t.tableId = 0x4E ∨ t.tableId = 0x4F) (ht : t.InRange) (hne : t.items ≠ []) (n : Nat) (hn : 0 < n)
    (pid : UInt16) (cc : UInt8) (dst : List UInt8) (s : Psi) (hp : pid.toNat < 8192) (hc : cc.toNat < 16) :
    ∃ cc' pks s', sendTimes (t.demux p pid) n cc dst = .ok (cc', dst ++ pks.flatten) ∧ (∀ pk ∈ pks, IsTsPacket pid.toNat pk) ∧
      receive (Eit.parse p) p Eit.default s pks = .ok ({ t with items := (List.replicate n t.items).flatten }, s') := by
  have hr : ∀ i ∈ t.items, Eit.ItemInRange i := fun i hi => (ht.items i hi).1
  obtain ⟨cc', h⟩ := sendTimes_stream (t.demux p pid) pid.toNat t.wirePf (fun cc dst hc => Eit.C58_wire p t hid hr pid cc dst hp hc) n cc hc dst
  have H := (Eit.sent_pf p t hid ht).sub (l' := (List.replicate n t.items.zipIdx).flatten) fun _ => mem_times
  obtain ⟨s', h'⟩ := H.all pid.toNat hp Eit.default s cc.toNat
  refine ⟨cc', _, s', h, stream_packets _ _ hp _, ?_⟩
  rw [Eit.wirePf, map_times, h', foldl_items _ (fun x => { t with items := x }) Eit.items (fun x : EitItem × Nat => [x.1]) (fun _ => rfl),
    if_neg (times_ne hn (by simpa using hne)), flatMap_times, flatMap_fst, List.zipIdx_map_fst]
  rfl

/-- C92 for a schedule. -/
theorem C92_eit_schedule (p : Profile) (t : Eit) (h : t.Schedulable) (ht : t.InRange) (n : Nat) (hn : 0 < n)
    (pid : UInt16) (cc : UInt8) (dst : List UInt8) (s : Psi) (hp : pid.toNat < 8192) (hc : cc.toNat < 16) :
    ∃ cc' pks s' last, sendTimes (t.demux p pid) n cc dst = .ok (cc', dst ++ pks.flatten) ∧ (∀ pk ∈ pks, IsTsPacket pid.toNat pk) ∧
      t.slots.getLast? = some last ∧
      receive (Eit.parse p) p Eit.default s pks = .ok ({ t with
        tableId := UInt8.ofNat last.table, items := (List.replicate n t.items).flatten }, s') := by
  obtain ⟨cc', h1⟩ := sendTimes_stream (t.demux p pid) pid.toNat t.wireSchedule (fun cc dst hc => Eit.C60_wire_partial p t h pid cc dst hp hc) n cc hc dst
  have H := (Eit.sent_schedule p t h ht).sub (l' := (List.replicate n (withLast t.slots)).flatten) fun _ => mem_times
  obtain ⟨s', h'⟩ := H.all pid.toNat hp Eit.default s cc.toNat
  have hs : t.slots ≠ [] := by rw [Eit.slots]; simp
  refine ⟨cc', _, s', t.slots.getLast hs, h1, stream_packets _ _ hp _, List.getLast?_eq_some_getLast hs, ?_⟩
  obtain ⟨m, rfl⟩ : ∃ m, n = m + 1 := ⟨n - 1, by omega⟩
  have hw : withLast t.slots ≠ [] := by
    intro e
    apply hs
    rw [← Eit.withLast_fst t.slots, e]; rfl
  have hl : (List.replicate (m + 1) (withLast t.slots)).flatten.getLast? = some ((withLast t.slots).getLast hw) := by
    rw [List.replicate_succ', List.flatten_append, List.flatten_singleton, List.getLast?_append, List.getLast?_eq_some_getLast hw]; rfl
  have hg : ((withLast t.slots).getLast hw).1 = t.slots.getLast hs := by
    have e : ((withLast t.slots).map (·.1)).getLast (by simpa using hw) = ((withLast t.slots).getLast hw).1 := by rw [List.getLast_map]
    rw [← e]
    simp only [Eit.withLast_fst]
  have hev : (withLast t.slots).flatMap (fun x => x.1.events) = t.items := by
    have := Eit.slots_events t
    rw [← Eit.withLast_fst t.slots, List.flatMap_map] at this
    exact this
  rw [Eit.wireSchedule, map_times, h', Eit.foldl_sent, hl]
  simp only []
  rw [flatMap_times, hev, hg]
  rfl

theorem foldl_times {α β γ : Type} (n : Nat) (x : β) (mk : List γ → α) (items : α → List γ) (g : List γ) (hm : ∀ x, items (mk x) = x) (u : α)
    (hn : 0 < n) : (List.replicate n [x]).flatten.foldl (fun u _ => mk (items u ++ g)) u = mk (items u ++ (List.replicate n g).flatten) := by
  rw [foldl_items _ mk items (fun _ => g) hm, if_neg (times_ne hn (by simp)), flatMap_times]
  simp

/-- C92 for the PAT. -/
theorem C92_pat (p : Profile) (t : Pat) (hv : t.version.toNat < 32) (hl : t.items.length ≤ 253) (hi : ∀ i ∈ t.items, i.pid.toNat < 8192)
    (n : Nat) (hn : 0 < n) (pid : UInt16) (cc : UInt8) (dst : List UInt8) (s : Psi) (hp : pid.toNat < 8192) (hc : cc.toNat < 16) :
    ∃ cc' pks s', sendTimes (t.demux p pid) n cc dst = .ok (cc', dst ++ pks.flatten) ∧ (∀ pk ∈ pks, IsTsPacket pid.toNat pk) ∧
      receive (Pat.parse p) p Pat.default s pks = .ok ({ t with items := (List.replicate n t.items).flatten }, s') := by
  obtain ⟨cc', h⟩ := sendTimes_stream (t.demux p pid) pid.toNat ([()].map fun _ => t.wire t.items) (by
    intro cc dst hc
    have := Pat.C54_wire p t pid cc dst hp hc
    rw [List.take_of_length_le hl] at this
    rw [this]
    simp [stream, streamCount]) n cc hc dst
  have H := (Pat.sent p t hv hl hi).sub (l' := (List.replicate n [()]).flatten) fun _ => mem_times
  obtain ⟨s', h'⟩ := H.all pid.toNat hp Pat.default s cc.toNat
  refine ⟨cc', _, s', h, stream_packets _ _ hp _, ?_⟩
  rw [map_times, h', foldl_times n () (fun x => { t with items := x }) Pat.items t.items (fun _ => rfl) _ hn]
  rfl

/-- C92 for the PMT; `ds` is what the parser makes of the program descriptors (C55). -/
theorem C92_pmt (p : Profile) (t : Pmt) (ht : t.InRange) (ds : Descriptors) (hds : Pmt.misread p t = .ok ds) (n : Nat) (hn : 0 < n) (pid : UInt16)
    (cc : UInt8) (dst : List UInt8) (s : Psi) (hp : pid.toNat < 8192) (hc : cc.toNat < 16) :
    ∃ cc' pks s', sendTimes (t.demux p pid) n cc dst = .ok (cc', dst ++ pks.flatten) ∧ (∀ pk ∈ pks, IsTsPacket pid.toNat pk) ∧
      receive (Pmt.parse p) p Pmt.default s pks = .ok ({ t with
        descriptors := (List.replicate n ds).flatten, items := (List.replicate n t.items).flatten }, s') := by
  have hr : ∀ i ∈ t.items, Pmt.ItemInRange i := fun i hi => (ht.items i hi).1
  obtain ⟨gs, P, -⟩ := Pmt.C55_wire p t ht.program hr pid cc dst hp hc
  obtain ⟨cc', h⟩ := sendTimes_stream (t.demux p pid) pid.toNat (t.wire gs) (by
    intro cc dst hc
    obtain ⟨gs', P', hw⟩ := Pmt.C55_wire p t ht.program hr pid cc dst hp hc
    rw [P.unique P']; exact hw) n cc hc dst
  have H := (Pmt.sent p t ht ds hds gs P).sub (l' := (List.replicate n gs.zipIdx).flatten) fun _ => mem_times
  obtain ⟨s', h'⟩ := H.all pid.toNat hp Pmt.default s cc.toNat
  refine ⟨cc', _, s', h, stream_packets _ _ hp _, ?_⟩
  rw [Pmt.wire, map_times, h', Pmt.foldl_sent, if_neg (times_ne hn (by simpa using P.nonempty)), flatMap_times, flatMap_times,
    zip_first gs P.nonempty]
  refine congrArg (fun x => Except.ok (x, s')) ?_
  have : gs.zipIdx.flatMap (fun x => x.1) = t.items := by rw [List.flatMap_def, List.zipIdx_map_fst, P.all]
  rw [this]
  rfl

/-- C92 for the TOT: the time is replaced, the descriptors are repeated. -/
theorem C92_tot (p : Profile) (t u : Tot) (h : t.InRange) (he : ∀ d ∈ t.descriptors, d.Exact) (n : Nat) (hn : 0 < n)
    (pid : UInt16) (cc : UInt8) (dst : List UInt8) (s : Psi) (hp : pid.toNat < 8192) (hc : cc.toNat < 16) :
    ∃ cc' pks s', sendTimes (t.demux p pid) n cc dst = .ok (cc', dst ++ pks.flatten) ∧ (∀ pk ∈ pks, IsTsPacket pid.toNat pk) ∧
      receive (Tot.parse p) p u s pks = .ok ({ t with descriptors := u.descriptors ++ (List.replicate n t.descriptors).flatten }, s') := by
  obtain ⟨cc', h1⟩ := sendTimes_stream (t.demux p pid) pid.toNat ([()].map fun _ => t.wire) (by
    intro cc dst hc
    rw [Tot.C62_wire p t h pid cc dst hp hc]
    simp [stream, streamCount]) n cc hc dst
  have H := (Tot.sent p t h he).sub (l' := (List.replicate n [()]).flatten) fun _ => mem_times
  obtain ⟨s', h'⟩ := H.all pid.toNat hp u s cc.toNat
  refine ⟨cc', _, s', h1, stream_packets _ _ hp _, ?_⟩
  rw [map_times, h', foldl_times n () (fun x => { t with descriptors := x }) Tot.descriptors t.descriptors (fun _ => rfl) _ hn]

/-- C92 for the TDT: the time is replaced, so repetitions change nothing. -/
theorem C92_tdt (p : Profile) (t u : Tdt) (h : TimeInRange t.time) (n : Nat) (hn : 0 < n)
    (pid : UInt16) (cc : UInt8) (dst : List UInt8) (s : Psi) (hp : pid.toNat < 8192) (hc : cc.toNat < 16) :
    ∃ cc' pks s', sendTimes (t.demux p pid) n cc dst = .ok (cc', dst ++ pks.flatten) ∧ (∀ pk ∈ pks, IsTsPacket pid.toNat pk) ∧
      receive (Tdt.parse p) p u s pks = .ok (t, s') := by
  have l : (Table.tdt t.time.toNat).length = 8 := by simp [Table.tdt]
  obtain ⟨cc', h1⟩ := sendTimes_stream (t.demux p pid) pid.toNat [Table.tdt t.time.toNat] (by
    intro cc dst hc
    rw [Tdt.C61_wire p t h pid cc dst hp hc]
    simp [stream, streamCount, l, packetCount]) n cc hc dst
  have hst : ∀ (n cc : Nat) (u : Tdt) (s : Psi), 0 < n →
      ∃ s', receive (Tdt.parse p) p u s (stream pid.toNat cc (List.replicate n [Table.tdt t.time.toNat]).flatten) = .ok (t, s') := by
    intro n
    induction n with
    | zero => intro _ _ _ h; omega
    | succ n ih =>
      intro cc u s _
      obtain ⟨cc1, pk, s1, g1, -, g2⟩ := Tdt.C61_round_trip p t u h pid (UInt8.ofNat (cc % 16)) [] s hp (by rw [UInt8.toNat_ofNat']; omega)
      have hcc : (UInt8.ofNat (cc % 16)).toNat = cc % 16 := by rw [UInt8.toNat_ofNat']; omega
      rw [Tdt.C61_wire p t h pid _ [] hp (by rw [hcc]; omega), hcc, packets_cc] at g1
      have hpk : packets pid.toNat cc (Table.tdt t.time.toNat) = [packetAt pid.toNat cc (Table.tdt t.time.toNat) 0] := by
        unfold packets; rw [l]; rfl
      have e : pk = packetAt pid.toNat cc (Table.tdt t.time.toNat) 0 := by
        have := congrArg Prod.snd (Except.ok.inj g1)
        rw [hpk] at this
        simpa using this.symm
      rw [List.replicate_succ, List.flatten_cons, List.singleton_append, stream, receive_append, hpk, ← e, g2, ok_bind]
      simp only []
      by_cases h0 : 0 < n
      · exact ih _ _ _ h0
      · rw [show n = 0 by omega]; exact ⟨s1, rfl⟩
  obtain ⟨s', h'⟩ := hst n cc.toNat u s hn
  exact ⟨cc', _, s', h1, stream_packets _ _ hp _, h'⟩

/-! ## Concrete cases -/

/-- An SDT of 40 services of 105 bytes each takes five sections.  If the second packet is lost, exactly the nine services of the first
section are missing. -/
theorem C91_example (p : Profile) (s : Psi) (hs : s.Ok) :
    ∃ pks s', bigSdt.demux p 17 14 [] = .ok (9, pks.flatten) ∧
      receive (Sdt.parse p) p Sdt.default s (received (fun n => decide (n ≠ 1)) 0 pks) =
        .ok ({ bigSdt with items := bigSdt.items.drop 9 }, s') := by
  obtain ⟨gs, P, hd, h⟩ := C91_sdt p bigSdt bigSdt_inRange 17 14 [] (by decide) (by decide)
  have hg : gs = (List.range 5).map fun i => (bigSdt.items.drop (9 * i)).take 9 := by
    refine P.unique ?_
    have := packed_fill (fun i => (Sdt.entry i).length) 1020 11 bigSdt.items (fun i hi => (bigSdt_inRange.items i hi).1.2.2.2.2.2) 11 (by omega)
    have e : fill (fun i => (Sdt.entry i).length) 1020 11 11 bigSdt.items = (List.range 5).map fun i => (bigSdt.items.drop (9 * i)).take 9 := by
      decide +kernel
    rw [e] at this
    exact this
  have hl : ∀ x ∈ gs.zipIdx, ((bigSdt.wire gs).getD x.2 []).length = (List.replicate (15 + (x.1.map fun i => (Sdt.entry i).length).sum) (0 : UInt8)).length := by
    intro x hx
    rw [Sdt.wire, ← wire_getD gs _ x hx, complete_length (by simp [Table.sdt]; omega), List.length_replicate]
    simp only [Table.sdt, List.length_append, beBytes_length, List.length_flatMap, header_length, List.length_cons, List.length_nil]
    omega
  have h63 := Sdt.wire_le bigSdt gs P
  have hc : streamCount (bigSdt.wire gs) = 27 := by
    have : streamCount (bigSdt.wire gs) = (gs.zipIdx.map fun x => packetCount (15 + (x.1.map fun i => (Sdt.entry i).length).sum)).sum := by
      rw [streamCount, Sdt.wire, List.map_map]
      refine congrArg List.sum (List.map_congr_left fun x hx => ?_)
      have := hl x hx
      rw [Sdt.wire, ← wire_getD gs _ x hx, List.length_replicate] at this
      simp only [Function.comp, this]
    rw [this, hg]
    decide +kernel
  obtain ⟨s', h⟩ := h (fun n => decide (n ≠ 1)) s hs rfl (by
    intro i j h1 h2 h3 h4 h5 h6 h7
    obtain ⟨k, g1, g2, g3⟩ := start_near 17 (by omega) 6 (bigSdt.wire gs) 14 (fun sec hsec => by
      have := h63 sec hsec
      unfold packetCount; omega) j h2 h7
    simp only [decide_eq_false_iff_not, ne_eq, not_not] at h4
    exact ⟨k, by omega, g1, by simp only [decide_eq_true_eq, ne_eq]; omega, g3⟩)
  refine ⟨_, s', by rw [hd, hc, List.nil_append]; rfl, ?_⟩
  rw [h]
  have ha : survivors (fun x => (bigSdt.wire gs).getD x.2 []) (fun n => decide (n ≠ 1)) 0 gs.zipIdx = gs.zipIdx.tail := by
    rw [survivors_congr_length _ 0 gs.zipIdx hl, hg]
    decide +kernel
  rw [ha, hg]
  refine congrArg (fun x => Except.ok (x, s')) ?_
  rw [if_neg (by decide +kernel)]
  refine congrArg (fun x => { bigSdt with items := x }) ?_
  decide +kernel

end Mpegts
