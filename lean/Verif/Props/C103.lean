import Verif.Lemmas.Verdict
import Verif.Props.C101
import Verif.Props.C102
import Verif.Props.C100
import Verif.Props.Nit
import Verif.Lemmas.Crc
import Verif.Lemmas.PsiMux

/-! # C103: sending never fails

Whatever the numbers, texts, descriptors and entries in a table, however large it is: `demux` returns. -/

namespace Mpegts

open Spec Spec.Table

variable {p : Profile}

/-- A section under construction: at least `n` bytes, size not set. -/
def Open (n : Nat) (s : Psi) : Prop := n ≤ s.buffer.length ∧ s.size = 0

theorem out_new (tid : UInt8) (n : Nat) (v : UInt8) (h : 3 ≤ n) :
    Verdict p False (Psi.new p tid n v) fun s => s.buffer.length = n ∧ s.size = 0 := by
  unfold Psi.new
  rw [decide_eq_true h, show debugAssert p true = .ok () by cases p <;> rfl, ok_bind]
  have : Keeps [] n (resize ([] : List UInt8) n 0x00) := by
    have := keeps_resize [] n
    rwa [List.length_nil, Nat.zero_add] at this
  generalize resize ([] : List UInt8) n 0x00 = z at this ⊢
  w8; w8
  dsimp only
  split
  · w8
    rename_i h
    exact .ok ⟨h.2, rfl⟩
  · rename_i h _
    exact .ok ⟨h.2, rfl⟩

theorem out_finalize (s : Psi) (h : Open 3 s) :
    Verdict p False (s.finalize p) fun s' => 0 < s'.size ∧ s'.size ≤ s'.buffer.length := by
  obtain ⟨h3, h0⟩ := h
  unfold Psi.finalize
  dsimp only
  rw [if_pos h0]
  have hk := keeps_resize s.buffer 4
  have hk : Keeps [] (s.buffer.length + 4) (resize s.buffer (s.buffer.length + 4) 0) := ⟨List.nil_prefix, hk.2⟩
  generalize resize s.buffer (s.buffer.length + 4) 0 = z at hk ⊢
  rw [idx_ok (by rw [hk.2]; omega)]
  simp only [ok_bind, bind_assoc, pure_bind]
  refine Verdict.seq (out_setU16At hk (Nat.zero_le _) (by omega) _) fun v hv => ?_
  rw [usizeSub, if_pos (by omega), ok_bind, sliceTo, if_pos (by rw [hv.2]; omega), ok_bind, crc32b_eq, ok_bind]
  refine Verdict.seq (out_setU32At hv (Nat.zero_le _) (by omega) _) fun w hw => ?_
  exact .ok ⟨by show 0 < s.buffer.length + 4; omega, by show s.buffer.length + 4 ≤ w.length; rw [hw.2]⟩

/-- The arguments a debug build refuses. -/
def BadArgs (pid : UInt16) (cc : UInt8) : Prop := 8192 ≤ pid.toNat ∨ 16 ≤ cc.toNat

theorem spill_length (pid : Nat) (D : List UInt8) : (spill pid D).length = D.length := List.length_mapIdx

theorem out_demux (s : Psi) (h0 : 0 < s.size) (hb : s.size ≤ s.buffer.length) (dst : List UInt8) :
    Verdict p (BadArgs s.pid s.cc) (s.demux p dst) fun x =>
      x.1.cc.toNat < 16 ∧ ∃ D, x.2 = dst ++ D ∧ D.length % 188 = 0 ∧ D ≠ [] := by
  by_cases h : p = .debug ∧ BadArgs s.pid s.cc
  · exact .inl ⟨h.1, h.2, (C101_panic p s dst).2 ⟨h0, .inr h⟩⟩
  · refine .inr ⟨h, _, demux_spill p s dst h0 hb ?_, ?_, _, rfl, ?_, ?_⟩
    · cases p with
      | release => exact .inl rfl
      | debug =>
        refine .inr ?_
        have h' : ¬ BadArgs s.pid s.cc := fun k => h ⟨rfl, k⟩
        unfold BadArgs at h'
        omega
    · dsimp only
      rw [UInt8.toNat_ofNat']
      exact Nat.lt_of_le_of_lt (Nat.mod_le _ _) (Nat.mod_lt _ (by decide))
    all_goals rw [← spill_packets s.pid.toNat (s.cc.toNat) _ _ s.pid.toNat_lt rfl]
    · rw [spill_length, packets_flatten_length]
      omega
    · intro e
      have e := congrArg List.length e
      rw [spill_length, packets_flatten_length, List.length_take, Nat.min_eq_left hb, packetCount] at e
      have : ([] : List UInt8).length = 0 := rfl
      omega

/-- What a `demux` returns: the buffer with whole packets appended. -/
def Emitted (dst : List UInt8) (x : UInt8 × List UInt8) : Prop :=
  ∃ D, x.2 = dst ++ D ∧ D.length % 188 = 0

theorem Emitted.trans {dst : List UInt8} {D : List UInt8} {x : UInt8 × List UInt8} (h : Emitted (dst ++ D) x)
    (hD : D.length % 188 = 0) : Emitted dst x := by
  obtain ⟨E, e, h⟩ := h
  exact ⟨D ++ E, by rw [e, List.append_assoc], by rw [List.length_append]; omega⟩

theorem out_psiDemuxLoop (pid : UInt16) (last : UInt8) (l : List Psi) (hl : ∀ s ∈ l, Open 8 s) (n : Nat) (cc : UInt8)
    (dst : List UInt8) :
    Verdict p (l ≠ [] ∧ BadArgs pid cc) (psiDemuxLoop p pid last n l cc dst) (Emitted dst) := by
  induction l generalizing n cc dst with
  | nil => exact .congr (by simp) (.ok ⟨[], by simp⟩)
  | cons s r ih =>
    unfold psiDemuxLoop
    have h := hl s (by simp)
    have : Keeps [] s.buffer.length s.buffer := ⟨List.nil_prefix, rfl⟩
    have h8 := h.1
    w8; w8
    rename_i v hv
    refine .seq (out_finalize { s with buffer := v } ⟨by show 3 ≤ v.length; rw [hv.2]; omega, h.2⟩) fun t ht => ?_
    dsimp only
    refine .congr (b := BadArgs pid cc ∨ (r ≠ [] ∧ 8192 ≤ pid.toNat)) ?_
      (.bind (out_demux { t with pid := pid, cc := cc } ht.1 ht.2 dst) fun x hx => ?_)
    · constructor
      · rintro (k | k)
        · exact ⟨by simp, k⟩
        · exact ⟨by simp, .inl k.2⟩
      · exact fun k => .inl k.2
    · obtain ⟨hc, D, e, hD, -⟩ := hx
      rw [e]
      refine .congr ?_ ((ih (fun s hs => hl s (by simp [hs])) _ _ _).mono fun _ h => h.trans hD)
      unfold BadArgs
      constructor
      · rintro ⟨k, k' | k'⟩
        · exact ⟨k, k'⟩
        · omega
      · exact fun k => ⟨k.1, .inl k.2⟩

theorem out_psiDemux (l : List Psi) (hl : ∀ s ∈ l, Open 8 s) (hne : l ≠ []) (pid : UInt16) (cc : UInt8) (dst : List UInt8) :
    Verdict p (BadArgs pid cc) (psiDemux p l pid cc dst) (Emitted dst) := by
  unfold psiDemux
  rw [if_neg (by simpa using hne)]
  exact .congr (by simp [hne]) (out_psiDemuxLoop pid _ l hl 0 cc dst)

/-- One section sent on its own. -/
theorem out_single (s : Psi) (h0 : 0 < s.size) (hb : s.size ≤ s.buffer.length) (dst : List UInt8) :
    Verdict p (BadArgs s.pid s.cc) (do
      let (psi, dst) ← s.demux p dst
      pure (psi.cc, dst)) (Emitted dst) :=
  .last (out_demux s h0 hb dst) fun _ ⟨_, D, e, hD, _⟩ => .ok ⟨D, e, hD⟩

/-! ## PAT -/

theorem Pat.out_assembleLoop (l : List PatItem) (b : List UInt8) : Verdict p False (Pat.assembleLoop l b) (Grows b 0) := by
  induction l generalizing b with
  | nil => exact .ok (.refl _)
  | cons i r ih =>
    unfold Pat.assembleLoop
    split
    · exact .ok (.refl _)
    · unfold PatItem.assemble
      dsimp only
      have := keeps_resize b 4
      generalize resize b (b.length + 4) 0 = z at this ⊢
      rw [bind_assoc]
      w16
      refine .seq (out_setU16At (by assumption) (by omega) (by omega) _) fun w hw => ?_
      exact (ih w).mono fun _ h => (hw.grows (m := 0) (by omega)).trans h (Nat.zero_le _)

theorem Pat.out_demux (t : Pat) (pid : UInt16) (cc : UInt8) (dst : List UInt8) :
    Verdict p (BadArgs pid cc) (t.demux p pid cc dst) (Emitted dst) := by
  unfold Pat.demux Pat.psiListAssemble
  simp only [bind_assoc]
  refine .seq (out_new _ _ _ (by decide)) fun s hs => ?_
  have : Keeps [] 8 s.buffer := ⟨List.nil_prefix, hs.1⟩
  w16
  rename_i v hv
  refine .seq (Pat.out_assembleLoop _ _) fun w hw => ?_
  rw [pure_bind]
  refine out_psiDemux _ ?_ (by simp) pid cc dst
  intro s' hs'
  rw [List.mem_singleton.1 hs']
  exact ⟨by have := hw.2; have := hv.2; show 8 ≤ w.length; omega, hs.2⟩

/-! ## PMT -/

theorem out_pmtItem (i : PmtItem) (b : List UInt8) :
    Verdict p (∃ d ∈ i.descriptors, d.Refused) (i.assemble p b) (Grows b 0) := by
  unfold PmtItem.assemble
  dsimp only
  have := keeps_resize b 5
  generalize resize b (b.length + 5) 0 = z at this ⊢
  w8; w16
  rename_i v hv
  refine .last (out_descs _ _) fun x hx => ?_
  have hk : Keeps b x.2.length x.2 := ⟨hv.1.trans hx.2, rfl⟩
  have := hx.1; have := hv.2
  exact (out_setU16At hk (by omega) (by omega) _).mono fun _ h => h.grows (by omega)

theorem Pmt.out_init (t : Pmt) (first : Bool) :
    Verdict p (first = true ∧ ∃ d ∈ t.descriptors, d.Refused) (t.psiInit p first) (Open 12) := by
  unfold Pmt.psiInit
  refine .seq (out_new _ _ _ (by decide)) fun s hs => ?_
  have : Keeps [] 12 s.buffer := ⟨List.nil_prefix, hs.1⟩
  w16; w16
  rename_i v hv
  cases first
  · rw [if_neg (by decide)]
    refine .congr (by simp) (Verdict.seq (out_setIdx hv (Nat.zero_le _) (by decide) _) fun w hw => .ok ⟨?_, hs.2⟩)
    show 12 ≤ w.length
    rw [hw.2]
  · rw [if_pos rfl]
    refine .congr (by simp) (Verdict.last (out_descs _ _) fun x hx => ?_)
    have hk : Keeps [] x.2.length x.2 := ⟨List.nil_prefix, rfl⟩
    have := hx.1; have := hv.2
    refine Verdict.seq (out_setU16At hk (Nat.zero_le _) (by omega) _) fun w hw => .ok ⟨?_, hs.2⟩
    show 12 ≤ w.length
    rw [hw.2]; omega

theorem Pmt.out_assembleLoop (t : Pmt) (l : List PmtItem) (done : List Psi) (s : Psi) (hd : ∀ x ∈ done, Open 12 x)
    (hs : Open 12 s) :
    Verdict p (∃ d ∈ l.flatMap (·.descriptors), d.Refused) (t.assembleLoop p l done s)
      fun r => r ≠ [] ∧ ∀ x ∈ r, Open 12 x := by
  induction l generalizing done s with
  | nil =>
    refine .congr (by simp) (.ok ⟨by simp, fun x hx => ?_⟩)
    rcases List.mem_append.1 hx with h | h
    · exact hd x h
    · rw [List.mem_singleton.1 h]; exact hs
  | cons i r ih =>
    have hb : ((∃ d ∈ i.descriptors, d.Refused) ∨ ∃ d ∈ r.flatMap (·.descriptors), d.Refused) ↔
        ∃ d ∈ (i :: r).flatMap (·.descriptors), d.Refused := by
      rw [List.flatMap_cons]; simp only [List.mem_append, or_and_right, exists_or]
    unfold Pmt.assembleLoop
    split
    · refine .congr hb (.bind (out_pmtItem i _) fun v hv => ih _ _ hd ⟨?_, hs.2⟩)
      have := hv.2; have := hs.1
      show 12 ≤ v.length
      omega
    · refine .congr (by simp) (.seq (.congr (by simp) (t.out_init false)) fun n hn =>
        .congr hb (.bind (out_pmtItem i _) fun v hv => ih _ _ ?_ ⟨?_, hn.2⟩))
      · intro x hx
        rcases List.mem_append.1 hx with h | h
        · exact hd x h
        · rw [List.mem_singleton.1 h]; exact hs
      · have := hv.2; have := hn.1
        show 12 ≤ v.length
        omega

theorem Pmt.out_demux (t : Pmt) (pid : UInt16) (cc : UInt8) (dst : List UInt8) :
    Verdict p ((∃ d ∈ t.allDescriptors, d.Refused) ∨ BadArgs pid cc) (t.demux p pid cc dst) (Emitted dst) := by
  unfold Pmt.demux Pmt.psiListAssemble
  simp only [bind_assoc]
  refine .congr ?_ (.bind (t.out_init true) fun s hs => .bind (t.out_assembleLoop _ [] s (by simp) hs) fun l hl =>
    out_psiDemux l (fun x hx => ⟨Nat.le_trans (by decide) (hl.2 x hx).1, (hl.2 x hx).2⟩) hl.1 pid cc dst)
  rw [Pmt.allDescriptors]; simp only [List.mem_append, or_and_right, exists_or, true_and, or_assoc]

/-! ## SDT -/

theorem out_sdtItem (i : SdtItem) (b : List UInt8) :
    Verdict p (∃ d ∈ i.descriptors, d.Refused) (i.assemble p b) (Grows b 0) := by
  unfold SdtItem.assemble
  dsimp only
  have := keeps_resize b 5
  generalize resize b (b.length + 5) 0 = z at this ⊢
  w16; w8
  rename_i v hv
  refine .last (out_descs _ _) fun x hx => ?_
  have hk : Keeps b x.2.length x.2 := ⟨hv.1.trans hx.2, rfl⟩
  have := hx.1; have := hv.2
  exact (out_setU16At hk (by omega) (by omega) _).mono fun _ h => h.grows (by omega)

theorem Sdt.out_init (t : Sdt) : Verdict p False (t.psiInit p) (Open 11) := by
  unfold Sdt.psiInit
  refine .seq (out_new _ _ _ (by decide)) fun s hs => ?_
  have : Keeps [] 11 s.buffer := ⟨List.nil_prefix, hs.1⟩
  w8; w16; w16; w8
  rename_i v hv
  exact .ok ⟨by show 11 ≤ v.length; rw [hv.2], hs.2⟩

theorem Sdt.out_assembleLoop (t : Sdt) (l : List SdtItem) (done : List Psi) (s : Psi) (hd : ∀ x ∈ done, Open 11 x)
    (hs : Open 11 s) :
    Verdict p (∃ d ∈ l.flatMap (·.descriptors), d.Refused) (t.assembleLoop p l done s)
      fun r => r ≠ [] ∧ ∀ x ∈ r, Open 11 x := by
  induction l generalizing done s with
  | nil =>
    refine .congr (by simp) (.ok ⟨by simp, fun x hx => ?_⟩)
    rcases List.mem_append.1 hx with h | h
    · exact hd x h
    · rw [List.mem_singleton.1 h]; exact hs
  | cons i r ih =>
    have hb : ((∃ d ∈ i.descriptors, d.Refused) ∨ ∃ d ∈ r.flatMap (·.descriptors), d.Refused) ↔
        ∃ d ∈ (i :: r).flatMap (·.descriptors), d.Refused := by
      rw [List.flatMap_cons]; simp only [List.mem_append, or_and_right, exists_or]
    unfold Sdt.assembleLoop
    split
    · refine .congr hb (.bind (out_sdtItem i _) fun v hv => ih _ _ hd ⟨?_, hs.2⟩)
      have := hv.2; have := hs.1
      show 11 ≤ v.length
      omega
    · refine .seq t.out_init fun n hn =>
        .congr hb (.bind (out_sdtItem i _) fun v hv => ih _ _ ?_ ⟨?_, hn.2⟩)
      · intro x hx
        rcases List.mem_append.1 hx with h | h
        · exact hd x h
        · rw [List.mem_singleton.1 h]; exact hs
      · have := hv.2; have := hn.1
        show 11 ≤ v.length
        omega

theorem Sdt.out_demux (t : Sdt) (pid : UInt16) (cc : UInt8) (dst : List UInt8) :
    Verdict p ((∃ d ∈ t.allDescriptors, d.Refused) ∨ BadArgs pid cc) (t.demux p pid cc dst) (Emitted dst) := by
  unfold Sdt.demux Sdt.psiListAssemble
  simp only [bind_assoc]
  exact .seq t.out_init fun s hs => .bind (t.out_assembleLoop _ [] s (by simp) hs) fun l hl =>
    out_psiDemux l (fun x hx => ⟨Nat.le_trans (by decide) (hl.2 x hx).1, (hl.2 x hx).2⟩) hl.1 pid cc dst

/-! ## NIT -/

/-- A NIT section under construction: the length of the network descriptors is in bounds. -/
def NitOpen (s : Psi) : Prop :=
  s.size = 0 ∧ ∃ a x r, s.buffer = a ++ beBytes 2 x ++ r ∧ a.length = 8 ∧ x < 65536 ∧ x % 4096 + 2 ≤ r.length

theorem NitOpen.grow {s : Psi} (h : NitOpen s) {v : List UInt8} (hv : Grows s.buffer 0 v) : NitOpen { s with buffer := v } := by
  obtain ⟨h0, a, x, r, e, ha, hx, hr⟩ := h
  obtain ⟨t, ht⟩ := hv.1
  refine ⟨h0, a, x, r ++ t, ?_, ha, hx, by rw [List.length_append]; omega⟩
  show v = _
  rw [← ht, e, List.append_assoc, List.append_assoc]

theorem out_nitItem (i : NitItem) (b : List UInt8) :
    Verdict p (∃ d ∈ i.descriptors, d.Refused) (i.assemble p b) (Grows b 0) := by
  unfold NitItem.assemble
  dsimp only
  have := keeps_resize b 6
  generalize resize b (b.length + 6) 0 = z at this ⊢
  w16; w16
  rename_i v hv
  refine .last (out_descs _ _) fun x hx => ?_
  have hk : Keeps b x.2.length x.2 := ⟨hv.1.trans hx.2, rfl⟩
  have := hx.1; have := hv.2
  exact (out_setU16At hk (by omega) (by omega) _).mono fun _ h => h.grows (by omega)

theorem F000_mod (n : Nat) : ((0xF000 : UInt16) ||| UInt16.ofNat n).toNat % 4096 = n % 4096 := by
  rw [UInt16.toNat_or, UInt16.toNat_ofNat', show (4096 : Nat) = 2 ^ 12 from rfl, Nat.or_mod_two_pow]
  have : (0xF000 : UInt16).toNat % 2 ^ 12 = 0 := rfl
  rw [this, Nat.zero_or]
  omega

theorem Nit.out_next (t : Nit) : Verdict p False (t.psiInit p false) NitOpen := by
  rw [show t.psiInit p false = ({ t with descriptors := [] } : Nit).psiInit p false from rfl,
    Nit.psiInit_eq p _ ⟨by unfold Good; simp, by simp⟩]
  refine .ok ⟨rfl, header t.tableId.toNat 0b1111 t.networkId.toNat (t.version.toNat % 32) 0 0, 0xF000, [0, 0], ?_, ?_, by decide, by decide⟩
  · simp [Nit.start, sized12, beBytes, Descriptor.pack]
  · rw [header_eq]; rfl

theorem Nit.out_init (t : Nit) :
    Verdict p (∃ d ∈ t.descriptors, d.Refused) (t.psiInit p true) NitOpen := by
  unfold Nit.psiInit
  refine .seq (out_new _ _ _ (by decide)) fun s hs => ?_
  have : Keeps [] 10 s.buffer := ⟨List.nil_prefix, hs.1⟩
  w8; w16
  rename_i v hv
  simp only [if_true]
  refine Verdict.last (out_descs _ _) fun x hx => ?_
  have h1 := hx.1
  have h2 := hv.2
  rw [setU16At_ok _ (by omega), ok_bind]
  refine .ok ⟨hs.2, x.2.take 8, ((0xF000 : UInt16) ||| UInt16.ofNat x.1).toNat, x.2.drop 10 ++ [0, 0], ?_, ?_, UInt16.toNat_lt _, ?_⟩
  · simp
  · rw [List.length_take]; omega
  · rw [F000_mod, List.length_append, List.length_drop]
    have := Nat.mod_le x.1 4096
    simp only [List.length_cons, List.length_nil]
    omega

theorem Nit.out_assembleLoop (t : Nit) (l : List NitItem) (done : List Psi) (s : Psi) (hd : ∀ x ∈ done, NitOpen x)
    (hs : NitOpen s) :
    Verdict p (∃ d ∈ l.flatMap (·.descriptors), d.Refused) (t.assembleLoop p l done s)
      fun r => r ≠ [] ∧ ∀ x ∈ r, NitOpen x := by
  induction l generalizing done s with
  | nil =>
    refine .congr (by simp) (.ok ⟨by simp, fun x hx => ?_⟩)
    rcases List.mem_append.1 hx with h | h
    · exact hd x h
    · rw [List.mem_singleton.1 h]; exact hs
  | cons i r ih =>
    have hb : ((∃ d ∈ i.descriptors, d.Refused) ∨ ∃ d ∈ r.flatMap (·.descriptors), d.Refused) ↔
        ∃ d ∈ (i :: r).flatMap (·.descriptors), d.Refused := by
      rw [List.flatMap_cons]; simp only [List.mem_append, or_and_right, exists_or]
    unfold Nit.assembleLoop
    split
    · refine .congr hb (.bind (out_nitItem i _) fun v hv => ih _ _ hd (hs.grow hv))
    · refine .seq t.out_next fun n hn =>
        .congr hb (.bind (out_nitItem i _) fun v hv => ih _ _ ?_ (hn.grow hv))
      intro x hx
      rcases List.mem_append.1 hx with h | h
      · exact hd x h
      · rw [List.mem_singleton.1 h]; exact hs

theorem Nit.out_patchLen (s : Psi) (h : NitOpen s) : Verdict p False (Nit.patchLen p s) (Open 8) := by
  obtain ⟨h0, a, x, r, e, ha, hx, hr⟩ := h
  have hl : s.buffer.length = 10 + r.length := by rw [e]; simp [ha]; omega
  unfold Nit.patchLen
  have hg : getU16At s.buffer 8 = .ok (UInt16.ofNat x) := by
    rw [getU16At_ok (by omega), e, List.append_assoc, List.drop_left' ha, List.take_left' (beBytes_length _ _), beNat_beBytes,
      Nat.mod_eq_of_lt (by omega)]
  rw [hg, ok_bind]
  dsimp only
  rw [mask0FFF, UInt16.toNat_ofNat', show x % 2 ^ 16 % 4096 = x % 4096 by omega, usizeSub, if_pos (by omega), ok_bind, usizeSub,
    if_pos (by omega), ok_bind]
  have : Keeps [] s.buffer.length s.buffer := ⟨List.nil_prefix, rfl⟩
  refine Verdict.seq (out_setU16At this (Nat.zero_le _) (by omega) _) fun v hv => .ok ⟨?_, h0⟩
  show 8 ≤ v.length
  rw [hv.2]; omega

theorem Nit.out_patchLoop (l : List Psi) (h : ∀ s ∈ l, NitOpen s) :
    Verdict p False (Nit.patchLoop p l) fun r => r.length = l.length ∧ ∀ s ∈ r, Open 8 s := by
  induction l with
  | nil => exact .ok ⟨rfl, by simp⟩
  | cons s r ih =>
    unfold Nit.patchLoop
    refine .seq (Nit.out_patchLen s (h s (by simp))) fun x hx => .seq (ih fun s hs => h s (by simp [hs])) fun y hy => .ok ⟨?_, ?_⟩
    · simp [hy.1]
    · intro z hz
      rcases List.mem_cons.1 hz with rfl | hz
      · exact hx
      · exact hy.2 z hz

theorem Nit.out_demux (t : Nit) (pid : UInt16) (cc : UInt8) (dst : List UInt8) :
    Verdict p ((∃ d ∈ t.allDescriptors, d.Refused) ∨ BadArgs pid cc) (t.demux p pid cc dst) (Emitted dst) := by
  unfold Nit.demux Nit.psiListAssemble
  simp only [bind_assoc]
  refine .congr ?_ (.bind t.out_init fun s hs => .bind (t.out_assembleLoop _ [] s (by simp) hs) fun l hl =>
    .seq (Nit.out_patchLoop l hl.2) fun m hm => out_psiDemux m hm.2 ?_ pid cc dst)
  · rw [Nit.allDescriptors]; simp only [List.mem_append, or_and_right, exists_or, or_assoc]
  · intro e
    rw [e, List.length_nil] at hm
    exact hl.1 (List.eq_nil_of_length_eq_zero hm.1.symm)

/-! ## TDT and TOT -/

theorem Tdt.out_demux (t : Tdt) (pid : UInt16) (cc : UInt8) (dst : List UInt8) :
    Verdict p (BadArgs pid cc) (t.demux p pid cc dst) (Emitted dst) := by
  unfold Tdt.demux Tdt.psiAssemble
  simp only [bind_assoc]
  refine .seq (out_new _ _ _ (by decide)) fun s hs => ?_
  have : Keeps [] 3 s.buffer := ⟨List.nil_prefix, hs.1⟩
  w8; w8
  rename_i v hv
  have h8 : Keeps [] 8 (resize v 8 0) := by
    have := (keeps_resize v 5).2
    rw [hv.2] at this
    exact ⟨List.nil_prefix, this⟩
  generalize resize v 8 0 = z at h8 ⊢
  w16
  refine .seq (out_toBcdTime32 _) fun _ _ => ?_
  w24
  rename_i w hw
  rw [pure_bind]
  exact out_single { s with buffer := w, pid := pid, cc := cc, size := w.length } (by show 0 < w.length; rw [hw.2]; decide)
    (Nat.le_refl _) dst

theorem Tot.out_demux (t : Tot) (pid : UInt16) (cc : UInt8) (dst : List UInt8) :
    Verdict p ((∃ d ∈ t.allDescriptors, d.Refused) ∨ BadArgs pid cc) (t.demux p pid cc dst) (Emitted dst) := by
  unfold Tot.demux Tot.psiAssemble
  simp only [bind_assoc]
  refine .seq (out_new _ _ _ (by decide)) fun s hs => ?_
  have : Keeps [] 10 s.buffer := ⟨List.nil_prefix, hs.1⟩
  w8
  rename_i v hv
  have h8 : Keeps [] 10 (resize v 10 0) := by
    have := (keeps_resize v 0).2
    rw [hv.2] at this
    exact ⟨List.nil_prefix, this⟩
  generalize resize v 10 0 = z at h8 ⊢
  w16
  refine .seq (out_toBcdTime32 _) fun _ _ => ?_
  w24
  rename_i w hw
  refine .bind (out_descs _ _) fun x hx => ?_
  have hk : Keeps [] x.2.length x.2 := ⟨List.nil_prefix, rfl⟩
  have h1 := hx.1
  have h2 := hw.2
  refine Verdict.seq (out_setU16At hk (Nat.zero_le _) (by omega) _) fun y hy => ?_
  rw [pure_bind]
  refine .seq (out_finalize { s with buffer := y } ⟨by show 3 ≤ y.length; rw [hy.2]; omega, hs.2⟩) fun f hf => ?_
  exact out_single { f with pid := pid, cc := cc, size := f.buffer.length } (by show 0 < f.buffer.length; omega)
    (Nat.le_refl _) dst

/-! ## EIT -/

theorem out_eitItem (i : EitItem) (b : List UInt8) :
    Verdict p (∃ d ∈ i.descriptors, d.Refused) (i.assemble p b) (Grows b 0) := by
  unfold EitItem.assemble
  dsimp only
  have := keeps_resize b 12
  generalize resize b (b.length + 12) 0 = z at this ⊢
  w16; w16
  refine .seq (out_toBcdTime32 _) fun _ _ => ?_
  w24
  refine .seq (out_toBcdTime32 _) fun _ _ => ?_
  w24
  rename_i v hv
  refine .last (out_descs _ _) fun x hx => ?_
  have hk : Keeps b x.2.length x.2 := ⟨hv.1.trans hx.2, rfl⟩
  have := hx.1; have := hv.2
  exact (out_setU16At hk (by omega) (by omega) _).mono fun _ h => h.grows (by omega)

theorem Eit.out_init (t : Eit) : Verdict p False (t.psiInit p) (Open 14) := by
  unfold Eit.psiInit
  refine .seq (out_new _ _ _ (by decide)) fun s hs => ?_
  have : Keeps [] 14 s.buffer := ⟨List.nil_prefix, hs.1⟩
  w8; w16; w16; w16
  rename_i v hv
  exact .ok ⟨by show 14 ≤ v.length; rw [hv.2], hs.2⟩

/-- A finished section. -/
def Closed (s : Psi) : Prop := 0 < s.size ∧ s.size ≤ s.buffer.length

theorem Eit.out_pfLoop (t : Eit) (last : UInt8) (n : Nat) (l : List EitItem) :
    Verdict p (∃ d ∈ l.flatMap (·.descriptors), d.Refused) (t.pfLoop p last n l)
      fun r => r.length = l.length ∧ ∀ s ∈ r, Closed s := by
  induction l generalizing n with
  | nil => exact .congr (by simp) (.ok ⟨rfl, by simp⟩)
  | cons i r ih =>
    unfold Eit.pfLoop
    have hb : ((∃ d ∈ i.descriptors, d.Refused) ∨ ∃ d ∈ r.flatMap (·.descriptors), d.Refused) ↔
        ∃ d ∈ (i :: r).flatMap (·.descriptors), d.Refused := by
      rw [List.flatMap_cons]; simp only [List.mem_append, or_and_right, exists_or]
    refine .seq t.out_init fun s hs => ?_
    have : Keeps [] s.buffer.length s.buffer := ⟨List.nil_prefix, rfl⟩
    have h14 := hs.1
    w8; w8; w8; w8
    rename_i v hv
    refine .congr hb (.bind (out_eitItem i v) fun w hw => ?_)
    have h1 := hw.2
    have h2 := hv.2
    refine .seq (out_finalize { s with buffer := w } ⟨by show 3 ≤ w.length; omega, hs.2⟩) fun f hf => ?_
    refine .last (ih (n + 1)) fun x hx => .ok ⟨by simp [hx.1], ?_⟩
    intro z hz
    rcases List.mem_cons.1 hz with rfl | hz
    · exact hf
    · exact hx.2 z hz

theorem Eit.out_demuxLoop (pid : UInt16) (l : List Psi) (hl : ∀ s ∈ l, Closed s) (cc : UInt8) (dst : List UInt8) :
    Verdict p (l ≠ [] ∧ BadArgs pid cc) (Eit.demuxLoop p pid l cc dst) (Emitted dst) := by
  induction l generalizing cc dst with
  | nil => exact .congr (by simp) (.ok ⟨[], by simp⟩)
  | cons s r ih =>
    unfold Eit.demuxLoop
    dsimp only
    have ht := hl s (by simp)
    refine .congr (b := BadArgs pid cc ∨ (r ≠ [] ∧ 8192 ≤ pid.toNat)) ?_
      (.bind (Mpegts.out_demux { s with pid := pid, cc := cc } ht.1 ht.2 dst) fun x hx => ?_)
    · constructor
      · rintro (k | k)
        · exact ⟨by simp, k⟩
        · exact ⟨by simp, .inl k.2⟩
      · exact fun k => .inl k.2
    · obtain ⟨hc, D, e, hD, -⟩ := hx
      rw [e]
      refine .congr ?_ ((ih (fun s hs => hl s (by simp [hs])) _ _).mono fun _ h => h.trans hD)
      unfold BadArgs
      constructor
      · rintro ⟨k, k' | k'⟩
        · exact ⟨k, k'⟩
        · omega
      · exact fun k => ⟨k.1, .inl k.2⟩

theorem Eit.out_sent {b : Prop} {t : Eit} (h : Verdict p b (t.psiListAssemble p) fun r => r ≠ [] ∧ ∀ s ∈ r, Closed s)
    (pid : UInt16) (cc : UInt8) (dst : List UInt8) : Verdict p (b ∨ BadArgs pid cc) (t.demux p pid cc dst) (Emitted dst) := by
  unfold Eit.demux
  refine .bind h fun l hl => ?_
  rw [if_neg (by simpa using hl.1)]
  exact .congr (by simp [hl.1]) (Eit.out_demuxLoop pid l hl.2 cc dst)

/-- Present/following. -/
theorem Eit.out_demux_pf (t : Eit) (h : t.tableId = 0x4E ∨ t.tableId = 0x4F) (hne : t.items ≠ []) (pid : UInt16) (cc : UInt8)
    (dst : List UInt8) :
    Verdict p ((∃ d ∈ t.allDescriptors, d.Refused) ∨ BadArgs pid cc) (t.demux p pid cc dst) (Emitted dst) := by
  refine Eit.out_sent ?_ pid cc dst
  unfold Eit.psiListAssemble
  obtain ⟨i, r, e⟩ := List.exists_cons_of_ne_nil hne
  have e1 : t.items.head? = some i := by rw [e]; rfl
  obtain ⟨j, e2⟩ : ∃ j, t.items.getLast? = some j := ⟨_, List.getLast?_eq_some_getLast hne⟩
  rw [e1, e2]
  dsimp only
  rw [if_pos h]
  refine (t.out_pfLoop _ 0 t.items).mono fun x hx => ⟨?_, hx.2⟩
  rintro rfl
  exact hne (List.eq_nil_of_length_eq_zero hx.1.symm)

theorem Eit.demux_empty (t : Eit) (h : t.items = []) (pid : UInt16) (cc : UInt8) (dst : List UInt8) :
    t.demux p pid cc dst = .ok (cc, dst) := by
  unfold Eit.demux Eit.psiListAssemble
  rw [h]
  rfl

/-! ## EIT schedules -/

/-- As `Verdict`, but a debug build may panic for other reasons too. -/
def Loose {α : Type} (p : Profile) (bad : Prop) (x : R α) (P : α → Prop) : Prop :=
  (p = .debug ∧ x = panic) ∨ (¬ (p = .debug ∧ bad) ∧ ∃ v, x = .ok v ∧ P v)

theorem Verdict.loose {α : Type} {b : Prop} {x : R α} {P : α → Prop} (h : Verdict p b x P) : Loose p b x P := by
  rcases h with ⟨h, -, e⟩ | h
  · exact .inl ⟨h, e⟩
  · exact .inr h

namespace Loose
variable {α β : Type}
theorem ok {v : α} {P : α → Prop} (h : P v) : Loose p False (.ok v) P := (Verdict.ok h).loose
theorem congr {b b' : Prop} {x : R α} {P : α → Prop} (h : b ↔ b') (o : Loose p b x P) : Loose p b' x P := by
  rw [propext h] at o; exact o
theorem bind {b1 b2 : Prop} {x : R α} {f : α → R β} {P : α → Prop} {Q : β → Prop} (o : Loose p b1 x P)
    (hf : ∀ v, P v → Loose p b2 (f v) Q) : Loose p (b1 ∨ b2) (x >>= f) Q := by
  rcases o with ⟨h1, rfl⟩ | ⟨h, v, rfl, hv⟩
  · exact .inl ⟨h1, rfl⟩
  · rw [ok_bind]
    rcases hf v hv with ⟨h1, e⟩ | ⟨h', w, e, hw⟩
    · exact .inl ⟨h1, e⟩
    · exact .inr ⟨fun hh => hh.2.elim (fun k => h ⟨hh.1, k⟩) (fun k => h' ⟨hh.1, k⟩), w, e, hw⟩
theorem seq {b : Prop} {x : R α} {f : α → R β} {P : α → Prop} {Q : β → Prop} (o : Loose p False x P)
    (hf : ∀ v, P v → Loose p b (f v) Q) : Loose p b (x >>= f) Q :=
  congr (by simp) (bind o hf)
theorem last {b : Prop} {x : R α} {f : α → R β} {P : α → Prop} {Q : β → Prop} (o : Loose p b x P)
    (hf : ∀ v, P v → Loose p False (f v) Q) : Loose p b (x >>= f) Q :=
  congr (by simp) (bind o hf)
theorem release {b : Prop} {x : R α} {P : α → Prop} (o : Loose .release b x P) : ∃ v, x = .ok v ∧ P v := by
  rcases o with ⟨h1, -⟩ | ⟨-, h⟩
  · cases h1
  · exact h
theorem debug {b : Prop} {x : R α} {P : α → Prop} (o : Loose .debug b x P) (h : b) : x = panic := by
  rcases o with ⟨-, e⟩ | ⟨n, -⟩
  · exact e
  · exact absurd ⟨rfl, h⟩ n
end Loose

theorem loose_addU8 (a b : UInt8) : Loose p False (addU8 p a b) fun _ => True := by
  unfold addU8
  split
  · exact .ok trivial
  · cases p
    · exact .inl ⟨rfl, rfl⟩
    · exact .ok trivial
theorem loose_addU64 (a b : UInt64) : Loose p False (addU64 p a b) fun _ => True := by
  unfold addU64
  split
  · exact .ok trivial
  · cases p
    · exact .inl ⟨rfl, rfl⟩
    · exact .ok trivial
theorem loose_subU64 (a b : UInt64) : Loose p False (subU64 p a b) fun _ => True := by
  unfold subU64
  split
  · exact .ok trivial
  · cases p
    · exact .inl ⟨rfl, rfl⟩
    · exact .ok trivial

theorem loose_mark {s : Psi} (hs : Open 14 s) {i : Nat} (hi : i < 14) (c : UInt8) :
    Loose p False (setIdx s.buffer i c) fun v => Open 14 { s with buffer := v } := by
  have h := hs.1
  rw [setIdx_ok c (by omega)]
  exact .ok ⟨by show 14 ≤ (s.buffer.set i c).length; rw [List.length_set]; exact h, hs.2⟩

theorem open_append {l : List Psi} (hl : ∀ x ∈ l, Open 14 x) {s : Psi} (hs : Open 14 s) : ∀ x ∈ l ++ [s], Open 14 x := by
  intro x hx
  rcases List.mem_append.1 hx with h | h
  · exact hl x h
  · rw [List.mem_singleton.1 h]; exact hs

theorem Eit.loose_emptyLoop (tid : UInt8) (n : Nat) (s : Psi) (hs : Open 14 s) (l : List Psi) (hl : ∀ x ∈ l, Open 14 x) (m : UInt64)
    (c : UInt8) : Loose p False (Eit.emptyLoop p tid n s l m c) fun r => ∀ x ∈ r.1, Open 14 x := by
  induction n generalizing s l m c with
  | zero => exact .ok hl
  | succ n ih =>
    unfold Eit.emptyLoop
    refine .seq (loose_mark hs (by decide) _) fun v hv => .seq (loose_mark hv (by decide) _) fun w hw =>
      .seq (loose_addU64 _ _) fun _ _ => .seq (loose_addU8 _ _) fun _ _ => ih _ hw _ (open_append hl hw) _ _

theorem Eit.loose_item {s : Psi} (hs : Open 14 s) (i : EitItem) :
    Loose p (∃ d ∈ i.descriptors, d.Refused) (i.assemble p s.buffer) fun v => Open 14 { s with buffer := v } := by
  refine ((out_eitItem i s.buffer).mono fun v hv => (⟨?_, hs.2⟩ : Open 14 { s with buffer := v })).loose
  have h1 := hv.2
  have h2 := hs.1
  show 14 ≤ v.length
  omega

theorem Eit.loose_newSection (t : Eit) (tid sec : UInt8) (i : EitItem) :
    Loose p (∃ d ∈ i.descriptors, d.Refused) (t.newSection p tid sec i) (Open 14) := by
  unfold Eit.newSection
  refine .seq t.out_init.loose fun s hs => ?_
  refine .seq (loose_mark hs (by decide) _) fun v hv => .seq (loose_mark hv (by decide) _) fun w hw => ?_
  exact .last (Eit.loose_item hw i) fun z hz => .ok hz

theorem Eit.loose_eventLoop (t : Eit) (l : List EitItem) (done : List Psi) (hd : ∀ x ∈ done, Open 14 x) (s : Psi) (hs : Open 14 s)
    (m : UInt64) (c tid : UInt8) :
    Loose p (∃ i ∈ l, ∃ d ∈ i.descriptors, d.Refused) (t.eventLoop p l done s m c tid) fun r => r ≠ [] ∧ ∀ x ∈ r, Open 14 x := by
  induction l generalizing done s m c tid with
  | nil => exact .congr (by simp) (.ok ⟨by simp, open_append hd hs⟩)
  | cons i r ih =>
    have hd' := open_append hd hs
    refine .congr (b := (∃ d ∈ i.descriptors, d.Refused) ∨ ∃ i ∈ r, ∃ d ∈ i.descriptors, d.Refused) (by simp) ?_
    unfold Eit.eventLoop
    split
    · refine .seq (loose_addU64 _ _) fun m' _ => ?_
      dsimp only
      generalize c / 8 * 8 = c'
      by_cases h8 : c' = 248
      · rw [if_pos h8]
        rcases loose_addU8 (p := p) tid 1 with ⟨h, e⟩ | ⟨-, v, e, -⟩
        · exact .inl ⟨h, by rw [e]; rfl⟩
        · rw [e]
          simp only [ok_bind, pure_eq_ok]
          exact .bind (t.loose_newSection _ _ i) fun x hx => ih _ hd' x hx _ _ _
      · rw [if_neg h8]
        rcases loose_addU8 (p := p) c' 8 with ⟨h, e⟩ | ⟨-, v, e, -⟩
        · exact .inl ⟨h, by rw [e]; rfl⟩
        · rw [e]
          simp only [ok_bind, pure_eq_ok]
          exact .bind (t.loose_newSection _ _ i) fun x hx => ih _ hd' x hx _ _ _
    · split
      · exact .seq (loose_addU8 _ _) fun _ _ => .bind (t.loose_newSection _ _ i) fun x hx => ih _ hd' x hx _ _ _
      · exact .bind (Eit.loose_item hs i) fun v hv => ih _ hd _ hv _ _ _

theorem Eit.out_numberLoop (lt : UInt8) (l : List Psi) (hl : ∀ x ∈ l, Open 14 x) (a b : UInt8) :
    Verdict p False (Eit.numberLoop p lt l a b) fun r => r.length = l.length ∧ ∀ x ∈ r, Closed x := by
  induction l generalizing a b with
  | nil => exact .ok ⟨rfl, by simp⟩
  | cons s r ih =>
    have hs := hl s (by simp)
    have h14 := hs.1
    unfold Eit.numberLoop
    rw [idx_ok (by omega), ok_bind, idx_ok (by omega), ok_bind]
    dsimp only
    have : Keeps [] s.buffer.length s.buffer := ⟨List.nil_prefix, rfl⟩
    w8; w8; w8
    rename_i v hv
    have h1 := hv.2
    refine .seq (out_finalize { s with buffer := v } ⟨by show 3 ≤ v.length; omega, hs.2⟩) fun f hf => ?_
    refine .seq (ih (fun x hx => hl x (by simp [hx])) _ _) fun x hx => .ok ⟨by simp [hx.1], ?_⟩
    intro z hz
    rcases List.mem_cons.1 hz with rfl | hz
    · exact hf
    · exact hx.2 z hz

theorem Eit.loose_schedule (t : Eit) (i j : EitItem) :
    Loose p (∃ d ∈ t.allDescriptors, d.Refused) (t.scheduleAssemble p i j) fun r => r ≠ [] ∧ ∀ x ∈ r, Closed x := by
  refine .congr (b := ∃ i ∈ t.items, ∃ d ∈ i.descriptors, d.Refused)
    (by simp only [Eit.allDescriptors, List.mem_flatMap]
        exact ⟨fun ⟨i, hi, d, hd, h⟩ => ⟨d, ⟨i, hi, hd⟩, h⟩, fun ⟨d, ⟨i, hi, hd⟩, h⟩ => ⟨i, hi, d, hd, h⟩⟩) ?_
  unfold Eit.scheduleAssemble
  dsimp only
  refine .seq (loose_subU64 _ _) fun _ _ => .seq (loose_addU8 _ _) fun _ _ => .seq (Eit.out_init _).loose fun s hs =>
    .seq (loose_subU64 _ _) fun _ _ => .seq (Eit.loose_emptyLoop _ _ s hs [] (by simp) _ _) fun x hx =>
    .seq (loose_addU64 _ _) fun _ _ => .seq t.out_init.loose fun u hu => .seq (loose_mark hu (by decide) _) fun v hv => ?_
  refine .last (t.loose_eventLoop _ _ hx _ hv _ _ _) fun l hl => ?_
  refine .seq (Eit.out_numberLoop _ l.reverse (fun x hx => hl.2 x (List.mem_reverse.1 hx)) _ _).loose fun r hr => .ok ⟨?_, ?_⟩
  · intro e
    have e := congrArg List.length e
    rw [List.length_reverse, hr.1, List.length_reverse, List.length_nil] at e
    exact hl.1 (List.eq_nil_of_length_eq_zero e)
  · exact fun x hx => hr.2 x (List.mem_reverse.1 hx)

theorem Eit.loose_demux (t : Eit) (hne : t.items ≠ []) (pid : UInt16) (cc : UInt8) (dst : List UInt8) :
    Loose p ((∃ d ∈ t.allDescriptors, d.Refused) ∨ BadArgs pid cc) (t.demux p pid cc dst) (Emitted dst) := by
  by_cases h : t.tableId = 0x4E ∨ t.tableId = 0x4F
  · exact (t.out_demux_pf h hne pid cc dst).loose
  · unfold Eit.demux Eit.psiListAssemble
    obtain ⟨i, r, e⟩ := List.exists_cons_of_ne_nil hne
    have e1 : t.items.head? = some i := by rw [e]; rfl
    obtain ⟨j, e2⟩ : ∃ j, t.items.getLast? = some j := ⟨_, List.getLast?_eq_some_getLast hne⟩
    rw [e1, e2]
    dsimp only
    rw [if_neg h]
    refine .bind (t.loose_schedule i j) fun l hl => ?_
    rw [if_neg (by simpa using hl.1)]
    exact (Verdict.congr (by simp [hl.1]) (Eit.out_demuxLoop pid l hl.2 cc dst)).loose

/-! ## The statements -/

/-- All descriptors of a table, wherever they are. -/
def AnyTable.allDescriptors : AnyTable → List Desc
  | .pat _ => [] | .pmt t => t.allDescriptors | .nit t => t.allDescriptors | .sdt t => t.allDescriptors
  | .eit t => t.allDescriptors | .tdt _ => [] | .tot t => t.allDescriptors

/-- C103: a release build sends every table, with every PID and counter: it appends whole packets to the buffer. -/
theorem C103_release (t : AnyTable) (pid : UInt16) (cc : UInt8) (dst : List UInt8) :
    ∃ c D, t.demux .release pid cc dst = .ok (c, dst ++ D) ∧ D.length % 188 = 0 := by
  have key' : ∀ {b : Prop} {x : R (UInt8 × List UInt8)}, Loose .release b x (Emitted dst) →
      ∃ c D, x = .ok (c, dst ++ D) ∧ D.length % 188 = 0 := by
    intro b x h
    obtain ⟨⟨c, y⟩, rfl, D, e, hD⟩ := h.release
    exact ⟨c, D, by rw [← e], hD⟩
  have key : ∀ {b : Prop} {x : R (UInt8 × List UInt8)}, Verdict .release b x (Emitted dst) →
      ∃ c D, x = .ok (c, dst ++ D) ∧ D.length % 188 = 0 := fun h => key' h.loose
  cases t with
  | pat t => exact key (t.out_demux pid cc dst)
  | pmt t => exact key (t.out_demux pid cc dst)
  | nit t => exact key (t.out_demux pid cc dst)
  | sdt t => exact key (t.out_demux pid cc dst)
  | eit t =>
    by_cases hne : t.items = []
    · exact ⟨cc, [], by rw [List.append_nil]; exact t.demux_empty hne pid cc dst, rfl⟩
    · exact key' (t.loose_demux hne pid cc dst)
  | tdt t => exact key (t.out_demux pid cc dst)
  | tot t => exact key (t.out_demux pid cc dst)

/-- An EIT that is a schedule. -/
def AnyTable.IsSchedule : AnyTable → Prop
  | .eit t => t.tableId ≠ 0x4E ∧ t.tableId ≠ 0x4F
  | _ => False

/-- An EIT without events: nothing is sent. -/
def AnyTable.IsEmptyEit : AnyTable → Prop
  | .eit t => t.items = []
  | _ => False

/-- A debug build panics for exactly these tables and arguments: a delivery system descriptor with a number it
refuses, a PID of 8192 or more, a counter of 16 or more.  (EIT schedules included: `C103_debug`.) -/
theorem debug_others (t : AnyTable) (hs : ¬ t.IsSchedule) (pid : UInt16) (cc : UInt8) (dst : List UInt8) :
    t.demux .debug pid cc dst = panic ↔
      ¬ t.IsEmptyEit ∧ ((∃ d ∈ t.allDescriptors, d.Refused) ∨ 8192 ≤ pid.toNat ∨ 16 ≤ cc.toNat) := by
  have key : ∀ {b : Prop} {x : R (UInt8 × List UInt8)}, Verdict .debug b x (Emitted dst) → (x = panic ↔ ¬ False ∧ b) := by
    intro b x h
    rw [h.panic_iff]; simp
  have h0 : ∀ b : Prop, (∃ d ∈ ([] : List Desc), d.Refused) ∨ b ↔ b := by simp
  cases t with
  | pat t => exact (key (t.out_demux pid cc dst)).trans (and_congr_right fun _ => (h0 _).symm)
  | pmt t => exact key (t.out_demux pid cc dst)
  | nit t => exact key (t.out_demux pid cc dst)
  | sdt t => exact key (t.out_demux pid cc dst)
  | tdt t => exact (key (t.out_demux pid cc dst)).trans (and_congr_right fun _ => (h0 _).symm)
  | tot t => exact key (t.out_demux pid cc dst)
  | eit t =>
    by_cases hne : t.items = []
    · refine ⟨fun h => ?_, fun h => absurd hne h.1⟩
      have h : t.demux .debug pid cc dst = panic := h
      rw [t.demux_empty hne] at h
      cases h
    · have h : t.tableId = 0x4E ∨ t.tableId = 0x4F := by
        by_contra h
        exact hs (not_or.1 h)
      refine ((t.out_demux_pf h hne pid cc dst).panic_iff).trans ?_
      rw [and_iff_right rfl]
      exact (and_iff_right hne).symm

/-- A debug build panics for every table, EIT schedules included, that contains such a descriptor, and for such a PID
or counter if anything is to be sent. -/
theorem debug_always (t : AnyTable) (hne : ¬ t.IsEmptyEit) (pid : UInt16) (cc : UInt8) (dst : List UInt8)
    (h : (∃ d ∈ t.allDescriptors, d.Refused) ∨ 8192 ≤ pid.toNat ∨ 16 ≤ cc.toNat) : t.demux .debug pid cc dst = panic := by
  by_cases hs : t.IsSchedule
  · cases t with
    | eit t => exact (t.loose_demux hne pid cc dst).debug h
    | _ => exact hs.elim
  · exact (debug_others t hs pid cc dst).2 ⟨hne, h⟩

/-- A debug build sends an EIT schedule with events within the ranges of C100 unless one of its counts overflows
(`Eit.Overflow`) or the PID or counter does not fit. -/
theorem debug_inRange (t : Eit) (hid : t.tableId ≠ 0x4E ∧ t.tableId ≠ 0x4F) (hne : t.items ≠ [])
    (hev : ∀ i ∈ t.items, Eit.ItemInRange i) (pid : UInt16) (cc : UInt8) (dst : List UInt8) :
    t.demux .debug pid cc dst = panic ↔ t.Overflow ∨ 8192 ≤ pid.toNat ∨ 16 ≤ cc.toNat := by
  by_cases h : 8192 ≤ pid.toNat ∨ 16 ≤ cc.toNat
  · exact ⟨fun _ => .inr h, fun _ => (t.loose_demux hne pid cc dst).debug (.inr h)⟩
  · rw [Eit.C100_wire_partial .debug t hid hne hev pid cc dst (by omega) (by omega)]
    by_cases ho : t.Overflow
    · simp [ho]
    · rw [if_neg fun k => ho k.2]
      exact ⟨fun e => (nomatch e), fun e => (e.elim ho h).elim⟩

/-- C103, for a list of descriptors: a release build writes every list, and its length is the number that is returned; a
debug build panics for exactly the lists with a refused number. -/
theorem C103_descriptors (p : Profile) (ds : Descriptors) (b : List UInt8) :
    (Descriptors.assemble p ds b = panic ↔ p = .debug ∧ ∃ d ∈ ds, d.Refused) ∧
      (¬ (p = .debug ∧ ∃ d ∈ ds, d.Refused) →
        ∃ n w, Descriptors.assemble p ds b = .ok (n, b ++ w) ∧ w.length = n) := by
  have h := out_descs (p := p) ds b
  refine ⟨h.panic_iff, fun hn => ?_⟩
  rcases h with ⟨h1, h2, -⟩ | ⟨-, ⟨n, v⟩, e, h1, w, rfl⟩
  · exact absurd ⟨h1, h2⟩ hn
  · exact ⟨n, w, e, by simp only [List.length_append] at h1; omega⟩

/-! ## The hypotheses are met -/

/-- A satellite delivery system descriptor, with this frequency. -/
def dish (frequency : UInt32) : Desc := .d43 ⟨frequency, 282, 0, 1, 0, 1, 2, 27500, 3⟩

/-- 11.7 GHz is sent; 1 THz is not; 2.56 THz and any multiple of it are sent although they do not fit in eight digits. -/
example : ¬ (dish 11700000).Refused ∧ (dish 1000000000).Refused ∧ ¬ (dish 2560000000).Refused := by
  simp only [dish, Desc.Refused, refused8, refused4]
  decide
example : 16 ≤ (16 : UInt8).toNat := by decide

/-- The same within a table. -/
def dishNit (frequency : UInt32) : AnyTable := .nit ⟨0x40, 3, 1, [dish 11700000], [⟨1, 1, [.d0A ⟨[]⟩, dish frequency]⟩]⟩

example (pid : UInt16) (cc : UInt8) (dst : List UInt8) : (dishNit 1000000000).demux .debug pid cc dst = panic :=
  (debug_others (dishNit 1000000000) (fun h => h) pid cc dst).2
    ⟨fun h => h, .inl ⟨dish 1000000000, by simp [dishNit, AnyTable.allDescriptors, Nit.allDescriptors], by
      simp only [dish, Desc.Refused, refused8, refused4]; decide⟩⟩
example : ¬ (dishNit 11700000).IsSchedule ∧ ¬ (dishNit 11700000).IsEmptyEit := ⟨fun h => h, fun h => h⟩
example : ¬ ∃ d ∈ (dishNit 2560000000).allDescriptors, d.Refused := by
  simp only [dishNit, AnyTable.allDescriptors, Nit.allDescriptors, dish, List.flatMap_cons, List.flatMap_nil]
  simp [Desc.Refused, refused8, refused4]

/-- A schedule that overflows, and one that does not. -/
example : Eit.Overflow { sampleSchedule with items := [⟨1, 1700000000, 3600, 4, 1, []⟩, ⟨2, 1690000000, 3600, 4, 1, []⟩] } ∧
    ∀ i ∈ [(⟨1, 1700000000, 3600, 4, 1, []⟩ : EitItem), ⟨2, 1690000000, 3600, 4, 1, []⟩], Eit.ItemInRange i := by decide +kernel
example : ¬ (sampleDays 0x60).Overflow ∧ (sampleDays 0x60).InRange := ⟨sampleDays_noOverflow, sampleDays_inRange⟩

/-- A schedule with a refused number. -/
example (pid : UInt16) (cc : UInt8) (dst : List UInt8) :
    (AnyTable.eit { sampleSchedule with items := [⟨1, 1700000000, 3600, 4, 1, [dish 1000000000]⟩] }).demux .debug pid cc dst = panic :=
  debug_always (.eit { sampleSchedule with items := [⟨1, 1700000000, 3600, 4, 1, [dish 1000000000]⟩] })
    (fun h => (nomatch (h : [_] = []))) pid cc dst
    (.inl ⟨dish 1000000000, by simp [AnyTable.allDescriptors, Eit.allDescriptors], by
      simp only [dish, Desc.Refused, refused8, refused4]; decide⟩)

end Mpegts
