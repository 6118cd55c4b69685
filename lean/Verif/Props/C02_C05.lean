import Verif.Lemmas.Ts

/-! # C02-C05: transport packet header accessors -/

namespace Mpegts
open Spec

/-- Nothing is lost by stating C02-C04 for encoded headers: every packet of at least four bytes is the
encoding of exactly some valid header followed by the rest. -/
theorem header_complete (ts : List UInt8) (h4 : 4 ≤ ts.length) :
    ∃ h : Header, h.Valid ∧ ts = h.encode ++ ts.drop 4 := by
  obtain ⟨a, b, c, d, r, rfl⟩ := exists_cons4 h4
  obtain ⟨h, hv, he⟩ := header_surj a b c d
  exact ⟨h, hv, by rw [he]; rfl⟩

/-- C04: every header accessor returns its field. -/
theorem C04_header_fields (h : Header) (hv : h.Valid) (rest : List UInt8) :
    Ts.isSync (h.encode ++ rest) = .ok (decide (h.sync = 0x47)) ∧
    Ts.isError (h.encode ++ rest) = .ok h.tei ∧
    Ts.isPusi (h.encode ++ rest) = .ok h.pusi ∧
    (∃ pid, Ts.getPid (h.encode ++ rest) = .ok pid ∧ pid.toNat = h.pid) ∧
    Ts.isScrambled (h.encode ++ rest) = .ok (decide (h.scrambling ≠ 0)) ∧
    Ts.isAdaptation (h.encode ++ rest) = .ok h.adaptation ∧
    Ts.isPayload (h.encode ++ rest) = .ok h.payload ∧
    (∃ cc, Ts.getCc (h.encode ++ rest) = .ok cc ∧ cc.toNat = h.cc) := by
  have h0 := hdr0_toNat hv; have h1 := hdr1_toNat hv; have h2 := hdr2_toNat h; have h3 := hdr3_toNat hv
  rw [header_encode hv]
  obtain ⟨v1, v2, v3, v4⟩ := hv
  have := bit_lt h.tei; have := bit_lt h.pusi; have := bit_lt h.priority
  have := bit_lt h.adaptation; have := bit_lt h.payload
  simp only [List.cons_append, List.nil_append, Ts.isSync, Ts.isError, Ts.isPusi, Ts.getPid, Ts.isScrambled,
    Ts.isAdaptation, Ts.isPayload, Ts.getCc, idx_zero, idx_succ, ok_bind, pure_eq_ok, Except.ok.injEq,
    exists_eq_left', mask80, mask40, mask20, mask10, maskC0, mask0F]
  refine ⟨?_, ?_, ?_, ?_, ?_, ?_, ?_, ?_⟩
  · rw [Bool.eq_iff_iff]
    simp only [beq_iff_eq, ← UInt8.toNat_inj, h0, decide_eq_true_eq]
    rfl
  · rw [h1]; refine Eq.trans ?_ (bit_eq_one h.tei); congr 1; simp only [eq_iff_iff]; omega
  · rw [h1]; refine Eq.trans ?_ (bit_eq_one h.pusi); congr 1; simp only [eq_iff_iff]; omega
  · rw [u16_join, mask1F, h1, h2]; omega
  · rw [h3]; congr 1; simp only [eq_iff_iff]; omega
  · rw [h3]; refine Eq.trans ?_ (bit_eq_one h.adaptation); congr 1; simp only [eq_iff_iff]; omega
  · rw [h3]; refine Eq.trans ?_ (bit_eq_one h.payload); congr 1; simp only [eq_iff_iff]; omega
  · rw [h3]; omega

/-- On a slice without the byte an accessor looks at, it panics. -/
theorem C04_short (ts : List UInt8) :
    (ts.length < 1 → Ts.isSync ts = panic) ∧
    (ts.length < 2 → Ts.isError ts = panic ∧ Ts.isPusi ts = panic) ∧
    (ts.length < 3 → Ts.getPid ts = panic) ∧
    (ts.length < 4 → Ts.isScrambled ts = panic ∧ Ts.isAdaptation ts = panic ∧ Ts.isPayload ts = panic ∧
      Ts.getCc ts = panic) ∧
    (ts.length < 5 → Ts.getAdaptationSize ts = panic) := by
  refine ⟨fun h => ?_, fun h => ?_, fun h => ?_, fun h => ?_, fun h => ?_⟩
  · simp [Ts.isSync, idx_panic (l := ts) (i := 0) (by omega)]
  · simp [Ts.isError, Ts.isPusi, idx_panic (l := ts) (i := 1) (by omega)]
  · match ts, h with
    | [], _ => rfl
    | [_], _ => rfl
    | [_, _], _ => rfl
  · simp [Ts.isScrambled, Ts.isAdaptation, Ts.isPayload, Ts.getCc, idx_panic (l := ts) (i := 3) (by omega)]
  · simp [Ts.getAdaptationSize, idx_panic (l := ts) (i := 4) (by omega)]

/-- C02: `set_pid` replaces exactly the PID field (all other fields, all other bytes kept), in both build
profiles; `get_pid` then returns it. -/
theorem C02_set_pid (p : Profile) (h : Header) (hv : h.Valid) (rest : List UInt8) (pid : UInt16)
    (hp : pid.toNat < 8192) :
    Ts.setPid p (h.encode ++ rest) pid = .ok (({ h with pid := pid.toNat } : Header).encode ++ rest) ∧
    (do Ts.getPid (← Ts.setPid p (h.encode ++ rest) pid)) = .ok pid := by
  have hv' : ({ h with pid := pid.toNat } : Header).Valid := ⟨hv.1, hp, hv.2.2.1, hv.2.2.2⟩
  have key : Ts.setPid p (h.encode ++ rest) pid = .ok (({ h with pid := pid.toNat } : Header).encode ++ rest) := by
    rw [header_encode hv, header_encode hv']
    have hd : (decide (pid < 8192)) = true := by simpa [UInt16.lt_iff_toNat_lt] using hp
    simp only [Ts.setPid, hd, debugAssert_true, List.cons_append, List.nil_append, idx_zero, idx_succ, ok_bind,
      setIdx_zero, setIdx_succ, map_ok]
    have e1 : (hdr1 h &&& (0xE0 : UInt8)) ||| (pid >>> 8).toUInt8 = hdr1 { h with pid := pid.toNat } := by
      apply UInt8.toNat_inj.1
      have hc : ((pid >>> 8).toUInt8).toNat = pid.toNat / 256 := by
        rw [u16_shr_toUInt8]; simp; omega
      rw [maskE0_or _ _ (by omega), hdr1_toNat hv, hdr1_toNat hv', hc]
      have := hv.2.1
      simp only []
      omega
    have e2 : pid.toUInt8 = hdr2 { h with pid := pid.toNat } := by
      apply UInt8.toNat_inj.1
      rw [hdr2_toNat]; simp
    rw [e1, e2]
    rfl
  refine ⟨key, ?_⟩
  rw [key, ok_bind]
  obtain ⟨q, hq, hq'⟩ := (C04_header_fields _ hv' rest).2.2.2.1
  rw [hq, UInt16.toNat_inj.1 hq']

/-- C02, out of range: a debug build panics. -/
theorem C02_set_pid_debug_panics (ts : List UInt8) (pid : UInt16) (hp : 8192 ≤ pid.toNat) :
    Ts.setPid .debug ts pid = panic := by
  have : decide (pid < 8192) = false := by simpa [UInt16.le_iff_toNat_le] using hp
  simp [Ts.setPid, this]

/-- C02, out of range: a release build stores the low 13 bits as PID, and the three bits above them are
or-ed into the transport_error, PUSI and priority flags; nothing else changes. -/
theorem C02_set_pid_release (h : Header) (hv : h.Valid) (rest : List UInt8) (pid : UInt16) :
    Ts.setPid .release (h.encode ++ rest) pid = .ok
      (({ h with
          pid := pid.toNat % 8192
          tei := h.tei || decide (pid.toNat / 2 ^ 15 % 2 = 1)
          pusi := h.pusi || decide (pid.toNat / 2 ^ 14 % 2 = 1)
          priority := h.priority || decide (pid.toNat / 2 ^ 13 % 2 = 1) } : Header).encode ++ rest) := by
  have hv' : ({ h with
          pid := pid.toNat % 8192
          tei := h.tei || decide (pid.toNat / 2 ^ 15 % 2 = 1)
          pusi := h.pusi || decide (pid.toNat / 2 ^ 14 % 2 = 1)
          priority := h.priority || decide (pid.toNat / 2 ^ 13 % 2 = 1) } : Header).Valid :=
    ⟨hv.1, Nat.mod_lt _ (by decide), hv.2.2.1, hv.2.2.2⟩
  rw [header_encode hv, header_encode hv']
  simp only [Ts.setPid, debugAssert_release, List.cons_append, List.nil_append, idx_zero, idx_succ, ok_bind,
      setIdx_zero, setIdx_succ, map_ok]
  have hq : (pid >>> 8).toUInt8 = UInt8.ofNat (pid.toNat / 256) := u16_shr_toUInt8 pid
  have hlt := pid.toNat_lt
  have hpid := hv.2.1
  refine congrArg₂ (fun x y => Except.ok (hdr0 h :: x :: y :: hdr3 h :: rest)) ?_ ?_
  · rw [hq]
    have key : ∀ x : UInt8, ∀ (t u v : Bool),
        (UInt8.ofNat (bit t * 128 + bit u * 64 + bit v * 32) ||| x) =
        UInt8.ofNat (bit (t || decide (x.toNat / 128 % 2 = 1)) * 128 + bit (u || decide (x.toNat / 64 % 2 = 1)) * 64 +
          bit (v || decide (x.toNat / 32 % 2 = 1)) * 32 + x.toNat % 32) := by decide +kernel
    have hl : hdr1 h &&& 0xE0 = UInt8.ofNat (bit h.tei * 128 + bit h.pusi * 64 + bit h.priority * 32) := by
      apply UInt8.toNat_inj.1
      have := bit_lt h.tei; have := bit_lt h.pusi; have := bit_lt h.priority
      rw [maskE0, hdr1_toNat hv]
      simp only [UInt8.toNat_ofNat', Nat.reducePow]
      omega
    rw [hl, key]
    have hx : (UInt8.ofNat (pid.toNat / 256)).toNat = pid.toNat / 256 := by
      simp only [UInt8.toNat_ofNat', Nat.reducePow]; omega
    rw [hx]
    simp only [hdr1, Nat.div_div_eq_div_mul, Nat.reduceMul, Nat.reducePow]
    apply UInt8.ofNat_congr
    omega
  · apply UInt8.toNat_inj.1
    rw [hdr2_toNat]
    simp only [UInt16.toNat_toUInt8, Nat.reducePow]
    omega

/-- C03: `set_cc` replaces exactly the counter field. -/
theorem C03_set_cc (p : Profile) (h : Header) (hv : h.Valid) (rest : List UInt8) (cc : UInt8)
    (hc : cc.toNat < 16) :
    Ts.setCc p (h.encode ++ rest) cc = .ok (({ h with cc := cc.toNat } : Header).encode ++ rest) ∧
    (do Ts.getCc (← Ts.setCc p (h.encode ++ rest) cc)) = .ok cc := by
  have hv' : ({ h with cc := cc.toNat } : Header).Valid := ⟨hv.1, hv.2.1, hv.2.2.1, hc⟩
  have key : Ts.setCc p (h.encode ++ rest) cc = .ok (({ h with cc := cc.toNat } : Header).encode ++ rest) := by
    rw [header_encode hv, header_encode hv']
    have hd : (decide (cc < 16)) = true := by simpa [UInt8.lt_iff_toNat_lt] using hc
    simp only [Ts.setCc, hd, debugAssert_true, List.cons_append, List.nil_append, idx_zero, idx_succ, ok_bind,
      setIdx_zero, setIdx_succ, map_ok]
    refine congrArg (fun x => Except.ok (hdr0 h :: hdr1 h :: hdr2 h :: x :: rest)) ?_
    apply UInt8.toNat_inj.1
    rw [maskF0_or, hdr3_toNat hv, hdr3_toNat hv']
    have := hv.2.2.2
    simp only []
    omega
  refine ⟨key, ?_⟩
  rw [key, ok_bind]
  obtain ⟨q, hq, hq'⟩ := (C04_header_fields _ hv' rest).2.2.2.2.2.2.2
  rw [hq, UInt8.toNat_inj.1 hq']

/-- C03, out of range: debug panics, release stores the counter modulo 16. -/
theorem C03_set_cc_out_of_range (h : Header) (hv : h.Valid) (rest : List UInt8) (cc : UInt8)
    (hc : 16 ≤ cc.toNat) :
    Ts.setCc .debug (h.encode ++ rest) cc = panic ∧
    Ts.setCc .release (h.encode ++ rest) cc = .ok (({ h with cc := cc.toNat % 16 } : Header).encode ++ rest) := by
  have hv' : ({ h with cc := cc.toNat % 16 } : Header).Valid := ⟨hv.1, hv.2.1, hv.2.2.1, by simp only []; omega⟩
  constructor
  · have : decide (cc < 16) = false := by simpa [UInt8.le_iff_toNat_le] using hc
    simp [Ts.setCc, this]
  · rw [header_encode hv, header_encode hv']
    simp only [Ts.setCc, debugAssert_release, List.cons_append, List.nil_append, idx_zero, idx_succ, ok_bind,
      setIdx_zero, setIdx_succ, map_ok]
    refine congrArg (fun x => Except.ok (hdr0 h :: hdr1 h :: hdr2 h :: x :: rest)) ?_
    apply UInt8.toNat_inj.1
    rw [maskF0_or, hdr3_toNat hv, hdr3_toNat hv']
    have := hv.2.2.2
    simp only []
    omega

/-- C03: `set_payload_1/0` and `set_pusi_1/0` replace exactly their flag. -/
theorem C03_set_flags (h : Header) (hv : h.Valid) (rest : List UInt8) :
    Ts.setPayload1 (h.encode ++ rest) = .ok (({ h with payload := true } : Header).encode ++ rest) ∧
    Ts.setPayload0 (h.encode ++ rest) = .ok (({ h with payload := false } : Header).encode ++ rest) ∧
    Ts.setPusi1 (h.encode ++ rest) = .ok (({ h with pusi := true } : Header).encode ++ rest) ∧
    Ts.setPusi0 (h.encode ++ rest) = .ok (({ h with pusi := false } : Header).encode ++ rest) := by
  have v1 : ∀ b, ({ h with payload := b } : Header).Valid := fun b => hv
  have v2 : ∀ b, ({ h with pusi := b } : Header).Valid := fun b => hv
  have := bit_lt h.tei; have := bit_lt h.pusi; have := bit_lt h.priority
  have := bit_lt h.adaptation; have := bit_lt h.payload
  have w2 := hv.2.1; have w4 := hv.2.2.2
  rw [header_encode hv, header_encode (v1 true), header_encode (v1 false), header_encode (v2 true),
    header_encode (v2 false)]
  simp only [Ts.setPayload1, Ts.setPayload0, Ts.setPusi1, Ts.setPusi0, List.cons_append, List.nil_append,
    idx_zero, idx_succ, ok_bind, setIdx_zero, setIdx_succ, map_ok]
  refine ⟨?_, ?_, ?_, ?_⟩
  · refine congrArg (fun x => Except.ok (hdr0 h :: hdr1 h :: hdr2 h :: x :: rest)) ?_; apply UInt8.toNat_inj.1
    rw [or10, hdr3_toNat hv, hdr3_toNat (v1 true)]; simp only [show bit true = 1 from rfl]; omega
  · refine congrArg (fun x => Except.ok (hdr0 h :: hdr1 h :: hdr2 h :: x :: rest)) ?_; apply UInt8.toNat_inj.1
    rw [clear10, hdr3_toNat hv, hdr3_toNat (v1 false)]; simp only [show bit false = 0 from rfl]; omega
  · refine congrArg (fun x => Except.ok (hdr0 h :: x :: hdr2 h :: hdr3 h :: rest)) ?_; apply UInt8.toNat_inj.1
    rw [or40, hdr1_toNat hv, hdr1_toNat (v2 true)]; simp only [show bit true = 1 from rfl]; omega
  · refine congrArg (fun x => Except.ok (hdr0 h :: x :: hdr2 h :: hdr3 h :: rest)) ?_; apply UInt8.toNat_inj.1
    rw [clear40, hdr1_toNat hv, hdr1_toNat (v2 false)]; simp only [show bit false = 0 from rfl]; omega

/-- C05, the part that holds: the offset of the first payload byte is 4 without adaptation field and
`5 + adaptation_field_length` with one, for every length a 188-byte packet can hold (at most 183) and up to 250.
Missing from the full property: lengths 251..255 and the documented 0 (see the `_refuted` theorems). -/
theorem C05_payload_offset_partial (p : Profile) (h : Header) (hv : h.Valid) (len : UInt8) (rest : List UInt8) :
    (h.adaptation = false → Ts.getPayloadOffset p (h.encode ++ len :: rest) = .ok 4) ∧
    (h.adaptation = true → len.toNat ≤ 250 →
      ∃ o, Ts.getPayloadOffset p (h.encode ++ len :: rest) = .ok o ∧ o.toNat = 5 + len.toNat) ∧
    Ts.getAdaptationSize (h.encode ++ len :: rest) = .ok len := by
  have ha := (C04_header_fields h hv (len :: rest)).2.2.2.2.2.1
  have hl : Ts.getAdaptationSize (h.encode ++ len :: rest) = .ok len := by
    rw [header_encode hv]; rfl
  refine ⟨fun h0 => ?_, fun h1 hlen => ?_, hl⟩
  · simp [Ts.getPayloadOffset, ha, h0]
  · refine ⟨5 + len, ?_, ?_⟩
    · simp only [Ts.getPayloadOffset, ha, h1, hl, ok_bind, addU8, Bool.not_true, Bool.false_eq_true, if_false]
      have : (5 : UInt8).toNat = 5 := rfl
      rw [this, if_pos (by omega)]
    · rw [UInt8.toNat_add]
      have : (5 : UInt8).toNat = 5 := rfl
      omega

/-- C05 fails: for adaptation_field_length 251..255 a debug build panics and a release build returns an offset
inside the header. -/
theorem C05_payload_offset_overflow_refuted (h : Header) (hv : h.Valid) (ha : h.adaptation = true)
    (len : UInt8) (hlen : 251 ≤ len.toNat) (rest : List UInt8) :
    Ts.getPayloadOffset .debug (h.encode ++ len :: rest) = panic ∧
    ∃ o, Ts.getPayloadOffset .release (h.encode ++ len :: rest) = .ok o ∧ o.toNat = len.toNat - 251 := by
  have ha' := (C04_header_fields h hv (len :: rest)).2.2.2.2.2.1
  have hl : Ts.getAdaptationSize (h.encode ++ len :: rest) = .ok len := by
    rw [header_encode hv]; rfl
  have h5 : (5 : UInt8).toNat = 5 := rfl
  have hb := len.toNat_lt
  constructor
  · simp only [Ts.getPayloadOffset, ha', ha, hl, ok_bind, addU8, Bool.not_true, Bool.false_eq_true, if_false]
    rw [h5, if_neg (by omega)]; rfl
  · refine ⟨5 + len, ?_, ?_⟩
    · simp only [Ts.getPayloadOffset, ha', ha, hl, ok_bind, addU8, Bool.not_true, Bool.false_eq_true, if_false]
      rw [h5, if_neg (by omega)]; rfl
    · rw [UInt8.toNat_add, h5]; omega

/-- C05 fails: the documented result 0 for "no payload" is not returned; every packet whose payload flag is clear
gets the offset its payload would have. -/
theorem C05_no_payload_refuted (p : Profile) (h : Header) (hv : h.Valid) (len : UInt8) (rest : List UInt8) :
    Ts.getPayloadOffset p (({ h with payload := false } : Header).encode ++ len :: rest) =
      Ts.getPayloadOffset p (({ h with payload := true } : Header).encode ++ len :: rest) ∧
    (len.toNat ≤ 250 → Ts.getPayloadOffset p (({ h with payload := false } : Header).encode ++ len :: rest) ≠ .ok 0) := by
  have v0 : ({ h with payload := false } : Header).Valid := hv
  have v1 : ({ h with payload := true } : Header).Valid := hv
  have a0 := (C04_header_fields _ v0 (len :: rest)).2.2.2.2.2.1
  have a1 := (C04_header_fields _ v1 (len :: rest)).2.2.2.2.2.1
  have l0 := (C05_payload_offset_partial p _ v0 len rest).2.2
  have l1 := (C05_payload_offset_partial p _ v1 len rest).2.2
  refine ⟨by simp only [Ts.getPayloadOffset, a0, a1, l0, l1], fun hl => ?_⟩
  obtain ⟨c0, c1, -⟩ := C05_payload_offset_partial p _ v0 len rest
  by_cases ha : h.adaptation = false
  · rw [c0 ha]; intro e; cases e
  · have ha : h.adaptation = true := by simpa using ha
    obtain ⟨o, ho, h5⟩ := c1 ha hl
    rw [ho]
    intro e
    rw [Except.ok.inj e] at h5
    have : (0 : UInt8).toNat = 0 := rfl
    omega

/-- C05: without the byte after the header, an adaptation field makes `get_payload_offset` panic. -/
theorem C05_short (p : Profile) (h : Header) (hv : h.Valid) :
    Ts.getPayloadOffset p h.encode = if h.adaptation then panic else .ok 4 := by
  have ha := (C04_header_fields h hv []).2.2.2.2.2.1
  rw [List.append_nil] at ha
  have hl : Ts.getAdaptationSize h.encode = panic := (C04_short h.encode).2.2.2.2 (by rw [header_encode hv]; simp)
  cases hb : h.adaptation <;> simp [Ts.getPayloadOffset, ha, hb, hl]

/-- C02, C03: a setter panics on a slice without the bytes it changes (and with a value out of range in a debug build), and only then. -/
theorem C03_short (p : Profile) (ts : List UInt8) (pid : UInt16) (cc : UInt8) :
    (Ts.setPid p ts pid = panic ↔ ts.length < 3 ∨ (p = .debug ∧ 8192 ≤ pid.toNat)) ∧
    (Ts.setCc p ts cc = panic ↔ ts.length < 4 ∨ (p = .debug ∧ 16 ≤ cc.toNat)) ∧
    (Ts.setPusi0 ts = panic ↔ ts.length < 2) ∧ (Ts.setPusi1 ts = panic ↔ ts.length < 2) ∧
    (Ts.setPayload0 ts = panic ↔ ts.length < 4) ∧ (Ts.setPayload1 ts = panic ↔ ts.length < 4) := by
  have one (i : Nat) (f : UInt8 → UInt8) : (do let b : UInt8 ← idx ts i; setIdx ts i (f b)) = panic ↔ ts.length < i + 1 := by
    by_cases h : i < ts.length
    · rw [idx_ok h, ok_bind, setIdx_ok _ h]
      exact ⟨(fun e => by cases e), (fun e => by omega)⟩
    · rw [idx_panic (by omega)]
      exact ⟨fun _ => by omega, fun _ => rfl⟩
  refine ⟨?_, ?_, one 1 _, one 1 _, one 3 _, one 3 _⟩
  · have two : (do let b : UInt8 ← idx ts 1
                   let ts ← setIdx ts 1 ((b &&& (0xE0 : UInt8)) ||| (pid >>> 8).toUInt8)
                   setIdx ts 2 pid.toUInt8) = panic ↔ ts.length < 3 := by
      match ts with
      | [] => exact ⟨fun _ => by simp, fun _ => rfl⟩
      | [_] => exact ⟨fun _ => by simp, fun _ => rfl⟩
      | [_, _] => exact ⟨fun _ => by simp, fun _ => rfl⟩
      | a :: b :: c :: r => simp
    unfold Ts.setPid
    cases p with
    | release => rw [debugAssert_release, ok_bind, two]; simp
    | debug =>
      by_cases h : pid < 8192
      · have : pid.toNat < 8192 := h
        rw [decide_eq_true h, debugAssert_true, ok_bind, two]; simp; omega
      · have : ¬ pid.toNat < 8192 := h
        rw [decide_eq_false h, debugAssert_debug_false]
        exact ⟨fun _ => .inr ⟨rfl, by omega⟩, fun _ => rfl⟩
  · have two := one 3 fun b => (b &&& (0xF0 : UInt8)) ||| (cc &&& (0x0F : UInt8))
    unfold Ts.setCc
    cases p with
    | release => rw [debugAssert_release, ok_bind, two]; simp
    | debug =>
      by_cases h : cc < 16
      · have : cc.toNat < 16 := h
        rw [decide_eq_true h, debugAssert_true, ok_bind, two]; simp; omega
      · have : ¬ cc.toNat < 16 := h
        rw [decide_eq_false h, debugAssert_debug_false]
        exact ⟨fun _ => .inr ⟨rfl, by omega⟩, fun _ => rfl⟩

/-! Concrete packets meet the hypotheses. -/
example : (⟨0x47, true, true, false, 0x1ABC, 2, true, true, 9⟩ : Header).Valid := by decide
example : (⟨0x47, true, true, false, 0x1ABC, 2, true, true, 9⟩ : Header).encode = [0x47, 0xDA, 0xBC, 0xB9] := by decide
example : Ts.setPid .debug [0x47, 0xDA, 0xBC, 0xB9, 7] 0x0123 = .ok [0x47, 0xC1, 0x23, 0xB9, 7] := by decide
example : Ts.getPayloadOffset .debug [0x47, 0x00, 0x00, 0x30, 7, 0] = .ok 12 := by decide
example : Ts.getPayloadOffset .release [0x47, 0x00, 0x00, 0x30, 252, 0] = .ok 1 := by decide

end Mpegts
