import Verif.Spec.Es
import Verif.Spec.Elapsed
import Verif.Props.C12_C15
import Verif.Props.C02_C05
import Verif.Props.C144

/-! # C148: elementary streams -/

namespace Mpegts
open Spec

theorem cell_bytes_length (c : Cell) (hc : c.Proper) :
    c.payload.length + (if c.head.adaptation then c.field.length + 1 else 0) = 184 := by
  have h := hc.2.2.1
  rw [Cell.bytes, List.length_append, List.length_append, show c.head.encode.length = 4 by simp [Header.encode]] at h
  split at h <;> rename_i ha <;> simp_all <;> omega

/-- What the accessors say about a packet. -/
theorem cell_fields (p : Profile) (c : Cell) (hc : c.Proper) :
    (∃ pid, Ts.getPid c.bytes = .ok pid ∧ pid.toNat = c.head.pid) ∧ Ts.isPayload c.bytes = .ok c.head.payload ∧
    Ts.isPusi c.bytes = .ok c.head.pusi ∧
    (c.head.payload = true → ∃ o, Ts.getPayloadOffset p c.bytes = .ok o ∧ sliceFrom c.bytes o.toNat = .ok c.payload) := by
  obtain ⟨-, -, h3, h4, -, -, h7, -⟩ := C04_header_fields c.head hc.1
    ((if c.head.adaptation then UInt8.ofNat c.field.length :: c.field else []) ++ c.payload)
  refine ⟨h4, h7, h3, fun _ => ?_⟩
  have hl := cell_bytes_length c hc
  have he : c.head.encode.length = 4 := by simp [Header.encode]
  by_cases ha : c.head.adaptation = true
  · rw [if_pos ha] at hl
    have hb : c.bytes = c.head.encode ++ UInt8.ofNat c.field.length :: (c.field ++ c.payload) := by
      rw [Cell.bytes, if_pos ha]; rfl
    have hf : (UInt8.ofNat c.field.length).toNat = c.field.length := by simp; omega
    obtain ⟨o, ho1, ho2⟩ := (C05_payload_offset_partial p c.head hc.1 (UInt8.ofNat c.field.length) (c.field ++ c.payload)).2.1 ha (by omega)
    rw [hf] at ho2
    refine ⟨o, by rw [hb, ho1], ?_⟩
    rw [hb, sliceFrom, if_pos (by simp [he]; omega), ho2]
    congr 1
    rw [show c.head.encode ++ UInt8.ofNat c.field.length :: (c.field ++ c.payload) =
      (c.head.encode ++ UInt8.ofNat c.field.length :: c.field) ++ c.payload by simp]
    exact List.drop_left' (by simp [he]; omega)
  · have hn : c.head.adaptation = false := by simpa using ha
    rw [if_neg ha] at hl
    cases hp : c.payload with
    | nil => rw [hp] at hl; simp at hl
    | cons b r =>
      have hb : c.bytes = c.head.encode ++ b :: r := by rw [Cell.bytes, if_neg ha, hp]; rfl
      refine ⟨4, by rw [hb, (C05_payload_offset_partial p c.head hc.1 b r).1 hn], ?_⟩
      rw [hb, sliceFrom, if_pos (by simp [he])]
      exact congrArg _ (List.drop_left' he)

theorem cell_packet (c : Cell) (hc : c.Proper) : c.bytes.length = 188 ∧ c.bytes.head? = some 0x47 := by
  refine ⟨hc.2.2.1, ?_⟩
  rw [Cell.bytes, header_encode hc.1]
  simp only [List.cons_append, List.head?_cons, hdr0, hc.2.1]
  rfl

theorem collect_skip (p : Profile) (pid : UInt16) (cur : Option (List UInt8)) (c : Cell) (hc : c.Proper)
    (hno : ¬ (c.head.pid = pid.toNat ∧ c.head.payload = true)) (pks : List (List UInt8)) :
    collectUnits p pid cur (c.bytes :: pks) = collectUnits p pid cur pks := by
  obtain ⟨⟨q, h1, h1'⟩, h2, -, -⟩ := cell_fields p c hc
  rw [collectUnits, h1, ok_bind, h2, ok_bind]
  rw [if_neg]
  intro h
  simp only [Bool.and_eq_true, beq_iff_eq] at h
  exact hno ⟨by rw [← h1', h.1], h.2⟩

theorem collect_data (p : Profile) (pid : UInt16) (cur : Option (List UInt8)) (c : Cell) (hc : c.Proper) (hpid : c.head.pid = pid.toNat)
    (hpay : c.head.payload = true) (pks : List (List UInt8)) :
    collectUnits p pid cur (c.bytes :: pks) =
      if c.head.pusi then (do let rest ← collectUnits p pid (some c.payload) pks; return cur.toList ++ rest)
      else collectUnits p pid (cur.map (· ++ c.payload)) pks := by
  obtain ⟨⟨q, h1, h1'⟩, h2, h3, h4⟩ := cell_fields p c hc
  obtain ⟨o, h5, h6⟩ := h4 hpay
  have hq : q = pid := UInt16.toNat.inj (by rw [h1', hpid])
  rw [collectUnits, h1, ok_bind, h2, ok_bind, hq, hpay]
  simp only [beq_self_eq_true, Bool.and_self, if_true, h5, ok_bind, h6, h3]

/-- Only the packets with data of the PID count. -/
theorem collect_filter (p : Profile) (pid : UInt16) (cur : Option (List UInt8)) (cs : List Cell) (hc : ∀ c ∈ cs, c.Proper) :
    collectUnits p pid cur (cs.map Cell.bytes) = collectUnits p pid cur ((dataCells pid.toNat cs).map Cell.bytes) := by
  induction cs generalizing cur with
  | nil => rfl
  | cons c cs ih =>
    have hc' : ∀ c ∈ cs, c.Proper := fun x hx => hc x (List.mem_cons_of_mem _ hx)
    have hcc := hc c (by simp)
    by_cases h : c.head.pid = pid.toNat ∧ c.head.payload = true
    · rw [dataCells, List.filter_cons_of_pos (by simpa using h), List.map_cons, List.map_cons, collect_data p pid cur c hcc h.1 h.2,
        collect_data p pid cur c hcc h.1 h.2]
      split
      · rw [ih _ hc', dataCells]
      · rw [ih _ hc', dataCells]
    · rw [dataCells, List.filter_cons_of_neg (by simpa using h), List.map_cons, collect_skip p pid cur c hcc h, ih _ hc', dataCells]

theorem collect_rest (p : Profile) (pid : UInt16) (cur : Option (List UInt8)) (l : List Cell) (hc : ∀ c ∈ l, c.Proper)
    (hd : ∀ c ∈ l, c.head.pid = pid.toNat ∧ c.head.payload = true) (hs : ∀ c ∈ l, c.head.pusi = false) (pks : List (List UInt8)) :
    collectUnits p pid cur (l.map Cell.bytes ++ pks) = collectUnits p pid (cur.map (· ++ l.flatMap Cell.payload)) pks := by
  induction l generalizing cur with
  | nil => cases cur <;> simp
  | cons c l ih =>
    obtain ⟨h1, h2⟩ := hd c (by simp)
    rw [List.map_cons, List.cons_append, collect_data p pid cur c (hc c (by simp)) h1 h2, if_neg (by simp [hs c (by simp)]),
      ih _ (fun x hx => hc x (List.mem_cons_of_mem _ hx)) (fun x hx => hd x (List.mem_cons_of_mem _ hx))
        (fun x hx => hs x (List.mem_cons_of_mem _ hx))]
    cases cur <;> simp

theorem collect_groups (p : Profile) (pid : UInt16) (cur : Option (List UInt8)) (gs : List (List Cell)) (hg : ∀ g ∈ gs, OneUnit g)
    (hc : ∀ g ∈ gs, ∀ c ∈ g, c.Proper) (hd : ∀ g ∈ gs, ∀ c ∈ g, c.head.pid = pid.toNat ∧ c.head.payload = true) :
    collectUnits p pid cur (gs.flatten.map Cell.bytes) = .ok (cur.toList ++ gs.map (fun g => g.flatMap Cell.payload)) := by
  induction gs generalizing cur with
  | nil => rw [List.flatten_nil, List.map_nil, collectUnits, List.map_nil, List.append_nil]
  | cons g gs ih =>
    obtain ⟨c, l, rfl, hp, hl⟩ := hg g (by simp)
    have hcg := hc (c :: l) (by simp)
    have hdg := hd (c :: l) (by simp)
    obtain ⟨h1, h2⟩ := hdg c (by simp)
    rw [List.flatten_cons, List.map_append, List.map_cons, List.cons_append, collect_data p pid cur c (hcg c (by simp)) h1 h2, if_pos hp,
      collect_rest p pid _ l (fun x hx => hcg x (List.mem_cons_of_mem _ hx)) (fun x hx => hdg x (List.mem_cons_of_mem _ hx)) hl,
      ih _ (fun x hx => hg x (List.mem_cons_of_mem _ hx)) (fun x hx => hc x (List.mem_cons_of_mem _ hx))
        (fun x hx => hd x (List.mem_cons_of_mem _ hx)), ok_bind]
    simp

theorem dataCells_mem {pid : Nat} {cs : List Cell} {c : Cell} (h : c ∈ dataCells pid cs) :
    c ∈ cs ∧ c.head.pid = pid ∧ c.head.payload = true := by
  simpa [dataCells] using h

/-- C148: whatever adaptation fields a sender puts into the packets, whatever flags and counters they have, however long the pieces of a PES
packet are, and whatever packets of other PIDs and packets without payload come in between: a receiver that takes the payloads apart at
the start indicator gets exactly the PES packets, from the first start on. -/
theorem C148_collect (p : Profile) (pid : UInt16) (cs : List Cell) (hc : ∀ c ∈ cs, c.Proper) (before : List Cell) (gs : List (List Cell))
    (hd : dataCells pid.toNat cs = before ++ gs.flatten) (hb : ∀ c ∈ before, c.head.pusi = false) (hg : ∀ g ∈ gs, OneUnit g) :
    collectUnits p pid none (cs.map Cell.bytes) = .ok (gs.map fun g => g.flatMap Cell.payload) := by
  have hm : ∀ c, c ∈ before ++ gs.flatten → c ∈ cs ∧ c.head.pid = pid.toNat ∧ c.head.payload = true := by
    intro c h; rw [← hd] at h; exact dataCells_mem h
  rw [collect_filter p pid none cs hc, hd, List.map_append,
    collect_rest p pid none before (fun c h => hc c (hm c (by simp [h])).1) (fun c h => (hm c (by simp [h])).2) hb,
    Option.map_none, collect_groups p pid none gs hg (fun g h c h' => hc c (hm c (List.mem_append_right _ (List.mem_flatten.2 ⟨g, h, h'⟩))).1)
      (fun g h c h' => (hm c (List.mem_append_right _ (List.mem_flatten.2 ⟨g, h, h'⟩))).2)]
  rfl

/-! ## The PES packets -/

theorem stamps_length (u : PesUnit) : u.stamps.length = 5 * u.pts.isSome.toNat + (if u.pts = none then 0 else 5 * u.dts.isSome.toNat) := by
  unfold PesUnit.stamps
  cases u.pts <;> cases u.dts <;> simp [tsField]

/-- C148: of a PES packet with the optional header the receiver reads the time stamps that are in it, and exactly the data. -/
theorem C148_pes (u : PesUnit) (hu : u.Proper) :
    Pes.isPrefix u.bytes = .ok true ∧ readPes u.bytes = .ok (u.pts, u.dts, u.data) := by
  obtain ⟨hid, hpd, hpt, hdt, hlow, hlen⟩ := hu
  obtain ⟨id, ⟨l1, l2⟩, fl, pts, dts, low, extra, data⟩ := u
  simp only at hid hpd hpt hdt hlow hlen
  set u : PesUnit := ⟨id, (l1, l2), fl, pts, dts, low, extra, data⟩ with hu
  refine ⟨?_, ?_⟩
  · rw [PesUnit.bytes]
    exact (C13_is_prefix 0 0 1 _).trans (by decide)
  have hfl : (UInt8.ofNat (128 * pts.isSome.toNat + 64 * dts.isSome.toNat + low)).toNat = 128 * pts.isSome.toNat + 64 * dts.isSome.toNat + low := by
    have : pts.isSome.toNat ≤ 1 := Bool.toNat_le _
    have : dts.isSome.toNat ≤ 1 := Bool.toNat_le _
    simp; omega
  have hln : (UInt8.ofNat (u.stamps.length + extra.length)).toNat = u.stamps.length + extra.length := by simp; omega
  have hsyn : Pes.isSyntaxSpec u.bytes = .ok true := by
    rw [PesUnit.bytes]
    refine (C13_syntax 0 0 1 id _).trans ?_
    exact congrArg _ (decide_eq_true hid)
  obtain ⟨o, ho1, ho2⟩ := C13_payload_offset 0 0 1 id l1 l2 fl
    (UInt8.ofNat (128 * pts.isSome.toNat + 64 * dts.isSome.toNat + low)) (UInt8.ofNat (u.stamps.length + extra.length)) (u.stamps ++ (extra ++ data))
  rw [if_neg (show id.toNat ∉ [0xBC, 0xBE, 0xBF, 0xF0, 0xF1, 0xF2, 0xF8, 0xFF] from hid), hln] at ho2
  have hoff : Pes.getPayloadOffset u.bytes = .ok o := ho1
  have hflags := C12_flags [0, 0, 1, id, l1, l2, fl] rfl (UInt8.ofNat (128 * pts.isSome.toNat + 64 * dts.isSome.toNat + low))
    (UInt8.ofNat (u.stamps.length + extra.length) :: (u.stamps ++ (extra ++ data)))
  rw [hfl] at hflags
  have hip : Pes.isPts u.bytes = .ok pts.isSome := by
    refine hflags.1.trans (congrArg _ ?_)
    cases pts <;> cases dts <;> simp <;> omega
  have hidt : Pes.isDts u.bytes = .ok dts.isSome := by
    refine hflags.2.trans (congrArg _ ?_)
    cases pts <;> cases dts <;> simp <;> omega
  have hdata : sliceFrom u.bytes o.toNat = .ok data := by
    have hb : u.bytes = ([0, 0, 1, id, l1, l2, fl, UInt8.ofNat (128 * pts.isSome.toNat + 64 * dts.isSome.toNat + low),
        UInt8.ofNat (u.stamps.length + extra.length)] ++ (u.stamps ++ extra)) ++ data := by
      rw [PesUnit.bytes, List.append_assoc, List.append_assoc]
    rw [hb, sliceFrom, if_pos (by simp; omega)]
    exact congrArg _ (List.drop_left' (by simp; omega))
  have hpts : stampOf (Pes.isPts u.bytes) (Pes.getPts u.bytes) = .ok pts := by
    rw [stampOf, hip, ok_bind]
    cases pts with
    | none => rfl
    | some t =>
      have ht := hpt t rfl
      have : ∃ v, Pes.getPts u.bytes = .ok v ∧ v.toNat = t := by
        cases dts with
        | none => exact (C12_get_pts_dts 2 true true true t (by omega) ht [0, 0, 1, id, l1, l2, fl, _, _] (extra ++ data)).1 rfl
        | some t' =>
          have hb : u.bytes = [0, 0, 1, id, l1, l2, fl, UInt8.ofNat (128 * 1 + 64 * 1 + low), UInt8.ofNat (u.stamps.length + extra.length)] ++
              tsField 3 true true true t ++ (tsField 1 true true true t' ++ (extra ++ data)) := by
            rw [PesUnit.bytes]
            simp only [List.append_assoc, PesUnit.stamps, hu]
            rfl
          rw [hb]
          exact (C12_get_pts_dts 3 true true true t (by omega) ht _ _).1 rfl
      obtain ⟨v, hv1, hv2⟩ := this
      rw [hv1, ← hv2]; rfl
  have hdts : stampOf (Pes.isDts u.bytes) (Pes.getDts u.bytes) = .ok dts := by
    rw [stampOf, hidt, ok_bind]
    cases dts with
    | none => rfl
    | some t' =>
      cases pts with
      | none => simp at hpd
      | some t =>
        have hb : u.bytes = ([0, 0, 1, id, l1, l2, fl, UInt8.ofNat (128 * 1 + 64 * 1 + low), UInt8.ofNat (u.stamps.length + extra.length)] ++
            tsField 3 true true true t) ++ tsField 1 true true true t' ++ (extra ++ data) := by
          rw [PesUnit.bytes]
          simp only [List.append_assoc, PesUnit.stamps, hu]
          rfl
        obtain ⟨v, hv1, hv2⟩ := (C12_get_pts_dts 1 true true true t' (by omega) (hdt t' rfl)
          ([0, 0, 1, id, l1, l2, fl, UInt8.ofNat (128 * 1 + 64 * 1 + low), UInt8.ofNat (u.stamps.length + extra.length)] ++
            tsField 3 true true true t) (extra ++ data)).2 (by simp [tsField])
        rw [hb, hv1, ← hv2]; rfl
  rw [readPes, hsyn, ok_bind]
  simp only [if_true, hpts, ok_bind, hdts, hoff, hdata, pure_eq_ok]
  rfl

/-- C148: a PES packet of a stream without the optional header: everything after the length is data. -/
theorem C148_pes_bare (id l1 l2 : UInt8) (hid : id.toNat ∈ bareIds) (data : List UInt8) :
    Pes.isPrefix ([0, 0, 1, id, l1, l2] ++ data) = .ok true ∧ readPes ([0, 0, 1, id, l1, l2] ++ data) = .ok (none, none, data) := by
  have hsyn : Pes.isSyntaxSpec ([0, 0, 1, id, l1, l2] ++ data) = .ok false := by
    refine (C13_syntax 0 0 1 id _).trans ?_
    exact congrArg _ (decide_eq_false fun h => h hid)
  refine ⟨(C13_is_prefix 0 0 1 _).trans (by decide), ?_⟩
  rw [readPes, hsyn, ok_bind, Pes.getPayloadOffset, hsyn, ok_bind]
  rfl

/-- C148, end to end: PES packets cut into transport packets, among packets of other PIDs, from any source that keeps delivering, in pieces
of any size: the receiver gets the time stamps and the data of every one. -/
theorem C148_stream (p : Profile) (pid : UInt16) (cs : List Cell) (hc : ∀ c ∈ cs, c.Proper) (before : List Cell) (gs : List (List Cell))
    (hd : dataCells pid.toNat cs = before ++ gs.flatten) (hb : ∀ c ∈ before, c.head.pusi = false) (hg : ∀ g ∈ gs, OneUnit g)
    (us : List PesUnit) (hu : ∀ u ∈ us, u.Proper) (hgu : gs.map (fun g => g.flatMap Cell.payload) = us.map PesUnit.bytes)
    (s : Source) (hs : Steady s) (hdata : s.data = (cs.map Cell.bytes).flatten) (buf : List UInt8) (hbuf : 188 ≤ buf.length) (fuel : Nat)
    (hf : s.data.length < fuel) :
    (do (← collectUnits p pid none (← readAll fuel s buf)).mapM readPes) = .ok (us.map fun u => (u.pts, u.dts, u.data)) := by
  rw [C70_all fuel s hs buf hbuf hf, ok_bind, hdata, ← List.append_nil (List.flatten _), Slip.packetsOf_packets _ (by
    intro pk h
    obtain ⟨c, h1, rfl⟩ := List.mem_map.1 h
    exact cell_packet c (hc c h1)), show packetsOf [] = [] from Slip.packetsOf_quiet (gap := []) (by simp), List.append_nil,
    C148_collect p pid cs hc before gs hd hb hg, ok_bind, hgu]
  clear hgu
  induction us with
  | nil => rfl
  | cons u us ih =>
    rw [List.map_cons, List.mapM_cons, (C148_pes u (hu u (by simp))).2, ok_bind, ih fun x hx => hu x (List.mem_cons_of_mem _ hx), ok_bind]
    rfl

/-- The hypotheses are met: a PES packet of 183 bytes in two packets, one with a short adaptation field and one with a long one, behind the end of an
older one, with a packet of another PID and one without payload in between. -/
example :
    let u : PesUnit := ⟨0xE0, (0, 0), 0x80, some 225220, some 221616, 0, [], List.replicate 164 7⟩
    let c (pusi : Bool) (pid : Nat) (pay : Bool) (cc : Nat) (f d : List UInt8) : Cell := ⟨⟨0x47, false, pusi, false, pid, 0, true, pay, cc⟩, f, d⟩
    let cs := [c false 256 true 0 (List.replicate 180 0) [1, 2, 3], c true 256 true 1 [0, 9] (u.bytes.take 181), c false 257 true 5 (List.replicate 180 0) [4, 5, 6],
      c false 256 false 1 (List.replicate 183 0) [], c false 256 true 2 (List.replicate 181 0) (u.bytes.drop 181)]
    u.Proper ∧ u.bytes.length = 183 ∧ (∀ x ∈ cs, x.bytes.length = 188 ∧ x.head.Valid) ∧ (dataCells 256 cs).map (·.payload) =
      [[1, 2, 3], u.bytes.take 181, u.bytes.drop 181] ∧
    (do (← collectUnits .debug 256 none (← readAll 941 ⟨(cs.map Cell.bytes).flatten, [.chunk 3, .chunk 500]⟩ (List.replicate 188 0))).mapM readPes) =
      .ok [(some 225220, some 221616, List.replicate 164 7)] := by
  refine ⟨⟨by decide, by decide, ?_, ?_, by decide, by decide⟩, by decide +kernel, by decide +kernel, by decide +kernel, by decide +kernel⟩
  · intro t h; cases h; decide
  · intro t h; cases h; decide

end Mpegts
