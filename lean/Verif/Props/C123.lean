import Verif.Lemmas.Receiver
import Verif.Spec.Foreign
import Verif.Props.Sent

/-! # C123: what other receivers get -/

namespace Mpegts
open Spec Spec.Table Spec.Schedule

/-- The result `r` of a call that sends a table is that packets of this PID have been appended, and a receiver that takes the sections from
these packets as the standard says gets `secs`. -/
def Reaches (r : R (UInt8 × List UInt8)) (pid : UInt16) (dst : List UInt8) (secs : List (List UInt8)) : Prop :=
  ∃ cc' pks, r = .ok (cc', dst ++ pks.flatten) ∧ (∀ pk ∈ pks, IsTsPacket pid.toNat pk) ∧ sectionsIn pks = secs

theorem reaches_of_sends {r : R (UInt8 × List UInt8)} {pid : UInt16} {cc : UInt8} {dst : List UInt8} {secs : List (List UInt8)}
    (hp : pid.toNat < 8192) (h : Sends r pid cc dst secs) (hf : ∀ s ∈ secs, s.head? ≠ some 0xFF) : Reaches r pid dst secs :=
  ⟨_, _, h.2, stream_packets _ _ hp _, sections_stream _ hp _ _ fun s hs => ⟨h.1 s hs, hf s hs⟩⟩

/-- C123: any receiver gets every section that is sent, of whatever table. -/
theorem C123_section (p : Profile) (s : Psi) (dst : List UInt8) (hs : IsSection (s.buffer.take s.size)) (hf : s.buffer.head? ≠ some 0xFF)
    (hb : s.size ≤ s.buffer.length) (hp : s.pid.toNat < 8192) (hc : s.cc.toNat < 16) :
    ∃ s' pks, s.demux p dst = .ok (s', dst ++ pks.flatten) ∧ (∀ pk ∈ pks, IsTsPacket s.pid.toNat pk) ∧
      sectionsIn pks = [s.buffer.take s.size] := by
  have hl : (s.buffer.take s.size).length = s.size := by rw [List.length_take]; omega
  have h3 := hs.1
  rw [hl] at h3
  have e : stream s.pid.toNat s.cc.toNat [s.buffer.take s.size] = packets s.pid.toNat s.cc.toNat (s.buffer.take s.size) := by simp [stream]
  have hr : ∀ x ∈ [s.buffer.take s.size], Real x := by
    intro x hx
    rw [List.mem_singleton] at hx
    subst hx
    refine ⟨hs, ?_⟩
    rw [List.head?_take, if_neg (by omega)]
    exact hf
  refine ⟨_, _, C40_demux p s dst (by omega) hb hp hc, ?_, ?_⟩
  · rw [← e]; exact stream_packets _ _ hp _
  · rw [← e]; exact sections_stream _ hp _ _ hr

theorem head_complete (h : Foreign.Head) (rest : List UInt8) : (complete (h.bytes ++ rest)).head? = some (UInt8.ofNat h.tableId) := by
  have e : h.bytes ++ rest = UInt8.ofNat h.tableId :: UInt8.ofNat (h.flags * 4096 / 256) :: UInt8.ofNat (h.flags * 4096) ::
      ([UInt8.ofNat (h.ext / 256), UInt8.ofNat h.ext, UInt8.ofNat (Descriptor.pack [(2, h.reserved), (5, h.version), (1, h.current)]),
        UInt8.ofNat h.number, UInt8.ofNat h.last] ++ rest) := by
    simp [Foreign.Head.bytes, beBytes, Descriptor.pack]
  obtain ⟨l1, l2, k1, k2, k3, k4, e2⟩ := complete_form (UInt8.ofNat h.tableId) (UInt8.ofNat (h.flags * 4096 / 256)) (UInt8.ofNat (h.flags * 4096))
    ([UInt8.ofNat (h.ext / 256), UInt8.ofNat h.ext, UInt8.ofNat (Descriptor.pack [(2, h.reserved), (5, h.version), (1, h.current)]),
        UInt8.ofNat h.number, UInt8.ofNat h.last] ++ rest)
  rw [e, e2]; rfl

theorem head_ne (h : Foreign.Head) (hi : h.tableId < 255) (rest : List UInt8) : (complete (h.bytes ++ rest)).head? ≠ some 0xFF := by
  rw [head_complete]
  intro e
  have := congrArg UInt8.toNat (Option.some.inj e)
  rw [UInt8.toNat_ofNat', show (0xFF : UInt8).toNat = 255 from rfl] at this
  omega

theorem map_numbers {α β γ : Type} (gs : List α) (f : α × Nat → β) (g : β → γ) (n : Nat → γ) (h : ∀ x, g (f x) = n x.2) :
    (gs.zipIdx.map f).map g = (List.range gs.length).map n := by
  rw [List.map_map, show g ∘ f = n ∘ Prod.snd from funext h, ← List.map_map, List.zipIdx_map_snd, List.range_eq_range']

theorem flatMap_groups {α β γ : Type} (gs : List (List α)) (f : List α × Nat → β) (g : β → List γ) (e : α → γ) (h : ∀ x, g (f x) = x.1.map e) :
    (gs.zipIdx.map f).flatMap g = gs.flatten.map e := by
  rw [List.flatMap_map, show (fun a => g (f a)) = fun x => x.1.map e from funext h, List.map_flatten, ← List.flatMap_def]
  conv_rhs => rw [← List.zipIdx_map_fst 0 gs]
  rw [List.flatMap_map]

theorem flatMap_bytes {α β : Type} (e : α → β) (b : β → List UInt8) (w : α → List UInt8) (h : ∀ x, b (e x) = w x) (l : List α) :
    (l.map e).flatMap b = l.flatMap w := by
  rw [List.flatMap_map]; exact congrArg (List.flatMap · l) (funext h)

theorem fits_of_le {body : List UInt8} (h3 : 3 ≤ body.length) {n : Nat} (h : (complete body).length ≤ n + 4) : body.length ≤ n := by
  rw [complete_length h3] at h; omega

theorem u8_lt (a : UInt8) : a.toNat < 256 := a.toNat_lt
theorem u16_lt (a : UInt16) : a.toNat < 65536 := a.toNat_lt

namespace Pat

/-- The entry of a programme. -/
def program (i : PatItem) : Foreign.Program := ⟨i.pnr.toNat, 0b111, i.pid.toNat % 8192⟩

/-- C123: any receiver gets from a PAT one program association section with the fields of the table and, in order, its programmes, up to the
253 that are sent. -/
theorem C123_pat (p : Profile) (t : Pat) (pid : UInt16) (cc : UInt8) (dst : List UInt8) (hp : pid.toNat < 8192) (hc : cc.toNat < 16) :
    ∃ s : Foreign.Pat, s.Ok ∧ s.head = ⟨0x00, 0b1011, t.tsid.toNat, 3, t.version.toNat % 32, 1, 0, 0⟩ ∧
      s.programs = (t.items.take 253).map program ∧ Reaches (t.demux p pid cc dst) pid dst [complete s.body] := by
  have hb : (Foreign.Pat.mk ⟨0x00, 0b1011, t.tsid.toNat, 3, t.version.toNat % 32, 1, 0, 0⟩ ((t.items.take 253).map program)).body =
      Table.pat t.tsid.toNat (t.version.toNat % 32) 0 0 ((t.items.take 253).flatMap entry) :=
    congrArg (_ ++ ·) (flatMap_bytes _ _ _ (fun _ => rfl) _)
  have h := sends p t pid cc dst hp hc
  rw [wire, ← hb] at h
  refine ⟨_, ?_, rfl, rfl, reaches_of_sends hp h ?_⟩
  · have := u16_lt t.tsid
    refine ⟨⟨by show (0 : Nat) < _; omega, by show (0b1011 : Nat) < _; omega, this, by show (3 : Nat) < _; omega, by show _ % 32 < _; omega,
      by show (1 : Nat) < _; omega, by show (0 : Nat) < _; omega, by show (0 : Nat) < _; omega⟩, rfl, ?_, ?_⟩
    · intro x hx
      obtain ⟨i, -, rfl⟩ := List.mem_map.1 hx
      exact ⟨u16_lt _, by show (7 : Nat) < _; omega, by show _ % 8192 < _; omega⟩
    · rw [hb]
      have hl : ((t.items.take 253).flatMap entry).length = (t.items.take 253).length * 4 := flatMap_length _ _ 4 fun x _ => entry_length x
      have hle : (t.items.take 253).length ≤ 253 := by rw [List.length_take]; omega
      rw [Table.pat, List.length_append, header_length, hl]
      omega
  · intro s hs
    rw [List.mem_singleton] at hs
    subst hs
    exact head_ne _ (by show (0 : Nat) < _; omega) _

end Pat

namespace Pmt

/-- The entry of an elementary stream. -/
def stream (i : PmtItem) : Foreign.Stream := ⟨i.streamType.toNat, 0b111, i.pid.toNat % 8192, 0b1111, i.descriptors.flatMap Desc.wire⟩

/-- C123: any receiver gets from a PMT program map sections with the fields of the table, the program descriptors in the first of them, and the
elementary streams, in order. -/
theorem C123_pmt (p : Profile) (t : Pmt) (hn : ProgramInRange t) (hr : ∀ i ∈ t.items, ItemInRange i) (pid : UInt16) (cc : UInt8)
    (dst : List UInt8) (hp : pid.toNat < 8192) (hc : cc.toNat < 16) :
    ∃ ss : List Foreign.Pmt, (∀ s ∈ ss, s.Ok) ∧ ss ≠ [] ∧
      ss.map (·.head) = (List.range ss.length).map
        (fun k => ⟨0x02, 0b1011, t.pnr.toNat, 3, t.version.toNat % 32, 1, k % 256, (ss.length - 1) % 256⟩) ∧
      (∀ s ∈ ss, s.pcr = t.pcr.toNat % 8192) ∧
      ss.map (·.descs) = (List.range ss.length).map (fun k => if k = 0 then t.descriptors.flatMap Desc.wire else []) ∧
      ss.flatMap (·.streams) = t.items.map stream ∧
      Reaches (t.demux p pid cc dst) pid dst (ss.map (complete ·.body)) := by
  obtain ⟨gs, P, h⟩ := sends p t hn hr pid cc dst hp hc
  let f : List PmtItem × Nat → Foreign.Pmt := fun x =>
    ⟨⟨0x02, 0b1011, t.pnr.toNat, 3, t.version.toNat % 32, 1, x.2 % 256, (gs.length - 1) % 256⟩, 0b111, t.pcr.toNat % 8192, 0b1111, t.program x.2,
      x.1.map stream⟩
  have hb : ∀ x, (f x).body = Table.pmt t.pnr.toNat (t.version.toNat % 32) (x.2 % 256) ((gs.length - 1) % 256) (t.pcr.toNat % 8192) (t.program x.2)
      (x.1.flatMap entry) := fun x => congrArg (_ ++ ·) (flatMap_bytes stream _ entry (fun _ => rfl) x.1)
  have hw : t.wire gs = (gs.zipIdx.map f).map (complete ·.body) := by
    rw [List.map_map, wire]
    exact List.map_congr_left fun x _ => congrArg complete (hb x).symm
  have hlen : (gs.zipIdx.map f).length = gs.length := by simp
  rw [hw] at h
  refine ⟨gs.zipIdx.map f, ?_, ?_, ?_, ?_, ?_, ?_, reaches_of_sends hp h ?_⟩
  · intro s hs
    have hle := wire_le t gs P (complete s.body) (by rw [hw]; exact List.mem_map_of_mem hs)
    obtain ⟨x, hx, rfl⟩ := List.mem_map.1 hs
    refine ⟨⟨by show (2 : Nat) < _; omega, by show (0b1011 : Nat) < _; omega, u16_lt t.pnr, by show (3 : Nat) < _; omega, by show _ % 32 < _; omega,
      by show (1 : Nat) < _; omega, by show _ % 256 < _; omega, by show _ % 256 < _; omega⟩, rfl, by show (7 : Nat) < _; omega,
      by show _ % 8192 < _; omega, by show (15 : Nat) < _; omega, ?_, ?_⟩
    · intro y hy
      obtain ⟨i, -, rfl⟩ := List.mem_map.1 hy
      exact ⟨u8_lt _, by show (7 : Nat) < _; omega, by show _ % 8192 < _; omega, by show (15 : Nat) < _; omega⟩
    · have := fits_of_le (n := 1020) (by rw [hb]; simp [Table.pmt]; omega) hle
      omega
  · intro e
    have := congrArg List.length e
    rw [hlen] at this
    exact P.nonempty (List.length_eq_zero_iff.1 this)
  · rw [hlen]; exact map_numbers gs f _ _ fun x => rfl
  · intro s hs
    obtain ⟨x, hx, rfl⟩ := List.mem_map.1 hs
    rfl
  · rw [hlen]; exact map_numbers gs f _ _ fun x => rfl
  · rw [flatMap_groups gs f _ stream (fun x => rfl), P.all]
  · intro s hs
    obtain ⟨y, hy, rfl⟩ := List.mem_map.1 hs
    obtain ⟨x, hx, rfl⟩ := List.mem_map.1 hy
    rw [Foreign.Pmt.body, List.append_assoc, List.append_assoc]
    exact head_ne _ (by show (2 : Nat) < _; omega) _

end Pmt

namespace Nit

/-- The entry of a transport stream. -/
def transport (i : NitItem) : Foreign.Transport := ⟨i.tsid.toNat, i.onid.toNat, 0b1111, i.descriptors.flatMap Desc.wire⟩

/-- C123: any receiver gets from a NIT network information sections with the fields of the table, the network descriptors in the first of them,
and the transport streams, in order. -/
theorem C123_nit (p : Profile) (t : Nit) (hid : t.tableId = 0x40 ∨ t.tableId = 0x41) (hn : NetworkInRange t) (hr : ∀ i ∈ t.items, ItemInRange i)
    (pid : UInt16) (cc : UInt8) (dst : List UInt8) (hp : pid.toNat < 8192) (hc : cc.toNat < 16) :
    ∃ ss : List Foreign.Nit, (∀ s ∈ ss, s.Ok) ∧ ss ≠ [] ∧
      ss.map (·.head) = (List.range ss.length).map
        (fun k => ⟨t.tableId.toNat, 0b1111, t.networkId.toNat, 3, t.version.toNat % 32, 1, k % 256, (ss.length - 1) % 256⟩) ∧
      ss.map (·.descs) = (List.range ss.length).map (fun k => if k = 0 then t.descriptors.flatMap Desc.wire else []) ∧
      ss.flatMap (·.transports) = t.items.map transport ∧
      Reaches (t.demux p pid cc dst) pid dst (ss.map (complete ·.body)) := by
  obtain ⟨gs, P, h⟩ := sends p t hn hr pid cc dst hp hc
  let f : List NitItem × Nat → Foreign.Nit := fun x =>
    ⟨⟨t.tableId.toNat, 0b1111, t.networkId.toNat, 3, t.version.toNat % 32, 1, x.2 % 256, (gs.length - 1) % 256⟩, 0b1111, t.network x.2, 0b1111,
      x.1.map transport⟩
  have hb : ∀ x, (f x).body = Table.nit t.tableId.toNat t.networkId.toNat (t.version.toNat % 32) (x.2 % 256) ((gs.length - 1) % 256) (t.network x.2)
      (x.1.flatMap entry) := fun x => congrArg (_ ++ sized12 0b1111 ·) (flatMap_bytes transport _ entry (fun _ => rfl) x.1)
  have hw : t.wire gs = (gs.zipIdx.map f).map (complete ·.body) := by
    rw [List.map_map, wire]
    exact List.map_congr_left fun x _ => congrArg complete (hb x).symm
  have hlen : (gs.zipIdx.map f).length = gs.length := by simp
  have hi : t.tableId.toNat = 0x40 ∨ t.tableId.toNat = 0x41 := hid.imp (congrArg UInt8.toNat) (congrArg UInt8.toNat)
  rw [hw] at h
  refine ⟨gs.zipIdx.map f, ?_, ?_, ?_, ?_, ?_, reaches_of_sends hp h ?_⟩
  · intro s hs
    have hle := wire_le t gs P (complete s.body) (by rw [hw]; exact List.mem_map_of_mem hs)
    obtain ⟨x, hx, rfl⟩ := List.mem_map.1 hs
    refine ⟨⟨u8_lt _, by show (0b1111 : Nat) < _; omega, u16_lt t.networkId, by show (3 : Nat) < _; omega, by show _ % 32 < _; omega,
      by show (1 : Nat) < _; omega, by show _ % 256 < _; omega, by show _ % 256 < _; omega⟩, hi, by show (15 : Nat) < _; omega,
      by show (15 : Nat) < _; omega, ?_, ?_⟩
    · intro y hy
      obtain ⟨i, -, rfl⟩ := List.mem_map.1 hy
      exact ⟨u16_lt _, u16_lt _, by show (15 : Nat) < _; omega⟩
    · have := fits_of_le (n := 1020) (by rw [hb]; simp [Table.nit]; omega) hle
      omega
  · intro e
    have := congrArg List.length e
    rw [hlen] at this
    exact P.nonempty (List.length_eq_zero_iff.1 this)
  · rw [hlen]; exact map_numbers gs f _ _ fun x => rfl
  · rw [hlen]; exact map_numbers gs f _ _ fun x => rfl
  · rw [flatMap_groups gs f _ transport (fun x => rfl), P.all]
  · intro s hs
    obtain ⟨y, hy, rfl⟩ := List.mem_map.1 hs
    obtain ⟨x, hx, rfl⟩ := List.mem_map.1 hy
    rw [Foreign.Nit.body, List.append_assoc]
    exact head_ne _ (by show t.tableId.toNat < _; omega) _

end Nit

namespace Sdt

/-- The entry of a service. -/
def service (i : SdtItem) : Foreign.Service :=
  ⟨i.pnr.toNat, 0b111111, i.eitScheduleFlag.toNat, i.eitPresentFollowingFlag.toNat, i.runningStatus.toNat, i.freeCaMode.toNat,
    i.descriptors.flatMap Desc.wire⟩

/-- C123: any receiver gets from an SDT service description sections with the fields of the table and the services, in order. -/
theorem C123_sdt (p : Profile) (t : Sdt) (hid : t.tableId = 0x42 ∨ t.tableId = 0x46) (hr : ∀ i ∈ t.items, ItemInRange i) (pid : UInt16) (cc : UInt8)
    (dst : List UInt8) (hp : pid.toNat < 8192) (hc : cc.toNat < 16) :
    ∃ ss : List Foreign.Sdt, (∀ s ∈ ss, s.Ok) ∧ ss ≠ [] ∧
      ss.map (·.head) = (List.range ss.length).map
        (fun k => ⟨t.tableId.toNat, 0b1111, t.tsid.toNat, 3, t.version.toNat % 32, 1, k % 256, (ss.length - 1) % 256⟩) ∧
      (∀ s ∈ ss, s.onid = t.onid.toNat) ∧
      ss.flatMap (·.services) = t.items.map service ∧
      Reaches (t.demux p pid cc dst) pid dst (ss.map (complete ·.body)) := by
  obtain ⟨gs, P, h⟩ := sends p t hr pid cc dst hp hc
  let f : List SdtItem × Nat → Foreign.Sdt := fun x =>
    ⟨⟨t.tableId.toNat, 0b1111, t.tsid.toNat, 3, t.version.toNat % 32, 1, x.2 % 256, (gs.length - 1) % 256⟩, t.onid.toNat, 0xFF, x.1.map service⟩
  have hb : ∀ x, (f x).body = Table.sdt t.tableId.toNat t.tsid.toNat (t.version.toNat % 32) (x.2 % 256) ((gs.length - 1) % 256) t.onid.toNat
      (x.1.flatMap entry) := by
    intro x
    show _ ++ beBytes 1 0xFF ++ (x.1.map service).flatMap Foreign.Service.bytes = _
    rw [show beBytes 1 0xFF = [0xFF] by decide, flatMap_bytes service Foreign.Service.bytes entry (fun _ => rfl) x.1]
    rfl
  have hw : t.wire gs = (gs.zipIdx.map f).map (complete ·.body) := by
    rw [List.map_map, wire]
    exact List.map_congr_left fun x _ => congrArg complete (hb x).symm
  have hlen : (gs.zipIdx.map f).length = gs.length := by simp
  have hi : t.tableId.toNat = 0x42 ∨ t.tableId.toNat = 0x46 := hid.imp (congrArg UInt8.toNat) (congrArg UInt8.toNat)
  rw [hw] at h
  refine ⟨gs.zipIdx.map f, ?_, ?_, ?_, ?_, ?_, reaches_of_sends hp h ?_⟩
  · intro s hs
    have hle := wire_le t gs P (complete s.body) (by rw [hw]; exact List.mem_map_of_mem hs)
    obtain ⟨x, hx, rfl⟩ := List.mem_map.1 hs
    have hg : x.1 ∈ gs := (List.mem_zipIdx' hx).2 ▸ List.getElem_mem _
    refine ⟨⟨u8_lt _, by show (0b1111 : Nat) < _; omega, u16_lt t.tsid, by show (3 : Nat) < _; omega, by show _ % 32 < _; omega,
      by show (1 : Nat) < _; omega, by show _ % 256 < _; omega, by show _ % 256 < _; omega⟩, hi, u16_lt _, by show (255 : Nat) < _; omega, ?_, ?_⟩
    · intro y hy
      obtain ⟨i, hi, rfl⟩ := List.mem_map.1 hy
      obtain ⟨a1, a2, a3, a4, -⟩ := hr i (P.all ▸ List.mem_flatten.2 ⟨_, hg, hi⟩)
      exact ⟨u16_lt _, by show (63 : Nat) < _; omega, a1, a2, a3, a4⟩
    · have := fits_of_le (n := 1020) (by rw [hb]; simp [Table.sdt]; omega) hle
      omega
  · intro e
    have := congrArg List.length e
    rw [hlen] at this
    exact P.nonempty (List.length_eq_zero_iff.1 this)
  · rw [hlen]; exact map_numbers gs f _ _ fun x => rfl
  · intro s hs
    obtain ⟨x, hx, rfl⟩ := List.mem_map.1 hs
    rfl
  · rw [flatMap_groups gs f _ service (fun x => rfl), P.all]
  · intro s hs
    obtain ⟨y, hy, rfl⟩ := List.mem_map.1 hs
    obtain ⟨x, hx, rfl⟩ := List.mem_map.1 hy
    rw [Foreign.Sdt.body, List.append_assoc, List.append_assoc]
    exact head_ne _ (by show t.tableId.toNat < _; omega) _

end Sdt

namespace Eit

/-- The entry of an event. -/
def event (i : EitItem) : Foreign.Event :=
  ⟨i.eventId.toNat, i.start.toNat, i.duration.toNat, i.status.toNat, i.caMode.toNat, i.descriptors.flatMap Desc.wire⟩

theorem event_ok {i : EitItem} (h : ItemInRange i) : (event i).Ok :=
  ⟨u16_lt _, h.1, by have := h.2.1; show i.duration.toNat < _; omega, h.2.2.1, h.2.2.2.1⟩

/-- C123: any receiver gets from a present/following EIT one section for each event, with the fields of the table. -/
theorem C123_eit_pf (p : Profile) (t : Eit) (hid : t.tableId = 0x4E ∨ t.tableId = 0x4F) (hr : ∀ i ∈ t.items, ItemInRange i) (pid : UInt16) (cc : UInt8)
    (dst : List UInt8) (hp : pid.toNat < 8192) (hc : cc.toNat < 16) :
    ∃ ss : List Foreign.Eit, (∀ s ∈ ss, s.Ok) ∧
      ss.map (·.head) = (List.range t.items.length).map
        (fun k => ⟨t.tableId.toNat, 0b1111, t.pnr.toNat, 3, t.version.toNat % 32, 1, k % 256, (t.items.length - 1) % 256⟩) ∧
      (∀ s ∈ ss, s.tsid = t.tsid.toNat ∧ s.onid = t.onid.toNat ∧ s.segmentLast = (t.items.length - 1) % 256 ∧ s.lastTableId = t.tableId.toNat) ∧
      ss.map (·.events) = t.items.map (fun i => [event i]) ∧
      Reaches (t.demux p pid cc dst) pid dst (ss.map (complete ·.body)) := by
  have h := sendsPf p t hid hr pid cc dst hp hc
  let f : EitItem × Nat → Foreign.Eit := fun x =>
    ⟨⟨t.tableId.toNat, 0b1111, t.pnr.toNat, 3, t.version.toNat % 32, 1, x.2 % 256, (t.items.length - 1) % 256⟩, t.tsid.toNat, t.onid.toNat,
      (t.items.length - 1) % 256, t.tableId.toNat, [event x.1]⟩
  have hb : ∀ x, (f x).body = Table.eit t.tableId.toNat t.pnr.toNat (t.version.toNat % 32) (x.2 % 256) ((t.items.length - 1) % 256) t.tsid.toNat
      t.onid.toNat ((t.items.length - 1) % 256) t.tableId.toNat ([x.1].flatMap entry) :=
    fun x => congrArg (_ ++ ·) (flatMap_bytes event Foreign.Event.bytes entry (fun _ => rfl) [x.1])
  have hw : t.wirePf = (t.items.zipIdx.map f).map (complete ·.body) := by
    rw [List.map_map, wirePf]
    exact List.map_congr_left fun x _ => congrArg complete (hb x).symm
  have hi : t.tableId.toNat = 0x4E ∨ t.tableId.toNat = 0x4F := hid.imp (congrArg UInt8.toNat) (congrArg UInt8.toNat)
  rw [hw] at h
  refine ⟨t.items.zipIdx.map f, ?_, ?_, ?_, ?_, reaches_of_sends hp h ?_⟩
  · intro s hs
    obtain ⟨x, hx, rfl⟩ := List.mem_map.1 hs
    have hg : x.1 ∈ t.items := (List.mem_zipIdx' hx).2 ▸ List.getElem_mem _
    refine ⟨⟨u8_lt _, by show (0b1111 : Nat) < _; omega, u16_lt t.pnr, by show (3 : Nat) < _; omega, by show _ % 32 < _; omega,
      by show (1 : Nat) < _; omega, by show _ % 256 < _; omega, by show _ % 256 < _; omega⟩, by show _ ≤ t.tableId.toNat ∧ t.tableId.toNat ≤ _; omega,
      u16_lt _, u16_lt _, by show _ % 256 < _; omega, u8_lt _, ?_, ?_⟩
    · intro y hy
      have hy' : y = event x.1 := List.mem_singleton.1 hy
      rw [hy']
      exact event_ok (hr _ hg)
    · rw [hb]
      have := (hr _ hg).2.2.2.2.2
      simp [Table.eit]; omega
  · exact map_numbers t.items f _ _ fun x => rfl
  · intro s hs
    obtain ⟨x, hx, rfl⟩ := List.mem_map.1 hs
    exact ⟨rfl, rfl, rfl, rfl⟩
  · rw [List.map_map, show (fun s : Foreign.Eit => s.events) ∘ f = (fun i => [event i]) ∘ Prod.fst from rfl, ← List.map_map, List.zipIdx_map_fst]
  · intro s hs
    obtain ⟨y, hy, rfl⟩ := List.mem_map.1 hs
    obtain ⟨x, hx, rfl⟩ := List.mem_map.1 hy
    rw [Foreign.Eit.body, List.append_assoc, List.append_assoc, List.append_assoc, List.append_assoc]
    exact head_ne _ (by show t.tableId.toNat < _; omega) _

theorem eventSlots_table (t : Eit) (h : t.Schedulable) : ∀ s ∈ t.eventSlots, s.segment < 512 ∧ s.table / 16 = t.tableId.toNat / 16 := by
  have hf := t.firstSegment_lt
  refine place_all _ _ _ _ _ _ t.items _ ⟨by simp only []; omega, rfl⟩ ?_ ?_ ?_
  · rintro s i ⟨-, -⟩ hi hj
    have h1 := (h.span i hi).2
    have : s.segment + 1 < 512 := by simp only [segmentLength, day] at *; omega
    exact ⟨this, by simp only [base]; omega⟩
  · rintro s i ⟨h0, -⟩ hi
    exact ⟨h0, by simp only [base]; omega⟩
  · rintro s i ⟨h0, h1⟩ hi hlt
    exact ⟨h0, h1⟩

theorem slots_group (t : Eit) (h : t.Schedulable) : ∀ s ∈ t.slots, s.table / 16 = t.tableId.toNat / 16 := by
  intro s hs
  rcases List.mem_append.1 hs with hs | hs
  · obtain ⟨k, hk, rfl⟩ := List.mem_map.1 hs
    simp only [base]; omega
  · exact (eventSlots_table t h s hs).2

/-- C123: any receiver gets from a schedule EIT sections with the fields of the table and the events, in order (the numbers of these
sections are the subject of C60 and C64). -/
theorem C123_eit_schedule (p : Profile) (t : Eit) (h : t.Schedulable) (pid : UInt16) (cc : UInt8)
    (dst : List UInt8) (hp : pid.toNat < 8192) (hc : cc.toNat < 16) :
    ∃ ss : List Foreign.Eit, (∀ s ∈ ss, s.Ok) ∧
      (∀ s ∈ ss, s.head.tableId / 16 = t.tableId.toNat / 16 ∧ s.head.flags = 0b1111 ∧ s.head.ext = t.pnr.toNat ∧ s.head.reserved = 3 ∧
        s.head.version = t.version.toNat % 32 ∧ s.head.current = 1 ∧ s.tsid = t.tsid.toNat ∧ s.onid = t.onid.toNat) ∧
      ss.flatMap (·.events) = t.items.map event ∧
      Reaches (t.demux p pid cc dst) pid dst (ss.map (complete ·.body)) := by
  have hS := sendsSchedule p t h pid cc dst hp hc
  let lt := t.base + segmentOf t.origin t.lastStart / 32
  have hlt : lt < 256 := by
    have h1 : ∃ i ∈ t.items, t.lastStart = i.start.toNat :=
      ⟨_, List.getLast_mem h.nonempty, by rw [lastStart, List.getLast?_eq_some_getLast h.nonempty]; rfl⟩
    obtain ⟨i, hi, e⟩ := h1
    have := (h.span i hi).2
    have h2 := h.table
    show t.base + segmentOf t.origin t.lastStart / 32 < 256
    simp only [e, base, segmentOf, segmentLength, day] at *
    omega
  let f : Slot EitItem × Nat → Foreign.Eit := fun x =>
    ⟨⟨x.1.table, 0b1111, t.pnr.toNat, 3, t.version.toNat % 32, 1, x.1.number, x.2⟩, t.tsid.toNat, t.onid.toNat, x.1.number, lt, x.1.events.map event⟩
  have hb : ∀ x, (f x).body = Table.eit x.1.table t.pnr.toNat (t.version.toNat % 32) x.1.number x.2 t.tsid.toNat
      t.onid.toNat x.1.number lt (x.1.events.flatMap entry) :=
    fun x => congrArg (_ ++ ·) (flatMap_bytes event Foreign.Event.bytes entry (fun _ => rfl) x.1.events)
  have hw : t.wireSchedule = ((withLast t.slots).map f).map (complete ·.body) := by
    rw [List.map_map, wireSchedule]
    exact List.map_congr_left fun x _ => congrArg complete (hb x).symm
  have hle := wireSchedule_le t h
  rw [hw] at hS hle
  refine ⟨(withLast t.slots).map f, ?_, ?_, ?_, reaches_of_sends hp hS ?_⟩
  · intro s hs
    have hl := hle _ (List.mem_map_of_mem hs)
    obtain ⟨x, hx, rfl⟩ := List.mem_map.1 hs
    obtain ⟨m1, y, m2, m3⟩ := withLast_mem t.slots x hx
    obtain ⟨k1, k2, k3, k4⟩ := slots_ok t h _ m1
    have n1 := k1.2.2.1
    have n2 := (slots_ok t h _ m2).1.2.2.1
    refine ⟨⟨by show x.1.table < _; omega, by show (0b1111 : Nat) < _; omega, u16_lt t.pnr, by show (3 : Nat) < _; omega, by show _ % 32 < _; omega,
      by show (1 : Nat) < _; omega, by show x.1.number < _; omega, by show x.2 < _; omega⟩, by show _ ≤ x.1.table ∧ x.1.table ≤ _; omega,
      u16_lt _, u16_lt _, by show x.1.number < _; omega, hlt, ?_, ?_⟩
    · intro y hy
      obtain ⟨i, hi, rfl⟩ := List.mem_map.1 hy
      exact event_ok (h.events i (k4 i hi))
    · exact fits_of_le (n := 4092) (by rw [hb]; simp [Table.eit]; omega) hl
  · intro s hs
    obtain ⟨x, hx, rfl⟩ := List.mem_map.1 hs
    exact ⟨slots_group t h _ (withLast_mem t.slots x hx).1, rfl, rfl, rfl, rfl, rfl, rfl, rfl⟩
  · have := slots_events t
    rw [← withLast_fst t.slots, List.flatMap_map] at this
    rw [List.flatMap_map, ← this, List.map_flatMap]
  · intro s hs
    obtain ⟨y, hy, rfl⟩ := List.mem_map.1 hs
    obtain ⟨x, hx, rfl⟩ := List.mem_map.1 hy
    obtain ⟨k1, k2, k3, k4⟩ := slots_ok t h _ (withLast_mem t.slots x hx).1
    rw [Foreign.Eit.body, List.append_assoc, List.append_assoc, List.append_assoc, List.append_assoc]
    exact head_ne _ (by show x.1.table < _; omega) _

end Eit

namespace Tdt

/-- C123: any receiver gets from a TDT one time and date section with its time. -/
theorem C123_tdt (p : Profile) (t : Tdt) (h : TimeInRange t.time) (pid : UInt16) (cc : UInt8) (dst : List UInt8) (hp : pid.toNat < 8192)
    (hc : cc.toNat < 16) :
    (Foreign.Tdt.mk 0b0111 t.time.toNat).Ok ∧
      Reaches (t.demux p pid cc dst) pid dst [(Foreign.Tdt.mk 0b0111 t.time.toNat).bytes] := by
  have ho : (Foreign.Tdt.mk 0b0111 t.time.toNat).Ok := ⟨by show (7 : Nat) < _; omega, h⟩
  refine ⟨ho, ?_⟩
  have hw := C61_wire p t h pid cc dst hp hc
  have hb : (Foreign.Tdt.mk 0b0111 t.time.toNat).bytes = Table.tdt t.time.toNat := by
    rw [Foreign.Tdt.bytes, show beBytes 2 (Descriptor.pack [(4, 0b0111), (12, 5)]) = [0x70, 0x05] by decide]; rfl
  rw [hb]
  have l : (Table.tdt t.time.toNat).length = 8 := by simp [Table.tdt]
  have hS : Sends (t.demux p pid cc dst) pid cc dst [Table.tdt t.time.toNat] := by
    refine ⟨?_, ?_⟩
    · intro s hs
      rw [List.mem_singleton] at hs
      subst hs
      exact ⟨by omega, by rw [l]; simp [Table.tdt, beNat_two]⟩
    · rw [hw]
      simp [streamCount, stream, l, packetCount]
  refine reaches_of_sends hp hS ?_
  intro s hs
  rw [List.mem_singleton] at hs
  subst hs
  simp [Table.tdt]

end Tdt

namespace Tot

/-- C123: any receiver gets from a TOT one time offset section with its time and its descriptors. -/
theorem C123_tot (p : Profile) (t : Tot) (h : t.InRange) (pid : UInt16) (cc : UInt8) (dst : List UInt8) (hp : pid.toNat < 8192)
    (hc : cc.toNat < 16) :
    Reaches (t.demux p pid cc dst) pid dst
      [complete (Foreign.Tot.mk 0b0111 t.time.toNat 0b1111 (t.descriptors.flatMap Desc.wire)).body] := by
  have hw := C62_wire p t h pid cc dst hp hc
  have hb : (Foreign.Tot.mk 0b0111 t.time.toNat 0b1111 (t.descriptors.flatMap Desc.wire)).body =
    Table.tot t.time.toNat (t.descriptors.flatMap Desc.wire) := by
    rw [Foreign.Tot.body, show beBytes 2 (Descriptor.pack [(4, 0b0111), (12, 0)]) = [0x70, 0x00] by decide]; rfl
  rw [hb]
  have l := tot_length t.time.toNat (t.descriptors.flatMap Desc.wire)
  have hs := h.size
  have hS : Sends (t.demux p pid cc dst) pid cc dst [t.wire] := by
    refine ⟨?_, ?_⟩
    · intro s hs'
      rw [List.mem_singleton] at hs'
      subst hs'
      exact complete_isSection (by omega) (by omega)
    · rw [hw]
      simp [streamCount, stream]
  refine reaches_of_sends hp hS ?_
  intro s hs
  rw [List.mem_singleton] at hs
  subst hs
  have e : Table.tot t.time.toNat (t.descriptors.flatMap Desc.wire) =
    0x73 :: 0x70 :: 0x00 :: (Descriptor.utc t.time.toNat ++ sized12 0b1111 (t.descriptors.flatMap Desc.wire)) := rfl
  obtain ⟨l1, l2, k1, k2, k3, k4, e2⟩ := complete_form 0x73 0x70 0x00 (Descriptor.utc t.time.toNat ++ sized12 0b1111 (t.descriptors.flatMap Desc.wire))
  rw [e, e2]
  simp

end Tot
/-! ## The hypotheses can be met -/

example (p : Profile) : ∃ s : Foreign.Pat, s.Ok ∧ s.head = ⟨0x00, 0b1011, 5, 3, 7, 1, 0, 0⟩ ∧
    s.programs = [⟨0, 7, 0x10⟩, ⟨1, 7, 0x100⟩] ∧ Reaches (Pat.demux p ⟨7, 5, [⟨0, 0x10⟩, ⟨1, 0x100⟩]⟩ 0 3 [0x47]) 0 [0x47] [complete s.body] :=
  Pat.C123_pat p ⟨7, 5, [⟨0, 0x10⟩, ⟨1, 0x100⟩]⟩ 0 3 [0x47] (by decide) (by decide)
example (p : Profile) := Pmt.C123_pmt p samplePmt2 samplePmt2_inRange.program (fun i hi => (samplePmt2_inRange.items i hi).1) 0x100 7 []
  (by decide) (by decide)
example (p : Profile) := Nit.C123_nit p sampleNit sampleNit_inRange.id sampleNit_inRange.network.1 (fun i hi => (sampleNit_inRange.items i hi).1) 0x10 7 []
  (by decide) (by decide)
example (p : Profile) := Sdt.C123_sdt p bigSdt bigSdt_inRange.id (fun i hi => (bigSdt_inRange.items i hi).1) 0x11 7 [] (by decide) (by decide)
example (p : Profile) := Eit.C123_eit_pf p sampleEit (by decide) (fun i hi => (sampleEit_inRange.items i hi).1) 0x12 3 [] (by decide) (by decide)
example (p : Profile) := Eit.C123_eit_schedule p sampleLong sampleLong_ok 0x12 3 [] (by decide) (by decide)
example (p : Profile) := Tdt.C123_tdt p ⟨1700000000⟩ (by unfold TimeInRange unixEpochMjd; decide) 0x14 3 [] (by decide) (by decide)
example (p : Profile) := Tot.C123_tot p ⟨1700000000, [.raw ⟨0x7F, [1, 2]⟩]⟩
  ⟨by unfold TimeInRange unixEpochMjd; decide, by decide +kernel, by decide +kernel⟩ 0x14 3 [] (by decide) (by decide)
/-- A section in the hands of the sender. -/
def clockPsi : Psi := { Psi.default with buffer := [0x70, 0x70, 0x05, 0xEB, 0x66, 0x22, 0x13, 0x20], size := 8, pid := 0x14, cc := 9 }
example (p : Profile) : ∃ s' pks, clockPsi.demux p [] = .ok (s', [] ++ pks.flatten) ∧ (∀ pk ∈ pks, IsTsPacket 0x14 pk) ∧
    sectionsIn pks = [[0x70, 0x70, 0x05, 0xEB, 0x66, 0x22, 0x13, 0x20]] :=
  C123_section p clockPsi [] ⟨by decide +kernel, by decide +kernel⟩ (by decide) (by decide) (by decide) (by decide)

end Mpegts
