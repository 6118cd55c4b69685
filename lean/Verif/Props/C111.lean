import Verif.Spec.Foreign
import Verif.Props.C106
import Verif.Props.Pat

/-! # C111: sections of any sender -/

namespace Mpegts
open Spec Spec.Table
open Spec.Descriptor (hhmmss)

/-- What a receiver makes of a loop of descriptors given as bytes: each complete descriptor is parsed (C81, C97). -/
def readLoop (p : Profile) (descs : List UInt8) : R Descriptors := (Descriptor.frames descs).mapM (Desc.parse p)

theorem fields8 (a0 a1 a2 a3 a4 a5 a6 a7 : UInt8) (rest : List UInt8) :
    let sec := complete (a0 :: a1 :: a2 :: a3 :: a4 :: a5 :: a6 :: a7 :: rest)
    sec.length = 12 + rest.length ∧ sec.head? = some a0 ∧ field sec 0 1 = a0.toNat ∧ field sec 3 2 = a3.toNat * 256 + a4.toNat ∧
    field sec 5 1 = a5.toNat ∧
    (∀ n k, n + k ≤ rest.length → field sec (8 + n) k = field rest n k) ∧
    (∀ n, (sec.take (sec.length - 4)).drop (8 + n) = rest.drop n) := by
  intro sec
  have hlen : sec.length = 12 + rest.length := by
    show (complete _).length = _
    rw [complete_length (by simp)]; simp; omega
  obtain ⟨l1, l2, k1, k2, k3, k4, h⟩ := complete_form a0 a1 a2 (a3 :: a4 :: a5 :: a6 :: a7 :: rest)
  have hs : sec = [a0, l1, l2, a3, a4, a5, a6, a7] ++ (rest ++ [k1, k2, k3, k4]) := h
  refine ⟨hlen, by rw [hs]; rfl, ?_, ?_, ?_, ?_, ?_⟩
  · rw [hs]; simp [field, beNat]
  · rw [hs]; simp [field, beNat_two]
  · rw [hs]; simp [field, beNat]
  · intro n k hk
    rw [hs]
    refine (congrFun (field_append _ _ n) k).trans ?_
    unfold field
    rw [List.drop_append_of_le_length (by omega), List.take_append_of_le_length (by rw [List.length_drop]; omega)]
  · intro n
    rw [hlen, hs, ← List.append_assoc, List.take_left' (by simp; omega), ← List.drop_drop]
    simp only [List.cons_append, List.nil_append, List.drop_succ_cons, List.drop_zero]

/-- The fields of a section with any header. -/
theorem head_fields (h : Foreign.Head) (ho : h.Ok) (rest : List UInt8) :
    let sec := complete (h.bytes ++ rest)
    sec.length = 12 + rest.length ∧ sec.head? = some (UInt8.ofNat h.tableId) ∧ field sec 0 1 = h.tableId ∧ field sec 3 2 = h.ext ∧
    field sec 5 1 / 2 % 32 = h.version ∧
    (∀ n k, n + k ≤ rest.length → field sec (8 + n) k = field rest n k) ∧
    (∀ n, (sec.take (sec.length - 4)).drop (8 + n) = rest.drop n) := by
  obtain ⟨h1, h2, h3, h4, h5, h6, h7, h8⟩ := ho
  have e : h.bytes ++ rest = UInt8.ofNat h.tableId :: UInt8.ofNat (h.flags * 16) :: 0 :: UInt8.ofNat (h.ext / 256) :: UInt8.ofNat h.ext ::
      UInt8.ofNat (Descriptor.pack [(2, h.reserved), (5, h.version), (1, h.current)]) :: UInt8.ofNat h.number :: UInt8.ofNat h.last :: rest := by
    have e1 : UInt8.ofNat (h.flags * 4096 / 256) = UInt8.ofNat (h.flags * 16) := congrArg _ (by omega)
    have e2 : UInt8.ofNat (h.flags * 4096) = 0 := by apply UInt8.toNat_inj.1; rw [UInt8.toNat_ofNat']; simp; omega
    simp [Foreign.Head.bytes, beBytes, Descriptor.pack, e1, e2]
  rw [e]
  obtain ⟨f1, f2, f3, f4, f5, f6, f7⟩ := fields8 (UInt8.ofNat h.tableId) (UInt8.ofNat (h.flags * 16)) 0 (UInt8.ofNat (h.ext / 256)) (UInt8.ofNat h.ext)
    (UInt8.ofNat (Descriptor.pack [(2, h.reserved), (5, h.version), (1, h.current)])) (UInt8.ofNat h.number) (UInt8.ofNat h.last) rest
  refine ⟨f1, f2, ?_, ?_, ?_, f6, f7⟩
  · rw [f3, UInt8.toNat_ofNat']; omega
  · rw [f4, UInt8.toNat_ofNat', UInt8.toNat_ofNat']; omega
  · rw [f5, UInt8.toNat_ofNat']
    simp only [Descriptor.pack, List.foldl_cons, List.foldl_nil]
    omega

/-- The bytes after the first three of a section. -/
theorem drop3 (a0 a1 a2 : UInt8) (rest : List UInt8) (n k : Nat) (h : n + k ≤ rest.length) :
    ((complete (a0 :: a1 :: a2 :: rest)).drop (3 + n)).take k = (rest.drop n).take k := by
  obtain ⟨l1, l2, k1, k2, k3, k4, e⟩ := complete_form a0 a1 a2 rest
  rw [e, ← List.drop_drop]
  simp only [List.cons_append, List.drop_succ_cons, List.drop_zero]
  rw [List.drop_append_of_le_length (by omega), List.take_append_of_le_length (by rw [List.length_drop]; omega)]

/-- The bytes after the header of a section. -/
theorem drop8 (h : Foreign.Head) (rest : List UInt8) (n k : Nat) (hk : n + k ≤ rest.length) :
    ((complete (h.bytes ++ rest)).drop (8 + n)).take k = (rest.drop n).take k := by
  have e : h.bytes ++ rest = UInt8.ofNat h.tableId :: UInt8.ofNat (h.flags * 4096 / 256) :: UInt8.ofNat (h.flags * 4096) ::
      ([UInt8.ofNat (h.ext / 256), UInt8.ofNat h.ext, UInt8.ofNat (Descriptor.pack [(2, h.reserved), (5, h.version), (1, h.current)]),
        UInt8.ofNat h.number, UInt8.ofNat h.last] ++ rest) := by
    simp [Foreign.Head.bytes, beBytes, Descriptor.pack]
  rw [e, show 8 + n = 3 + (5 + n) by omega, drop3 _ _ _ _ _ _ (by simp; omega), ← List.drop_drop]
  rfl

theorem seconds_digits (a b c d e f : Nat) (ha : a < 10) (hb : b < 10) (hc : c < 10) (hd : d < 10) (he : e < 10) (hf : f < 10) :
    seconds ((((((a * 16 + b) * 16 + c) * 16 + d) * 16 + e) * 16 + f)) = (a * 10 + b) * 3600 + (c * 10 + d) * 60 + (e * 10 + f) := by
  have x1 : (((((a * 16 + b) * 16 + c) * 16 + d) * 16 + e) * 16 + f) / 65536 = a * 16 + b := by omega
  have x2 : (((((a * 16 + b) * 16 + c) * 16 + d) * 16 + e) * 16 + f) / 256 % 256 = c * 16 + d := by omega
  have x3 : (((((a * 16 + b) * 16 + c) * 16 + d) * 16 + e) * 16 + f) % 256 = e * 16 + f := by omega
  rw [seconds, x1, x2, x3]
  simp only [unbcd]
  omega

theorem hhmmss_valid (d : Nat) (h : d < 360000) : ValidBcd 6 (hhmmss d) ∧ seconds (hhmmss d) = d := by
  refine ⟨validBcd_bcd 6 _, ?_⟩
  have key : ∀ n, n < 1000000 → seconds (bcd 6 n) = n / 10000 * 3600 + n / 100 % 100 * 60 + n % 100 := by
    intro n hn
    have hb : bcd 6 n = ((((n / 100000 * 16 + n / 10000 % 10) * 16 + n / 1000 % 10) * 16 + n / 100 % 10) * 16 + n / 10 % 10) * 16 + n % 10 := by
      simp only [bcd, Nat.div_div_eq_div_mul, Nat.zero_mul, Nat.zero_add]
      omega
    have hd : n / 100000 < 10 ∧ n / 10000 % 10 < 10 ∧ n / 1000 % 10 < 10 ∧ n / 100 % 10 < 10 ∧ n / 10 % 10 < 10 ∧ n % 10 < 10 := by omega
    rw [hb, seconds_digits _ _ _ _ _ _ hd.1 hd.2.1 hd.2.2.1 hd.2.2.2.1 hd.2.2.2.2.1 hd.2.2.2.2.2]
    omega
  rw [hhmmss, key _ (by omega)]
  omega

theorem read_duration (p : Profile) (d : Nat) (h : d < 360000) : fromBcdTime32 p (UInt32.ofNat (hhmmss d)) = .ok (UInt32.ofNat d) := by
  obtain ⟨h1, h2⟩ := hhmmss_valid d h
  have hl := hhmmss_lt d
  have e : (UInt32.ofNat (hhmmss d)).toNat = hhmmss d := by rw [UInt32.toNat_ofNat']; omega
  obtain ⟨v, v1, v2⟩ := fromBcdTime32_seconds p (UInt32.ofNat (hhmmss d)) (by rw [e]; exact hl) (by rw [e]; exact h1)
  rw [v1, ← UInt32.toNat_inj.1 (show (UInt32.ofNat d).toNat = v.toNat by rw [v2, e, h2, UInt32.toNat_ofNat']; omega)]

theorem head_length (h : Foreign.Head) : h.bytes.length = 8 := by simp [Foreign.Head.bytes]

/-! ## SDT -/

namespace Sdt

/-- The service an entry stands for. -/
def readService (p : Profile) (x : Foreign.Service) : R SdtItem :=
  (fun ds => { pnr := UInt16.ofNat x.pnr, eitScheduleFlag := UInt8.ofNat x.schedule, eitPresentFollowingFlag := UInt8.ofNat x.presentFollowing,
               runningStatus := UInt8.ofNat x.status, freeCaMode := UInt8.ofNat x.caMode, descriptors := ds }) <$> readLoop p x.descs

/-- What a section makes of a table. -/
def take (p : Profile) (t : Sdt) (s : Foreign.Sdt) : R Sdt :=
  (fun items => { tableId := UInt8.ofNat s.head.tableId, version := UInt8.ofNat s.head.version, tsid := UInt16.ofNat s.head.ext,
                  onid := UInt16.ofNat s.onid, items := t.items ++ items }) <$> s.services.mapM (readService p)

theorem service_fields (x : Foreign.Service) (h : x.Ok) (hl : x.descs.length < 4096) : field x.bytes 0 2 = x.pnr ∧
    field x.bytes 2 1 = x.reserved * 4 + x.schedule * 2 + x.presentFollowing ∧
    field x.bytes 3 2 = (x.status * 2 + x.caMode) * 4096 + x.descs.length ∧
    field x.bytes 3 1 / 16 = x.status * 2 + x.caMode ∧ x.bytes.drop 5 = x.descs ∧ x.bytes.length = 5 + x.descs.length := by
  obtain ⟨h1, h2, h3, h4, h5, h6⟩ := h
  simp only [Foreign.Service.bytes, sized12, beBytes, List.cons_append, List.nil_append, field, List.drop_succ_cons, List.drop_zero,
    List.take_succ_cons, List.take_zero, beNat_two, beNat, List.length_nil, List.length_cons, UInt8.toNat_ofNat', Descriptor.pack, List.foldl_cons, List.foldl_nil]
  refine ⟨by omega, by omega, by omega, by omega, trivial, by omega⟩

theorem read_service (p : Profile) (x : Foreign.Service) (h : x.Ok) (hl : x.descs.length < 4096) : readItem p x.bytes = readService p x := by
  obtain ⟨f0, f2, f3, f4, f5, -⟩ := service_fields x h hl
  obtain ⟨h1, h2, h3, h4, h5, h6⟩ := h
  unfold readItem readService readLoop
  rw [f5, f0, f2, f4, show field x.bytes 3 1 / 32 = field x.bytes 3 1 / 16 / 2 by omega, f4,
    show (x.reserved * 4 + x.schedule * 2 + x.presentFollowing) / 2 % 2 = x.schedule by omega,
    show (x.reserved * 4 + x.schedule * 2 + x.presentFollowing) % 2 = x.presentFollowing by omega,
    show (x.status * 2 + x.caMode) / 2 = x.status by omega, show (x.status * 2 + x.caMode) % 2 = x.caMode by omega]

theorem services_bound {s : Foreign.Sdt} (h : s.Ok) : ∀ x ∈ s.services, x.descs.length < 4096 := by
  intro x hx
  have := h.fits
  obtain ⟨a, b, e⟩ := List.append_of_mem hx
  rw [Foreign.Sdt.body, e] at this
  simp [Foreign.Service.bytes, sized12_length] at this
  omega

theorem parse_foreign (p : Profile) (t : Sdt) (s : Foreign.Sdt) (h : s.Ok) (psi : Psi) (hb : psi.buffer = complete s.body)
    (hs : psi.size = (complete s.body).length) : t.parse p psi = take p t s := by
  have hbd := services_bound h
  have e : s.body = s.head.bytes ++ (beBytes 2 s.onid ++ beBytes 1 s.reserved ++ s.services.flatMap Foreign.Service.bytes) := by
    simp [Foreign.Sdt.body]
  rw [e] at hb hs
  obtain ⟨s1, s2, s3, s4, s5, s8, s9⟩ := head_fields s.head h.head (beBytes 2 s.onid ++ beBytes 1 s.reserved ++ s.services.flatMap Foreign.Service.bytes)
  have hacc : Accepts psi := by
    refine ⟨?_, complete_intact _ (by simp [head_length]; omega) psi hb hs 15 (by simp [head_length]; omega)⟩
    rw [hb, s2]
    rcases h.id with h | h <;> simp [h]
  have h8 := s8 0 2 (by simp)
  have h11 := s9 3
  rw [← hs, ← hb] at h11
  rw [← hb] at s3 s4 s5 h8
  rw [C66_sdt p t psi hacc, s3, s4, s5, h8, h11]
  have hd : (beBytes 2 s.onid ++ beBytes 1 s.reserved ++ s.services.flatMap Foreign.Service.bytes).drop 3 = s.services.flatMap Foreign.Service.bytes :=
    List.drop_left' (by simp)
  have hf : field (beBytes 2 s.onid ++ beBytes 1 s.reserved ++ s.services.flatMap Foreign.Service.bytes) 0 2 = s.onid := by
    have := h.onid
    rw [field, List.drop_zero, List.append_assoc, List.take_left' (beBytes_length _ _), beNat_beBytes]
    omega
  rw [hd, hf, entries_flatMap 5 (by omega) Foreign.Service.bytes s.services fun x hx => ?_,
    mapM_map_congr Foreign.Service.bytes (readItem p) _ s.services fun x hx => read_service p x (h.services x hx) (hbd x hx)]
  · rfl
  · obtain ⟨-, -, f3, -, -, f6⟩ := service_fields x (h.services x hx) (hbd x hx)
    have := hbd x hx
    unfold field at f3
    rw [f3, f6]
    refine ⟨by omega, ?_⟩
    rw [show ∀ a b, (a * 4096 + b) % 4096 = b % 4096 from fun a b => by omega, Nat.mod_eq_of_lt (by omega)]

/-- C111, for the SDT: the sections of any sender, in any number and order, are read as the standard defines them. -/
theorem C111_sdt (p : Profile) (t : Sdt) (ss : List Foreign.Sdt) (h : ∀ s ∈ ss, s.Ok) (pid cc : Nat) (hp : pid < 8192) (s0 : Psi) :
    ∃ s', receive (Sdt.parse p) p t s0 (stream pid cc (ss.map fun s => complete s.body)) = (fun u => (u, s')) <$> ss.foldlM (take p) t := by
  have h3 : ∀ s : Foreign.Sdt, 3 ≤ s.body.length := by intro s; simp [Foreign.Sdt.body, head_length]; omega
  refine receive_streamM (Sdt.parse p) p pid hp ss (fun s => complete s.body)
    (fun s hs => complete_isSection (h3 s) (by have := (h s hs).fits; omega)) (take p)
    (fun t s hs psi hb hz => parse_foreign p t s (h s hs) psi hb hz) ?_ t s0 cc
  intro u psi hx hlt h183
  refine C65_sdt p u psi (.inr (by intro e; rw [e] at h183; simp at h183)) ?_
  rintro ⟨-, -, h, -⟩
  omega

end Sdt

/-! ## PAT -/

namespace Pat

/-- What a section makes of a table. -/
def take (t : Pat) (s : Foreign.Pat) : Pat :=
  { version := UInt8.ofNat s.head.version, tsid := UInt16.ofNat s.head.ext,
    items := t.items ++ s.programs.map fun x => ⟨UInt16.ofNat x.pnr, UInt16.ofNat x.pid⟩ }

theorem parse_foreign (p : Profile) (t : Pat) (s : Foreign.Pat) (h : s.Ok) (psi : Psi) (hb : psi.buffer = complete s.body)
    (hs : psi.size = (complete s.body).length) : t.parse p psi = .ok (take t s) := by
  rw [show s.body = s.head.bytes ++ s.programs.flatMap Foreign.Program.bytes from rfl] at hb hs
  obtain ⟨s1, s2, s3, s4, s5, s8, s9⟩ := head_fields s.head h.head (s.programs.flatMap Foreign.Program.bytes)
  have hacc : Accepts psi := by
    refine ⟨?_, complete_intact _ (by simp [head_length]; omega) psi hb hs 12 (by simp [head_length])⟩
    rw [hb, s2, h.id]; rfl
  have h11 := s9 0
  rw [← hs, ← hb] at h11
  rw [← hb] at s4 s5
  rw [C66_pat p t psi hacc, s4, s5, h11, List.drop_zero, chunks_flatMap 4 (by omega) Foreign.Program.bytes s.programs
    fun x hx => by simp [Foreign.Program.bytes], List.map_map]
  unfold take
  congr 3
  refine List.map_congr_left fun x hx => ?_
  obtain ⟨h1, h2, h3⟩ := h.programs x hx
  simp only [Function.comp_def, Foreign.Program.bytes, beBytes, List.cons_append, List.nil_append, field, List.drop_succ_cons, List.drop_zero,
    List.take_succ_cons, List.take_zero, beNat_two, UInt8.toNat_ofNat', Descriptor.pack, List.foldl_cons, List.foldl_nil]
  congr 2 <;> omega

/-- C111, for the PAT: the sections of any sender, in any number and order, are read as the standard defines them. -/
theorem C111_pat (p : Profile) (t : Pat) (ss : List Foreign.Pat) (h : ∀ s ∈ ss, s.Ok) (pid cc : Nat) (hp : pid < 8192) (s0 : Psi) :
    ∃ s', receive (Pat.parse p) p t s0 (stream pid cc (ss.map fun s => complete s.body)) = .ok (ss.foldl take t, s') := by
  have h3 : ∀ s : Foreign.Pat, 3 ≤ s.body.length := by intro s; simp [Foreign.Pat.body, head_length]; omega
  obtain ⟨s', hr⟩ := receive_streamM (Pat.parse p) p pid hp ss (fun s => complete s.body)
    (fun s hs => complete_isSection (h3 s) (by have := (h s hs).fits; omega)) (fun t s => .ok (take t s))
    (fun t s hs psi hb hz => parse_foreign p t s (h s hs) psi hb hz) (fun u psi hx hlt h183 => by
      refine C65_pat p u psi (.inr (by intro e; rw [e] at h183; simp at h183)) ?_
      rintro ⟨-, -, h, -⟩
      omega) t s0 cc
  refine ⟨s', hr.trans ?_⟩
  rw [show ∀ (l : List Foreign.Pat) (t : Pat), l.foldlM (fun t s => (.ok (take t s) : R Pat)) t = .ok (l.foldl take t) from fun l => ?_]
  · rfl
  · induction l with
    | nil => exact fun t => rfl
    | cons x r ih => exact fun t => ih _

end Pat

/-! ## NIT -/

namespace Nit

/-- The transport stream an entry stands for. -/
def readTransport (p : Profile) (x : Foreign.Transport) : R NitItem :=
  (fun ds => { tsid := UInt16.ofNat x.tsid, onid := UInt16.ofNat x.onid, descriptors := ds }) <$> readLoop p x.descs

/-- What a section makes of a table. -/
def take (p : Profile) (t : Nit) (s : Foreign.Nit) : R Nit := do
  let ds ← readLoop p s.descs
  let items ← s.transports.mapM (readTransport p)
  .ok { tableId := UInt8.ofNat s.head.tableId, version := UInt8.ofNat s.head.version, networkId := UInt16.ofNat s.head.ext,
        descriptors := t.descriptors ++ ds, items := t.items ++ items }

theorem transport_fields (x : Foreign.Transport) (h : x.Ok) (hl : x.descs.length < 4096) : field x.bytes 0 2 = x.tsid ∧
    field x.bytes 2 2 = x.onid ∧ field x.bytes 4 2 = x.reserved * 4096 + x.descs.length ∧ x.bytes.drop 6 = x.descs ∧
    x.bytes.length = 6 + x.descs.length := by
  obtain ⟨h1, h2, h3⟩ := h
  simp only [Foreign.Transport.bytes, sized12, beBytes, List.cons_append, List.nil_append, field, List.drop_succ_cons, List.drop_zero,
    List.take_succ_cons, List.take_zero, beNat_two, List.length_cons, UInt8.toNat_ofNat', Descriptor.pack, List.foldl_cons, List.foldl_nil]
  refine ⟨by omega, by omega, by omega, trivial, by omega⟩

theorem transports_bound {s : Foreign.Nit} (h : s.Ok) : s.descs.length < 4081 ∧ ∀ x ∈ s.transports, x.descs.length < 4096 := by
  have := h.fits
  rw [Foreign.Nit.body] at this
  simp only [List.length_append, sized12_length, head_length] at this
  refine ⟨by omega, fun x hx => ?_⟩
  obtain ⟨a, b, e⟩ := List.append_of_mem hx
  rw [e] at this
  simp [Foreign.Transport.bytes, sized12_length] at this
  omega

theorem parse_foreign (p : Profile) (t : Nit) (s : Foreign.Nit) (h : s.Ok) (psi : Psi) (hb : psi.buffer = complete s.body)
    (hs : psi.size = (complete s.body).length) : t.parse p psi = take p t s := by
  obtain ⟨hbn, hbd⟩ := transports_bound h
  have e : s.body = s.head.bytes ++ (sized12 s.reserved s.descs ++ sized12 s.reserved2 (s.transports.flatMap Foreign.Transport.bytes)) := by
    simp [Foreign.Nit.body]
  rw [e] at hb hs
  obtain ⟨s1, s2, s3, s4, s5, s8, s9⟩ := head_fields s.head h.head
    (sized12 s.reserved s.descs ++ sized12 s.reserved2 (s.transports.flatMap Foreign.Transport.bytes))
  have hlen : (sized12 s.reserved s.descs ++ sized12 s.reserved2 (s.transports.flatMap Foreign.Transport.bytes)).length =
      4 + s.descs.length + (s.transports.flatMap Foreign.Transport.bytes).length := by
    simp [sized12_length]; omega
  have hacc : Accepts psi := by
    refine ⟨?_, complete_intact _ (by simp [head_length]; omega) psi hb hs 16 (by simp [head_length, sized12_length]; omega)⟩
    rw [hb, s2]
    rcases h.id with h | h <;> simp [h]
  have h8 := s8 0 2 (by omega)
  have d10 := drop8 s.head (sized12 s.reserved s.descs ++ sized12 s.reserved2 (s.transports.flatMap Foreign.Transport.bytes)) 2 s.descs.length (by omega)
  have h12 := s9 (4 + s.descs.length)
  rw [← hs, ← hb] at h12
  rw [hlen, ← hs] at s1
  rw [← hb] at s3 s4 s5 h8 d10
  have hf : field (sized12 s.reserved s.descs ++ sized12 s.reserved2 (s.transports.flatMap Foreign.Transport.bytes)) 0 2 =
      s.reserved * 4096 + s.descs.length := by
    have := h.reserved
    rw [field, List.drop_zero, sized12, List.append_assoc, List.take_left' (beBytes_length _ _), beNat_beBytes]
    simp only [Descriptor.pack, List.foldl_cons, List.foldl_nil]
    omega
  have hnl : networkLength psi = s.descs.length := by
    rw [networkLength, show field psi.buffer 8 2 = _ from h8, hf, show ∀ a b, (a * 4096 + b) % 4096 = b % 4096 from fun a b => by omega,
      Nat.mod_eq_of_lt (by omega)]
  have hloop : networkLoop psi = s.descs := by
    rw [networkLoop, hnl, show (10 : Nat) = 8 + 2 from rfl, d10, sized12, List.append_assoc, List.drop_left' (beBytes_length _ _),
      List.take_left' rfl]
  have hitems : itemLoop psi = s.transports.flatMap Foreign.Transport.bytes := by
    rw [itemLoop, hnl, show 12 + s.descs.length = 8 + (4 + s.descs.length) by omega, h12,
      show 4 + s.descs.length = (sized12 s.reserved s.descs).length + 2 by rw [sized12_length]; omega, ← List.drop_drop, List.drop_left' rfl,
      sized12, List.drop_left' (beBytes_length _ _)]
  rw [C66_nit p t psi hacc (by omega), s3, s4, s5, hloop, hitems, entries_flatMap 6 (by omega) Foreign.Transport.bytes s.transports fun x hx => ?_,
    mapM_map_congr Foreign.Transport.bytes (readItem p) (readTransport p) s.transports fun x hx => ?_]
  · rfl
  · obtain ⟨f0, f2, -, f5, -⟩ := transport_fields x (h.transports x hx) (hbd x hx)
    unfold readItem readTransport readLoop
    rw [f0, f2, f5]
  · obtain ⟨-, -, f3, -, f6⟩ := transport_fields x (h.transports x hx) (hbd x hx)
    have := hbd x hx
    unfold field at f3
    rw [f3, f6]
    refine ⟨by omega, ?_⟩
    rw [show ∀ a b, (a * 4096 + b) % 4096 = b % 4096 from fun a b => by omega, Nat.mod_eq_of_lt (by omega)]

/-- C111, for the NIT: the sections of any sender, in any number and order, are read as the standard defines them. -/
theorem C111_nit (p : Profile) (t : Nit) (ss : List Foreign.Nit) (h : ∀ s ∈ ss, s.Ok) (pid cc : Nat) (hp : pid < 8192) (s0 : Psi) :
    ∃ s', receive (Nit.parse p) p t s0 (stream pid cc (ss.map fun s => complete s.body)) = (fun u => (u, s')) <$> ss.foldlM (take p) t := by
  have h3 : ∀ s : Foreign.Nit, 3 ≤ s.body.length := by intro s; simp [Foreign.Nit.body, head_length]; omega
  refine receive_streamM (Nit.parse p) p pid hp ss (fun s => complete s.body)
    (fun s hs => complete_isSection (h3 s) (by have := (h s hs).fits; omega)) (take p)
    (fun t s hs psi hb hz => parse_foreign p t s (h s hs) psi hb hz) ?_ t s0 cc
  intro u psi hx hlt h183
  refine C65_nit p u psi (.inr (by intro e; rw [e] at h183; simp at h183)) ?_
  rintro ⟨-, -, h, -⟩
  omega

end Nit

/-! ## PMT -/

namespace Pmt

/-- The elementary stream an entry stands for. -/
def readStream (p : Profile) (x : Foreign.Stream) : R PmtItem :=
  (fun ds => { streamType := UInt8.ofNat x.type, pid := UInt16.ofNat x.pid, descriptors := ds }) <$> readLoop p x.descs

/-- What a section makes of a table, if the bytes `loop` are taken for its program descriptors. -/
def take (p : Profile) (loop : Foreign.Pmt → List UInt8) (t : Pmt) (s : Foreign.Pmt) : R Pmt := do
  let ds ← readLoop p (loop s)
  let items ← s.streams.mapM (readStream p)
  .ok { version := UInt8.ofNat s.head.version, pnr := UInt16.ofNat s.head.ext, pcr := UInt16.ofNat s.pcr,
        descriptors := t.descriptors ++ ds, items := t.items ++ items }

theorem stream_fields (x : Foreign.Stream) (h : x.Ok) (hl : x.descs.length < 4096) : field x.bytes 0 1 = x.type ∧
    field x.bytes 1 2 = x.reserved * 8192 + x.pid ∧ field x.bytes 3 2 = x.reserved2 * 4096 + x.descs.length ∧ x.bytes.drop 5 = x.descs ∧
    x.bytes.length = 5 + x.descs.length := by
  obtain ⟨h1, h2, h3, h4⟩ := h
  simp only [Foreign.Stream.bytes, sized12, beBytes, List.cons_append, List.nil_append, field, List.drop_succ_cons, List.drop_zero, beNat,
    List.take_succ_cons, List.take_zero, beNat_two, List.length_cons, List.length_nil, UInt8.toNat_ofNat', Descriptor.pack, List.foldl_cons, List.foldl_nil]
  refine ⟨by omega, by omega, by omega, trivial, by omega⟩

theorem streams_bound {s : Foreign.Pmt} (h : s.Ok) : s.descs.length < 4081 ∧ ∀ x ∈ s.streams, x.descs.length < 4096 := by
  have := h.fits
  rw [Foreign.Pmt.body] at this
  simp only [List.length_append, sized12_length, head_length, beBytes_length] at this
  refine ⟨by omega, fun x hx => ?_⟩
  obtain ⟨a, b, e⟩ := List.append_of_mem hx
  rw [e] at this
  simp [Foreign.Stream.bytes, sized12_length] at this
  omega

theorem parse_foreign (p : Profile) (t : Pmt) (s : Foreign.Pmt) (h : s.Ok) (psi : Psi) (hb : psi.buffer = complete s.body)
    (hs : psi.size = (complete s.body).length) : t.parse p psi = take p (fun s => shifted s.descs) t s := by
  obtain ⟨hbn, hbd⟩ := streams_bound h
  have e : s.body = s.head.bytes ++ (beBytes 2 (Descriptor.pack [(3, s.reserved), (13, s.pcr)]) ++ (sized12 s.reserved2 s.descs ++ s.streams.flatMap Foreign.Stream.bytes)) := by
    simp [Foreign.Pmt.body]
  rw [e] at hb hs
  generalize hrest : beBytes 2 (Descriptor.pack [(3, s.reserved), (13, s.pcr)]) ++ (sized12 s.reserved2 s.descs ++ s.streams.flatMap Foreign.Stream.bytes) = rest at hb hs
  obtain ⟨s1, s2, s3, s4, s5, s8, s9⟩ := head_fields s.head h.head rest
  have hlen : rest.length = 4 + s.descs.length + (s.streams.flatMap Foreign.Stream.bytes).length := by
    rw [← hrest]; simp [sized12_length]; omega
  have hacc : Accepts psi := by
    refine ⟨?_, complete_intact _ (by simp [head_length]; omega) psi hb hs 16 (by simp [head_length, hlen]; omega)⟩
    rw [hb, s2, h.id]; rfl
  have h8 := s8 0 2 (by omega)
  have h10 := s8 2 2 (by omega)
  have d11 := drop8 s.head rest 3 s.descs.length (by omega)
  have h12 := s9 (4 + s.descs.length)
  rw [← hs, ← hb] at h12
  rw [hlen, ← hs] at s1
  rw [← hb] at s3 s4 s5 h8 h10 d11
  have hrest' : rest = UInt8.ofNat ((s.reserved * 8192 + s.pcr) / 256) :: UInt8.ofNat (s.reserved * 8192 + s.pcr) ::
      UInt8.ofNat ((s.reserved2 * 4096 + s.descs.length) / 256) :: UInt8.ofNat (s.reserved2 * 4096 + s.descs.length) ::
      (s.descs ++ s.streams.flatMap Foreign.Stream.bytes) := by
    rw [← hrest]; simp [sized12, beBytes, Descriptor.pack]
  have hf0 : field rest 0 2 % 8192 = s.pcr := by
    have := h.reserved
    have := h.pcr
    rw [hrest']; simp only [field, List.drop_zero, List.take_succ_cons, List.take_zero, beNat_two, UInt8.toNat_ofNat']; omega
  have hf2 : field rest 2 2 % 4096 = s.descs.length := by
    have := h.reserved2
    rw [hrest']; simp only [field, List.drop_succ_cons, List.drop_zero, List.take_succ_cons, List.take_zero, beNat_two, UInt8.toNat_ofNat']; omega
  have hnl : programLength psi = s.descs.length := by rw [programLength, show field psi.buffer 10 2 = _ from h10, hf2]
  have hloop : programLoop psi = shifted s.descs := by
    rw [programLoop, hnl, show (11 : Nat) = 8 + 3 from rfl, d11, hrest', shifted]
    simp only [List.drop_succ_cons, List.drop_zero]
    rw [← List.cons_append, List.take_append_of_le_length (by simp),
      show UInt8.ofNat (s.reserved2 * 4096 + s.descs.length) = UInt8.ofNat s.descs.length from
        UInt8.toNat_inj.1 (by rw [UInt8.toNat_ofNat', UInt8.toNat_ofNat']; omega)]
  have hitems : itemLoop psi = s.streams.flatMap Foreign.Stream.bytes := by
    rw [itemLoop, hnl, show 12 + s.descs.length = 8 + (4 + s.descs.length) by omega, h12, hrest', ← List.drop_drop]
    simp only [List.drop_succ_cons, List.drop_zero]
    rw [List.drop_left' rfl]
  rw [C66_pmt p t psi hacc (by omega), show field psi.buffer 8 2 = _ from h8, hf0, s4, s5, hloop, hitems,
    entries_flatMap 5 (by omega) Foreign.Stream.bytes s.streams fun x hx => ?_,
    mapM_map_congr Foreign.Stream.bytes (readItem p) (readStream p) s.streams fun x hx => ?_]
  · rfl
  · obtain ⟨f0, f2, -, f5, -⟩ := stream_fields x (h.streams x hx) (hbd x hx)
    have := (h.streams x hx).pid
    unfold readItem readStream readLoop
    rw [f0, f2, f5, show (x.reserved * 8192 + x.pid) % 8192 = x.pid by omega]
  · obtain ⟨-, -, f3, -, f6⟩ := stream_fields x (h.streams x hx) (hbd x hx)
    have := hbd x hx
    unfold field at f3
    rw [f3, f6]
    refine ⟨by omega, ?_⟩
    rw [show ∀ a b, (a * 4096 + b) % 4096 = b % 4096 from fun a b => by omega, Nat.mod_eq_of_lt (by omega)]

/-- What is received from any PMT sections. -/
theorem receive_foreign (p : Profile) (t : Pmt) (ss : List Foreign.Pmt) (h : ∀ s ∈ ss, s.Ok) (pid cc : Nat) (hp : pid < 8192) (s0 : Psi) :
    ∃ s', receive (Pmt.parse p) p t s0 (stream pid cc (ss.map fun s => complete s.body)) =
      (fun u => (u, s')) <$> ss.foldlM (take p fun s => shifted s.descs) t := by
  have h3 : ∀ s : Foreign.Pmt, 3 ≤ s.body.length := by intro s; simp [Foreign.Pmt.body, head_length]; omega
  refine receive_streamM (Pmt.parse p) p pid hp ss (fun s => complete s.body)
    (fun s hs => complete_isSection (h3 s) (by have := (h s hs).fits; omega)) (take p fun s => shifted s.descs)
    (fun t s hs psi hb hz => parse_foreign p t s (h s hs) psi hb hz) ?_ t s0 cc
  intro u psi hx hlt h183
  refine C65_pmt p u psi (.inr (by intro e; rw [e] at h183; simp at h183)) ?_
  rintro ⟨-, -, h, -⟩
  omega

/-- C111, for the PMT, what holds: the sections of any sender, in any number and order, are read as the standard defines them,
if none has program descriptors. -/
theorem C111_pmt_partial (p : Profile) (t : Pmt) (ss : List Foreign.Pmt) (h : ∀ s ∈ ss, s.Ok) (hd : ∀ s ∈ ss, s.descs = []) (pid cc : Nat)
    (hp : pid < 8192) (s0 : Psi) :
    ∃ s', receive (Pmt.parse p) p t s0 (stream pid cc (ss.map fun s => complete s.body)) =
      (fun u => (u, s')) <$> ss.foldlM (take p fun s => s.descs) t := by
  obtain ⟨s', hr⟩ := receive_foreign p t ss h pid cc hp s0
  refine ⟨s', hr.trans (congrArg _ ?_)⟩
  clear hr h
  induction ss generalizing t with
  | nil => rfl
  | cons x r ih =>
    rw [List.foldlM_cons, List.foldlM_cons]
    have : take p (fun s => shifted s.descs) t x = take p (fun s => s.descs) t x := by
      unfold take; simp only [hd x List.mem_cons_self]; rfl
    rw [this]
    cases take p (fun s => s.descs) t x with
    | error e => rfl
    | ok u => exact ih u fun s hs => hd s (List.mem_cons_of_mem _ hs)

theorem readLoop_shifted (p : Profile) (D : List UInt8) (hl : D.length ≤ 255) (ds : Descriptors) (h : readLoop p D = .ok ds) (hne : ds ≠ []) :
    readLoop p (shifted D) ≠ .ok ds := by
  obtain ⟨d, r, rfl⟩ := List.exists_cons_of_ne_nil hne
  intro hs
  unfold readLoop at h hs
  match D, hl, h, hs with
  | [], _, h, _ => rw [frames_truncated [] (.inl (by simp))] at h; cases h
  | [a], _, h, _ => rw [frames_truncated [a] (.inl (by simp))] at h; cases h
  | a :: b :: rest, hl, h, hs =>
    obtain ⟨e1, -⟩ := first_frame p a b rest d r h
    simp only [shifted, List.length_cons, List.take_succ_cons] at hs hl
    obtain ⟨e2, e3⟩ := first_frame p _ _ _ _ _ hs
    rw [← e1, e2, UInt8.toNat_ofNat'] at e3
    simp only [List.length_take, List.length_cons] at e3
    omega

/-- C111 fails for the PMT: whenever a section has program descriptors that can be read, and not more than 255 bytes of them, what is
received is not what the section says. -/
theorem C111_pmt_refuted (p : Profile) (t : Pmt) (s : Foreign.Pmt) (h : s.Ok) (hl : s.descs.length ≤ 255) (ds : Descriptors)
    (hd : readLoop p s.descs = .ok ds) (hne : ds ≠ []) (pid cc : Nat) (hp : pid < 8192) (s0 s' : Psi) (u : Pmt)
    (hu : take p (fun s => s.descs) t s = .ok u) :
    receive (Pmt.parse p) p t s0 (stream pid cc [complete s.body]) ≠ .ok (u, s') := by
  obtain ⟨s'', hr⟩ := receive_foreign p t [s] (by simpa using h) pid cc hp s0
  rw [List.map_singleton] at hr
  rw [hr, List.foldlM_cons]
  have hx := readLoop_shifted p s.descs hl ds hd hne
  unfold take at hu ⊢
  simp only [hd, ok_bind] at hu ⊢
  cases h1 : s.streams.mapM (readStream p) with
  | error e => rw [h1] at hu; cases hu
  | ok items =>
    rw [h1] at hu
    simp only [ok_bind, Except.ok.injEq] at hu ⊢
    cases h2 : readLoop p (shifted s.descs) with
    | error e => intro h; cases h
    | ok ds' =>
      intro h
      simp only [ok_bind, List.foldlM_nil, pure_eq_ok, map_ok, Except.ok.injEq, Prod.mk.injEq] at h
      rw [← hu] at h
      have := congrArg Pmt.descriptors h.1
      simp only [List.append_cancel_left_eq] at this
      exact hx (by rw [h2, this])

end Pmt

/-! ## EIT -/

namespace Eit

/-- The event an entry stands for. -/
def readEvent (p : Profile) (x : Foreign.Event) : R EitItem :=
  (fun ds => { eventId := UInt16.ofNat x.eventId, start := UInt64.ofNat x.start, duration := UInt32.ofNat x.duration,
               status := UInt8.ofNat x.status, caMode := UInt8.ofNat x.caMode, descriptors := ds }) <$> readLoop p x.descs

/-- What a section makes of a table. -/
def take (p : Profile) (t : Eit) (s : Foreign.Eit) : R Eit :=
  (fun items => { tableId := UInt8.ofNat s.head.tableId, version := UInt8.ofNat s.head.version, pnr := UInt16.ofNat s.head.ext,
                  tsid := UInt16.ofNat s.tsid, onid := UInt16.ofNat s.onid, items := t.items ++ items }) <$> s.events.mapM (readEvent p)

theorem event_fields (x : Foreign.Event) (h : x.Ok) (hl : x.descs.length < 4096) : field x.bytes 0 2 = x.eventId ∧
    field x.bytes 2 2 = unixEpochMjd + x.start / 86400 ∧ field x.bytes 4 3 = hhmmss (x.start % 86400) ∧ field x.bytes 7 3 = hhmmss x.duration ∧
    field x.bytes 10 2 = (x.status * 2 + x.caMode) * 4096 + x.descs.length ∧
    field x.bytes 10 1 / 16 = x.status * 2 + x.caMode ∧ x.bytes.drop 12 = x.descs ∧ x.bytes.length = 12 + x.descs.length := by
  obtain ⟨h1, h2, h3, h4, h5⟩ := h
  have b1 := hhmmss_lt (x.start % 86400)
  have b2 := hhmmss_lt x.duration
  simp only [Foreign.Event.bytes, Descriptor.utc, sized12, beBytes, List.cons_append, List.nil_append, field, List.drop_succ_cons, List.drop_zero,
    List.take_succ_cons, List.take_zero, beNat_two, beNat, List.length_nil, List.length_cons, UInt8.toNat_ofNat', Descriptor.pack, List.foldl_cons, List.foldl_nil]
  generalize hhmmss (x.start % 86400) = w1 at *
  generalize hhmmss x.duration = w2 at *
  refine ⟨by omega, by omega, by omega, by omega, by omega, by omega, trivial, by omega⟩

theorem read_event (p : Profile) (x : Foreign.Event) (h : x.Ok) (hl : x.descs.length < 4096) : readItem p x.bytes = readEvent p x := by
  obtain ⟨f0, f2, f4, f7, -, f10, f12, -⟩ := event_fields x h hl
  obtain ⟨h1, h2, h3, h4, h5⟩ := h
  unfold readItem readEvent readLoop
  rw [f0, f2, f4, f7, f12, readUtc_utc p x.start h2, ok_bind, read_duration p _ h3, ok_bind, f10,
    show field x.bytes 10 1 / 32 = field x.bytes 10 1 / 16 / 2 by omega, f10,
    show (x.status * 2 + x.caMode) / 2 = x.status by omega, show (x.status * 2 + x.caMode) % 2 = x.caMode by omega]
  cases (Descriptor.frames x.descs).mapM (Desc.parse p) <;> rfl

theorem events_bound {s : Foreign.Eit} (h : s.Ok) : ∀ x ∈ s.events, x.descs.length < 4096 := by
  intro x hx
  have := h.fits
  obtain ⟨a, b, e⟩ := List.append_of_mem hx
  rw [Foreign.Eit.body, e] at this
  simp [Foreign.Event.bytes, sized12_length] at this
  omega

/-- What is read from a section whose events are written in any way. -/
theorem parse_events {α : Type} (w : α → List UInt8) (g : α → R EitItem) (evs : List α) (p : Profile) (t : Eit) (hd : Foreign.Head) (ho : hd.Ok)
    (hid : 0x4E ≤ hd.tableId ∧ hd.tableId ≤ 0x6F) (tsid onid sl lt : Nat) (h1 : tsid < 65536) (h2 : onid < 65536)
    (hw : ∀ x ∈ evs, 12 ≤ (w x).length ∧ (w x).length = 12 + field (w x) 10 2 % 4096) (hg : ∀ x ∈ evs, readItem p (w x) = g x) (psi : Psi)
    (hb : psi.buffer = complete (hd.bytes ++ beBytes 2 tsid ++ beBytes 2 onid ++ beBytes 1 sl ++ beBytes 1 lt ++ evs.flatMap w))
    (hs : psi.size = (complete (hd.bytes ++ beBytes 2 tsid ++ beBytes 2 onid ++ beBytes 1 sl ++ beBytes 1 lt ++ evs.flatMap w)).length) :
    t.parse p psi = (fun items =>
      { tableId := UInt8.ofNat hd.tableId, version := UInt8.ofNat hd.version, pnr := UInt16.ofNat hd.ext,
        tsid := UInt16.ofNat tsid, onid := UInt16.ofNat onid, items := t.items ++ items }) <$> evs.mapM g := by
  simp only [List.append_assoc] at hb hs
  generalize hrest : beBytes 2 tsid ++ (beBytes 2 onid ++ (beBytes 1 sl ++ (beBytes 1 lt ++ evs.flatMap w))) = rest at hb hs
  obtain ⟨s1, s2, s3, s4, s5, s8, s9⟩ := head_fields hd ho rest
  have hlen : rest.length = 6 + (evs.flatMap w).length := by rw [← hrest]; simp; omega
  have hacc : Accepts psi := by
    refine ⟨⟨_, by rw [hb, s2], ?_⟩, complete_intact _ (by simp [head_length]; omega) psi hb hs 18 (by simp [head_length, hlen]; omega)⟩
    rw [UInt8.toNat_ofNat']; omega
  have h8 := s8 0 2 (by omega)
  have h10 := s8 2 2 (by omega)
  have h14 := s9 6
  rw [← hs, ← hb] at h14
  rw [← hb] at s3 s4 s5 h8 h10
  have hf : field rest 0 2 = tsid ∧ field rest 2 2 = onid ∧ rest.drop 6 = evs.flatMap w := by
    rw [← hrest]
    simp only [beBytes, List.cons_append, List.nil_append, field, List.drop_succ_cons, List.drop_zero, List.take_succ_cons, List.take_zero, beNat_two,
      UInt8.toNat_ofNat']
    refine ⟨by omega, by omega, trivial⟩
  rw [C66_eit p t psi hacc, s3, s4, s5, show field psi.buffer 8 2 = _ from h8, show field psi.buffer 10 2 = _ from h10, h14, hf.1, hf.2.1, hf.2.2,
    entries_flatMap 12 (by omega) w evs fun x hx => ⟨(hw x hx).1, (hw x hx).2.symm⟩, mapM_map_congr w (readItem p) _ evs hg]

theorem parse_foreign (p : Profile) (t : Eit) (s : Foreign.Eit) (h : s.Ok) (psi : Psi) (hb : psi.buffer = complete s.body)
    (hs : psi.size = (complete s.body).length) : t.parse p psi = take p t s := by
  have hbd := events_bound h
  refine parse_events Foreign.Event.bytes (readEvent p) s.events p t s.head h.head h.id s.tsid s.onid s.segmentLast s.lastTableId h.tsid h.onid
    (fun x hx => ?_) (fun x hx => read_event p x (h.events x hx) (hbd x hx)) psi hb hs
  obtain ⟨-, -, -, -, f3, -, -, f6⟩ := event_fields x (h.events x hx) (hbd x hx)
  have := hbd x hx
  rw [f3, f6]
  refine ⟨by omega, ?_⟩
  rw [show ∀ a b, (a * 4096 + b) % 4096 = b % 4096 from fun a b => by omega, Nat.mod_eq_of_lt (by omega)]

/-- C111, for the EIT: the sections of any sender, in any number and order, are read as the standard defines them. -/
theorem C111_eit (p : Profile) (t : Eit) (ss : List Foreign.Eit) (h : ∀ s ∈ ss, s.Ok) (pid cc : Nat) (hp : pid < 8192) (s0 : Psi) :
    ∃ s', receive (Eit.parse p) p t s0 (stream pid cc (ss.map fun s => complete s.body)) = (fun u => (u, s')) <$> ss.foldlM (take p) t := by
  have h3 : ∀ s : Foreign.Eit, 3 ≤ s.body.length := by intro s; simp [Foreign.Eit.body, head_length]; omega
  refine receive_streamM (Eit.parse p) p pid hp ss (fun s => complete s.body)
    (fun s hs => complete_isSection (h3 s) (by have := (h s hs).fits; omega)) (take p)
    (fun t s hs psi hb hz => parse_foreign p t s (h s hs) psi hb hz) ?_ t s0 cc
  intro u psi hx hlt h183
  refine C65_eit p u psi (.inr (by intro e; rw [e] at h183; simp at h183)) ?_
  rintro ⟨-, -, h, -⟩
  omega

end Eit

/-! ## TDT and TOT -/

namespace Tdt

theorem foreign_length (s : Foreign.Tdt) : s.bytes.length = 8 := by simp [Foreign.Tdt.bytes]

theorem parse_foreign (p : Profile) (t : Tdt) (s : Foreign.Tdt) (h : s.Ok) (psi : Psi) (hb : psi.buffer = s.bytes)
    (hs : psi.size = s.bytes.length) : t.parse p psi = .ok { time := UInt64.ofNat s.time } := by
  have hl := foreign_length s
  have f := field_utc s.time [] h.time
  have g : ∀ n k, field psi.buffer (3 + n) k = field (Descriptor.utc s.time ++ []) n k := by
    intro n k
    rw [hb, Foreign.Tdt.bytes, List.append_nil]
    exact congrFun (field_append _ _ n) k
  rw [parse_accepted p t psi ⟨by omega, by rw [hb]; rfl⟩ (by rw [hb]; omega), show field psi.buffer 3 2 = _ from g 0 2, f.1,
    show field psi.buffer 5 3 = _ from g 2 3, f.2, readUtc_utc p s.time h.time]
  rfl

/-- C111, for the TDT: after any number of sections of any sender the table holds the time of the last one. -/
theorem C111_tdt (p : Profile) (t : Tdt) (ss : List Foreign.Tdt) (h : ∀ s ∈ ss, s.Ok) (pid cc : Nat) (hp : pid < 8192) (s0 : Psi) :
    ∃ s', receive (Tdt.parse p) p t s0 (stream pid cc (ss.map Foreign.Tdt.bytes)) =
      .ok (ss.foldl (fun _ s => { time := UInt64.ofNat s.time }) t, s') := by
  obtain ⟨s', hr⟩ := receive_streamM (Tdt.parse p) p pid hp ss Foreign.Tdt.bytes (fun s hs => by
      have := (h s hs).flags
      refine ⟨by rw [foreign_length]; omega, ?_⟩
      rw [foreign_length]
      simp only [Foreign.Tdt.bytes, beBytes, Descriptor.pack, List.foldl_cons, List.foldl_nil, List.cons_append, List.nil_append, field,
        List.drop_succ_cons, List.drop_zero, List.take_succ_cons, List.take_zero, beNat_two, UInt8.toNat_ofNat']
      omega) (fun _ s => .ok { time := UInt64.ofNat s.time })
    (fun t s hs psi hb hz => parse_foreign p t s (h s hs) psi hb hz) (fun u psi ⟨x, hx, e⟩ hlt h183 => by
      rw [foreign_length] at e; omega) t s0 cc
  refine ⟨s', hr.trans ?_⟩
  rw [show ∀ (l : List Foreign.Tdt) (t : Tdt), l.foldlM (fun _ s => (.ok { time := UInt64.ofNat s.time } : R Tdt)) t =
    .ok (l.foldl (fun _ s => { time := UInt64.ofNat s.time }) t) from fun l => ?_]
  · rfl
  · induction l with
    | nil => exact fun t => rfl
    | cons x r ih => exact fun t => ih _

end Tdt

namespace Tot

/-- What a section makes of a table. -/
def take (p : Profile) (t : Tot) (s : Foreign.Tot) : R Tot :=
  (fun ds => { time := UInt64.ofNat s.time, descriptors := t.descriptors ++ ds }) <$> readLoop p s.descs

theorem parse_foreign (p : Profile) (t : Tot) (s : Foreign.Tot) (h : s.Ok) (psi : Psi) (hb : psi.buffer = complete s.body)
    (hs : psi.size = (complete s.body).length) : t.parse p psi = take p t s := by
  have hfit := h.fits
  have e : s.body = 0x73 :: UInt8.ofNat (s.flags * 4096 / 256) :: UInt8.ofNat (s.flags * 4096) ::
      (Descriptor.utc s.time ++ sized12 s.reserved s.descs) := by
    simp [Foreign.Tot.body, beBytes, Descriptor.pack]
  have hlen : s.body.length = 10 + s.descs.length := by rw [e]; simp [sized12_length]; omega
  rw [e] at hb
  have hd : ∀ n k, n + k ≤ 7 + s.descs.length → (psi.buffer.drop (3 + n)).take k = ((Descriptor.utc s.time ++ sized12 s.reserved s.descs).drop n).take k := by
    intro n k hk
    rw [hb]; exact drop3 _ _ _ _ _ _ (by simp [sized12_length]; omega)
  have f := field_utc s.time (sized12 s.reserved s.descs) h.time
  have f3 : field psi.buffer 3 2 = _ := (congrArg beNat (hd 0 2 (by omega))).trans f.1
  have f5 : field psi.buffer 5 3 = _ := (congrArg beNat (hd 2 3 (by omega))).trans f.2
  have f8 : field psi.buffer 8 2 = s.reserved * 4096 + s.descs.length := by
    have := h.reserved
    refine (congrArg beNat (hd 5 2 (by omega))).trans ?_
    rw [List.drop_left' (utc_length _), sized12, List.take_left' (beBytes_length _ _), beNat_beBytes]
    simp only [Descriptor.pack, List.foldl_cons, List.foldl_nil]
    omega
  have hll : loopLength psi = s.descs.length := by
    rw [loopLength, f8, show ∀ a b, (a * 4096 + b) % 4096 = b % 4096 from fun a b => by omega, Nat.mod_eq_of_lt (by omega)]
  have hacc : Accepts psi := by
    refine ⟨?_, complete_intact s.body (by omega) psi (by rw [hb, e]) hs 14 (by omega)⟩
    rw [hb]
    obtain ⟨l1, l2, k1, k2, k3, k4, ef⟩ := complete_form 0x73 (UInt8.ofNat (s.flags * 4096 / 256)) (UInt8.ofNat (s.flags * 4096))
      (Descriptor.utc s.time ++ sized12 s.reserved s.descs)
    rw [ef]; rfl
  have hbl : psi.buffer.length = 14 + s.descs.length := by rw [hb, ← e, complete_length (by omega)]; omega
  rw [parse_accepted p t psi hacc, f3, f5, readUtc_utc p _ h.time, ok_bind, hll, slice, if_pos (by omega), ok_bind, List.drop_take,
    Nat.add_sub_cancel_left, show (10 : Nat) = 3 + 7 from rfl, hd 7 _ (by omega), take, readLoop,
    show (7 : Nat) = (Descriptor.utc s.time).length + 2 by rw [utc_length], ← List.drop_drop, List.drop_left' rfl, sized12,
    List.drop_left' (beBytes_length _ _), List.take_length]
  cases (Descriptor.frames s.descs).mapM (Desc.parse p) <;> rfl

/-- C111, for the TOT: the sections of any sender, in any number and order, are read as the standard defines them. -/
theorem C111_tot (p : Profile) (t : Tot) (ss : List Foreign.Tot) (h : ∀ s ∈ ss, s.Ok) (pid cc : Nat) (hp : pid < 8192) (s0 : Psi) :
    ∃ s', receive (Tot.parse p) p t s0 (stream pid cc (ss.map fun s => complete s.body)) = (fun u => (u, s')) <$> ss.foldlM (take p) t := by
  have h3 : ∀ s : Foreign.Tot, 3 ≤ s.body.length := by intro s; simp [Foreign.Tot.body]
  refine receive_streamM (Tot.parse p) p pid hp ss (fun s => complete s.body)
    (fun s hs => complete_isSection (h3 s) (by have := (h s hs).fits; omega)) (take p)
    (fun t s hs psi hb hz => parse_foreign p t s (h s hs) psi hb hz) ?_ t s0 cc
  intro u psi hx hlt h183
  refine C65_tot p u psi (.inr (by intro e; rw [e] at h183; simp at h183)) ?_
  rintro ⟨-, -, h, -⟩
  omega

end Tot

/-! ## Examples -/

/-- A section with other reserved bits, sections numbered 3 of 7, a descriptor unknown to the code and one cut off. -/
def foreignSdt : Foreign.Sdt := ⟨⟨0x46, 0b1000, 0x1234, 0b01, 9, 1, 3, 7⟩, 0x20, 0x5A, [⟨7, 0b010101, 1, 0, 4, 1, [0x90, 1, 2, 0x52, 5]⟩, ⟨8, 0, 0, 1, 2, 0, []⟩]⟩
theorem foreignSdt_ok : foreignSdt.Ok :=
  ⟨⟨by decide, by decide, by decide, by decide, by decide, by decide, by decide, by decide⟩, by decide, by decide, by decide,
    fun x hx => by
      simp only [foreignSdt, List.mem_cons, List.not_mem_nil, or_false] at hx
      rcases hx with rfl | rfl <;> exact ⟨by decide, by decide, by decide, by decide, by decide, by decide⟩, by decide⟩
example (p : Profile) (s0 : Psi) (cc : Nat) : ∃ s', receive (Sdt.parse p) p Sdt.default s0 (stream 0x11 cc ([foreignSdt].map fun s => complete s.body)) =
    (fun u => (u, s')) <$> [foreignSdt].foldlM (Sdt.take p) Sdt.default :=
  Sdt.C111_sdt p _ [foreignSdt] (by simpa using foreignSdt_ok) 0x11 cc (by decide) s0
example : [foreignSdt].foldlM (Sdt.take .debug) Sdt.default = .ok
    { tableId := 0x46, version := 9, tsid := 0x1234, onid := 0x20,
      items := [⟨7, 1, 0, 4, 1, [.raw ⟨0x90, [2]⟩]⟩, ⟨8, 0, 1, 2, 0, []⟩] } := by decide +kernel

/-- An event of 99 hours. -/
def foreignEit : Foreign.Eit := ⟨⟨0x60, 0b1111, 7, 0b00, 31, 1, 8, 0xF8⟩, 1, 2, 8, 0x6F, [⟨5, 1700000000, 356400, 4, 0, []⟩]⟩
theorem foreignEit_ok : foreignEit.Ok :=
  ⟨⟨by decide, by decide, by decide, by decide, by decide, by decide, by decide, by decide⟩, by decide, by decide, by decide, by decide, by decide,
    fun x hx => by
      simp only [foreignEit, List.mem_cons, List.not_mem_nil, or_false] at hx
      rcases hx with rfl; exact ⟨by decide, by unfold unixEpochMjd; decide, by decide, by decide, by decide⟩, by decide⟩
example : [foreignEit].foldlM (Eit.take .debug) Eit.default = .ok
    { tableId := 0x60, version := 31, pnr := 7, tsid := 1, onid := 2,
      items := [⟨5, 1700000000, 356400, 4, 0, []⟩] } := by decide +kernel

/-- A PMT with a CA descriptor for the whole program: it is lost. -/
def foreignPmt : Foreign.Pmt := ⟨⟨0x02, 0b1011, 1, 0b11, 0, 1, 0, 0⟩, 0b111, 0x100, 0b1111, [0x09, 0x04, 0x0B, 0x00, 0xE5, 0x00], [⟨27, 0b111, 0x100, 0b1111, []⟩]⟩
theorem foreignPmt_ok : foreignPmt.Ok :=
  ⟨⟨by decide, by decide, by decide, by decide, by decide, by decide, by decide, by decide⟩, by decide, by decide, by decide, by decide,
    fun x hx => by
      simp only [foreignPmt, List.mem_cons, List.not_mem_nil, or_false] at hx
      rcases hx with rfl; exact ⟨by decide, by decide, by decide, by decide⟩, by decide⟩
example (s0 s' : Psi) : receive (Pmt.parse .release) .release Pmt.default s0 (stream 0x100 0 [complete foreignPmt.body]) ≠
    .ok ({ version := 0, pnr := 1, pcr := 0x100, descriptors := [.d09 ⟨0x0B00, 0x500, []⟩], items := [⟨27, 0x100, []⟩] }, s') :=
  Pmt.C111_pmt_refuted .release _ _ foreignPmt_ok (by decide) [.d09 ⟨0x0B00, 0x500, []⟩] (by decide +kernel) (by decide) 0x100 0 (by decide) s0 s' _
    (by decide +kernel)

end Mpegts
