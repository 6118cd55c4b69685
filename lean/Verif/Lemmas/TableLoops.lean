import Verif.Lemmas.Tables
import Verif.Props.C38
import Verif.Model.Pat
import Verif.Model.Pmt
import Verif.Model.Nit
import Verif.Model.Sdt
import Verif.Model.Eit
import Verif.Model.Tdt

/-! # Helper lemmas: the item loops of the tables -/

namespace Mpegts
open Spec Spec.Table

theorem mapM_snoc {α β : Type} (f : α → R β) (a : α) (l : List α) (ds : List β) :
    (do let d ← f a; (fun x => (ds ++ [d]) ++ x) <$> l.mapM f) = (fun x => ds ++ x) <$> (a :: l).mapM f := by
  rw [List.mapM_cons]
  cases f a with
  | error e => rfl
  | ok d => simp only [ok_bind]; cases l.mapM f <;> simp

/-! ## Parsing -/

/-- The common shape of the item loops of PMT, NIT, SDT and EIT. -/
def gParse {α : Type} (hdr : Nat) (f : List UInt8 → R α) (ptr : List UInt8) : (fuel skip : Nat) → (items : List α) → R (List α)
  | 0, _, _ => .error .diverge
  | fuel + 1, skip, items =>
    if ptr.length ≥ skip + hdr then do
      let x ← getU16At ptr (skip + (hdr - 2))
      let itemLen := hdr + (x &&& (0x0FFF : UInt16)).toNat
      if skip + itemLen > ptr.length then return items
      let item ← f (← slice ptr skip (skip + itemLen))
      gParse hdr f ptr fuel (skip + itemLen) (items ++ [item])
    else .ok items

theorem pmt_gParse (p : Profile) (ptr : List UInt8) (fuel skip : Nat) (items : List PmtItem) :
    Pmt.parseLoop p ptr fuel skip items = gParse 5 (PmtItem.parse p) ptr fuel skip items := by
  induction fuel generalizing skip items with
  | zero => rfl
  | succ n ih => simp only [Pmt.parseLoop, gParse, ih]
theorem nit_gParse (p : Profile) (ptr : List UInt8) (fuel skip : Nat) (items : List NitItem) :
    Nit.parseLoop p ptr fuel skip items = gParse 6 (NitItem.parse p) ptr fuel skip items := by
  induction fuel generalizing skip items with
  | zero => rfl
  | succ n ih => simp only [Nit.parseLoop, gParse, ih]
theorem sdt_gParse (p : Profile) (ptr : List UInt8) (fuel skip : Nat) (items : List SdtItem) :
    Sdt.parseLoop p ptr fuel skip items = gParse 5 (SdtItem.parse p) ptr fuel skip items := by
  induction fuel generalizing skip items with
  | zero => rfl
  | succ n ih => simp only [Sdt.parseLoop, gParse, ih]
theorem eit_gParse (p : Profile) (ptr : List UInt8) (fuel skip : Nat) (items : List EitItem) :
    Eit.parseLoop p ptr fuel skip items = gParse 12 (EitItem.parse p) ptr fuel skip items := by
  induction fuel generalizing skip items with
  | zero => rfl
  | succ n ih => simp only [Eit.parseLoop, gParse, ih]

theorem beNat2_lt (l : List UInt8) : beNat (l.take 2) < 65536 := by
  have := beNat_lt (l.take 2)
  have h : 256 ^ (l.take 2).length ≤ 256 ^ 2 := Nat.pow_le_pow_right (by omega) (by rw [List.length_take]; omega)
  omega

theorem gParse_eq {α : Type} (hdr : Nat) (hh : 2 ≤ hdr) (f : List UInt8 → R α) (s pre : List UInt8) (fuel : Nat) (hf : s.length < fuel)
    (items : List α) :
    gParse hdr f (pre ++ s) fuel pre.length items = (fun x => items ++ x) <$> (entries hdr s).mapM f := by
  obtain ⟨k, rfl⟩ : ∃ k, fuel = k + 1 := ⟨fuel - 1, by omega⟩
  rw [gParse, entries]
  by_cases h1 : hdr ≤ s.length
  · rw [if_pos (by simp; exact h1)]
    have g : getU16At (pre ++ s) (pre.length + (hdr - 2)) = .ok (UInt16.ofNat (beNat ((s.drop (hdr - 2)).take 2))) := by
      rw [getU16At_ok (by simp; omega), ← List.drop_drop, List.drop_left]
    rw [g, ok_bind]
    have hm : (UInt16.ofNat (beNat ((s.drop (hdr - 2)).take 2)) &&& (0x0FFF : UInt16)).toNat =
        beNat ((s.drop (hdr - 2)).take 2) % 4096 := by
      rw [mask0FFF, UInt16.toNat_ofNat', Nat.mod_eq_of_lt (beNat2_lt _)]
    simp only [hm]
    generalize hn : hdr + beNat ((s.drop (hdr - 2)).take 2) % 4096 = n
    by_cases h2 : n ≤ s.length
    · rw [if_neg (by simp; omega), dif_pos ⟨hh, h1, h2⟩]
      have hs : slice (pre ++ s) pre.length (pre.length + n) = .ok (s.take n) := by
        have := slice_append pre (s.take n) (s.drop n)
        rwa [List.append_assoc, List.take_append_drop, List.length_take, Nat.min_eq_left h2] at this
      simp only [hs, ok_bind]
      rw [← mapM_snoc]
      congr 1
      funext d
      have := gParse_eq hdr hh f (s.drop n) (pre ++ s.take n) k (by rw [List.length_drop]; omega) (items ++ [d])
      rwa [List.append_assoc, List.take_append_drop, List.length_append, List.length_take, Nat.min_eq_left h2] at this
    · rw [if_pos (by simp; omega), dif_neg (by omega)]
      simp
  · rw [if_neg (by simp; omega), dif_neg (by omega)]
    simp
termination_by s.length
decreasing_by rw [List.length_drop]; omega

theorem gParse_all {α : Type} (hdr : Nat) (hh : 2 ≤ hdr) (f : List UInt8 → R α) (s : List UInt8) (items : List α) :
    gParse hdr f s (s.length + 1) 0 items = (fun x => items ++ x) <$> (entries hdr s).mapM f :=
  gParse_eq hdr hh f s [] (s.length + 1) (by omega) items

theorem pat_parseLoop_eq (s pre : List UInt8) (fuel : Nat) (hf : s.length < fuel) (items : List PatItem) :
    Pat.parseLoop (pre ++ s) fuel pre.length items = (fun x => items ++ x) <$> (chunks 4 s).mapM PatItem.parse := by
  obtain ⟨k, rfl⟩ : ∃ k, fuel = k + 1 := ⟨fuel - 1, by omega⟩
  rw [Pat.parseLoop, chunks]
  by_cases h1 : 4 ≤ s.length
  · rw [if_pos (by simp; exact h1), dif_pos ⟨by omega, h1⟩]
    have hs : slice (pre ++ s) pre.length (pre.length + 4) = .ok (s.take 4) := by
      have := slice_append pre (s.take 4) (s.drop 4)
      rwa [List.append_assoc, List.take_append_drop, List.length_take, Nat.min_eq_left h1] at this
    simp only [hs, ok_bind]
    rw [← mapM_snoc]
    congr 1
    funext d
    have := pat_parseLoop_eq (s.drop 4) (pre ++ s.take 4) k (by rw [List.length_drop]; omega) (items ++ [d])
    rwa [List.append_assoc, List.take_append_drop, List.length_append, List.length_take, Nat.min_eq_left h1] at this
  · rw [if_neg (by simp; omega), dif_neg (by omega)]
    simp
termination_by s.length
decreasing_by rw [List.length_drop]; omega

/-- A well-formed entry is cut off whole. -/
theorem entries_cons (hdr : Nat) (hh : 2 ≤ hdr) (e rest : List UInt8) (h1 : hdr ≤ e.length)
    (h2 : hdr + beNat ((e.drop (hdr - 2)).take 2) % 4096 = e.length) : entries hdr (e ++ rest) = e :: entries hdr rest := by
  have d : ((e ++ rest).drop (hdr - 2)).take 2 = (e.drop (hdr - 2)).take 2 := by
    rw [List.drop_append_of_le_length (by omega), List.take_append_of_le_length (by rw [List.length_drop]; omega)]
  rw [entries]
  simp only [d, h2]
  rw [dif_pos ⟨hh, by simp; omega, by simp⟩]
  simp

theorem entries_flatMap {α : Type} (hdr : Nat) (hh : 2 ≤ hdr) (w : α → List UInt8) (l : List α)
    (h : ∀ x ∈ l, hdr ≤ (w x).length ∧ hdr + beNat (((w x).drop (hdr - 2)).take 2) % 4096 = (w x).length) :
    entries hdr (l.flatMap w) = l.map w := by
  induction l with
  | nil => rw [List.flatMap_nil, entries, dif_neg (by simp; omega)]; rfl
  | cons x r ih =>
    obtain ⟨h1, h2⟩ := h x List.mem_cons_self
    rw [List.flatMap_cons, entries_cons hdr hh _ _ h1 h2, ih fun y hy => h y (List.mem_cons_of_mem _ hy)]
    rfl

theorem chunks_flatMap {α : Type} (n : Nat) (hn : 0 < n) (w : α → List UInt8) (l : List α) (h : ∀ x ∈ l, (w x).length = n) :
    chunks n (l.flatMap w) = l.map w := by
  induction l with
  | nil => rw [List.flatMap_nil, chunks, dif_neg (by simp; omega)]; rfl
  | cons x r ih =>
    have h1 := h x List.mem_cons_self
    rw [List.flatMap_cons, chunks, dif_pos ⟨hn, by simp; omega⟩, List.take_left' h1, List.drop_left' h1,
      ih fun y hy => h y (List.mem_cons_of_mem _ hy)]
    rfl

theorem mapM_map_ok {α β γ : Type} (w : α → β) (f : β → R γ) (g : α → γ) (l : List α) (h : ∀ x ∈ l, f (w x) = .ok (g x)) :
    (l.map w).mapM f = .ok (l.map g) := by
  induction l with
  | nil => rfl
  | cons x r ih =>
    rw [List.map_cons, List.mapM_cons, h x List.mem_cons_self, ok_bind, ih fun y hy => h y (List.mem_cons_of_mem _ hy)]
    rfl

/-! ## Assembling -/

/-- The common shape of the section loops of PMT, NIT and SDT. -/
def gAsm {α : Type} (limit : Nat) (size : α → Nat) (asm : α → List UInt8 → R (List UInt8)) (init : R Psi) :
    List α → (done : List Psi) → (psi : Psi) → R (List Psi)
  | [], done, psi => .ok (done ++ [psi])
  | item :: rest, done, psi =>
    if limit ≥ psi.buffer.length + size item then do
      let buffer ← asm item psi.buffer
      gAsm limit size asm init rest done { psi with buffer := buffer }
    else do
      let new ← init
      let buffer ← asm item new.buffer
      gAsm limit size asm init rest (done ++ [psi]) { new with buffer := buffer }

theorem pmt_gAsm (p : Profile) (t : Pmt) (items : List PmtItem) (done : List Psi) (psi : Psi) :
    Pmt.assembleLoop p t items done psi = gAsm 1020 PmtItem.size (PmtItem.assemble p) (t.psiInit p false) items done psi := by
  induction items generalizing done psi with
  | nil => rfl
  | cons x r ih => simp only [Pmt.assembleLoop, gAsm, ih, show PMT_SECTION_SIZE = 1020 from rfl]
theorem nit_gAsm (p : Profile) (t : Nit) (items : List NitItem) (done : List Psi) (psi : Psi) :
    Nit.assembleLoop p t items done psi = gAsm 1020 NitItem.size (NitItem.assemble p) (t.psiInit p false) items done psi := by
  induction items generalizing done psi with
  | nil => rfl
  | cons x r ih => simp only [Nit.assembleLoop, gAsm, ih, show NIT_SECTION_SIZE = 1020 from rfl]
theorem sdt_gAsm (p : Profile) (t : Sdt) (items : List SdtItem) (done : List Psi) (psi : Psi) :
    Sdt.assembleLoop p t items done psi = gAsm 1020 SdtItem.size (SdtItem.assemble p) (t.psiInit p) items done psi := by
  induction items generalizing done psi with
  | nil => rfl
  | cons x r ih => simp only [Sdt.assembleLoop, gAsm, ih, show SDT_SECTION_SIZE = 1020 from rfl]

/-- The sections a distribution of the items gives: the first one continues `first`, the others `next`. -/
def bodies {α : Type} (w : α → List UInt8) (first next : List UInt8) : List (List α) → List (List UInt8)
  | [] => []
  | g :: gs => (first ++ g.flatMap w) :: gs.map fun g => next ++ g.flatMap w

theorem gAsm_eq {α : Type} (limit : Nat) (size : α → Nat) (asm : α → List UInt8 → R (List UInt8)) (next : List UInt8)
    (w : α → List UInt8) (items : List α) (ha : ∀ x ∈ items, ∀ b, asm x b = .ok (b ++ w x))
    (hs : ∀ x ∈ items, size x = (w x).length) (done : List Psi) (first : List UInt8) :
    gAsm limit size asm (.ok { Psi.default with buffer := next }) items done { Psi.default with buffer := first } =
      .ok (done ++ (bodies w first next (fill size limit next.length first.length items)).map fun b =>
        { Psi.default with buffer := b }) := by
  induction items generalizing done first with
  | nil => simp [gAsm, fill, bodies]
  | cons x r ih =>
    have hx := hs x List.mem_cons_self
    have ih := ih (fun y hy => ha y (List.mem_cons_of_mem _ hy)) (fun y hy => hs y (List.mem_cons_of_mem _ hy))
    rw [gAsm, fill]
    by_cases h : limit ≥ first.length + size x
    · rw [if_pos h, if_pos h]
      simp only [ha x List.mem_cons_self, ok_bind]
      have := ih done (first ++ w x)
      rw [List.length_append, ← hx] at this
      rw [this]
      obtain ⟨g, gs, hg⟩ := List.exists_cons_of_ne_nil (fill_ne size limit next.length (first.length + size x) r)
      rw [hg]
      simp [bodies, pushHead]
    · rw [if_neg h, if_neg h]
      simp only [ha x List.mem_cons_self, ok_bind]
      have := ih (done ++ [{ Psi.default with buffer := first }]) (next ++ w x)
      rw [List.length_append, ← hx] at this
      rw [this]
      obtain ⟨g, gs, hg⟩ := List.exists_cons_of_ne_nil (fill_ne size limit next.length (next.length + size x) r)
      rw [hg]
      simp [bodies, pushHead]

/-! ## Headers -/

theorem version_byte (v : UInt8) : ((0xC0 : UInt8) ||| ((v <<< 1) &&& (0x3E : UInt8)) ||| (0x01 : UInt8)) =
    UInt8.ofNat (Descriptor.pack [(2, 0b11), (5, v.toNat % 32), (1, 1)]) := by
  revert v; decide +kernel

theorem header_eq (tableId flags ext version number last : Nat) :
    header tableId flags ext version number last = [UInt8.ofNat tableId, UInt8.ofNat (flags * 16), 0, UInt8.ofNat (ext / 256), UInt8.ofNat ext,
      UInt8.ofNat (Descriptor.pack [(2, 0b11), (5, version), (1, 1)]), UInt8.ofNat number, UInt8.ofNat last] := by
  have h1 : UInt8.ofNat (flags * 4096 / 256) = UInt8.ofNat (flags * 16) := congrArg _ (by omega)
  have h2 : UInt8.ofNat (flags * 4096) = 0 := by apply UInt8.toNat_inj.1; rw [UInt8.toNat_ofNat']; simp; omega
  simp [header, beBytes, Descriptor.pack, h1, h2]

theorem header_number (tableId flags ext version number last : Nat) (n l : UInt8) (rest : List UInt8) :
    ((header tableId flags ext version number last ++ rest).set 6 n).set 7 l =
      header tableId flags ext version n.toNat l.toNat ++ rest := by
  rw [header_eq, header_eq]; simp

@[simp] theorem header_length (tableId flags ext version number last : Nat) :
    (header tableId flags ext version number last).length = 8 := by rw [header_eq]; rfl

/-- `numbered` for bodies that start with a header. -/
theorem numbered_header {α : Type} (tableId flags ext version : Nat) (last : UInt8) (rest : α → List UInt8) (n : Nat) (l : List α) :
    numbered last n (l.map fun x => header tableId flags ext version 0 0 ++ rest x) =
      (l.zipIdx n).map fun x => complete (header tableId flags ext version (x.2 % 256) last.toNat ++ rest x.1) := by
  induction l generalizing n with
  | nil => rfl
  | cons a l ih =>
    rw [List.map_cons, numbered, header_number, ih, List.zipIdx_cons, List.map_cons, UInt8.toNat_ofNat']

theorem psi_new_long (p : Profile) (tableId version : UInt8) (n : Nat) :
    Psi.new p tableId (8 + n) version = .ok { Psi.default with
      buffer := [tableId, 0xB0, 0, 0, 0, UInt8.ofNat (Descriptor.pack [(2, 0b11), (5, version.toNat % 32), (1, 1)]), 0, 0] ++
        List.replicate n 0 } := by
  have e : resize ([] : List UInt8) (8 + n) 0x00 = [0, 0, 0, 0, 0, 0, 0, 0] ++ List.replicate n 0 := by
    rw [Nat.add_comm]; simp [resize, List.replicate_succ]
  unfold Psi.new
  rw [show decide (8 + n ≥ 3) = true by simp; omega, debugAssert_true, ok_bind, e]
  simp only [List.cons_append, setIdx_zero, ok_bind, setIdx_succ, map_ok, if_pos (show 8 + n ≥ 6 by omega), version_byte]
  rfl

theorem or_E000 (x : UInt16) : ((0xE000 : UInt16) ||| x).toNat = Descriptor.pack [(3, 0b111), (13, x.toNat % 8192)] := by
  have h : (0xE000 : UInt16) ||| x = (0xE000 : UInt16) ||| UInt16.ofNat (x.toNat % 8192) := by
    apply UInt16.toNat_inj.1
    apply Nat.eq_of_testBit_eq
    intro i
    have hx : (UInt16.ofNat (x.toNat % 8192)).toNat = x.toNat % 2 ^ 13 := by
      rw [UInt16.toNat_ofNat']; have := x.toNat_lt; omega
    rw [UInt16.toNat_or, UInt16.toNat_or, Nat.testBit_or, Nat.testBit_or, hx, Nat.testBit_mod_two_pow]
    by_cases hi : i < 13
    · simp [hi]
    · by_cases h16 : i < 16
      · have : (0xE000 : UInt16).toNat.testBit i = true := by
          have : i = 13 ∨ i = 14 ∨ i = 15 := by omega
          rcases this with rfl | rfl | rfl <;> rfl
        rw [this, Bool.true_or, Bool.true_or]
      · have h2 : x.toNat.testBit i = false := Nat.testBit_lt_two_pow (Nat.lt_of_lt_of_le x.toNat_lt
          (Nat.pow_le_pow_right (by omega) (by omega)))
        simp [hi, h2]
  rw [h, u16_or_disjoint _ _ 13 (by decide) (by rw [UInt16.toNat_ofNat']; omega), UInt16.toNat_ofNat']
  simp only [Descriptor.pack, List.foldl_cons, List.foldl_nil]
  have : (0xE000 : UInt16).toNat = 57344 := rfl
  omega

theorem or_F000 (n : Nat) (h : n < 4096) : ((0xF000 : UInt16) ||| UInt16.ofNat n).toNat = Descriptor.pack [(4, 0b1111), (12, n)] := by
  rw [u16_or_disjoint _ _ 12 (by decide) (by rw [UInt16.toNat_ofNat']; omega), UInt16.toNat_ofNat']
  simp only [Descriptor.pack, List.foldl_cons, List.foldl_nil]
  have : (0xF000 : UInt16).toNat = 61440 := rfl
  omega

/-- Several sections with the same header, sent with the default method of the trait. -/
theorem psiDemux_header (p : Profile) (tableId flags ext version : Nat) (rests : List (List UInt8)) (hne : rests ≠ [])
    (hr : ∀ r ∈ rests, r.length ≤ 4086) (pid : UInt16) (cc : UInt8) (dst : List UInt8) (hp : pid.toNat < 8192)
    (hc : cc.toNat < 16) :
    psiDemux p (rests.map fun r => { Psi.default with buffer := header tableId flags ext version 0 0 ++ r }) pid cc dst = (
      let secs := rests.zipIdx.map fun x =>
        complete (header tableId flags ext version (x.2 % 256) ((rests.length - 1) % 256) ++ x.1)
      .ok (UInt8.ofNat ((cc.toNat + streamCount secs) % 16), dst ++ (stream pid.toNat cc.toNat secs).flatten)) := by
  rw [psiDemux, if_neg (by simpa using hne), psiDemuxLoop_eq p pid hp _ _ ?_ ?_ ?_ 0 cc hc]
  · simp only [List.map_map, Function.comp_def, List.length_map]
    rw [numbered_header tableId flags ext version _ (fun r => r) 0 rests, UInt8.toNat_ofNat']
  all_goals
    intro s hs
    obtain ⟨r, hr', rfl⟩ := List.mem_map.1 hs
    have := hr r hr'
  · rfl
  · simp only [List.length_append, header_length]; omega
  · simp only [List.length_append, header_length]; omega

theorem bodies_map {α : Type} (w : α → List UInt8) (hd : List UInt8) (gs : List (List α)) :
    bodies w hd hd gs = gs.map fun g => hd ++ g.flatMap w := by
  cases gs <;> rfl

theorem sum_size {α : Type} (size : α → Nat) (w : α → List UInt8) (g : List α) (h : ∀ x ∈ g, size x = (w x).length) :
    (g.flatMap w).length = (g.map size).sum := by
  induction g with
  | nil => rfl
  | cons x r ih =>
    rw [List.flatMap_cons, List.length_append, ih fun y hy => h y (List.mem_cons_of_mem _ hy), List.map_cons, List.sum_cons,
      h x List.mem_cons_self]

theorem mem_of_group {α : Type} {gs : List (List α)} {items g : List α} (h : gs.flatten = items) (hg : g ∈ gs) {x : α} (hx : x ∈ g) :
    x ∈ items := h ▸ List.mem_flatten.2 ⟨g, hg, hx⟩

theorem packed_bound {α : Type} {size : α → Nat} {limit first next : Nat} {items : List α} {gs : List (List α)}
    (P : Packed size limit first next items gs) (g : List α) (hg : g ∈ gs) : min first next + (g.map size).sum ≤ limit := by
  obtain ⟨i, hi⟩ := List.getElem?_of_mem hg
  have := P.fits i g hi
  split at this <;> omega

/-! ## Checks -/

/-- What every table but the TDT requires of a section: complete, long enough, CRC right. -/
def Intact (minSize : Nat) (psi : Psi) : Prop :=
  minSize ≤ psi.size ∧ psi.size ≤ psi.buffer.length ∧
    (psi.buffer.take psi.size).drop (psi.size - 4) = beBytes 4 (crc32 (psi.buffer.take (psi.size - 4))).toNat

instance (m : Nat) (psi : Psi) : Decidable (Intact m psi) := by unfold Intact; infer_instance

theorem check_intact (p : Profile) (psi : Psi) (m : Nat) (hm : 8 ≤ m) (h : m ≤ psi.size) : psi.check p = .ok (decide (Intact m psi)) := by
  obtain ⟨b, h1, h2⟩ := C50_check p psi
  rw [h1]
  refine congrArg Except.ok ?_
  rw [Bool.eq_iff_iff, h2, decide_eq_true_iff]
  unfold Intact
  constructor
  · rintro ⟨_, a, b⟩; exact ⟨h, a, b⟩
  · rintro ⟨_, a, b⟩; exact ⟨by omega, a, b⟩

theorem complete_intact (body : List UInt8) (h3 : 3 ≤ body.length) (psi : Psi) (hb : psi.buffer = complete body)
    (hs : psi.size = (complete body).length) (m : Nat) (hm : m ≤ body.length + 4) : Intact m psi := by
  have hl := complete_length h3
  refine ⟨by omega, by rw [hb, hs], ?_⟩
  rw [hb, hs, List.take_length]
  have e : (complete body).length - 4 = (body.take 1 ++ beBytes 2 ((body.getD 1 0).toNat / 16 * 4096 + (body.length - 3 + 4)) ++ body.drop 3).length := by
    rw [hl]; simp; omega
  rw [e]
  unfold complete
  rw [List.drop_left, List.take_left]

/-! ## Fields -/

theorem version_field (b : UInt8) : (b &&& 0x3E) >>> 1 = UInt8.ofNat (b.toNat / 2 % 32) := by
  revert b; decide +kernel

theorem and_1FFF (x : UInt16) : x &&& 0x1FFF = UInt16.ofNat (x.toNat % 8192) := by
  apply UInt16.toNat_inj.1
  rw [UInt16.toNat_and, UInt16.toNat_ofNat', show (0x1FFF : UInt16).toNat = 2 ^ 13 - 1 from rfl, Nat.and_two_pow_sub_one_eq_mod]
  have := x.toNat_lt
  omega

theorem chunks_length (n : Nat) (s c : List UInt8) (h : c ∈ chunks n s) : c.length = n := by
  rw [chunks] at h
  split at h
  · next h0 =>
    rcases List.mem_cons.1 h with rfl | h
    · simp; omega
    · exact chunks_length n _ c h
  · cases h
termination_by s.length
decreasing_by simp; omega

theorem idx_field (s : List UInt8) (i : Nat) (h : i < s.length) : ∃ b : UInt8, idx s i = .ok b ∧ b.toNat = field s i 1 := by
  refine ⟨s[i], idx_ok h, ?_⟩
  rw [field, List.drop_eq_getElem_cons h, List.take_succ_cons, List.take_zero, beNat]
  simp [beNat]

theorem field_append (a b : List UInt8) (n : Nat) : field (a ++ b) (a.length + n) = field b n := by
  funext k; unfold field; rw [← List.drop_drop, List.drop_left]

/-- The bytes of a completed section: header fields keep their place. -/
theorem complete_form (a b c : UInt8) (r : List UInt8) :
    ∃ l1 l2 k1 k2 k3 k4, complete (a :: b :: c :: r) = a :: l1 :: l2 :: (r ++ [k1, k2, k3, k4]) :=
  ⟨_, _, _, _, _, _, by
    simp only [complete, List.take_succ_cons, List.take_zero, List.drop_succ_cons, List.drop_zero, beBytes, List.cons_append, List.nil_append,
      List.append_assoc]
    rfl⟩

/-- The bytes of a completed long section. -/
theorem complete_header (tableId flags ext version number last : Nat) (rest : List UInt8) :
    ∃ l1 l2 k1 k2 k3 k4, complete (header tableId flags ext version number last ++ rest) =
      [UInt8.ofNat tableId, l1, l2, UInt8.ofNat (ext / 256), UInt8.ofNat ext,
        UInt8.ofNat (Descriptor.pack [(2, 0b11), (5, version), (1, 1)]), UInt8.ofNat number, UInt8.ofNat last] ++
      (rest ++ [k1, k2, k3, k4]) := by
  rw [header_eq]
  exact complete_form _ _ _ ([UInt8.ofNat (ext / 256), UInt8.ofNat ext,
    UInt8.ofNat (Descriptor.pack [(2, 0b11), (5, version), (1, 1)]), UInt8.ofNat number, UInt8.ofNat last] ++ rest)

/-- The fields of a completed long section. -/
theorem section_fields (tableId flags ext version number last : Nat) (rest : List UInt8) (ht : tableId < 256) (he : ext < 65536)
    (hv : version < 32) (hn : number < 256) (hl : last < 256) :
    let sec := complete (header tableId flags ext version number last ++ rest)
    sec.length = 12 + rest.length ∧ sec.head? = some (UInt8.ofNat tableId) ∧ field sec 0 1 = tableId ∧ field sec 3 2 = ext ∧
    field sec 5 1 = 0xC1 + 2 * version ∧ field sec 6 1 = number ∧ field sec 7 1 = last ∧
    (∀ n k, n + k ≤ rest.length → field sec (8 + n) k = field rest n k) ∧
    (∀ n, (sec.take (sec.length - 4)).drop (8 + n) = rest.drop n) ∧
    (∀ a b, a ≤ b → b ≤ rest.length → slice sec (8 + a) (8 + b) = slice rest a b) := by
  intro sec
  have hlen : sec.length = 12 + rest.length := by
    show (complete _).length = _
    rw [complete_length (by simp; omega), List.length_append, header_length]; omega
  obtain ⟨l1, l2, k1, k2, k3, k4, h⟩ := complete_header tableId flags ext version number last rest
  have hs : sec = _ := h
  refine ⟨hlen, by rw [hs]; rfl, ?_, ?_, ?_, ?_, ?_, ?_, ?_, ?_⟩
  · rw [hs]
    simp only [field, List.cons_append, List.nil_append, List.drop_zero, List.take_succ_cons, List.take_zero, beNat,
      List.length_nil, UInt8.toNat_ofNat']
    omega
  · rw [hs]
    simp only [field, List.cons_append, List.nil_append, List.drop_succ_cons, List.drop_zero, List.take_succ_cons, List.take_zero,
      beNat_two, UInt8.toNat_ofNat']
    omega
  · rw [hs]
    simp only [field, List.cons_append, List.nil_append, List.drop_succ_cons, List.drop_zero, List.take_succ_cons, List.take_zero, beNat,
      List.length_nil, Descriptor.pack, List.foldl_cons, List.foldl_nil, UInt8.toNat_ofNat']
    omega
  · rw [hs]
    simp only [field, List.cons_append, List.nil_append, List.drop_succ_cons, List.drop_zero, List.take_succ_cons, List.take_zero, beNat,
      List.length_nil, UInt8.toNat_ofNat']
    omega
  · rw [hs]
    simp only [field, List.cons_append, List.nil_append, List.drop_succ_cons, List.drop_zero, List.take_succ_cons, List.take_zero, beNat,
      List.length_nil, UInt8.toNat_ofNat']
    omega
  · intro n k hk
    rw [hs]
    refine (congrFun (field_append _ _ n) k).trans ?_
    unfold field
    rw [List.drop_append_of_le_length (by omega), List.take_append_of_le_length (by rw [List.length_drop]; omega)]
  · intro n
    rw [hlen, hs, ← List.append_assoc, List.take_left' (by simp; omega), ← List.drop_drop]
    simp only [List.cons_append, List.nil_append, List.drop_succ_cons, List.drop_zero]
  · intro a b hab hb
    unfold slice
    rw [if_pos ⟨by omega, by omega⟩, if_pos ⟨hab, hb⟩, hs]
    refine congrArg Except.ok ?_
    rw [List.take_append, List.take_of_length_le (by simp), List.drop_append, List.drop_of_length_le (by simp), List.nil_append]
    rw [show 8 + b - _ = b from by simp, show 8 + a - _ = a by simp, List.take_append_of_le_length hb]

end Mpegts

namespace Mpegts
open Spec Spec.Table

/-! ## Descriptor loops inside entries -/

/-- The descriptors of a table can be assembled as the standard says. -/
def Good (ds : Descriptors) : Prop := ∀ d ∈ ds, d.InRange ∧ ¬ d.HasItems

instance (ds : Descriptors) : Decidable (Good ds) := by unfold Good; infer_instance

theorem mapM_outcome {α β : Type} (f : α → R β) (l : List α) (P : α → Prop) (h : ∀ a ∈ l, Outcome (f a) (P a)) :
    Outcome (l.mapM f) (∃ a ∈ l, P a) := by
  constructor
  · rintro ⟨a, ha, hp⟩
    refine mapM_panic f l (fun b hb => ?_) ⟨a, ha, (h a ha).bad hp⟩
    by_cases hP : P b
    · exact .inl ((h b hb).bad hP)
    · exact .inr ((h b hb).good hP)
  · intro hn
    exact mapM_ok f l fun a ha => (h a ha).good fun hp => hn ⟨a, ha, hp⟩

theorem mapM_congr {α β : Type} {f g : α → R β} {l : List α} (h : ∀ a ∈ l, f a = g a) : l.mapM f = l.mapM g := by
  induction l with
  | nil => rfl
  | cons a r ih => rw [List.mapM_cons, List.mapM_cons, h a List.mem_cons_self, ih fun x hx => h x (List.mem_cons_of_mem _ hx)]

/-- A descriptor loop whose parsing panics (C38). -/
def LoopPanics (p : Profile) (s : List UInt8) : Prop := ∃ t n body, t :: n :: body ∈ Descriptor.frames s ∧ Panics p t body

theorem loop_outcome (p : Profile) (s : List UInt8) : Outcome ((Descriptor.frames s).mapM (Desc.parse p)) (LoopPanics p s) := by
  have h := C38_loop_partial p [] s
  rw [C37_frames] at h
  have e : (fun x : Descriptors => [] ++ x) = id := by funext x; rfl
  rw [e, id_map] at h
  exact ⟨h.1, fun hn => h.2 fun t n body hm hp => hn ⟨t, n, body, hm, hp⟩⟩

theorem parse_nil (p : Profile) (s : List UInt8) : Descriptors.parse p [] s = (Descriptor.frames s).mapM (Desc.parse p) := by
  rw [C37_frames]
  have e : (fun x : Descriptors => [] ++ x) = id := by funext x; rfl
  rw [e, id_map]

theorem frames_good (p : Profile) (ds : Descriptors) (h : ∀ d ∈ ds, d.InRange ∧ d.Exact) :
    (Descriptor.frames (ds.flatMap Desc.wire)).mapM (Desc.parse p) = .ok ds := by
  have := frames_wire ds (fun d hd => (h d hd).1) []
  rw [List.append_nil, frames_truncated [] (.inl (by simp)), List.append_nil] at this
  rw [this, mapM_wire p ds h]

theorem entries_length (hdr : Nat) (s e : List UInt8) (h : e ∈ entries hdr s) : hdr ≤ e.length := by
  rw [entries] at h
  split at h
  · next h0 =>
    rcases List.mem_cons.1 h with rfl | h
    · simp only [List.length_take]; omega
    · exact entries_length hdr _ e h
  · cases h
termination_by s.length
decreasing_by simp; omega

/-- The 4-bit flags and the 12-bit length SDT and EIT entries store. -/
theorem flags_word (a b : UInt8) (n : Nat) (ha : a.toNat < 8) (hb : b.toNat < 2) (hn : n < 4096) :
    ((((a <<< 5) ||| (b <<< 4)).toUInt16 <<< 8) ||| UInt16.ofNat n).toNat =
      Descriptor.pack [(4, Descriptor.pack [(3, a.toNat), (1, b.toNat)]), (12, n)] := by
  have h : ∀ a : UInt8, a.toNat < 8 → ∀ b : UInt8, b.toNat < 2 → ((a <<< 5) ||| (b <<< 4)).toNat = a.toNat * 32 + b.toNat * 16 := by
    decide +kernel
  have hf := h a ha b hb
  generalize (a <<< 5) ||| (b <<< 4) = f at hf
  have hs : (f.toUInt16 <<< 8).toNat = f.toNat * 256 := by
    rw [UInt16.toNat_shiftLeft]
    simp only [UInt8.toNat_toUInt16, UInt16.reduceToNat, Nat.reduceMod, Nat.shiftLeft_eq]
    have := f.toNat_lt
    rw [Nat.mod_eq_of_lt (by omega)]
  rw [u16_or_disjoint _ _ 12 (by rw [hs, hf]; omega) (by rw [UInt16.toNat_ofNat']; omega), hs, hf, UInt16.toNat_ofNat']
  simp only [Descriptor.pack, List.foldl_cons, List.foldl_nil]
  omega

theorem flags_word' (a b : UInt8) (n : Nat) (ha : a.toNat < 8) (hb : b.toNat < 2) (hn : n < 4096) :
    (((setBits8 8 [(a, 3), (b, 1)]).toUInt16 <<< 8) ||| UInt16.ofNat n).toNat =
      Descriptor.pack [(4, Descriptor.pack [(3, a.toNat), (1, b.toNat)]), (12, n)] := by
  have h : setBits8 8 [(a, 3), (b, 1)] = (a <<< 5) ||| (b <<< 4) := rfl
  rw [h]
  exact flags_word a b n ha hb hn

theorem sized12_length (b : Nat) (l : List UInt8) : (sized12 b l).length = 2 + l.length := by simp [sized12]

/-- The length field of an entry that ends with a sized loop. -/
theorem sized12_field (pre : List UInt8) (b : Nat) (l : List UInt8) (hl : l.length < 4096) (hb : b < 16) :
    beNat (((pre ++ sized12 b l).drop pre.length).take 2) = b * 4096 + l.length := by
  rw [List.drop_left, sized12, List.take_left' (beBytes_length _ _), beNat_beBytes]
  simp only [Descriptor.pack, List.foldl_cons, List.foldl_nil]
  omega

/-! ## The checks of the tables -/

/-- The common shape of the `check` functions. -/
def gCheck (p : Profile) (m : Nat) (ok : UInt8 → Bool) (psi : Psi) : R Bool := do
  if !(psi.size ≥ m) then return false
  let b : UInt8 ← idx psi.buffer 0
  if !(ok b) then return false
  psi.check p

/-- A section that starts with one of the table ids and is intact. -/
def Acceptable (m : Nat) (ok : UInt8 → Bool) (psi : Psi) : Prop := (∃ b, psi.buffer.head? = some b ∧ ok b = true) ∧ Intact m psi

theorem gCheck_eq (p : Profile) (m : Nat) (hm : 8 ≤ m) (ok : UInt8 → Bool) (psi : Psi) (hb : psi.size < m ∨ psi.buffer ≠ []) :
    ∃ b, gCheck p m ok psi = .ok b ∧ (b = true ↔ Acceptable m ok psi) := by
  unfold gCheck
  by_cases h : psi.size ≥ m
  · rw [if_neg (by simpa using h)]
    obtain ⟨x, r, hx⟩ := List.exists_cons_of_ne_nil (hb.resolve_left (by omega))
    have i0 : idx psi.buffer 0 = .ok x := by rw [hx]; rfl
    have e0 : psi.buffer.head? = some x := by rw [hx]; rfl
    rw [i0, ok_bind, check_intact p psi m hm h]
    by_cases hz : ok x = true
    · rw [if_neg (by simp [hz])]; exact ⟨_, rfl, by simp [Acceptable, e0, hz]⟩
    · rw [if_pos (by simpa using hz)]; exact ⟨_, rfl, by simp [Acceptable, e0, hz]⟩
  · rw [if_pos (by simpa using h)]
    exact ⟨_, rfl, by simp [Acceptable, Intact]; omega⟩

theorem gCheck_panic (p : Profile) (m : Nat) (ok : UInt8 → Bool) (psi : Psi) (h1 : m ≤ psi.size) (h2 : psi.buffer = []) :
    gCheck p m ok psi = panic := by
  unfold gCheck
  rw [if_neg (by simpa using h1), h2]; rfl

/-! ## Sections that differ in their first one -/

theorem bodies_zipIdx {α : Type} (w : α → List UInt8) (hd : Bool → List UInt8) (gs : List (List α)) :
    bodies w (hd true) (hd false) gs = gs.zipIdx.map fun x => hd (x.2 == 0) ++ x.1.flatMap w := by
  cases gs with
  | nil => rfl
  | cons g r =>
    rw [bodies, List.zipIdx_cons, List.map_cons]
    refine congrArg₂ List.cons rfl ?_
    have : ∀ (l : List (List α)) n, 0 < n → (l.zipIdx n).map (fun x => hd (x.2 == 0) ++ x.1.flatMap w) =
        l.map fun g => hd false ++ g.flatMap w := by
      intro l
      induction l with
      | nil => intro n _; rfl
      | cons a l ih =>
        intro n hn
        rw [List.zipIdx_cons, List.map_cons, List.map_cons, ih _ (by omega)]
        simp only [show (n == 0) = false by simp; omega]
    exact (this r 1 (by omega)).symm

theorem zipIdx_map_zipIdx {α β γ : Type} (f : α × Nat → β) (g : β × Nat → γ) (l : List α) (n : Nat) :
    (((l.zipIdx n).map f).zipIdx n).map g = (l.zipIdx n).map fun x => g (f x, x.2) := by
  induction l generalizing n with
  | nil => rfl
  | cons a l ih => simp only [List.zipIdx_cons, List.map_cons, ih]

/-- Version and numbers in sections with the same header. -/
theorem sections_numbered {α : Type} (tableId flags ext version : Nat) (ht : tableId < 256) (he : ext < 65536) (hv : version < 32)
    (l : List α) (rest : α × Nat → List UInt8) (i : Nat) (sec : List UInt8)
    (h : (l.zipIdx.map fun x => complete (header tableId flags ext version (x.2 % 256) ((l.length - 1) % 256) ++ rest x))[i]? = some sec) :
    i < l.length ∧ field sec 5 1 = 0xC1 + 2 * version ∧ field sec 6 1 = i % 256 ∧ field sec 7 1 = (l.length - 1) % 256 := by
  rw [List.getElem?_map, List.getElem?_zipIdx] at h
  cases hg : l[i]? with
  | none => rw [hg] at h; cases h
  | some g =>
    have hi : i < l.length := (List.getElem?_eq_some_iff.1 hg).1
    rw [hg] at h
    simp only [Option.map_some, Option.some.injEq, Nat.zero_add] at h
    subst h
    obtain ⟨-, -, -, -, a, b, c, -⟩ := section_fields tableId flags ext version (i % 256) ((l.length - 1) % 256)
      (rest (g, i)) ht he hv (by omega) (by omega)
    exact ⟨hi, a, b, c⟩

end Mpegts
