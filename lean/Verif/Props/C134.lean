import Verif.Props.AnyDesc
import Verif.Props.C131
import Verif.Props.C132
import Verif.Props.C80
import Verif.Props.C29_C30
import Verif.Props.EitSchedule

/-! # C134: a long text in several extended event descriptors -/

namespace Mpegts
open Spec Spec.Table
open Spec.AnyValue (overlay stating)

namespace Pieces

/-- What an application does with the pieces of a text: one extended event descriptor for each, numbered from zero. -/
def extended (lang : StringDVB) (pieces : List StringDVB) : Descriptors :=
  pieces.zipIdx.map fun x => .d4E { number := UInt8.ofNat x.2, lastNumber := UInt8.ofNat (pieces.length - 1), lang := lang, items := [], text := x.1 }

/-- What an application shows for a list of descriptors: the texts of the extended event descriptors, one after the other. -/
def shown (ds : Descriptors) : R (List Char) :=
  List.flatten <$> ds.mapM fun
    | .d4E d => d.text.toStringR
    | _ => .ok []

theorem mapM_ok {α β : Type} (f : α → R β) (g : α → β) (l : List α) (h : ∀ a ∈ l, f a = .ok (g a)) : l.mapM f = .ok (l.map g) := by
  induction l with
  | nil => rfl
  | cons a l ih =>
    rw [List.mapM_cons, h a List.mem_cons_self, ok_bind, ih fun x hx => h x (List.mem_cons_of_mem _ hx), ok_bind]
    rfl

theorem shown_extended (lang : StringDVB) (ps : List StringDVB) (g : StringDVB → List Char) (h : ∀ x ∈ ps, x.toStringR = .ok (g x)) :
    shown (extended lang ps) = .ok (ps.map g).flatten := by
  rw [shown, extended, List.mapM_map, mapM_ok _ (fun x => g x.1) _ (fun x hx => by
    have := List.mem_zipIdx' hx
    exact h x.1 (this.2 ▸ List.getElem_mem _)), map_ok]
  have : ps.zipIdx.map (fun x => g x.1) = (ps.zipIdx.map Prod.fst).map g := by rw [List.map_map]; rfl
  rw [this, List.zipIdx_map_fst]

theorem shown_append (a b : Descriptors) (h : ∀ e, .d4E e ∉ a) : shown (a ++ b) = shown b := by
  induction a with
  | nil => rfl
  | cons d a ih =>
    have ih := ih fun e he => h e (List.mem_cons_of_mem _ he)
    rw [← ih]
    simp only [shown, List.cons_append, List.mapM_cons]
    cases d with
    | d4E e => exact absurd List.mem_cons_self (h e)
    | _ =>
      simp only [ok_bind]
      generalize List.mapM (m := Except Fault) _ (a ++ b) = z
      cases z <;> rfl

theorem table_le (cp : UInt8) (h : CodePage.upper cp.toNat ≠ none) : cp.toNat ≤ 15 := by
  revert h; revert cp; decide +kernel

theorem lossy_append (a : List Char) (r : List UInt8) : StringDVB.fromUtf8Lossy (Text.utf8 a ++ r) = a ++ StringDVB.fromUtf8Lossy r := by
  induction a with
  | nil => rfl
  | cons c a ih => rw [Text.utf8, List.flatMap_cons, List.append_assoc, lossy_char, ← Text.utf8, ih]; rfl

/-- Where a piece begins. -/
theorem begins_at (n : Nat) (ps : List (List UInt8)) : (∀ x ∈ ps.dropLast, x.length = n) → ∀ x ∈ ps, x ≠ [] → ∃ k, ps.flatten[k * n]? = x.head? := by
  induction ps with
  | nil => intro _ x hx; cases hx
  | cons a r ih =>
    intro hn x hx hne
    rcases List.mem_cons.1 hx with rfl | hx
    · refine ⟨0, ?_⟩
      obtain ⟨b, l, rfl⟩ := List.exists_cons_of_ne_nil hne
      simp
    · obtain ⟨c, r', rfl⟩ := List.exists_cons_of_ne_nil (List.ne_nil_of_mem hx)
      rw [List.dropLast_cons_cons] at hn
      obtain ⟨k, hk⟩ := ih (fun y hy => hn y (List.mem_cons_of_mem _ hy)) x hx hne
      have ha := hn a List.mem_cons_self
      refine ⟨k + 1, ?_⟩
      rw [List.flatten_cons, List.getElem?_append_right (by rw [ha, Nat.add_mul]; omega), ha, Nat.add_mul, Nat.one_mul, Nat.add_sub_cancel]
      exact hk

/-- The pieces of a text, of the kind that is delivered. -/
theorem pieces (p : Profile) (s : List Char) (cp : UInt8) (n : Nat) (hs : s ≠ []) (hn : 4 ≤ n)
    (hc : (∃ t, CodePage.upper cp.toNat = some t ∧ (∀ c ∈ s, Text.InTable t c) ∧ (cp = 0 → ∀ k c, s[k * n]? = some c → 0x20 ≤ c.val.toNat)) ∨
      (CodePage.upper cp.toNat = none ∧ ∀ c ∈ s, c.val.toNat < 0x10000)) :
    ∃ ps, (StringDVB.fromStr s cp).split p n = .ok ps ∧ (∀ x ∈ ps, roundTrips x ∧ (text x).length ≤ n) ∧
      ∃ g : StringDVB → List Char, (∀ x ∈ ps, x.toStringR = .ok (g x)) ∧ (ps.map g).flatten = s := by
  rcases hc with ⟨t, ht, hin, h0⟩ | ⟨hu, hb⟩
  · obtain ⟨e1, e2, e3⟩ := C27_round_trip cp t ht s hin
    have h15 := table_le cp (by rw [ht]; exact fun h => by cases h)
    have hd : (StringDVB.fromStr s cp).data ≠ [] := by
      intro e
      rw [e] at e3
      exact hs (List.map_eq_nil_iff.1 e3.symm)
    obtain ⟨ps, a1, a2, a3, a4⟩ := C30_split_partial p (StringDVB.fromStr s cp) n hd (by rw [reserved]; split <;> (try split) <;> omega) (fun _ => hn)
    rw [e2] at a3
    refine ⟨ps, a1, fun x hx => ?_, fun x => Text.shown t x.data, fun x hx => ?_, ?_⟩
    · obtain ⟨b1, b2, b3⟩ := a3 x hx
      rw [C24_assemble, List.nil_append] at b3
      refine ⟨.inr ⟨b2, ?_⟩, b3⟩
      rw [b1]
      by_cases h : cp = 0
      · refine .inl ⟨h, ?_⟩
        obtain ⟨b, l, e⟩ := List.exists_cons_of_ne_nil b2
        have hr : reserved (StringDVB.fromStr s cp).codepage = 0 := by rw [e2, reserved, if_pos h]
        obtain ⟨-, a5⟩ := a4 (by rw [e2]; omega)
        rw [hr, Nat.sub_zero] at a5
        obtain ⟨k, hk⟩ := begins_at n (ps.map (·.data)) (fun y hy => by
          rw [← List.map_dropLast] at hy
          obtain ⟨z, hz, rfl⟩ := List.mem_map.1 hy
          exact a5 z hz) x.data (List.mem_map_of_mem hx) b2
        rw [a2, e, List.head?_cons] at hk
        have hm : ((StringDVB.fromStr s cp).data.map (Text.charOf t))[k * n]? = (s.map some)[k * n]? := by rw [e3]
        rw [List.getElem?_map, List.getElem?_map, hk] at hm
        obtain ⟨c, hcs, hcb⟩ : ∃ c, s[k * n]? = some c ∧ some c = Text.charOf t b := by
          cases hsk : s[k * n]? with
          | none => rw [hsk] at hm; cases hm
          | some c => rw [hsk] at hm; exact ⟨c, rfl, (Option.some.inj hm).symm⟩
        have h20 := h0 h k c hcs
        rw [e, List.headD_cons]
        by_cases hb : b.toNat < 0x20
        · rw [Text.charOf, if_pos (by omega)] at hcb
          cases hcb
          rw [char_toNat_ofNat (by omega)] at h20
          exact h20
        · omega
      · have : cp.toNat ≠ 0 := fun e => h (UInt8.toNat_inj.1 (by rw [e]; rfl))
        exact .inr (.inl ⟨by omega, h15⟩)
    · obtain ⟨b1, b2, -⟩ := a3 x hx
      rw [C80_display, if_neg b2, b1, if_neg (by omega), ht]
    · rw [C80_display, if_neg hd, e2, if_neg (by omega), ht] at e1
      have e1 : Text.shown t (StringDVB.fromStr s cp).data = s := by simpa using e1
      rw [← a2] at e1
      rw [← e1]
      simp only [Text.shown, List.flatMap, List.map_flatten, List.map_map, List.flatten_flatten]
      rfl
  · rw [C27_unknown_codepage s cp hu]
    have hd : (StringDVB.fromStr s 21).data ≠ [] := by
      rw [(C27_utf8 s).1]
      intro e
      obtain ⟨c, l, rfl⟩ := List.exists_cons_of_ne_nil hs
      simp only [Text.utf8, List.flatMap_cons, List.append_eq_nil_iff] at e
      have := congrArg List.length e.1
      have := String.length_utf8EncodeChar c
      have := Char.utf8Size_pos c
      simp_all
    have hcp : (StringDVB.fromStr s 21).codepage = 21 := by rw [(C27_utf8 s).1]
    obtain ⟨ps, a1, a2, a3, -⟩ := C30_split_partial p (StringDVB.fromStr s 21) n hd
      (by rw [reserved, hcp]; simp; omega) (fun _ => hn)
    obtain ⟨parts, b1, b2⟩ := C30_utf8_partial p s hb n hn hs
    rw [hcp] at a3
    refine ⟨ps, a1, fun x hx => ?_, fun x => StringDVB.fromUtf8Lossy x.data, fun x hx => ?_, ?_⟩
    · obtain ⟨c1, c2, c3⟩ := a3 x hx
      rw [C24_assemble, List.nil_append] at c3
      exact ⟨.inr ⟨c2, .inr (.inr (by rw [c1]; rfl))⟩, c3⟩
    · obtain ⟨c1, c2, -⟩ := a3 x hx
      rw [C80_display, if_neg c2, c1]; rfl
    · rw [b1] at a1
      cases a1
      rw [List.map_map]
      have : ∀ u : List Char, StringDVB.fromUtf8Lossy (StringDVB.fromStr u 21).data = u := by
        intro u
        rw [(C27_utf8 u).1]
        have := lossy_append u []
        rwa [List.append_nil, show StringDVB.fromUtf8Lossy [] = [] from rfl, List.append_nil] at this
      rw [← b2]
      congr 1
      exact map_id_of _ _ fun u _ => this u

/-- The table with the pieces is in range. -/
theorem long_inRange (p : Profile) (n : Nat) (hn : n ≤ 249) (code : List Char) (h3 : code.length = 3)
    (hcode : ∀ x ∈ code, 0x20 ≤ x.val.toNat ∧ x.val.toNat < 0x80) (t : Eit) (l r : List EitItem) (i : EitItem)
    (ht : Eit.InRange { t with items := l ++ i :: r }) (ps : List StringDVB) (a2 : ∀ x ∈ ps, roundTrips x ∧ (text x).length ≤ n) (h16 : ps.length ≤ 16)
    (hfit : (i.descriptors.flatMap Desc.wire).length + (ps.map fun x => 8 + (text x).length).sum ≤ 4066) :
    Eit.InRange { t with items := l ++ { i with descriptors := i.descriptors ++ extended (StringDVB.fromStr code 0) ps } :: r } := by
  refine ⟨ht.version, fun j hj => ?_⟩
  have hlang := (C131_default_partial p (.d4E ⟨0, 0, StringDVB.fromStr code 0, [], ⟨0, []⟩⟩) (by
    intro c hc
    simp only [Codes.codes, List.mem_singleton] at hc
    exact ⟨code, h3, hcode, hc⟩)).1 (StringDVB.fromStr code 0) (by simp [Codes.codes])
  have hd : ∀ d ∈ extended (StringDVB.fromStr code 0) ps, (d.InRange ∧ ¬ d.HasItems) ∧ d.Exact := by
    intro d hd
    obtain ⟨x, hx, rfl⟩ := List.mem_map.1 hd
    have hx' := List.mem_zipIdx' hx
    have hm : x.1 ∈ ps := hx'.2 ▸ List.getElem_mem _
    have hlt : x.2 < ps.length := hx'.1
    obtain ⟨b1, b2⟩ := a2 x.1 hm
    refine ⟨⟨⟨?_, ?_, hlang.1, ?_⟩, by simp [Desc.HasItems]⟩, hlang.2, by simp, b1⟩
    · rw [UInt8.toNat_ofNat']; omega
    · rw [UInt8.toNat_ofNat']; omega
    · simp; omega
  have hlen : ∀ (q : List (StringDVB × Nat)) (z : UInt8), ((q.map fun x => Desc.d4E ⟨UInt8.ofNat x.2, z, StringDVB.fromStr code 0, [], x.1⟩).flatMap Desc.wire).length = ((q.map Prod.fst).map fun x => 8 + (text x).length).sum := by
    intro q z
    induction q with
    | nil => rfl
    | cons x q ih =>
      simp only [List.map_cons, List.flatMap_cons, List.length_append, ih, List.sum_cons]
      simp [Desc.wire, Descriptor.extendedEvent, Descriptor.descriptor, Descriptor.sized, hlang.1]
      omega
  rcases List.mem_append.1 hj with h | h
  · exact ht.items j (List.mem_append_left _ h)
  · rcases List.mem_cons.1 h with rfl | h
    · obtain ⟨⟨i1, i2, i3, i4, i5, i6⟩, i7⟩ := ht.items i (by simp)
      refine ⟨⟨i1, i2, i3, i4, fun d hd' => ?_, ?_⟩, fun d hd' => ?_⟩
      · rcases List.mem_append.1 hd' with h | h
        · exact i5 d h
        · exact (hd d h).1
      · rw [Eit.entry_length]
        simp only [List.flatMap_append, List.length_append]
        rw [extended, hlen, List.zipIdx_map_fst]
        omega
      · rcases List.mem_append.1 hd' with h | h
        · exact i7 d h
        · exact (hd d h).2
    · exact ht.items j (List.mem_append_right _ (List.mem_cons_of_mem _ h))

/-- C134, what holds: a text of characters that its table has (for the default table: without control characters where a piece begins), or in UTF-8 of characters
up to U+FFFF, is split into pieces of at most `n` bytes, 4 to 249.  Sent as extended event descriptors with one event of a present/following
table, behind its other descriptors and among other events, up to 16 of them arrive if the event fits into its section, and the texts
that arrive, one after the other, are shown as the text. -/
theorem C134_arrives_partial (p : Profile) (s : List Char) (cp : UInt8) (n : Nat) (hs : s ≠ []) (hn : 4 ≤ n ∧ n ≤ 249)
    (hc : (∃ t, CodePage.upper cp.toNat = some t ∧ (∀ c ∈ s, Text.InTable t c) ∧ (cp = 0 → ∀ k c, s[k * n]? = some c → 0x20 ≤ c.val.toNat)) ∨
      (CodePage.upper cp.toNat = none ∧ ∀ c ∈ s, c.val.toNat < 0x10000))
    (code : List Char) (h3 : code.length = 3) (hcode : ∀ x ∈ code, 0x20 ≤ x.val.toNat ∧ x.val.toNat < 0x80)
    (t : Eit) (l r : List EitItem) (i : EitItem) (hid : t.tableId = 0x4E ∨ t.tableId = 0x4F)
    (ht : Eit.InRange { t with items := l ++ i :: r }) (hx : ∀ e, .d4E e ∉ i.descriptors) (pid : UInt16) (cc : UInt8) (dst : List UInt8) (hp : pid.toNat < 8192) (hcc : cc.toNat < 16)
    (st : Psi) :
    ∃ ps, (StringDVB.fromStr s cp).split p n = .ok ps ∧
      shown (i.descriptors ++ extended (StringDVB.fromStr code 0) ps) = .ok s ∧
      (ps.length ≤ 16 → (i.descriptors.flatMap Desc.wire).length + (ps.map fun x => 8 + (text x).length).sum ≤ 4066 →
        ∃ cc' pks s', Eit.demux p { t with items := l ++ { i with descriptors := i.descriptors ++ extended (StringDVB.fromStr code 0) ps } :: r } pid cc dst
            = .ok (cc', dst ++ pks.flatten) ∧ (∀ pk ∈ pks, IsTsPacket pid.toNat pk) ∧
          receive (Eit.parse p) p Eit.default st pks =
            .ok ({ t with items := l ++ { i with descriptors := i.descriptors ++ extended (StringDVB.fromStr code 0) ps } :: r }, s')) := by
  obtain ⟨ps, a1, a2, g, a3, a4⟩ := pieces p s cp n hs hn.1 hc
  refine ⟨ps, a1, ?_, fun h16 hfit => ?_⟩
  · rw [shown_append _ _ hx, shown_extended _ _ g a3, a4]
  · exact Eit.C58_round_trip_partial p { t with items := l ++ { i with descriptors := i.descriptors ++ extended (StringDVB.fromStr code 0) ps } :: r } hid
      (long_inRange p n hn.2 code h3 hcode t l r i ht ps a2 h16 hfit) (by simp) pid cc dst st hp hcc

/-- C134 for schedules: the pieces, up to 16, arrive with an event of a schedule that can be sent, among the other events. -/
theorem C134_schedule_partial (p : Profile) (s : List Char) (cp : UInt8) (n : Nat) (hs : s ≠ []) (hn : 4 ≤ n ∧ n ≤ 249)
    (hc : (∃ t, CodePage.upper cp.toNat = some t ∧ (∀ c ∈ s, Text.InTable t c) ∧ (cp = 0 → ∀ k c, s[k * n]? = some c → 0x20 ≤ c.val.toNat)) ∨
      (CodePage.upper cp.toNat = none ∧ ∀ c ∈ s, c.val.toNat < 0x10000))
    (code : List Char) (h3 : code.length = 3) (hcode : ∀ x ∈ code, 0x20 ≤ x.val.toNat ∧ x.val.toNat < 0x80)
    (t : Eit) (l r : List EitItem) (i : EitItem) (ht : Eit.InRange { t with items := l ++ i :: r }) (hx : ∀ e, .d4E e ∉ i.descriptors)
    (pid : UInt16) (cc : UInt8) (dst : List UInt8) (hp : pid.toNat < 8192) (hcc : cc.toNat < 16) (st : Psi) :
    ∃ ps u, (StringDVB.fromStr s cp).split p n = .ok ps ∧
      u = { t with items := l ++ { i with descriptors := i.descriptors ++ extended (StringDVB.fromStr code 0) ps } :: r } ∧
      shown (i.descriptors ++ extended (StringDVB.fromStr code 0) ps) = .ok s ∧
      (ps.length ≤ 16 → (i.descriptors.flatMap Desc.wire).length + (ps.map fun x => 8 + (text x).length).sum ≤ 4066 → u.Schedulable →
        ∃ cc' pks s' last, u.demux p pid cc dst = .ok (cc', dst ++ pks.flatten) ∧ (∀ pk ∈ pks, IsTsPacket pid.toNat pk) ∧ u.slots.getLast? = some last ∧
          receive (Eit.parse p) p Eit.default st pks = .ok ({ u with tableId := UInt8.ofNat last.table }, s')) := by
  obtain ⟨ps, a1, a2, g, a3, a4⟩ := pieces p s cp n hs hn.1 hc
  refine ⟨ps, _, a1, rfl, ?_, fun h16 hfit hS => ?_⟩
  · rw [shown_append _ _ hx, shown_extended _ _ g a3, a4]
  · exact Eit.C59_delivery_partial p _ hS (long_inRange p n hn.2 code h3 hcode t l r i ht ps a2 h16 hfit) pid cc dst st hp hcc

theorem bits (n l : Nat) (hl : l < 256) : beBytes 1 (overlay [(4, n), (4, l)]) = beBytes 1 ((n % 16 ||| l / 16) * 16 + l % 16) := by
  have h1 : l = l / 16 * 16 ||| l % 16 := by
    have := Nat.shiftLeft_add_eq_or_of_lt (show l % 16 < 2 ^ 4 by omega) (l / 16)
    rw [Nat.shiftLeft_eq] at this
    rw [← this]
    omega
  have h2 : overlay [(4, n), (4, l)] = (n ||| l / 16) * 16 + l % 16 := by
    have e : overlay [(4, n), (4, l)] = n * 16 ||| l := by simp [overlay]
    rw [e]
    have h3 := Nat.shiftLeft_add_eq_or_of_lt (show l % 16 < 2 ^ 4 by omega) (n ||| l / 16)
    rw [Nat.shiftLeft_or_distrib, Nat.shiftLeft_eq, Nat.shiftLeft_eq] at h3
    rw [show (n ||| l / 16) * 16 = n * 16 ||| l / 16 * 16 from by
      have := Nat.shiftLeft_or_distrib (a := n) (b := l / 16) (i := 4)
      simpa [Nat.shiftLeft_eq] using this]
    rw [show n * 16 ||| l / 16 * 16 = n * 2 ^ 4 ||| l / 16 * 2 ^ 4 from rfl, h3, Nat.or_assoc]
    congr 1
  have h4 : (n ||| l / 16) % 16 = n % 16 ||| l / 16 := by
    have := Nat.or_mod_two_pow (a := n) (b := l / 16) (n := 4)
    rw [show 2 ^ 4 = 16 from rfl] at this
    rw [this, Nat.mod_eq_of_lt (a := l / 16) (by omega)]
  rw [h2]
  simp only [beBytes, Nat.pow_zero, Nat.div_one, List.cons.injEq, and_true]
  rw [← UInt8.toNat_inj, UInt8.toNat_ofNat', UInt8.toNat_ofNat', ← h4]
  omega

/-- How an extended event descriptor without items arrives, whatever its numbers and its text. -/
theorem received (p : Profile) (d : Desc4E) (hi : d.items = []) (hl : (text d.lang).length = 3) (ht : (text d.text).length ≤ 249)
    (buf : List UInt8) (self : Descriptors) :
    ∃ out, (Desc.d4E d).assemble p buf = .ok (buf ++ out) ∧ Descriptors.parse p self out = .ok (self ++ [.d4E
      { number := UInt8.ofNat (d.number.toNat % 16 ||| d.lastNumber.toNat / 16), lastNumber := UInt8.ofNat (d.lastNumber.toNat % 16),
        lang := StringDVB.ofBytes (text d.lang), items := [], text := StringDVB.ofBytes (text d.text) }]) := by
  have hb := bits d.number.toNat d.lastNumber.toNat d.lastNumber.toNat_lt
  have hlt := d.lastNumber.toNat_lt
  have hnum : d.number.toNat % 16 ||| d.lastNumber.toNat / 16 < 16 := Nat.or_lt_two_pow (n := 4) (by omega) (by omega)
  have e : (Desc.d4E d).emitted = Descriptor.extendedEvent (d.number.toNat % 16 ||| d.lastNumber.toNat / 16) (d.lastNumber.toNat % 16) (text d.lang) []
      (text d.text) := by
    simp only [Desc.emitted, hi, AnyValue.extendedEvent, List.map_nil, List.sum_nil, List.flatMap_nil]
    rw [if_pos (by omega), hb]
    simp only [Descriptor.extendedEvent, Descriptor.descriptor, stating, List.flatMap_nil, Descriptor.pack, List.foldl_cons, List.foldl_nil,
      Nat.zero_mul, Nat.zero_add]
    congr 3
    simp only [Descriptor.sized, hl, List.length_append, List.length_cons, List.length_nil, beBytes]
    omega
  refine ⟨_, d4E_any d buf, ?_⟩
  have hp := C81_extended_event p _ _ (text d.lang) [] (text d.text) hnum (show d.lastNumber.toNat % 16 < 16 by omega) hl (by simp; omega)
  rw [← e] at hp
  have hf : Descriptor.frames (Desc.d4E d).emitted = [(Desc.d4E d).emitted] := by
    rw [e, Descriptor.extendedEvent, Descriptor.descriptor]
    generalize hB : beBytes 1 _ ++ _ ++ _ ++ _ = B
    have hlen : B.length = 6 + (text d.text).length := by rw [← hB]; simp [Descriptor.sized, hl]; omega
    have := frames_cons (UInt8.ofNat 0x4E) (UInt8.ofNat B.length) B [] (by rw [UInt8.toNat_ofNat']; omega)
    rw [List.append_nil] at this
    rw [this, Descriptor.frames.eq_def]
  rw [C37_frames, hf]
  simp only [List.mapM_cons, List.mapM_nil, hp, ok_bind, pure_eq_ok, map_ok, List.map_nil]

/-- C134 fails for more than 16 pieces: the numbers of the descriptors have four bits each and are not checked, so that every piece arrives with
a last number that is too small, and a number that the upper bits of the last number have been written over. -/
theorem C134_many_refuted (p : Profile) (lang : StringDVB) (hl : (text lang).length = 3) (ps : List StringDVB) (h1 : 16 < ps.length)
    (h2 : ps.length ≤ 256) (hx : ∀ x ∈ ps, (text x).length ≤ 249) (k : Nat) (d : Desc) (hk : (extended lang ps)[k]? = some d)
    (buf : List UInt8) (self : Descriptors) :
    ∃ out e, d.assemble p buf = .ok (buf ++ out) ∧ Descriptors.parse p self out = .ok (self ++ [.d4E e]) ∧ .d4E e ≠ d ∧
      e.lastNumber.toNat = (ps.length - 1) % 16 ∧ e.number.toNat = (k % 16 ||| (ps.length - 1) / 16) := by
  rw [extended, List.getElem?_map, Option.map_eq_some_iff] at hk
  obtain ⟨x, hx', rfl⟩ := hk
  rw [List.getElem?_zipIdx, Option.map_eq_some_iff] at hx'
  obtain ⟨y, hy, rfl⟩ := hx'
  have hlt : k < ps.length := (List.getElem?_eq_some_iff.1 hy).1
  obtain ⟨out, o1, o2⟩ := received p ⟨UInt8.ofNat (0 + k), UInt8.ofNat (ps.length - 1), lang, [], y⟩ rfl hl (hx y (List.mem_of_getElem? hy)) buf self
  have e1 : (UInt8.ofNat (0 + k)).toNat = k := by rw [UInt8.toNat_ofNat']; omega
  have e2 : (UInt8.ofNat (ps.length - 1)).toNat = ps.length - 1 := by rw [UInt8.toNat_ofNat']; omega
  have hnum : k % 16 ||| (ps.length - 1) / 16 < 16 := Nat.or_lt_two_pow (n := 4) (by omega) (by omega)
  rw [e1, e2] at o2
  refine ⟨out, _, o1, o2, fun e => ?_, ?_, ?_⟩
  · simp only [Desc.d4E.injEq, Desc4E.mk.injEq] at e
    have := congrArg UInt8.toNat e.2.1
    rw [e2, UInt8.toNat_ofNat'] at this
    omega
  · rw [UInt8.toNat_ofNat']; omega
  · rw [UInt8.toNat_ofNat']; omega

/-- C134 fails for pieces of more than 249 bytes: nothing is written for them.  Splitting a longer text into pieces of that size gives such. -/
theorem C134_large_refuted (p : Profile) :
    (∀ (d : Desc4E), 249 < (text d.text).length → ∀ buf, (Desc.d4E d).assemble p buf = .ok buf) ∧
    (∀ (s : StringDVB) (n : Nat), 249 < n → n < s.data.length → s.codepage = 0 →
      ∃ x ps, s.split p n = .ok (x :: ps) ∧ (text x).length = n) := by
  refine ⟨fun d hd buf => ?_, fun s n hn hs h0 => ?_⟩
  · have := d4E_any d buf
    rw [Desc.emitted, AnyValue.extendedEvent, if_neg (by omega), List.append_nil] at this
    exact this
  · have hr : reserved s.codepage = 0 := by rw [reserved, if_pos h0]
    obtain ⟨ps, a1, a2, a3, a4⟩ := C30_split_partial p s n (by intro e; rw [e] at hs; simp at hs) (by omega) (by rw [h0]; intro h; cases h)
    obtain ⟨-, a4⟩ := a4 (by rw [h0]; intro h; cases h)
    match ps, a1, a2, a3, a4 with
    | [], _, a2, _, _ => rw [← a2] at hs; simp at hs
    | [x], _, a2, a3, _ =>
      exfalso
      have := (a3 x (by simp)).2.2
      rw [C24_assemble, List.nil_append, (a3 x (by simp)).1, h0] at this
      simp only [List.map_cons, List.map_nil, List.flatten_cons, List.flatten_nil, List.append_nil] at a2
      rw [a2] at this
      cases hd : s.data with
      | nil => rw [hd] at hs; simp at hs
      | cons b l =>
        rw [hd] at this hs
        have e : Text.encoding (UInt8.toNat 0) (b :: l) = b :: l := rfl
        rw [e] at this
        omega
    | x :: y :: ps, a1, _, a3, a4 =>
      refine ⟨x, y :: ps, a1, ?_⟩
      have := a4 x (by simp)
      obtain ⟨b1, b2, -⟩ := a3 x (by simp)
      rw [hr, Nat.sub_zero] at this
      rw [text, b1, h0]
      obtain ⟨b, l, e⟩ := List.exists_cons_of_ne_nil b2
      rw [← this, e]
      rfl

/-- C134 fails for characters beyond U+FFFF, in UTF-8: where such a character is cut (C30), its place shows replacement characters. -/
theorem C134_cut_refuted (p : Profile) (a b : List Char) (c : Char) (hc : 0x10000 ≤ c.val.toNat) (lang : StringDVB) :
    ∃ ps rest, (StringDVB.fromStr (a ++ c :: b) 21).split p ((Text.utf8 a).length + 4) = .ok ps ∧
      shown (extended lang ps) = .ok (a ++ '\uFFFD' :: rest) := by
  obtain ⟨lead, tail, rest, h1, h2, h3⟩ := C30_utf8_refuted p a b c hc
  have hd : (StringDVB.fromStr (a ++ c :: b) 21).data ≠ [] := by
    rw [(C27_utf8 _).1]
    intro e
    simp [Text.utf8, h1] at e
  have hcp : (StringDVB.fromStr (a ++ c :: b) 21).codepage = 21 := by rw [(C27_utf8 _).1]
  obtain ⟨ps, a1, -, a3, -⟩ := C30_split_partial p (StringDVB.fromStr (a ++ c :: b) 21) ((Text.utf8 a).length + 4) hd
    (by rw [reserved, hcp]; simp) (fun _ => by omega)
  rw [hcp, h3] at *
  cases a1
  refine ⟨_, (rest.map fun x => StringDVB.fromUtf8Lossy x.data).flatten, rfl, ?_⟩
  rw [shown_extended lang _ (fun x => StringDVB.fromUtf8Lossy x.data) (fun x hx => by
    obtain ⟨c1, c2, -⟩ := a3 x hx
    rw [C80_display, if_neg c2, c1]; rfl)]
  have hl : StringDVB.fromUtf8Lossy [lead] = ['\uFFFD'] := by
    refine (reading_unique [lead] ['\uFFFD'] ?_).symm
    refine Utf8.Reading.bad [lead] [] [] (by simp) (.inl rfl) (by simp) (fun c' hc' => ?_) .nil
    have hpos := Char.utf8Size_pos c'
    rw [← String.length_utf8EncodeChar] at hpos
    have e : String.utf8EncodeChar c' = [lead] := by
      rw [List.append_nil] at hc'
      exact hc'.eq_of_length_le (by simpa using Nat.succ_le_of_lt hpos)
    have r1 := lossy_char c []
    have r2 := lossy_char c' tail
    rw [List.append_nil, h1] at r1
    rw [e, List.singleton_append, r1] at r2
    have hcc : c = c' := (List.cons.inj r2).1
    rw [← hcc, h1] at e
    rw [(List.cons.inj e).2] at h2
    cases h2
  rw [List.map_cons, List.flatten_cons, lossy_append, hl]
  simp

/-- Bytes of ASCII are shown as themselves in every table, if they are shown. -/
theorem ascii_shown (x : StringDVB) (h : ∀ b ∈ x.data, b.toNat < 0x80) (u : List Char) (hu : x.toStringR = .ok u) :
    u = x.data.map fun b => Char.ofNat b.toNat := by
  rw [C80_display] at hu
  split at hu
  · rename_i e
    rw [e]
    cases hu; rfl
  · split at hu
    · have e : x.data = Text.utf8 (x.data.map fun b => Char.ofNat b.toNat) := by
        generalize x.data = l at h
        induction l with
        | nil => rfl
        | cons b l ih =>
          rw [List.map_cons, Text.utf8, List.flatMap_cons, ← Text.utf8, ← ih fun x hx => h x (List.mem_cons_of_mem _ hx)]
          have hb := h b List.mem_cons_self
          have hv : (Char.ofNat b.toNat).val.toNat = b.toNat := char_toNat_ofNat (by omega)
          rw [String.utf8EncodeChar, if_pos (by omega)]
          simp only [List.singleton_append, List.cons.injEq, and_true]
          rw [hv, UInt8.ofNat_toNat]
      cases hu
      have := lossy_append (x.data.map fun b => Char.ofNat b.toNat) []
      rw [List.append_nil, ← e, show StringDVB.fromUtf8Lossy [] = [] from rfl, List.append_nil] at this
      exact this
    · split at hu
      · cases hu
        rename_i t _
        generalize x.data = l at h
        induction l with
        | nil => rfl
        | cons b l ih =>
          have hb := h b List.mem_cons_self
          have ih := ih fun x hx => h x (List.mem_cons_of_mem _ hx)
          simp only [Text.shown, List.flatMap_cons, List.map_cons] at ih ⊢
          rw [ih, Text.charOf, if_pos hb]
          rfl
      · cases hu

theorem ascii_data (s : List Char) (hs : ∀ c ∈ s, c.val.toNat < 0x80) : StringDVB.fromStr s 0 = ⟨0, s.map fun c => UInt8.ofNat c.val.toNat⟩ := by
  have fm : ∀ f : Char → List UInt8, (∀ c ∈ s, f c = [UInt8.ofNat c.val.toNat]) → s.flatMap f = s.map fun c => UInt8.ofNat c.val.toNat := by
    intro f hf
    clear hs
    induction s with
    | nil => rfl
    | cons a l ih => simp [hf a (by simp), ih fun c hc => hf c (by simp [hc])]
  obtain ⟨t, ht⟩ : ∃ t, CodePage.upper (0 : UInt8).toNat = some t := ⟨_, rfl⟩
  have h21 : (0 : UInt8) ≠ UTF8 := by decide
  simp only [StringDVB.fromStr, if_neg h21, map_eq, ht, Option.map_some]
  rw [fm _ fun c hc => encodeChar_ascii _ c (hs c hc)]

/-- What a text that begins with a control character is taken for: never for that text. -/
theorem taken (b : UInt8) (l : List UInt8) (hb : b.toNat < 0x20) (hl : ∀ x ∈ l, x.toNat < 0x80) :
    (∀ x ∈ (StringDVB.ofBytes (b :: l)).data, x.toNat < 0x80) ∧ (StringDVB.ofBytes (b :: l)).data ≠ b :: l := by
  rw [StringDVB.ofBytes]
  have drop : ∀ k, l.drop k ≠ b :: l := fun k e => by
    have := congrArg List.length e
    simp at this
    omega
  split_ifs with h1 h2 h3 h4
  · exact ⟨hl, drop 0⟩
  · rw [ge_iff_le, UInt8.le_iff_toNat_le] at h2
    exact absurd h2 (by show ¬ 32 ≤ _; omega)
  · exact ⟨hl, drop 0⟩
  · exact ⟨fun x hx => hl x (List.mem_of_mem_drop hx), drop 2⟩
  · refine ⟨by simp, fun e => ?_⟩
    have := (List.cons.inj e).1
    rw [← this] at hb
    exact absurd hb (by decide)

/-- C134 fails for control characters in the default table: where a piece begins with one, it is taken for the selector of a table, and the
piece is not shown as it was. -/
theorem C134_control_refuted (p : Profile) (a b : List Char) (c : Char) (hc : c.val.toNat < 0x20) (hb : ∀ x ∈ a ++ b, x.val.toNat < 0x80)
    (ha : 1 ≤ a.length ∧ a.length ≤ 249) (lang : StringDVB) (hl : (text lang).length = 3) (buf : List UInt8) (self : Descriptors) :
    ∃ x y ps d, (StringDVB.fromStr (a ++ c :: b) 0).split p a.length = .ok (x :: y :: ps) ∧ (extended lang (x :: y :: ps))[1]? = some d ∧
      shown [d] = .ok (c :: b.take (a.length - 1)) ∧
      ∃ out e, d.assemble p buf = .ok (buf ++ out) ∧ Descriptors.parse p self out = .ok (self ++ [e]) ∧
        shown [e] ≠ .ok (c :: b.take (a.length - 1)) := by
  let f := fun c : Char => UInt8.ofNat c.val.toNat
  have hall : ∀ x ∈ a ++ c :: b, x.val.toNat < 0x80 := by
    intro x hx
    rcases List.mem_append.1 hx with h | h
    · exact hb x (List.mem_append_left _ h)
    · rcases List.mem_cons.1 h with rfl | h
      · omega
      · exact hb x (List.mem_append_right _ h)
  have e0 := ascii_data (a ++ c :: b) hall
  generalize StringDVB.fromStr (a ++ c :: b) 0 = s at e0
  subst e0
  obtain ⟨ps, a1, a2, a3, a4⟩ := C30_split_partial p ⟨0, (a ++ c :: b).map f⟩ a.length (by simp) (by rw [reserved, if_pos rfl]; omega)
    (fun h => by cases h)
  obtain ⟨a4, a5⟩ := a4 (fun h => by cases h)
  have hr : reserved (0 : UInt8) = 0 := by rw [reserved, if_pos rfl]
  simp only [hr, Nat.sub_zero, List.length_map, List.length_append, List.length_cons] at a4 a5
  have h2 : 2 ≤ ps.length := by
    rw [a4, Nat.le_div_iff_mul_le (by omega)]
    omega
  match ps, h2, a1, a2, a3, a5 with
  | x :: y :: ps, _, a1, a2, a3, a5 =>
    have hx : x.data.length = a.length := a5 x (by simp)
    simp only [List.map_cons, List.flatten_cons, List.map_append] at a2
    obtain ⟨-, hy⟩ := List.append_inj a2 (by rw [hx, List.length_map])
    have hyd : y.data = f c :: (b.take (a.length - 1)).map f := by
      have e1 : y.data = (f c :: b.map f).take a.length := by
        rw [← hy]
        cases ps with
        | nil =>
          obtain ⟨y1, y2, y3⟩ := a3 y (by simp)
          rw [C24_assemble, List.nil_append, y1] at y3
          obtain ⟨z, l, e⟩ := List.exists_cons_of_ne_nil y2
          rw [e] at y3 ⊢
          rw [show Text.encoding (0 : UInt8).toNat (z :: l) = z :: l from rfl] at y3
          simp only [List.map_nil, List.flatten_nil, List.append_nil]
          rw [List.take_of_length_le y3]
        | cons z r =>
          have := a5 y (by simp)
          rw [List.take_append_of_le_length (by omega), List.take_of_length_le (by omega)]
      rw [e1]
      obtain ⟨n, hn⟩ : ∃ n, a.length = n + 1 := ⟨a.length - 1, by omega⟩
      rw [hn, List.take_succ_cons, Nat.add_sub_cancel, List.map_take]
    have hcp : y.codepage = 0 := (a3 y (by simp)).1
    have hty : text y = y.data := by
      rw [text, hcp, hyd]
      rfl
    have hlen : (text y).length ≤ 249 := by
      rw [hty, hyd]
      simp
      omega
    have fv : ∀ x : Char, x.val.toNat < 0x80 → (f x).toNat = x.val.toNat := fun x hx => by
      show (UInt8.ofNat _).toNat = _
      rw [UInt8.toNat_ofNat']
      omega
    have hch : ∀ x : Char, x.val.toNat < 0x80 → Char.ofNat (f x).toNat = x := fun x hx => by
      rw [fv x hx]
      exact Char.ofNat_toNat x
    have htake : ∀ x ∈ b.take (a.length - 1), x.val.toNat < 0x80 := fun x hx => hb x (List.mem_append_right _ (List.mem_of_mem_take hx))
    have hsmall : ∀ z ∈ (b.take (a.length - 1)).map f, z.toNat < 0x80 := by
      intro z hz
      obtain ⟨x, hx, rfl⟩ := List.mem_map.1 hz
      rw [fv x (htake x hx)]
      exact htake x hx
    have hback : y.data.map (fun z => Char.ofNat z.toNat) = c :: b.take (a.length - 1) := by
      rw [hyd, List.map_cons, hch c (by omega), List.map_map]
      congr 1
      exact map_id_of _ _ fun x hx => hch x (htake x hx)
    obtain ⟨out, o1, o2⟩ := received p ⟨UInt8.ofNat 1, UInt8.ofNat ((x :: y :: ps).length - 1), lang, [], y⟩ rfl hl hlen buf self
    refine ⟨x, y, ps, _, a1, rfl, ?_, out, _, o1, o2, ?_⟩
    · have hok : y.toStringR = .ok (y.data.map fun z => Char.ofNat z.toNat) := by
        obtain ⟨t, ht⟩ : ∃ t, CodePage.upper (0 : UInt8).toNat = some t := ⟨_, rfl⟩
        have : ∃ u, y.toStringR = .ok u := by
          rw [C80_display, if_neg (by rw [hyd]; simp), hcp, ht]
          exact ⟨_, rfl⟩
        obtain ⟨u, hu⟩ := this
        rw [hu, ascii_shown y (by
          rw [hyd]
          intro z hz
          rcases List.mem_cons.1 hz with rfl | hz
          · rw [fv c (by omega)]; omega
          · exact hsmall z hz) u hu]
      rw [hback] at hok
      simp only [shown, List.mapM_cons, List.mapM_nil, hok, ok_bind, pure_eq_ok, map_ok]
      simp
    · intro hsh
      simp only [shown, List.mapM_cons, List.mapM_nil, pure_eq_ok] at hsh
      rw [hty, hyd] at hsh
      obtain ⟨t1, t2⟩ := taken (f c) ((b.take (a.length - 1)).map f) (by rw [fv c (by omega)]; exact hc) hsmall
      cases hz : (StringDVB.ofBytes (f c :: (b.take (a.length - 1)).map f)).toStringR with
      | error e => rw [hz, error_bind] at hsh; cases hsh
      | ok u =>
        rw [hz, ok_bind, ok_bind, map_ok] at hsh
        simp only [List.flatten_cons, List.flatten_nil, List.append_nil, Except.ok.injEq] at hsh
        rw [ascii_shown _ t1 u hz, ← hback, hyd] at hsh
        have hback' : ∀ l : List UInt8, (l.map fun z => Char.ofNat z.toNat).map f = l := by
          intro l
          rw [List.map_map]
          refine map_id_of _ _ fun z _ => ?_
          show UInt8.ofNat (Char.ofNat z.toNat).val.toNat = z
          have := z.toNat_lt
          rw [char_toNat_ofNat (by omega), UInt8.ofNat_toNat]
        have := congrArg (List.map f) hsh
        rw [hback', hback'] at this
        exact t2 this

/-! ## Concrete cases -/

/-- The event of `sampleEit` that the text is added to. -/
def sampleEvent : EitItem := ⟨1, 1700000000, 3600, 4, 1, [.d4D ⟨⟨0, [0x65, 0x6E, 0x67]⟩, ⟨0, [0x41]⟩, ⟨1, [0x42, 0x43]⟩⟩]⟩

/-- Three letters of ISO 8859-5, one in each piece. -/
example (p : Profile) (st : Psi) := C134_arrives_partial p "Мир".toList 5 4 (by decide) (by decide) (.inl ⟨_, Text.mir_pir.2.2, Text.mir_pir.1, fun h => absurd h (by decide)⟩)
  "rus".toList rfl (by decide) sampleEit [] [⟨0xFFFF, 1700003600, 86399, 1, 0, []⟩] sampleEvent (by decide) sampleEit_inRange (by simp [sampleEvent])
  0x12 3 [] (by decide) (by decide) st
example : (StringDVB.fromStr "Мир".toList 5).split .debug 4 = .ok [⟨5, [0xBC]⟩, ⟨5, [0xD8]⟩, ⟨5, [0xE0]⟩] := by decide +kernel
/-- Two lines in the default table, cut within the second. -/
theorem lines_ok : ∃ t, CodePage.upper (0 : UInt8).toNat = some t ∧ (∀ c ∈ "One\nTwo".toList, Text.InTable t c) ∧
    ((0 : UInt8) = 0 → ∀ k c, "One\nTwo".toList[k * 5]? = some c → 0x20 ≤ c.val.toNat) := by
  refine ⟨_, rfl, fun c hc => ⟨UInt8.ofNat c.val.toNat, ?_⟩, fun _ k c h => ?_⟩
  · revert c; decide +kernel
  · match k with
    | 0 => cases h; decide
    | 1 => cases h; decide
    | k + 2 =>
      rw [List.getElem?_eq_none (by show 7 ≤ _; omega)] at h
      cases h
example (p : Profile) (st : Psi) := C134_arrives_partial p "One\nTwo".toList 0 5 (by decide) (by decide) (.inl lines_ok)
  "eng".toList rfl (by decide) sampleEit [] [⟨0xFFFF, 1700003600, 86399, 1, 0, []⟩] sampleEvent (by decide) sampleEit_inRange (by simp [sampleEvent])
  0x12 3 [] (by decide) (by decide) st
/-- In UTF-8: two bytes for a letter, five bytes for the text of a piece. -/
example (p : Profile) (st : Psi) := C134_arrives_partial p "Мир!".toList 21 6 (by decide) (by decide) (.inr ⟨rfl, by decide⟩)
  "rus".toList rfl (by decide) sampleEit [] [⟨0xFFFF, 1700003600, 86399, 1, 0, []⟩] sampleEvent (by decide) sampleEit_inRange (by simp [sampleEvent])
  0x12 3 [] (by decide) (by decide) st
example : (StringDVB.fromStr "Мир!".toList 21).split .debug 6 = .ok [StringDVB.fromStr "Ми".toList 21, StringDVB.fromStr "р!".toList 21] := by decide +kernel

/-- The pieces with the first event of a schedule: the schedule can be sent. -/
def longSchedule : Eit := { sampleSchedule with items :=
  { sampleEvent with descriptors := sampleEvent.descriptors ++ extended (StringDVB.fromStr "rus".toList 0) [⟨5, [0xBC]⟩, ⟨5, [0xD8]⟩, ⟨5, [0xE0]⟩] } ::
    sampleSchedule.items.tail }
theorem longSchedule_ok : longSchedule.Schedulable :=
  ⟨by decide, by decide, by decide +kernel, by decide +kernel, Eit.capacity_small _ (by decide +kernel)⟩
example (p : Profile) (st : Psi) : ∃ cc' pks s' last, longSchedule.demux p 0x12 3 [] = .ok (cc', [] ++ pks.flatten) ∧
    (∀ pk ∈ pks, IsTsPacket 0x12 pk) ∧ longSchedule.slots.getLast? = some last ∧
    receive (Eit.parse p) p Eit.default st pks = .ok ({ longSchedule with tableId := UInt8.ofNat last.table }, s') := by
  obtain ⟨ps, u, h1, rfl, -, h3⟩ := C134_schedule_partial p "Мир".toList 5 4 (by decide) (by decide)
    (.inl ⟨_, Text.mir_pir.2.2, Text.mir_pir.1, fun h => absurd h (by decide)⟩) "rus".toList rfl (by decide) sampleSchedule [] sampleSchedule.items.tail
    sampleEvent sampleSchedule_inRange (by simp [sampleEvent]) 0x12 3 [] (by decide) (by decide) st
  have hp : (StringDVB.fromStr "Мир".toList 5).split p 4 = .ok [⟨5, [0xBC]⟩, ⟨5, [0xD8]⟩, ⟨5, [0xE0]⟩] := by cases p <;> decide +kernel
  rw [hp] at h1
  obtain rfl := Except.ok.inj h1
  exact h3 (by decide) (by decide +kernel) longSchedule_ok

/-- Twenty pieces: the third arrives as the fourth of four. -/
example (p : Profile) (buf self) := C134_many_refuted p ⟨0, [0x65, 0x6E, 0x67]⟩ rfl (List.replicate 20 ⟨0, [0x41]⟩) (by decide) (by decide) (by decide)
  2 (.d4E ⟨2, 19, ⟨0, [0x65, 0x6E, 0x67]⟩, [], ⟨0, [0x41]⟩⟩) (by decide) buf self
example : Descriptors.parse .debug [] [0x4E, 7, 0x33, 0x65, 0x6E, 0x67, 0, 1, 0x41] = .ok [.d4E ⟨3, 3, ⟨0, [0x65, 0x6E, 0x67]⟩, [], ⟨0, [0x41]⟩⟩] ∧
    (Desc.d4E ⟨2, 19, ⟨0, [0x65, 0x6E, 0x67]⟩, [], ⟨0, [0x41]⟩⟩).assemble .debug [] = .ok [0x4E, 7, 0x33, 0x65, 0x6E, 0x67, 0, 1, 0x41] := by decide +kernel

example (p : Profile) (buf) := (C134_large_refuted p).1 ⟨0, 0, ⟨0, [0x65, 0x6E, 0x67]⟩, [], ⟨0, List.replicate 250 0x41⟩⟩
  (by rw [text]; decide +kernel) buf
example (p : Profile) := (C134_large_refuted p).2 ⟨0, List.replicate 300 0x41⟩ 255 (by decide) (by rw [List.length_replicate]; decide) rfl

/-- A smiling face, cut after its first byte. -/
example (p : Profile) (lang) := C134_cut_refuted p "Hi".toList "!".toList '😀' (by decide) lang

/-- Two lines of eight characters: the line feed between them selects ISO 8859-14 for the second. -/
example (p : Profile) (buf self) := C134_control_refuted p "Tonight.".toList "At nine.".toList '\n' (by decide) (by decide) (by decide)
  ⟨0, [0x65, 0x6E, 0x67]⟩ rfl buf self
example : (StringDVB.fromStr "Tonight.\nAt nine.".toList 0).split .debug 8 = .ok
      [StringDVB.fromStr "Tonight.".toList 0, StringDVB.fromStr "\nAt nine".toList 0, StringDVB.fromStr ".".toList 0] ∧
    StringDVB.ofBytes ((StringDVB.fromStr "\nAt nine".toList 0).assemble []) = StringDVB.fromStr "At nine".toList 14 := by decide +kernel

end Pieces
end Mpegts
