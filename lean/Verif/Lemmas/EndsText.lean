import Verif.Lemmas.Ends
import Verif.Model.DebugText

/-! # Texts and `Debug` output end -/

namespace Mpegts
open Spec

instance (s : StringDVB) : End s.toStringR := by
  have h := C28_no_undefined_behaviour s
  generalize s.toStringR = r at h
  rcases r with e | v
  · cases e
    · exact ⟨.inr rfl⟩
    · exact absurd rfl h.2
    · exact absurd rfl h.1
  · exact ⟨.inl ⟨v, rfl⟩⟩

instance (s : StringDVB) : End s.display := by
  have h := C28_no_undefined_behaviour s
  unfold StringDVB.toStringR at h
  generalize s.display = r at h
  rcases r with e | v
  · cases e
    · exact ⟨.inr rfl⟩
    · exact absurd rfl h.2
    · exact absurd rfl h.1
  · exact ⟨.inl ⟨v, rfl⟩⟩

instance (ds : Descriptors) : End (Descriptors.clone ds) := by
  unfold Descriptors.clone
  induction ds with
  | nil => rw [List.mapM_nil]; infer_instance
  | cons d rest ih => rw [List.mapM_cons]; ends

/-- All fields of a record can be written. -/
class EndFields (l : List (Text × R Text)) : Prop where
  out : ∀ x ∈ l, End x.2
instance : EndFields [] := ⟨fun x hx => by cases hx⟩
instance (n : Text) (v : R Text) (l : List (Text × R Text)) [h : End v] [hl : EndFields l] : EndFields ((n, v) :: l) := ⟨fun x hx => by
  rcases List.mem_cons.1 hx with rfl | hx
  · exact h
  · exact hl.out x hx⟩
instance (a b : List (Text × R Text)) [ha : EndFields a] [hb : EndFields b] : EndFields (a ++ b) := ⟨fun x hx => by
  rcases List.mem_append.1 hx with hx | hx
  · exact ha.out x hx
  · exact hb.out x hx⟩

/-- All entries of a list can be written. -/
class EndItems (l : List (R Text)) : Prop where
  out : ∀ x ∈ l, End x
instance : EndItems [] := ⟨fun x hx => by cases hx⟩
instance (v : R Text) (l : List (R Text)) [h : End v] [hl : EndItems l] : EndItems (v :: l) := ⟨fun x hx => by
  rcases List.mem_cons.1 hx with rfl | hx
  · exact h
  · exact hl.out x hx⟩
instance {α : Type} (g : α → R Text) (l : List α) [h : ∀ a, End (g a)] : EndItems (l.map g) := ⟨fun x hx => by
  obtain ⟨a, _, rfl⟩ := List.mem_map.1 hx
  exact h a⟩

instance (n : Nat) : End (numText n) := by unfold numText; ends
instance (b : Bool) : End (boolText b) := by unfold boolText; ends

theorem end_structLoop (f : Fmt) (l : List (Text × R Text)) (h : ∀ x ∈ l, End x.2) (has : Bool) (out : Text) : End (structLoop f has out l) := by
  induction l generalizing has out with
  | nil => unfold structLoop; ends
  | cons x l ih =>
    unfold structLoop
    exact End.bind' (h x (.head _)) fun _ _ => ih (fun y hy => h y (.tail _ hy)) _ _

theorem end_listLoop (f : Fmt) (l : List (R Text)) (h : ∀ x ∈ l, End x) (has : Bool) (out : Text) : End (listLoop f has out l) := by
  induction l generalizing has out with
  | nil => unfold listLoop; ends
  | cons x l ih =>
    unfold listLoop
    exact End.bind' (h x (.head _)) fun _ _ => ih (fun y hy => h y (.tail _ hy)) _ _

theorem end_tupleLoop (f : Fmt) (l : List (R Text)) (h : ∀ x ∈ l, End x) (has : Bool) (out : Text) : End (tupleLoop f has out l) := by
  induction l generalizing has out with
  | nil => unfold tupleLoop; ends
  | cons x l ih =>
    unfold tupleLoop
    exact End.bind' (h x (.head _)) fun _ _ => ih (fun y hy => h y (.tail _ hy)) _ _

instance (f : Fmt) (n : Text) (l : List (Text × R Text)) [h : EndFields l] : End (structText f n l) := end_structLoop f l h.out _ _
instance (f : Fmt) (l : List (R Text)) [h : EndItems l] : End (listText f l) := end_listLoop f l h.out _ _
instance (f : Fmt) (l : List (R Text)) [h : EndItems l] : End (tupleText f l) := end_tupleLoop f l h.out _ _

instance (f : Fmt) (d : StringDVB) : End (d.debugText f) := by unfold StringDVB.debugText; ends
instance (f : Fmt) (d : Desc0Ai) : End (d.debugText f) := by unfold Desc0Ai.debugText; ends
instance (f : Fmt) (d : Desc41i) : End (d.debugText f) := by unfold Desc41i.debugText; ends
instance (f : Fmt) (d : Desc58i) : End (d.debugText f) := by unfold Desc58i.debugText; ends
instance (f : Fmt) (d : Desc83i) : End (d.debugText f) := by unfold Desc83i.debugText; ends
instance (f : Fmt) (d : DescRaw) : End (d.debugText f) := by unfold DescRaw.debugText; ends
instance (f : Fmt) (d : Desc09) : End (d.debugText f) := by unfold Desc09.debugText; ends
instance (f : Fmt) (d : Desc0A) : End (d.debugText f) := by unfold Desc0A.debugText; ends
instance (f : Fmt) (d : Desc0E) : End (d.debugText f) := by unfold Desc0E.debugText; ends
instance (f : Fmt) (d : Desc40) : End (d.debugText f) := by unfold Desc40.debugText; ends
instance (f : Fmt) (d : Desc41) : End (d.debugText f) := by unfold Desc41.debugText; ends
instance (f : Fmt) (d : Desc43) : End (d.debugText f) := by unfold Desc43.debugText; ends
instance (f : Fmt) (d : Desc44) : End (d.debugText f) := by unfold Desc44.debugText; ends
instance (f : Fmt) (d : Desc48) : End (d.debugText f) := by unfold Desc48.debugText; ends
instance (f : Fmt) (d : Desc4D) : End (d.debugText f) := by unfold Desc4D.debugText; ends
instance (f : Fmt) (d : Desc4E) : End (d.debugText f) := by unfold Desc4E.debugText; ends
instance (f : Fmt) (d : Desc52) : End (d.debugText f) := by unfold Desc52.debugText; ends
instance (f : Fmt) (d : Desc58) : End (d.debugText f) := by unfold Desc58.debugText; ends
instance (f : Fmt) (d : Desc5A) : End (d.debugText f) := by unfold Desc5A.debugText; ends
instance (f : Fmt) (d : Desc83) : End (d.debugText f) := by unfold Desc83.debugText; ends
instance (f : Fmt) (d : Desc) : End (d.debugText f) := by unfold Desc.debugText; ends
instance (f : Fmt) (ds : Descriptors) : End (descriptorsText f ds) := by unfold descriptorsText; ends
instance (f : Fmt) (d : PatItem) : End (d.debugText f) := by unfold PatItem.debugText; ends
instance (f : Fmt) (d : Pat) : End (d.debugText f) := by unfold Pat.debugText; ends
instance (f : Fmt) (d : PmtItem) : End (d.debugText f) := by unfold PmtItem.debugText; ends
instance (f : Fmt) (d : Pmt) : End (d.debugText f) := by unfold Pmt.debugText; ends
instance (f : Fmt) (d : NitItem) : End (d.debugText f) := by unfold NitItem.debugText; ends
instance (f : Fmt) (d : Nit) : End (d.debugText f) := by unfold Nit.debugText; ends
instance (f : Fmt) (d : SdtItem) : End (d.debugText f) := by unfold SdtItem.debugText; ends
instance (f : Fmt) (d : Sdt) : End (d.debugText f) := by unfold Sdt.debugText; ends
instance (f : Fmt) (d : EitItem) : End (d.debugText f) := by unfold EitItem.debugText; ends
instance (f : Fmt) (d : Eit) : End (d.debugText f) := by unfold Eit.debugText; ends
instance (f : Fmt) (d : Tdt) : End (d.debugText f) := by unfold Tdt.debugText; ends
instance (f : Fmt) (d : Tot) : End (d.debugText f) := by unfold Tot.debugText; ends
instance (f : Fmt) (d : Psi) : End (d.debugText f) := by unfold Psi.debugText; ends
instance (f : Fmt) (d : Block) : End (d.debugText f) := by unfold Block.debugText; ends
instance (f : Fmt) (inner : R Text) [End inner] : End (TsReader.debugText f inner) := by unfold TsReader.debugText; ends
instance {σ : Type} (f : Fmt) (inner : σ → R Text) [∀ s, End (inner s)] (d : TsDrain σ) : End (d.debugText f inner) := by unfold TsDrain.debugText; ends
instance {σ : Type} (f : Fmt) (inner : σ → R Text) [∀ s, End (inner s)] (d : Cbr σ) : End (d.debugText f inner) := by unfold Cbr.debugText; ends
instance (v : Option UInt64) : EndFields (match v with
      | none => []
      | some v => [(t!"pcr", numText v.toNat)]) := by cases v <;> (dsimp only; infer_instance)
instance (f : Fmt) (packet : List UInt8) : End (Ts.adaptationText f packet) := by unfold Ts.adaptationText; ends
instance (f : Fmt) (p : Profile) (packet : List UInt8) : End (Ts.packetText f p packet) := by unfold Ts.packetText; ends

/-! ## `split` -/

namespace StringDVB

/-- If the loop does not advance, it never ends. -/
theorem splitLoop_cases (p : Profile) (s : StringDVB) (size : Nat) (fuel skip : Nat) (out : List StringDVB) (h0 : 0 < fuel)
    (h : s.data.length < fuel + skip) :
    End (splitLoop p s size fuel skip out) ∨ ∀ fuel out, splitLoop p s size fuel skip out = .error .diverge := by
  induction fuel generalizing skip out with
  | zero => exact absurd h0 (by omega)
  | succ fuel ih =>
    by_cases hs : skip < s.data.length
    · generalize hn : (if s.codepage = UTF8 ∧ min s.data.length (skip + size) < s.data.length then
          splitBack p s.data 2 (min s.data.length (skip + size)) else pure (min s.data.length (skip + size))) = nx
      have hstep : ∀ fuel out, splitLoop p s size (fuel + 1) skip out =
          nx >>= fun next => slice s.data skip next >>= fun piece => splitLoop p s size fuel next (out ++ [⟨s.codepage, piece⟩]) := by
        intro fuel out
        rw [splitLoop, if_pos hs, ← hn]
        dsimp only
        split <;> rfl
      have hend : End nx := by rw [← hn]; ends
      rcases hend.out with ⟨next, hx⟩ | hx
      · rw [hx] at hstep
        simp only [ok_bind] at hstep
        by_cases hsl : skip ≤ next ∧ next ≤ s.data.length
        · have hsl' : slice s.data skip next = .ok ((s.data.take next).drop skip) := by unfold slice; rw [if_pos hsl]
          rw [hsl'] at hstep
          simp only [ok_bind] at hstep
          by_cases he : next = skip
          · right
            rw [he] at hstep
            intro fuel
            induction fuel with
            | zero => intro out; rfl
            | succ fuel ih' => intro out; rw [hstep]; exact ih' _
          · rw [hstep]
            rcases ih next (out ++ [⟨s.codepage, (s.data.take next).drop skip⟩]) (by omega) (by omega) with h | h
            · exact .inl h
            · right
              intro fuel out
              cases fuel with
              | zero => rfl
              | succ fuel => rw [hstep]; exact h _ _
        · have hsl' : slice s.data skip next = panic := by unfold slice; rw [if_neg hsl]
          rw [hsl'] at hstep
          rw [hstep]
          exact .inl ⟨.inr rfl⟩
      · rw [hx] at hstep
        rw [hstep]
        exact .inl ⟨.inr rfl⟩
    · left
      rw [splitLoop, if_neg hs]
      infer_instance

/-- `split` ends, or it does not end with any number of iterations. -/
theorem split_cases (p : Profile) (s : StringDVB) (n : Nat) : End (s.split p n) ∨ ∀ fuel, s.splitFuel p fuel n = .error .diverge := by
  unfold split
  generalize hn : (if s.codepage = 0 then pure n else if s.codepage = UTF8 then usizeSub p n 1 else usizeSub p n 3 : R Nat) = nx
  have hstep : ∀ fuel, s.splitFuel p fuel n = nx >>= fun size => if s.data.isEmpty then return [s] else splitLoop p s size fuel 0 [] := by
    intro fuel
    rw [splitFuel, ← hn]
    dsimp only
    split
    · rfl
    · split <;> rfl
  have hend : End nx := by rw [← hn]; ends
  rcases hend.out with ⟨size, hx⟩ | hx
  · rw [hx] at hstep
    simp only [ok_bind] at hstep
    by_cases he : s.data.isEmpty
    · left
      rw [hstep, if_pos he]
      infer_instance
    · simp only [if_neg he] at hstep
      rw [hstep]
      rcases splitLoop_cases p s size (s.data.length + 1) 0 [] (by omega) (by omega) with h | h
      · exact .inl h
      · right
        intro fuel
        rw [hstep]
        exact h _ _
  · left
    rw [hstep, hx]
    exact ⟨.inr rfl⟩

end StringDVB

end Mpegts
