import Verif.Lemmas.DebugText

/-! # Every `Debug` impl writes the text of the specification -/

namespace Mpegts
open Spec Spec.Shown

theorem displayable_iff (s : StringDVB) : Displayable s ↔ s.toStringR ≠ panic := by
  rw [Ne, C28_panics_iff, Displayable]
  by_cases h : s.data = []
  · simp [h]
  · simp only [h, false_or, ne_eq, not_false_eq_true, true_and]; omega

theorem says_quoted (f : Fmt) (hq : ∀ t, '\n' ∉ f.quote t) (s : StringDVB) : Says f (f.quote <$> s.toStringR) (.quoted s) where
  bad := by
    rintro ⟨s', hs, hn⟩
    obtain rfl : s' = s := by simpa [Shown.quoted] using hs
    rw [displayable_iff] at hn
    rw [Classical.not_not.mp hn]; rfl
  good hg := by
    have h := hg s (by simp [Shown.quoted])
    rw [displayable_iff] at h
    obtain ⟨n1, n2⟩ := C28_no_undefined_behaviour s
    cases hs : s.toStringR with
    | error e => cases e <;> simp_all
    | ok t =>
      have hd : displayed s = t := by rw [displayed, hs]
      cases hf : f.alternate <;> simp [text, Shown.quoted, separated, hd] <;> rfl
  lined := ⟨by simp [Shown.quoted], by simp [Shown.quoted, hq]⟩

theorem says_string (f : Fmt) (hq : ∀ t, '\n' ∉ f.quote t) (s : StringDVB) : Says f (s.debugText f) (.string s) :=
  Says.struct f (by decide) (.cons (by decide) (Says.num f _) (.cons (by decide) (says_quoted f hq s) .nil)) (by simp)

theorem says_desc0Ai (f : Fmt) (hq : ∀ t, '\n' ∉ f.quote t) (d : Desc0Ai) : Says f (d.debugText f) (desc0Ai d) :=
  Says.struct f (by decide) (.cons (by decide) (says_string f hq _) (.cons (by decide) (Says.num f _) .nil)) (by simp)

theorem says_desc41i (f : Fmt) (hq : ∀ t, '\n' ∉ f.quote t) (d : Desc41i) : Says f (d.debugText f) (desc41i d) :=
  Says.struct f (by decide) (.cons (by decide) (Says.num f _) (.cons (by decide) (Says.num f _) .nil)) (by simp)

theorem says_desc58i (f : Fmt) (hq : ∀ t, '\n' ∉ f.quote t) (d : Desc58i) : Says f (d.debugText f) (desc58i d) :=
  Says.struct f (by decide) (.cons (by decide) (says_string f hq _) (.cons (by decide) (Says.num f _) (.cons (by decide) (Says.num f _) (.cons (by decide) (Says.num f _) (.cons (by decide) (Says.num f _) (.cons (by decide) (Says.num f _) .nil)))))) (by simp)

theorem says_desc83i (f : Fmt) (hq : ∀ t, '\n' ∉ f.quote t) (d : Desc83i) : Says f (d.debugText f) (desc83i d) :=
  Says.struct f (by decide) (.cons (by decide) (Says.num f _) (.cons (by decide) (Says.num f _) (.cons (by decide) (Says.num f _) .nil))) (by simp)

theorem says_descRaw (f : Fmt) (hq : ∀ t, '\n' ∉ f.quote t) (d : DescRaw) : Says f (d.debugText f) (descRaw d) :=
  Says.struct f (by decide) (.cons (by decide) (Says.num f _) (.cons (by decide) (Says.bytes f _) .nil)) (by simp)

theorem says_desc09 (f : Fmt) (hq : ∀ t, '\n' ∉ f.quote t) (d : Desc09) : Says f (d.debugText f) (desc09 d) :=
  Says.struct f (by decide) (.cons (by decide) (Says.num f _) (.cons (by decide) (Says.num f _) (.cons (by decide) (Says.bytes f _) .nil))) (by simp)

theorem says_desc0A (f : Fmt) (hq : ∀ t, '\n' ∉ f.quote t) (d : Desc0A) : Says f (d.debugText f) (desc0A d) :=
  Says.struct f (by decide) (.cons (by decide) (Says.list f (SaysItems.map _ _ _ fun i _ => says_desc0Ai f hq i)) .nil) (by simp)

theorem says_desc0E (f : Fmt) (hq : ∀ t, '\n' ∉ f.quote t) (d : Desc0E) : Says f (d.debugText f) (desc0E d) :=
  Says.struct f (by decide) (.cons (by decide) (Says.num f _) .nil) (by simp)

theorem says_desc40 (f : Fmt) (hq : ∀ t, '\n' ∉ f.quote t) (d : Desc40) : Says f (d.debugText f) (desc40 d) :=
  Says.struct f (by decide) (.cons (by decide) (says_string f hq _) .nil) (by simp)

theorem says_desc41 (f : Fmt) (hq : ∀ t, '\n' ∉ f.quote t) (d : Desc41) : Says f (d.debugText f) (desc41 d) :=
  Says.struct f (by decide) (.cons (by decide) (Says.list f (SaysItems.map _ _ _ fun i _ => says_desc41i f hq i)) .nil) (by simp)

theorem says_desc43 (f : Fmt) (hq : ∀ t, '\n' ∉ f.quote t) (d : Desc43) : Says f (d.debugText f) (desc43 d) :=
  Says.struct f (by decide) (.cons (by decide) (Says.num f _) (.cons (by decide) (Says.num f _) (.cons (by decide) (Says.num f _) (.cons (by decide) (Says.num f _) (.cons (by decide) (Says.num f _) (.cons (by decide) (Says.num f _) (.cons (by decide) (Says.num f _) (.cons (by decide) (Says.num f _) (.cons (by decide) (Says.num f _) .nil))))))))) (by simp)

theorem says_desc44 (f : Fmt) (hq : ∀ t, '\n' ∉ f.quote t) (d : Desc44) : Says f (d.debugText f) (desc44 d) :=
  Says.struct f (by decide) (.cons (by decide) (Says.num f _) (.cons (by decide) (Says.num f _) (.cons (by decide) (Says.num f _) (.cons (by decide) (Says.num f _) (.cons (by decide) (Says.num f _) .nil))))) (by simp)

theorem says_desc48 (f : Fmt) (hq : ∀ t, '\n' ∉ f.quote t) (d : Desc48) : Says f (d.debugText f) (desc48 d) :=
  Says.struct f (by decide) (.cons (by decide) (Says.num f _) (.cons (by decide) (says_string f hq _) (.cons (by decide) (says_string f hq _) .nil))) (by simp)

theorem says_desc4D (f : Fmt) (hq : ∀ t, '\n' ∉ f.quote t) (d : Desc4D) : Says f (d.debugText f) (desc4D d) :=
  Says.struct f (by decide) (.cons (by decide) (says_string f hq _) (.cons (by decide) (says_string f hq _) (.cons (by decide) (says_string f hq _) .nil))) (by simp)

theorem says_desc4E (f : Fmt) (hq : ∀ t, '\n' ∉ f.quote t) (d : Desc4E) : Says f (d.debugText f) (desc4E d) :=
  Says.struct f (by decide) (.cons (by decide) (Says.num f _) (.cons (by decide) (Says.num f _) (.cons (by decide) (says_string f hq _) (.cons (by decide) (Says.list f (SaysItems.map _ _ _ fun i _ => Says.pair f (says_string f hq i.1) (says_string f hq i.2))) (.cons (by decide) (says_string f hq _) .nil))))) (by simp)

theorem says_desc52 (f : Fmt) (hq : ∀ t, '\n' ∉ f.quote t) (d : Desc52) : Says f (d.debugText f) (desc52 d) :=
  Says.struct f (by decide) (.cons (by decide) (Says.num f _) .nil) (by simp)

theorem says_desc58 (f : Fmt) (hq : ∀ t, '\n' ∉ f.quote t) (d : Desc58) : Says f (d.debugText f) (desc58 d) :=
  Says.struct f (by decide) (.cons (by decide) (Says.list f (SaysItems.map _ _ _ fun i _ => says_desc58i f hq i)) .nil) (by simp)

theorem says_desc5A (f : Fmt) (hq : ∀ t, '\n' ∉ f.quote t) (d : Desc5A) : Says f (d.debugText f) (desc5A d) :=
  Says.struct f (by decide) (.cons (by decide) (Says.num f _) (.cons (by decide) (Says.num f _) (.cons (by decide) (Says.num f _) (.cons (by decide) (Says.num f _) (.cons (by decide) (Says.num f _) (.cons (by decide) (Says.num f _) (.cons (by decide) (Says.num f _) (.cons (by decide) (Says.num f _) (.cons (by decide) (Says.num f _) (.cons (by decide) (Says.num f _) (.cons (by decide) (Says.num f _) (.cons (by decide) (Says.num f _) .nil)))))))))))) (by simp)

theorem says_desc83 (f : Fmt) (hq : ∀ t, '\n' ∉ f.quote t) (d : Desc83) : Says f (d.debugText f) (desc83 d) :=
  Says.struct f (by decide) (.cons (by decide) (Says.list f (SaysItems.map _ _ _ fun i _ => says_desc83i f hq i)) .nil) (by simp)

theorem says_desc (f : Fmt) (hq : ∀ t, '\n' ∉ f.quote t) (d : Desc) : Says f (d.debugText f) (desc d) := by
  cases d with
  | raw d => exact says_descRaw f hq d
  | d09 d => exact says_desc09 f hq d
  | d0A d => exact says_desc0A f hq d
  | d0E d => exact says_desc0E f hq d
  | d40 d => exact says_desc40 f hq d
  | d41 d => exact says_desc41 f hq d
  | d43 d => exact says_desc43 f hq d
  | d44 d => exact says_desc44 f hq d
  | d48 d => exact says_desc48 f hq d
  | d4D d => exact says_desc4D f hq d
  | d4E d => exact says_desc4E f hq d
  | d52 d => exact says_desc52 f hq d
  | d58 d => exact says_desc58 f hq d
  | d5A d => exact says_desc5A f hq d
  | d83 d => exact says_desc83 f hq d

theorem says_descriptors (f : Fmt) (hq : ∀ t, '\n' ∉ f.quote t) (ds : Descriptors) : Says f (descriptorsText f ds) (.list (ds.map desc)) :=
  Says.list f (SaysItems.map _ _ _ fun d _ => says_desc f hq d)

theorem says_patItem (f : Fmt) (hq : ∀ t, '\n' ∉ f.quote t) (d : PatItem) : Says f (d.debugText f) (patItem d) :=
  Says.struct f (by decide) (.cons (by decide) (Says.num f _) (.cons (by decide) (Says.num f _) .nil)) (by simp)

theorem says_pat (f : Fmt) (hq : ∀ t, '\n' ∉ f.quote t) (d : Pat) : Says f (d.debugText f) (pat d) :=
  Says.struct f (by decide) (.cons (by decide) (Says.num f _) (.cons (by decide) (Says.num f _) (.cons (by decide) (Says.list f (SaysItems.map _ _ _ fun i _ => says_patItem f hq i)) .nil))) (by simp)

theorem says_pmtItem (f : Fmt) (hq : ∀ t, '\n' ∉ f.quote t) (d : PmtItem) : Says f (d.debugText f) (pmtItem d) :=
  Says.struct f (by decide) (.cons (by decide) (Says.num f _) (.cons (by decide) (Says.num f _) (.cons (by decide) (says_descriptors f hq _) .nil))) (by simp)

theorem says_pmt (f : Fmt) (hq : ∀ t, '\n' ∉ f.quote t) (d : Pmt) : Says f (d.debugText f) (pmt d) :=
  Says.struct f (by decide) (.cons (by decide) (Says.num f _) (.cons (by decide) (Says.num f _) (.cons (by decide) (Says.num f _) (.cons (by decide) (says_descriptors f hq _) (.cons (by decide) (Says.list f (SaysItems.map _ _ _ fun i _ => says_pmtItem f hq i)) .nil))))) (by simp)

theorem says_nitItem (f : Fmt) (hq : ∀ t, '\n' ∉ f.quote t) (d : NitItem) : Says f (d.debugText f) (nitItem d) :=
  Says.struct f (by decide) (.cons (by decide) (Says.num f _) (.cons (by decide) (Says.num f _) (.cons (by decide) (says_descriptors f hq _) .nil))) (by simp)

theorem says_nit (f : Fmt) (hq : ∀ t, '\n' ∉ f.quote t) (d : Nit) : Says f (d.debugText f) (nit d) :=
  Says.struct f (by decide) (.cons (by decide) (Says.num f _) (.cons (by decide) (Says.num f _) (.cons (by decide) (Says.num f _) (.cons (by decide) (says_descriptors f hq _) (.cons (by decide) (Says.list f (SaysItems.map _ _ _ fun i _ => says_nitItem f hq i)) .nil))))) (by simp)

theorem says_sdtItem (f : Fmt) (hq : ∀ t, '\n' ∉ f.quote t) (d : SdtItem) : Says f (d.debugText f) (sdtItem d) :=
  Says.struct f (by decide) (.cons (by decide) (Says.num f _) (.cons (by decide) (Says.num f _) (.cons (by decide) (Says.num f _) (.cons (by decide) (Says.num f _) (.cons (by decide) (Says.num f _) (.cons (by decide) (says_descriptors f hq _) .nil)))))) (by simp)

theorem says_sdt (f : Fmt) (hq : ∀ t, '\n' ∉ f.quote t) (d : Sdt) : Says f (d.debugText f) (sdt d) :=
  Says.struct f (by decide) (.cons (by decide) (Says.num f _) (.cons (by decide) (Says.num f _) (.cons (by decide) (Says.num f _) (.cons (by decide) (Says.num f _) (.cons (by decide) (Says.list f (SaysItems.map _ _ _ fun i _ => says_sdtItem f hq i)) .nil))))) (by simp)

theorem says_eitItem (f : Fmt) (hq : ∀ t, '\n' ∉ f.quote t) (d : EitItem) : Says f (d.debugText f) (eitItem d) :=
  Says.struct f (by decide) (.cons (by decide) (Says.num f _) (.cons (by decide) (Says.num f _) (.cons (by decide) (Says.num f _) (.cons (by decide) (Says.num f _) (.cons (by decide) (Says.num f _) (.cons (by decide) (says_descriptors f hq _) .nil)))))) (by simp)

theorem says_eit (f : Fmt) (hq : ∀ t, '\n' ∉ f.quote t) (d : Eit) : Says f (d.debugText f) (eit d) :=
  Says.struct f (by decide) (.cons (by decide) (Says.num f _) (.cons (by decide) (Says.num f _) (.cons (by decide) (Says.num f _) (.cons (by decide) (Says.num f _) (.cons (by decide) (Says.num f _) (.cons (by decide) (Says.list f (SaysItems.map _ _ _ fun i _ => says_eitItem f hq i)) .nil)))))) (by simp)

theorem says_tdt (f : Fmt) (hq : ∀ t, '\n' ∉ f.quote t) (d : Tdt) : Says f (d.debugText f) (tdt d) :=
  Says.struct f (by decide) (.cons (by decide) (Says.num f _) .nil) (by simp)

theorem says_tot (f : Fmt) (hq : ∀ t, '\n' ∉ f.quote t) (d : Tot) : Says f (d.debugText f) (tot d) :=
  Says.struct f (by decide) (.cons (by decide) (Says.num f _) (.cons (by decide) (says_descriptors f hq _) .nil)) (by simp)

theorem says_psi (f : Fmt) (hq : ∀ t, '\n' ∉ f.quote t) (d : Psi) : Says f (d.debugText f) (psi d) :=
  Says.struct f (by decide) (.cons (by decide) (Says.bytes f _) (.cons (by decide) (Says.num f _) (.cons (by decide) (Says.num f _) (.cons (by decide) (Says.num f _) .nil)))) (by simp)

end Mpegts
