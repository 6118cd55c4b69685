import Verif.Model.Pat
import Verif.Model.Pmt
import Verif.Model.Nit
import Verif.Model.Sdt
import Verif.Model.Tdt
import Verif.Model.Eit
import Verif.Model.Pcr
import Verif.Model.Pes
import Verif.Model.Debug
import Verif.Lemmas.Basic

/-! # C102: debug and release builds differ only by panics

A debug build checks arithmetic for overflow and evaluates `debug_assert!`; a release build wraps
and skips the assertions.  `Profile` is the parameter of the model that tells them apart.  For every
modelled operation that depends on it, and for every argument, the debug build either panics or does
exactly what the release build does: same value, same bytes, same panic, same endless loop.  So what
was observed without a panic in a debug build is what a release build will do. -/

namespace Mpegts

/-- A debug build's result `x` against a release build's result `y`: it panics, or it is the same. -/
def Agree {α : Type} (x y : R α) : Prop := x = panic ∨ x = y

namespace Agree

theorem refl {α : Type} (x : R α) : Agree x x := .inr rfl

theorem bind {α β : Type} {x y : R α} {f g : α → R β} (h : Agree x y) (hf : ∀ a, Agree (f a) (g a)) :
    Agree (x >>= f) (y >>= g) := by
  rcases h with rfl | rfl
  · exact .inl rfl
  · cases x with
    | error e => exact .inr rfl
    | ok a => rw [ok_bind, ok_bind]; exact hf a

theorem bindPair {α β γ : Type} {x y : R (α × β)} {f g : α × β → R γ} (h : Agree x y)
    (hf : ∀ a b, Agree (f (a, b)) (g (a, b))) : Agree (x >>= f) (y >>= g) := bind h fun ⟨a, b⟩ => hf a b

theorem map {α β : Type} {x y : R α} (f : α → β) (h : Agree x y) : Agree (f <$> x) (f <$> y) := by
  rcases h with rfl | rfl
  · exact .inl rfl
  · exact .inr rfl

theorem ite {α : Type} {c : Prop} [Decidable c] {a a' b b' : R α} (h1 : Agree a a') (h2 : Agree b b') :
    Agree (if c then a else b) (if c then a' else b') := by
  split
  · exact h1
  · exact h2

end Agree

theorem agree_overflow {α : Type} (w : α) : Agree (Profile.overflow .debug w) (Profile.overflow .release w) := .inl rfl
theorem agree_debugAssert (c : Bool) : Agree (debugAssert .debug c) (debugAssert .release c) := by
  cases c
  · exact .inl rfl
  · exact .inr rfl

/-- Follow both computations step by step. -/
macro "agree" "[" ts:term,* "]" : tactic =>
  `(tactic| (try dsimp only)
            <;> repeat (first
              | with_reducible exact Agree.refl _
              | with_reducible exact agree_overflow _
              | with_reducible exact agree_debugAssert _
              $[| with_reducible exact $ts]*
              | with_reducible refine Agree.ite ?_ ?_
              | with_reducible refine Agree.map _ ?_
              | with_reducible refine Agree.bindPair ?_ fun _ _ => ?_
              | with_reducible refine Agree.bind ?_ fun _ => ?_))

theorem agree_addU8 (a b : UInt8) : Agree (addU8 .debug a b) (addU8 .release a b) := by
  unfold addU8; agree []
theorem agree_mulU8 (a b : UInt8) : Agree (mulU8 .debug a b) (mulU8 .release a b) := by
  unfold mulU8; agree []
theorem agree_mulU16 (a b : UInt16) : Agree (mulU16 .debug a b) (mulU16 .release a b) := by
  unfold mulU16; agree []
theorem agree_mulU32 (a b : UInt32) : Agree (mulU32 .debug a b) (mulU32 .release a b) := by
  unfold mulU32; agree []
theorem agree_addU64 (a b : UInt64) : Agree (addU64 .debug a b) (addU64 .release a b) := by
  unfold addU64; agree []
theorem agree_mulU64 (a b : UInt64) : Agree (mulU64 .debug a b) (mulU64 .release a b) := by
  unfold mulU64; agree []
theorem agree_subU64 (a b : UInt64) : Agree (subU64 .debug a b) (subU64 .release a b) := by
  unfold subU64; agree []
theorem agree_usizeSub (a b : Nat) : Agree (usizeSub .debug a b) (usizeSub .release a b) := by
  unfold usizeSub; agree []
theorem agree_fromBcd8 (x : UInt8) : Agree (fromBcd8 .debug x) (fromBcd8 .release x) := by
  unfold fromBcd8; agree []
theorem agree_toBcd8 (x : UInt8) : Agree (toBcd8 .debug x) (toBcd8 .release x) := by
  unfold toBcd8; agree [agree_addU8 _ _]
theorem agree_fromBcd16 (x : UInt16) : Agree (fromBcd16 .debug x) (fromBcd16 .release x) := by
  unfold fromBcd16; agree [agree_fromBcd8 _]
theorem agree_toBcd16 (x : UInt16) : Agree (toBcd16 .debug x) (toBcd16 .release x) := by
  unfold toBcd16; agree [agree_toBcd8 _]
theorem agree_fromBcd32 (x : UInt32) : Agree (fromBcd32 .debug x) (fromBcd32 .release x) := by
  unfold fromBcd32; agree [agree_fromBcd16 _]
theorem agree_toBcd32 (x : UInt32) : Agree (toBcd32 .debug x) (toBcd32 .release x) := by
  unfold toBcd32; agree [agree_toBcd16 _]
theorem agree_fromBcdTime16 (x : UInt16) : Agree (fromBcdTime16 .debug x) (fromBcdTime16 .release x) := by
  unfold fromBcdTime16; agree [agree_fromBcd8 _, agree_mulU8 _ _]
theorem agree_toBcdTime16 (x : UInt16) : Agree (toBcdTime16 .debug x) (toBcdTime16 .release x) := by
  unfold toBcdTime16; agree [agree_toBcd8 _]
theorem agree_fromBcdTime32 (x : UInt32) : Agree (fromBcdTime32 .debug x) (fromBcdTime32 .release x) := by
  unfold fromBcdTime32; agree [agree_fromBcd8 _]
theorem agree_toBcdTime32 (x : UInt32) : Agree (toBcdTime32 .debug x) (toBcdTime32 .release x) := by
  unfold toBcdTime32; agree [agree_toBcd8 _]
theorem agree_fromMjd (x : UInt16) : Agree (fromMjd .debug x) (fromMjd .release x) := by
  unfold fromMjd; agree [agree_subU64 _ _, agree_mulU64 _ _]
theorem agree_getPayloadOffset (ts : List UInt8) : Agree (Ts.getPayloadOffset .debug ts) (Ts.getPayloadOffset .release ts) := by
  unfold Ts.getPayloadOffset; agree [agree_addU8 _ _]
theorem agree_setPid (ts : List UInt8) (pid : UInt16) : Agree (Ts.setPid .debug ts pid) (Ts.setPid .release ts pid) := by
  unfold Ts.setPid; agree []
theorem agree_setCc (ts : List UInt8) (cc : UInt8) : Agree (Ts.setCc .debug ts cc) (Ts.setCc .release ts cc) := by
  unfold Ts.setCc; agree []
theorem agree_pcrDelta (a b : UInt64) : Agree (Ts.pcrDelta .debug a b) (Ts.pcrDelta .release a b) := by
  unfold Ts.pcrDelta; agree [agree_subU64 _ _, agree_addU64 _ _]
theorem agree_pcrToStc (a b c d : UInt64) : Agree (Ts.pcrToStc .debug a b c d) (Ts.pcrToStc .release a b c d) := by
  unfold Ts.pcrToStc; agree [agree_mulU64 _ _, agree_addU64 _ _]
theorem agree_i64 (x : Int) : Agree (Ts.i64 .debug x) (Ts.i64 .release x) := by
  unfold Ts.i64; agree []
theorem agree_pcrJitterNs (a b : UInt64) : Agree (Ts.pcrJitterNs .debug a b) (Ts.pcrJitterNs .release a b) := by
  unfold Ts.pcrJitterNs; agree [agree_subU64 _ _, agree_addU64 _ _, agree_i64 _]
theorem agree_pcrDeltaBitrate (a b : UInt64) : Agree (Ts.pcrDeltaBitrate .debug a b) (Ts.pcrDeltaBitrate .release a b) := by
  unfold Ts.pcrDeltaBitrate; agree [agree_mulU64 _ _]
theorem agree_ptsDelta (a b : UInt64) : Agree (Pes.ptsDelta .debug a b) (Pes.ptsDelta .release a b) := by
  unfold Pes.ptsDelta; agree [agree_subU64 _ _, agree_addU64 _ _]
theorem agree_adaptationNew (x : List UInt8) : Agree (Ts.adaptationNew .debug x) (Ts.adaptationNew .release x) := by
  unfold Ts.adaptationNew; agree []
theorem agree_packetNew (x : List UInt8) : Agree (Ts.packetNew .debug x) (Ts.packetNew .release x) := by
  unfold Ts.packetNew; agree []
theorem agree_packetDebug (x : List UInt8) : Agree (Ts.packetDebug .debug x) (Ts.packetDebug .release x) := by
  unfold Ts.packetDebug; agree [agree_adaptationNew _]
theorem agree_truncate (s : StringDVB) (n : Nat) : Agree (StringDVB.truncate .debug s n) (StringDVB.truncate .release s n) := by
  unfold StringDVB.truncate; agree [agree_usizeSub _ _]
theorem agree_splitBack (data : List UInt8) (n next : Nat) :
    Agree (StringDVB.splitBack .debug data n next) (StringDVB.splitBack .release data n next) := by
  induction n generalizing next with
  | zero => exact .refl _
  | succ n ih => unfold StringDVB.splitBack; agree [agree_usizeSub _ _, ih _]
theorem agree_splitLoop (s : StringDVB) (size fuel skip : Nat) (out : List StringDVB) :
    Agree (StringDVB.splitLoop .debug s size fuel skip out) (StringDVB.splitLoop .release s size fuel skip out) := by
  induction fuel generalizing skip out with
  | zero => exact .refl _
  | succ n ih => unfold StringDVB.splitLoop; agree [agree_splitBack _ _ _, ih _ _]
theorem agree_splitFuel (fuel : Nat) (s : StringDVB) (n : Nat) : Agree (StringDVB.splitFuel .debug fuel s n) (StringDVB.splitFuel .release fuel s n) := by
  unfold StringDVB.splitFuel; agree [agree_usizeSub _ _, agree_splitLoop _ _ _ _ _]
theorem agree_split (s : StringDVB) (n : Nat) : Agree (StringDVB.split .debug s n) (StringDVB.split .release s n) := by
  unfold StringDVB.split; agree [agree_splitFuel _ _ _]
theorem agree_desc43_parse (s : List UInt8) : Agree (Desc43.parse .debug s) (Desc43.parse .release s) := by
  unfold Desc43.parse; agree [agree_fromBcd32 _, agree_fromBcd16 _, agree_mulU32 _ _, agree_mulU16 _ _]
theorem agree_desc43_assemble (d : Desc43) (b : List UInt8) : Agree (Desc43.assemble .debug d b) (Desc43.assemble .release d b) := by
  unfold Desc43.assemble; agree [agree_toBcd32 _, agree_toBcd16 _]
theorem agree_desc44_parse (s : List UInt8) : Agree (Desc44.parse .debug s) (Desc44.parse .release s) := by
  unfold Desc44.parse; agree [agree_fromBcd32 _, agree_fromBcd16 _, agree_mulU32 _ _, agree_mulU16 _ _]
theorem agree_desc44_assemble (d : Desc44) (b : List UInt8) : Agree (Desc44.assemble .debug d b) (Desc44.assemble .release d b) := by
  unfold Desc44.assemble; agree [agree_toBcd32 _, agree_toBcd16 _]
theorem agree_desc58_parseLoop (s : List UInt8) (fuel skip : Nat) (items : List Desc58i) :
    Agree (Desc58.parseLoop .debug s fuel skip items) (Desc58.parseLoop .release s fuel skip items) := by
  induction fuel generalizing skip items with
  | zero => exact .refl _
  | succ n ih =>
    unfold Desc58.parseLoop
    agree [agree_fromBcdTime16 _, agree_fromMjd _, agree_fromBcdTime32 _, agree_addU64 _ _, ih _ _]
theorem agree_desc58_parse (s : List UInt8) : Agree (Desc58.parse .debug s) (Desc58.parse .release s) := by
  unfold Desc58.parse; agree [agree_desc58_parseLoop _ _ _ _]
theorem agree_desc58_assembleLoop (items : List Desc58i) (b : List UInt8) :
    Agree (Desc58.assembleLoop .debug items b) (Desc58.assembleLoop .release items b) := by
  induction items generalizing b with
  | nil => exact .refl _
  | cons i r ih => unfold Desc58.assembleLoop; agree [agree_toBcdTime16 _, agree_toBcdTime32 _, ih _]
theorem agree_desc58_assemble (d : Desc58) (b : List UInt8) : Agree (Desc58.assemble .debug d b) (Desc58.assemble .release d b) := by
  unfold Desc58.assemble; agree [agree_desc58_assembleLoop _ _]
theorem agree_desc5A_parse (s : List UInt8) : Agree (Desc5A.parse .debug s) (Desc5A.parse .release s) := by
  unfold Desc5A.parse; agree [agree_mulU32 _ _]
theorem agree_desc_assemble (d : Desc) (b : List UInt8) : Agree (Desc.assemble .debug d b) (Desc.assemble .release d b) := by
  unfold Desc.assemble
  cases d <;> agree [agree_desc43_assemble _ _, agree_desc44_assemble _ _, agree_desc58_assemble _ _]
theorem agree_desc_parse (s : List UInt8) : Agree (Desc.parse .debug s) (Desc.parse .release s) := by
  unfold Desc.parse; agree [agree_desc43_parse _, agree_desc44_parse _, agree_desc58_parse _, agree_desc5A_parse _]
theorem agree_descs_parseLoop (s : List UInt8) (fuel skip : Nat) (ds : Descriptors) :
    Agree (Descriptors.parseLoop .debug s fuel skip ds) (Descriptors.parseLoop .release s fuel skip ds) := by
  induction fuel generalizing skip ds with
  | zero => exact .refl _
  | succ n ih => unfold Descriptors.parseLoop; agree [agree_desc_parse _, ih _ _]
theorem agree_descs_parse (ds : Descriptors) (s : List UInt8) : Agree (Descriptors.parse .debug ds s) (Descriptors.parse .release ds s) := by
  unfold Descriptors.parse; agree [agree_descs_parseLoop _ _ _ _]
theorem agree_descs_assembleLoop (ds : Descriptors) (b : List UInt8) :
    Agree (Descriptors.assembleLoop .debug ds b) (Descriptors.assembleLoop .release ds b) := by
  induction ds generalizing b with
  | nil => exact .refl _
  | cons d r ih => unfold Descriptors.assembleLoop; agree [agree_desc_assemble _ _, ih _]
theorem agree_descs_assemble (ds : Descriptors) (b : List UInt8) : Agree (Descriptors.assemble .debug ds b) (Descriptors.assemble .release ds b) := by
  unfold Descriptors.assemble; agree [agree_descs_assembleLoop _ _, agree_usizeSub _ _]
theorem agree_psi_new (t : UInt8) (n : Nat) (v : UInt8) : Agree (Psi.new .debug t n v) (Psi.new .release t n v) := by
  unfold Psi.new; agree []
theorem agree_mux (s : Psi) (ts : List UInt8) : Agree (Psi.mux .debug s ts) (Psi.mux .release s ts) := by
  unfold Psi.mux; agree [agree_getPayloadOffset _, agree_addU8 _ _]
theorem agree_getCrc32 (s : Psi) : Agree (Psi.getCrc32 .debug s) (Psi.getCrc32 .release s) := by
  unfold Psi.getCrc32; agree [agree_usizeSub _ _]
theorem agree_calcCrc32 (s : Psi) : Agree (Psi.calcCrc32 .debug s) (Psi.calcCrc32 .release s) := by
  unfold Psi.calcCrc32; agree [agree_usizeSub _ _]
theorem agree_checkCrc32 (s : Psi) : Agree (Psi.checkCrc32 .debug s) (Psi.checkCrc32 .release s) := by
  unfold Psi.checkCrc32; agree [agree_getCrc32 _, agree_calcCrc32 _]
theorem agree_check (s : Psi) : Agree (Psi.check .debug s) (Psi.check .release s) := by
  unfold Psi.check; agree [agree_checkCrc32 _]
theorem agree_eq (s t : Psi) : Agree (Psi.eq .debug s t) (Psi.eq .release s t) := by
  unfold Psi.eq; agree [agree_getCrc32 _]
theorem agree_finalize (s : Psi) : Agree (Psi.finalize .debug s) (Psi.finalize .release s) := by
  unfold Psi.finalize; agree [agree_usizeSub _ _]
theorem agree_atOff (l : List UInt8) (n : Nat) (f g : List UInt8 → R (List UInt8)) (h : ∀ x, Agree (f x) (g x)) :
    Agree (atOff l n f) (atOff l n g) := by
  unfold atOff; agree [h _]
theorem agree_demuxLoop (b : List UInt8) (size : Nat) (pid : UInt16) (fuel : Nat) (dst : List UInt8) (i j : Nat) (cc : UInt8) :
    Agree (Psi.demuxLoop .debug b size pid fuel dst i j cc) (Psi.demuxLoop .release b size pid fuel dst i j cc) := by
  induction fuel generalizing dst i j cc with
  | zero => exact .refl _
  | succ n ih => unfold Psi.demuxLoop; agree [agree_atOff _ _ _ _ fun _ => agree_setPid _ _, agree_atOff _ _ _ _ fun _ => agree_setCc _ _, agree_addU8 _ _, ih _ _ _ _]
theorem agree_demux (s : Psi) (dst : List UInt8) : Agree (Psi.demux .debug s dst) (Psi.demux .release s dst) := by
  unfold Psi.demux; agree [agree_demuxLoop _ _ _ _ _ _ _ _, agree_usizeSub _ _]
theorem agree_psiDemuxLoop (pid : UInt16) (last : UInt8) (n : Nat) (l : List Psi) (cc : UInt8) (dst : List UInt8) :
    Agree (psiDemuxLoop .debug pid last n l cc dst) (psiDemuxLoop .release pid last n l cc dst) := by
  induction l generalizing n cc dst with
  | nil => exact .refl _
  | cons s r ih => unfold psiDemuxLoop; agree [agree_finalize _, agree_demux _ _, ih _ _ _]
theorem agree_psiDemux (l : List Psi) (pid : UInt16) (cc : UInt8) (dst : List UInt8) : Agree (psiDemux .debug l pid cc dst) (psiDemux .release l pid cc dst) := by
  unfold psiDemux; agree [agree_psiDemuxLoop _ _ _ _ _ _]
theorem agree_pat_check (s : Psi) : Agree (Pat.check .debug s) (Pat.check .release s) := by
  unfold Pat.check; agree [agree_check _]
theorem agree_pmt_check (s : Psi) : Agree (Pmt.check .debug s) (Pmt.check .release s) := by
  unfold Pmt.check; agree [agree_check _]
theorem agree_nit_check (s : Psi) : Agree (Nit.check .debug s) (Nit.check .release s) := by
  unfold Nit.check; agree [agree_check _]
theorem agree_sdt_check (s : Psi) : Agree (Sdt.check .debug s) (Sdt.check .release s) := by
  unfold Sdt.check; agree [agree_check _]
theorem agree_eit_check (s : Psi) : Agree (Eit.check .debug s) (Eit.check .release s) := by
  unfold Eit.check; agree [agree_check _]
theorem agree_tot_check (s : Psi) : Agree (Tot.check .debug s) (Tot.check .release s) := by
  unfold Tot.check; agree [agree_check _]
theorem agree_pat_parse (t : Pat) (s : Psi) : Agree (Pat.parse .debug t s) (Pat.parse .release t s) := by
  unfold Pat.parse; agree [agree_pat_check _, agree_descs_parse _ _, agree_descs_assemble _ _, agree_psi_new _ _ _, agree_check _, agree_usizeSub _ _, agree_finalize _, agree_demux _ _, agree_psiDemux _ _ _ _, agree_addU64 _ _, agree_fromMjd _, agree_fromBcdTime32 _, agree_toBcdTime32 _]
theorem agree_pat_assemble (t : Pat) : Agree (Pat.psiListAssemble .debug t) (Pat.psiListAssemble .release t) := by
  unfold Pat.psiListAssemble; agree [agree_descs_parse _ _, agree_descs_assemble _ _, agree_psi_new _ _ _, agree_check _, agree_usizeSub _ _, agree_finalize _, agree_demux _ _, agree_psiDemux _ _ _ _, agree_addU64 _ _, agree_fromMjd _, agree_fromBcdTime32 _, agree_toBcdTime32 _]
theorem agree_pmtItem_parse (s : List UInt8) : Agree (PmtItem.parse .debug s) (PmtItem.parse .release s) := by
  unfold PmtItem.parse; agree [agree_descs_parse _ _, agree_descs_assemble _ _, agree_psi_new _ _ _, agree_check _, agree_usizeSub _ _, agree_finalize _, agree_demux _ _, agree_psiDemux _ _ _ _, agree_addU64 _ _, agree_fromMjd _, agree_fromBcdTime32 _, agree_toBcdTime32 _]
theorem agree_pmtItem_assemble (i : PmtItem) (b : List UInt8) : Agree (PmtItem.assemble .debug i b) (PmtItem.assemble .release i b) := by
  unfold PmtItem.assemble; agree [agree_descs_parse _ _, agree_descs_assemble _ _, agree_psi_new _ _ _, agree_check _, agree_usizeSub _ _, agree_finalize _, agree_demux _ _, agree_psiDemux _ _ _ _, agree_addU64 _ _, agree_fromMjd _, agree_fromBcdTime32 _, agree_toBcdTime32 _]
theorem agree_pmt_parseLoop (s : List UInt8) (fuel skip : Nat) (items : List PmtItem) :
    Agree (Pmt.parseLoop .debug s fuel skip items) (Pmt.parseLoop .release s fuel skip items) := by
  induction fuel generalizing skip items with
  | zero => exact .refl _
  | succ n ih => unfold Pmt.parseLoop; agree [agree_pmtItem_parse _, ih _ _]
theorem agree_pmt_parse (t : Pmt) (s : Psi) : Agree (Pmt.parse .debug t s) (Pmt.parse .release t s) := by
  unfold Pmt.parse; agree [agree_pmt_check _, agree_pmt_parseLoop _ _ _ _, agree_descs_parse _ _, agree_descs_assemble _ _, agree_psi_new _ _ _, agree_check _, agree_usizeSub _ _, agree_finalize _, agree_demux _ _, agree_psiDemux _ _ _ _, agree_addU64 _ _, agree_fromMjd _, agree_fromBcdTime32 _, agree_toBcdTime32 _]
theorem agree_pmt_init (t : Pmt) (first : Bool) : Agree (Pmt.psiInit .debug t first) (Pmt.psiInit .release t first) := by
  unfold Pmt.psiInit; agree [agree_descs_parse _ _, agree_descs_assemble _ _, agree_psi_new _ _ _, agree_check _, agree_usizeSub _ _, agree_finalize _, agree_demux _ _, agree_psiDemux _ _ _ _, agree_addU64 _ _, agree_fromMjd _, agree_fromBcdTime32 _, agree_toBcdTime32 _]
theorem agree_pmt_assembleLoop (t : Pmt) (items : List PmtItem) (d : List Psi) (s : Psi) :
    Agree (Pmt.assembleLoop .debug t items d s) (Pmt.assembleLoop .release t items d s) := by
  induction items generalizing d s with
  | nil => exact .refl _
  | cons i r ih => unfold Pmt.assembleLoop; agree [agree_pmtItem_assemble _ _, agree_pmt_init _ _, ih _ _]
theorem agree_pmt_assemble (t : Pmt) : Agree (Pmt.psiListAssemble .debug t) (Pmt.psiListAssemble .release t) := by
  unfold Pmt.psiListAssemble; agree [agree_pmt_init _ _, agree_pmt_assembleLoop _ _ _ _]
theorem agree_nitItem_parse (s : List UInt8) : Agree (NitItem.parse .debug s) (NitItem.parse .release s) := by
  unfold NitItem.parse; agree [agree_descs_parse _ _, agree_descs_assemble _ _, agree_psi_new _ _ _, agree_check _, agree_usizeSub _ _, agree_finalize _, agree_demux _ _, agree_psiDemux _ _ _ _, agree_addU64 _ _, agree_fromMjd _, agree_fromBcdTime32 _, agree_toBcdTime32 _]
theorem agree_nitItem_assemble (i : NitItem) (b : List UInt8) : Agree (NitItem.assemble .debug i b) (NitItem.assemble .release i b) := by
  unfold NitItem.assemble; agree [agree_descs_parse _ _, agree_descs_assemble _ _, agree_psi_new _ _ _, agree_check _, agree_usizeSub _ _, agree_finalize _, agree_demux _ _, agree_psiDemux _ _ _ _, agree_addU64 _ _, agree_fromMjd _, agree_fromBcdTime32 _, agree_toBcdTime32 _]
theorem agree_nit_parseLoop (s : List UInt8) (fuel skip : Nat) (items : List NitItem) :
    Agree (Nit.parseLoop .debug s fuel skip items) (Nit.parseLoop .release s fuel skip items) := by
  induction fuel generalizing skip items with
  | zero => exact .refl _
  | succ n ih => unfold Nit.parseLoop; agree [agree_nitItem_parse _, ih _ _]
theorem agree_nit_parse (t : Nit) (s : Psi) : Agree (Nit.parse .debug t s) (Nit.parse .release t s) := by
  unfold Nit.parse; agree [agree_nit_check _, agree_nit_parseLoop _ _ _ _, agree_descs_parse _ _, agree_descs_assemble _ _, agree_psi_new _ _ _, agree_check _, agree_usizeSub _ _, agree_finalize _, agree_demux _ _, agree_psiDemux _ _ _ _, agree_addU64 _ _, agree_fromMjd _, agree_fromBcdTime32 _, agree_toBcdTime32 _]
theorem agree_nit_init (t : Nit) (first : Bool) : Agree (Nit.psiInit .debug t first) (Nit.psiInit .release t first) := by
  unfold Nit.psiInit; agree [agree_descs_parse _ _, agree_descs_assemble _ _, agree_psi_new _ _ _, agree_check _, agree_usizeSub _ _, agree_finalize _, agree_demux _ _, agree_psiDemux _ _ _ _, agree_addU64 _ _, agree_fromMjd _, agree_fromBcdTime32 _, agree_toBcdTime32 _]
theorem agree_nit_assembleLoop (t : Nit) (items : List NitItem) (d : List Psi) (s : Psi) :
    Agree (Nit.assembleLoop .debug t items d s) (Nit.assembleLoop .release t items d s) := by
  induction items generalizing d s with
  | nil => exact .refl _
  | cons i r ih => unfold Nit.assembleLoop; agree [agree_nitItem_assemble _ _, agree_nit_init _ _, ih _ _]
theorem agree_nit_patchLen (s : Psi) : Agree (Nit.patchLen .debug s) (Nit.patchLen .release s) := by
  unfold Nit.patchLen; agree [agree_descs_parse _ _, agree_descs_assemble _ _, agree_psi_new _ _ _, agree_check _, agree_usizeSub _ _, agree_finalize _, agree_demux _ _, agree_psiDemux _ _ _ _, agree_addU64 _ _, agree_fromMjd _, agree_fromBcdTime32 _, agree_toBcdTime32 _]
theorem agree_nit_patchLoop (l : List Psi) :
    Agree (Nit.patchLoop .debug l) (Nit.patchLoop .release l) := by
  induction l with
  | nil => exact .refl _
  | cons s r ih => unfold Nit.patchLoop; agree [agree_nit_patchLen _, ih]
theorem agree_nit_assemble (t : Nit) : Agree (Nit.psiListAssemble .debug t) (Nit.psiListAssemble .release t) := by
  unfold Nit.psiListAssemble; agree [agree_nit_init _ _, agree_nit_assembleLoop _ _ _ _, agree_nit_patchLoop _]
theorem agree_sdtItem_parse (s : List UInt8) : Agree (SdtItem.parse .debug s) (SdtItem.parse .release s) := by
  unfold SdtItem.parse; agree [agree_descs_parse _ _, agree_descs_assemble _ _, agree_psi_new _ _ _, agree_check _, agree_usizeSub _ _, agree_finalize _, agree_demux _ _, agree_psiDemux _ _ _ _, agree_addU64 _ _, agree_fromMjd _, agree_fromBcdTime32 _, agree_toBcdTime32 _]
theorem agree_sdtItem_assemble (i : SdtItem) (b : List UInt8) : Agree (SdtItem.assemble .debug i b) (SdtItem.assemble .release i b) := by
  unfold SdtItem.assemble; agree [agree_descs_parse _ _, agree_descs_assemble _ _, agree_psi_new _ _ _, agree_check _, agree_usizeSub _ _, agree_finalize _, agree_demux _ _, agree_psiDemux _ _ _ _, agree_addU64 _ _, agree_fromMjd _, agree_fromBcdTime32 _, agree_toBcdTime32 _]
theorem agree_sdt_parseLoop (s : List UInt8) (fuel skip : Nat) (items : List SdtItem) :
    Agree (Sdt.parseLoop .debug s fuel skip items) (Sdt.parseLoop .release s fuel skip items) := by
  induction fuel generalizing skip items with
  | zero => exact .refl _
  | succ n ih => unfold Sdt.parseLoop; agree [agree_sdtItem_parse _, ih _ _]
theorem agree_sdt_parse (t : Sdt) (s : Psi) : Agree (Sdt.parse .debug t s) (Sdt.parse .release t s) := by
  unfold Sdt.parse; agree [agree_sdt_check _, agree_sdt_parseLoop _ _ _ _, agree_descs_parse _ _, agree_descs_assemble _ _, agree_psi_new _ _ _, agree_check _, agree_usizeSub _ _, agree_finalize _, agree_demux _ _, agree_psiDemux _ _ _ _, agree_addU64 _ _, agree_fromMjd _, agree_fromBcdTime32 _, agree_toBcdTime32 _]
theorem agree_sdt_init (t : Sdt) : Agree (Sdt.psiInit .debug t) (Sdt.psiInit .release t) := by
  unfold Sdt.psiInit; agree [agree_descs_parse _ _, agree_descs_assemble _ _, agree_psi_new _ _ _, agree_check _, agree_usizeSub _ _, agree_finalize _, agree_demux _ _, agree_psiDemux _ _ _ _, agree_addU64 _ _, agree_fromMjd _, agree_fromBcdTime32 _, agree_toBcdTime32 _]
theorem agree_sdt_assembleLoop (t : Sdt) (items : List SdtItem) (d : List Psi) (s : Psi) :
    Agree (Sdt.assembleLoop .debug t items d s) (Sdt.assembleLoop .release t items d s) := by
  induction items generalizing d s with
  | nil => exact .refl _
  | cons i r ih => unfold Sdt.assembleLoop; agree [agree_sdtItem_assemble _ _, agree_sdt_init _, ih _ _]
theorem agree_sdt_assemble (t : Sdt) : Agree (Sdt.psiListAssemble .debug t) (Sdt.psiListAssemble .release t) := by
  unfold Sdt.psiListAssemble; agree [agree_sdt_init _, agree_sdt_assembleLoop _ _ _ _]
theorem agree_eitItem_parse (s : List UInt8) : Agree (EitItem.parse .debug s) (EitItem.parse .release s) := by
  unfold EitItem.parse; agree [agree_descs_parse _ _, agree_descs_assemble _ _, agree_psi_new _ _ _, agree_check _, agree_usizeSub _ _, agree_finalize _, agree_demux _ _, agree_psiDemux _ _ _ _, agree_addU64 _ _, agree_fromMjd _, agree_fromBcdTime32 _, agree_toBcdTime32 _]
theorem agree_eitItem_assemble (i : EitItem) (b : List UInt8) : Agree (EitItem.assemble .debug i b) (EitItem.assemble .release i b) := by
  unfold EitItem.assemble; agree [agree_descs_parse _ _, agree_descs_assemble _ _, agree_psi_new _ _ _, agree_check _, agree_usizeSub _ _, agree_finalize _, agree_demux _ _, agree_psiDemux _ _ _ _, agree_addU64 _ _, agree_fromMjd _, agree_fromBcdTime32 _, agree_toBcdTime32 _]
theorem agree_eit_parseLoop (s : List UInt8) (fuel skip : Nat) (items : List EitItem) :
    Agree (Eit.parseLoop .debug s fuel skip items) (Eit.parseLoop .release s fuel skip items) := by
  induction fuel generalizing skip items with
  | zero => exact .refl _
  | succ n ih => unfold Eit.parseLoop; agree [agree_eitItem_parse _, ih _ _]
theorem agree_eit_parse (t : Eit) (s : Psi) : Agree (Eit.parse .debug t s) (Eit.parse .release t s) := by
  unfold Eit.parse; agree [agree_eit_check _, agree_eit_parseLoop _ _ _ _, agree_descs_parse _ _, agree_descs_assemble _ _, agree_psi_new _ _ _, agree_check _, agree_usizeSub _ _, agree_finalize _, agree_demux _ _, agree_psiDemux _ _ _ _, agree_addU64 _ _, agree_fromMjd _, agree_fromBcdTime32 _, agree_toBcdTime32 _]
theorem agree_eit_init (t : Eit) : Agree (Eit.psiInit .debug t) (Eit.psiInit .release t) := by
  unfold Eit.psiInit; agree [agree_descs_parse _ _, agree_descs_assemble _ _, agree_psi_new _ _ _, agree_check _, agree_usizeSub _ _, agree_finalize _, agree_demux _ _, agree_psiDemux _ _ _ _, agree_addU64 _ _, agree_fromMjd _, agree_fromBcdTime32 _, agree_toBcdTime32 _]
theorem agree_eit_pfLoop (t : Eit) (last : UInt8) (n : Nat) (items : List EitItem) :
    Agree (Eit.pfLoop .debug t last n items) (Eit.pfLoop .release t last n items) := by
  induction items generalizing n with
  | nil => exact .refl _
  | cons i r ih => unfold Eit.pfLoop; agree [agree_eit_init _, agree_eitItem_assemble _ _, agree_finalize _, ih _]
theorem agree_eit_emptyLoop (tid : UInt8) (n : Nat) (s : Psi) (l : List Psi) (m : UInt64) (c : UInt8) :
    Agree (Eit.emptyLoop .debug tid n s l m c) (Eit.emptyLoop .release tid n s l m c) := by
  induction n generalizing s l m c with
  | zero => exact .refl _
  | succ n ih => unfold Eit.emptyLoop; agree [agree_addU64 _ _, agree_addU8 _ _, ih _ _ _ _]
theorem agree_eit_newSection (t : Eit) (a b : UInt8) (i : EitItem) : Agree (Eit.newSection .debug t a b i) (Eit.newSection .release t a b i) := by
  unfold Eit.newSection; agree [agree_eit_init _, agree_eitItem_assemble _ _]
theorem agree_eit_eventLoop (t : Eit) (items : List EitItem) (d : List Psi) (s : Psi) (m : UInt64) (a b : UInt8) :
    Agree (Eit.eventLoop .debug t items d s m a b) (Eit.eventLoop .release t items d s m a b) := by
  induction items generalizing d s m a b with
  | nil => exact .refl _
  | cons i r ih => unfold Eit.eventLoop; agree [agree_eit_newSection _ _ _ _, agree_eitItem_assemble _ _, agree_addU64 _ _, agree_addU8 _ _, ih _ _ _ _ _]
theorem agree_eit_numberLoop (lt : UInt8) (l : List Psi) (a b : UInt8) :
    Agree (Eit.numberLoop .debug lt l a b) (Eit.numberLoop .release lt l a b) := by
  induction l generalizing a b with
  | nil => exact .refl _
  | cons s r ih => unfold Eit.numberLoop; agree [agree_finalize _, ih _ _]
theorem agree_eit_schedule (t : Eit) (a b : EitItem) : Agree (Eit.scheduleAssemble .debug t a b) (Eit.scheduleAssemble .release t a b) := by
  unfold Eit.scheduleAssemble; agree [agree_subU64 _ _, agree_addU8 _ _, agree_eit_init _, agree_eit_emptyLoop _ _ _ _ _ _, agree_addU64 _ _, agree_eit_eventLoop _ _ _ _ _ _ _, agree_eit_numberLoop _ _ _ _]
theorem agree_eit_assemble (t : Eit) : Agree (Eit.psiListAssemble .debug t) (Eit.psiListAssemble .release t) := by
  unfold Eit.psiListAssemble
  split
  · agree [agree_eit_pfLoop _ _ _ _, agree_eit_schedule _ _ _]
  · exact .refl _
theorem agree_eit_demuxLoop (pid : UInt16) (l : List Psi) (cc : UInt8) (dst : List UInt8) :
    Agree (Eit.demuxLoop .debug pid l cc dst) (Eit.demuxLoop .release pid l cc dst) := by
  induction l generalizing cc dst with
  | nil => exact .refl _
  | cons s r ih => unfold Eit.demuxLoop; agree [agree_demux _ _, ih _ _]
theorem agree_tdt_parse (t : Tdt) (s : Psi) : Agree (Tdt.parse .debug t s) (Tdt.parse .release t s) := by
  unfold Tdt.parse; agree [agree_descs_parse _ _, agree_descs_assemble _ _, agree_psi_new _ _ _, agree_check _, agree_usizeSub _ _, agree_finalize _, agree_demux _ _, agree_psiDemux _ _ _ _, agree_addU64 _ _, agree_fromMjd _, agree_fromBcdTime32 _, agree_toBcdTime32 _]
theorem agree_tot_parse (t : Tot) (s : Psi) : Agree (Tot.parse .debug t s) (Tot.parse .release t s) := by
  unfold Tot.parse; agree [agree_tot_check _, agree_descs_parse _ _, agree_descs_assemble _ _, agree_psi_new _ _ _, agree_check _, agree_usizeSub _ _, agree_finalize _, agree_demux _ _, agree_psiDemux _ _ _ _, agree_addU64 _ _, agree_fromMjd _, agree_fromBcdTime32 _, agree_toBcdTime32 _]
theorem agree_tdt_assemble (t : Tdt) : Agree (Tdt.psiAssemble .debug t) (Tdt.psiAssemble .release t) := by
  unfold Tdt.psiAssemble; agree [agree_descs_parse _ _, agree_descs_assemble _ _, agree_psi_new _ _ _, agree_check _, agree_usizeSub _ _, agree_finalize _, agree_demux _ _, agree_psiDemux _ _ _ _, agree_addU64 _ _, agree_fromMjd _, agree_fromBcdTime32 _, agree_toBcdTime32 _]
theorem agree_tot_assemble (t : Tot) : Agree (Tot.psiAssemble .debug t) (Tot.psiAssemble .release t) := by
  unfold Tot.psiAssemble; agree [agree_descs_parse _ _, agree_descs_assemble _ _, agree_psi_new _ _ _, agree_check _, agree_usizeSub _ _, agree_finalize _, agree_demux _ _, agree_psiDemux _ _ _ _, agree_addU64 _ _, agree_fromMjd _, agree_fromBcdTime32 _, agree_toBcdTime32 _]
theorem agree_pat_demux (t : Pat) (pid : UInt16) (cc : UInt8) (dst : List UInt8) : Agree (Pat.demux .debug t pid cc dst) (Pat.demux .release t pid cc dst) := by
  unfold Pat.demux; agree [agree_pat_assemble _, agree_psiDemux _ _ _ _, agree_demux _ _, agree_finalize _]
theorem agree_pat_ofPsi (s : Psi) : Agree (Pat.ofPsi .debug s) (Pat.ofPsi .release s) := by
  unfold Pat.ofPsi; agree [agree_pat_parse _ _]
theorem agree_pmt_demux (t : Pmt) (pid : UInt16) (cc : UInt8) (dst : List UInt8) : Agree (Pmt.demux .debug t pid cc dst) (Pmt.demux .release t pid cc dst) := by
  unfold Pmt.demux; agree [agree_pmt_assemble _, agree_psiDemux _ _ _ _, agree_demux _ _, agree_finalize _]
theorem agree_pmt_ofPsi (s : Psi) : Agree (Pmt.ofPsi .debug s) (Pmt.ofPsi .release s) := by
  unfold Pmt.ofPsi; agree [agree_pmt_parse _ _]
theorem agree_nit_demux (t : Nit) (pid : UInt16) (cc : UInt8) (dst : List UInt8) : Agree (Nit.demux .debug t pid cc dst) (Nit.demux .release t pid cc dst) := by
  unfold Nit.demux; agree [agree_nit_assemble _, agree_psiDemux _ _ _ _, agree_demux _ _, agree_finalize _]
theorem agree_nit_ofPsi (s : Psi) : Agree (Nit.ofPsi .debug s) (Nit.ofPsi .release s) := by
  unfold Nit.ofPsi; agree [agree_nit_parse _ _]
theorem agree_sdt_demux (t : Sdt) (pid : UInt16) (cc : UInt8) (dst : List UInt8) : Agree (Sdt.demux .debug t pid cc dst) (Sdt.demux .release t pid cc dst) := by
  unfold Sdt.demux; agree [agree_sdt_assemble _, agree_psiDemux _ _ _ _, agree_demux _ _, agree_finalize _]
theorem agree_sdt_ofPsi (s : Psi) : Agree (Sdt.ofPsi .debug s) (Sdt.ofPsi .release s) := by
  unfold Sdt.ofPsi; agree [agree_sdt_parse _ _]
theorem agree_eit_demux (t : Eit) (pid : UInt16) (cc : UInt8) (dst : List UInt8) : Agree (Eit.demux .debug t pid cc dst) (Eit.demux .release t pid cc dst) := by
  unfold Eit.demux; agree [agree_eit_assemble _, agree_psiDemux _ _ _ _, agree_demux _ _, agree_finalize _, agree_eit_demuxLoop _ _ _ _]
theorem agree_eit_ofPsi (s : Psi) : Agree (Eit.ofPsi .debug s) (Eit.ofPsi .release s) := by
  unfold Eit.ofPsi; agree [agree_eit_parse _ _]
theorem agree_tdt_demux (t : Tdt) (pid : UInt16) (cc : UInt8) (dst : List UInt8) : Agree (Tdt.demux .debug t pid cc dst) (Tdt.demux .release t pid cc dst) := by
  unfold Tdt.demux; agree [agree_tdt_assemble _, agree_psiDemux _ _ _ _, agree_demux _ _, agree_finalize _]
theorem agree_tdt_ofPsi (s : Psi) : Agree (Tdt.ofPsi .debug s) (Tdt.ofPsi .release s) := by
  unfold Tdt.ofPsi; agree [agree_tdt_parse _ _]
theorem agree_tot_demux (t : Tot) (pid : UInt16) (cc : UInt8) (dst : List UInt8) : Agree (Tot.demux .debug t pid cc dst) (Tot.demux .release t pid cc dst) := by
  unfold Tot.demux; agree [agree_tot_assemble _, agree_psiDemux _ _ _ _, agree_demux _ _, agree_finalize _]
theorem agree_tot_ofPsi (s : Psi) : Agree (Tot.ofPsi .debug s) (Tot.ofPsi .release s) := by
  unfold Tot.ofPsi; agree [agree_tot_parse _ _]

/-! ## The statements -/

/-- Clock arithmetic (`ts/pcr.rs`, `es/pes.rs`). -/
theorem C102_clock (a b c d : UInt64) :
    Agree (Ts.pcrDelta .debug a b) (Ts.pcrDelta .release a b) ∧
    Agree (Ts.pcrToStc .debug a b c d) (Ts.pcrToStc .release a b c d) ∧
    Agree (Ts.pcrJitterNs .debug a b) (Ts.pcrJitterNs .release a b) ∧
    Agree (Ts.pcrDeltaBitrate .debug a b) (Ts.pcrDeltaBitrate .release a b) ∧
    Agree (Pes.ptsDelta .debug a b) (Pes.ptsDelta .release a b) :=
  ⟨agree_pcrDelta _ _, agree_pcrToStc _ _ _ _, agree_pcrJitterNs _ _, agree_pcrDeltaBitrate _ _, agree_ptsDelta _ _⟩

/-- Binary coded decimals and dates (`psi/utils`). -/
theorem C102_bcd (x : UInt8) (y : UInt16) (z : UInt32) :
    Agree (fromBcd8 .debug x) (fromBcd8 .release x) ∧ Agree (toBcd8 .debug x) (toBcd8 .release x) ∧
    Agree (fromBcd16 .debug y) (fromBcd16 .release y) ∧ Agree (toBcd16 .debug y) (toBcd16 .release y) ∧
    Agree (fromBcd32 .debug z) (fromBcd32 .release z) ∧ Agree (toBcd32 .debug z) (toBcd32 .release z) ∧
    Agree (fromBcdTime16 .debug y) (fromBcdTime16 .release y) ∧
    Agree (toBcdTime16 .debug y) (toBcdTime16 .release y) ∧
    Agree (fromBcdTime32 .debug z) (fromBcdTime32 .release z) ∧
    Agree (toBcdTime32 .debug z) (toBcdTime32 .release z) ∧
    Agree (fromMjd .debug y) (fromMjd .release y) :=
  ⟨agree_fromBcd8 _, agree_toBcd8 _, agree_fromBcd16 _, agree_toBcd16 _, agree_fromBcd32 _, agree_toBcd32 _,
    agree_fromBcdTime16 _, agree_toBcdTime16 _, agree_fromBcdTime32 _, agree_toBcdTime32 _, agree_fromMjd _⟩

/-- Packet headers and the packet viewers (`ts.rs`). -/
theorem C102_packet (ts : List UInt8) (pid : UInt16) (cc : UInt8) :
    Agree (Ts.getPayloadOffset .debug ts) (Ts.getPayloadOffset .release ts) ∧
    Agree (Ts.setPid .debug ts pid) (Ts.setPid .release ts pid) ∧
    Agree (Ts.setCc .debug ts cc) (Ts.setCc .release ts cc) ∧
    Agree (Ts.adaptationNew .debug ts) (Ts.adaptationNew .release ts) ∧
    Agree (Ts.packetNew .debug ts) (Ts.packetNew .release ts) ∧
    Agree (Ts.packetDebug .debug ts) (Ts.packetDebug .release ts) :=
  ⟨agree_getPayloadOffset _, agree_setPid _ _, agree_setCc _ _, agree_adaptationNew _, agree_packetNew _,
    agree_packetDebug _⟩

/-- Texts (`textcode`). -/
theorem C102_text (s : StringDVB) (n : Nat) :
    Agree (StringDVB.truncate .debug s n) (StringDVB.truncate .release s n) ∧
    Agree (StringDVB.split .debug s n) (StringDVB.split .release s n) :=
  ⟨agree_truncate _ _, agree_split _ _⟩

/-- Descriptors and lists of them. -/
theorem C102_descriptors (d : Desc) (ds : Descriptors) (b : List UInt8) :
    Agree (Desc.parse .debug b) (Desc.parse .release b) ∧
    Agree (Desc.assemble .debug d b) (Desc.assemble .release d b) ∧
    Agree (Descriptors.parse .debug ds b) (Descriptors.parse .release ds b) ∧
    Agree (Descriptors.assemble .debug ds b) (Descriptors.assemble .release ds b) :=
  ⟨agree_desc_parse _, agree_desc_assemble _ _, agree_descs_parse _ _, agree_descs_assemble _ _⟩

/-- Sections (`psi.rs`). -/
theorem C102_sections (tid : UInt8) (n : Nat) (v : UInt8) (s o : Psi) (ts dst : List UInt8) (l : List Psi)
    (pid : UInt16) (cc : UInt8) :
    Agree (Psi.new .debug tid n v) (Psi.new .release tid n v) ∧
    Agree (Psi.mux .debug s ts) (Psi.mux .release s ts) ∧
    Agree (Psi.check .debug s) (Psi.check .release s) ∧
    Agree (Psi.eq .debug s o) (Psi.eq .release s o) ∧
    Agree (Psi.finalize .debug s) (Psi.finalize .release s) ∧
    Agree (Psi.demux .debug s dst) (Psi.demux .release s dst) ∧
    Agree (psiDemux .debug l pid cc dst) (psiDemux .release l pid cc dst) :=
  ⟨agree_psi_new _ _ _, agree_mux _ _, agree_check _, agree_eq _ _, agree_finalize _, agree_demux _ _,
    agree_psiDemux _ _ _ _⟩

/-- Adding a section to a table already collected, for each table. -/
theorem C102_tables_parse (s : Psi) (pat : Pat) (pmt : Pmt) (nit : Nit) (sdt : Sdt) (eit : Eit) (tdt : Tdt) (tot : Tot) :
    Agree (pat.parse .debug s) (pat.parse .release s) ∧ Agree (pmt.parse .debug s) (pmt.parse .release s) ∧
    Agree (nit.parse .debug s) (nit.parse .release s) ∧ Agree (sdt.parse .debug s) (sdt.parse .release s) ∧
    Agree (eit.parse .debug s) (eit.parse .release s) ∧ Agree (tdt.parse .debug s) (tdt.parse .release s) ∧
    Agree (tot.parse .debug s) (tot.parse .release s) :=
  ⟨agree_pat_parse _ _, agree_pmt_parse _ _, agree_nit_parse _ _, agree_sdt_parse _ _, agree_eit_parse _ _,
    agree_tdt_parse _ _, agree_tot_parse _ _⟩

/-- Sending a table, for each table. -/
theorem C102_tables_demux (pat : Pat) (pmt : Pmt) (nit : Nit) (sdt : Sdt) (eit : Eit) (tdt : Tdt) (tot : Tot)
    (pid : UInt16) (cc : UInt8) (dst : List UInt8) :
    Agree (pat.demux .debug pid cc dst) (pat.demux .release pid cc dst) ∧
    Agree (pmt.demux .debug pid cc dst) (pmt.demux .release pid cc dst) ∧
    Agree (nit.demux .debug pid cc dst) (nit.demux .release pid cc dst) ∧
    Agree (sdt.demux .debug pid cc dst) (sdt.demux .release pid cc dst) ∧
    Agree (eit.demux .debug pid cc dst) (eit.demux .release pid cc dst) ∧
    Agree (tdt.demux .debug pid cc dst) (tdt.demux .release pid cc dst) ∧
    Agree (tot.demux .debug pid cc dst) (tot.demux .release pid cc dst) :=
  ⟨agree_pat_demux _ _ _ _, agree_pmt_demux _ _ _ _, agree_nit_demux _ _ _ _, agree_sdt_demux _ _ _ _,
    agree_eit_demux _ _ _ _, agree_tdt_demux _ _ _ _, agree_tot_demux _ _ _ _⟩

theorem Agree.foldlM {α β : Type} {f g : β → α → R β} (h : ∀ b a, Agree (f b a) (g b a)) (l : List α) (b : β) :
    Agree (l.foldlM f b) (l.foldlM g b) := by
  induction l generalizing b with
  | nil => exact .refl _
  | cons a r ih => rw [List.foldlM_cons, List.foldlM_cons]; exact .bind (h _ _) fun _ => ih _

/-- A whole history: feed any packets to one collector, from any state, and look at the section. -/
theorem C102_history (packets : List (List UInt8)) (s : Psi) :
    Agree (packets.foldlM (Psi.mux .debug) s >>= Psi.check .debug)
      (packets.foldlM (Psi.mux .release) s >>= Psi.check .release) :=
  .bind (.foldlM (fun _ _ => agree_mux _ _) _ _) fun _ => agree_check _

/-- What the relation gives its reader: a value seen in a debug build is the release build's value. -/
theorem C102_meaning {α : Type} {x y : R α} (h : Agree x y) {v : α} (hx : x = .ok v) : y = .ok v := by
  rcases h with rfl | rfl
  · cases hx
  · exact hx

/-- The two builds do differ: a PID that does not fit panics in one and spills in the other. -/
example : Ts.setPid .debug (List.replicate 188 0) 0x2000 = panic ∧
    Ts.setPid .release (List.replicate 188 0) 0x2000 = .ok (0 :: 0x20 :: List.replicate 186 0) := by decide +kernel
/-- And so does a clock that wraps: the product does not fit 64 bits. -/
example : Ts.pcrDeltaBitrate .debug 27000000 0x2000000000000000 = panic ∧
    ∃ v, Ts.pcrDeltaBitrate .release 27000000 0x2000000000000000 = .ok v := by
  constructor
  · decide +kernel
  · exact ⟨_, rfl⟩
/-- They agree on ordinary arguments. -/
example : Ts.setPid .debug (List.replicate 188 0) 0x1FFF = Ts.setPid .release (List.replicate 188 0) 0x1FFF ∧
    toBcd16 .debug 1234 = .ok 0x1234 ∧ toBcd16 .release 1234 = .ok 0x1234 := by decide +kernel

end Mpegts
