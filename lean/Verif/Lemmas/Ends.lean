import Verif.Spec.Ends
import Verif.Model.Cbr
import Verif.Model.Tool
import Verif.Model.Debug
import Verif.Model.Pat
import Verif.Model.Pmt
import Verif.Model.Nit
import Verif.Model.Sdt
import Verif.Model.Tdt
import Verif.Model.Eit
import Verif.Model.Pes
import Verif.Lemmas.Basic
import Verif.Props.C27_C28

/-! # Which computations end: an instance for every operation of the model -/

namespace Mpegts
open Spec

/-- `Spec.Ends` as a class, so that instances follow a computation step by step. -/
class End {α : Type} (r : R α) : Prop where
  out : Ends r

namespace End
variable {α β : Type}

instance ok (a : α) : End (.ok a : R α) := ⟨.inl ⟨a, rfl⟩⟩
instance pure (a : α) : End (pure a : R α) := ⟨.inl ⟨a, rfl⟩⟩
instance panic : End (.error .panic : R α) := ⟨.inr rfl⟩

theorem bind' {x : R α} {f : α → R β} (h : End x) (hf : ∀ a, x = .ok a → End (f a)) : End (x >>= f) := by
  rcases h.out with ⟨v, hv⟩ | hv
  · rw [hv]; exact hf v hv
  · rw [hv]; exact ⟨.inr rfl⟩

instance bind {x : R α} {f : α → R β} [h : End x] [hf : ∀ a, End (f a)] : End (x >>= f) := bind' h fun a _ => hf a

instance map (f : α → β) {x : R α} [h : End x] : End (f <$> x) := by
  rcases h.out with ⟨v, hv⟩ | hv
  · rw [hv]; exact ⟨.inl ⟨f v, rfl⟩⟩
  · rw [hv]; exact ⟨.inr rfl⟩

instance ite {c : Prop} [Decidable c] {a b : R α} [ha : End a] [hb : End b] : End (if c then a else b) := by
  split
  · exact ha
  · exact hb

end End

/-- Follow a computation step by step. -/
macro "ends" : tactic => `(tactic| repeat' (first
  | with_reducible infer_instance
  | with_reducible refine End.bind' ?_ fun _ _ => ?_
  | split
  | dsimp only))

instance (p : Profile) {α : Type} (w : α) : End (p.overflow w) := by unfold Profile.overflow; ends
instance (p : Profile) (c : Bool) : End (debugAssert p c) := by unfold debugAssert; ends
instance (c : Bool) : End (assert c) := by unfold assert; ends
instance (p : Profile) (a b : UInt8) : End (addU8 p a b) := by unfold addU8; ends
instance (p : Profile) (a b : UInt8) : End (mulU8 p a b) := by unfold mulU8; ends
instance (p : Profile) (a b : UInt16) : End (mulU16 p a b) := by unfold mulU16; ends
instance (p : Profile) (a b : UInt32) : End (mulU32 p a b) := by unfold mulU32; ends
instance (p : Profile) (a b : UInt64) : End (addU64 p a b) := by unfold addU64; ends
instance (p : Profile) (a b : UInt64) : End (mulU64 p a b) := by unfold mulU64; ends
instance (p : Profile) (a b : UInt64) : End (subU64 p a b) := by unfold subU64; ends
instance (a b : UInt64) : End (divU64 a b) := by unfold divU64; ends
instance (p : Profile) (a b : Nat) : End (usizeSub p a b) := by unfold usizeSub; ends
instance {α : Type} (l : List α) (i : Nat) : End (idx l i) := by unfold idx; ends
instance (l : List UInt8) (i : Nat) (v : UInt8) : End (setIdx l i v) := by unfold setIdx; ends
instance {α : Type} (l : List α) (i : Nat) : End (sliceFrom l i) := by unfold sliceFrom; ends
instance {α : Type} (l : List α) (i : Nat) : End (sliceTo l i) := by unfold sliceTo; ends
instance {α : Type} (l : List α) (i j : Nat) : End (slice l i j) := by unfold slice; ends
instance {α : Type} (l : List α) (i j : Nat) (s : List α) : End (copySlice l i j s) := by unfold copySlice; ends
-- Bcd
instance (p : Profile) (x : UInt8) : End (fromBcd8 p x) := by unfold fromBcd8; ends
instance (p : Profile) (x : UInt8) : End (toBcd8 p x) := by unfold toBcd8; ends
instance (p : Profile) (x : UInt16) : End (fromBcd16 p x) := by unfold fromBcd16; ends
instance (p : Profile) (x : UInt16) : End (toBcd16 p x) := by unfold toBcd16; ends
instance (p : Profile) (x : UInt32) : End (fromBcd32 p x) := by unfold fromBcd32; ends
instance (p : Profile) (x : UInt32) : End (toBcd32 p x) := by unfold toBcd32; ends
instance (p : Profile) (x : UInt16) : End (fromBcdTime16 p x) := by unfold fromBcdTime16; ends
instance (p : Profile) (x : UInt16) : End (toBcdTime16 p x) := by unfold toBcdTime16; ends
instance (p : Profile) (x : UInt32) : End (fromBcdTime32 p x) := by unfold fromBcdTime32; ends
instance (p : Profile) (x : UInt32) : End (toBcdTime32 p x) := by unfold toBcdTime32; ends
instance (p : Profile) (x : UInt16) : End (fromMjd p x) := by unfold fromMjd; ends
-- Bytes
instance (s : List UInt8) : End (getU16 s) := by unfold getU16; ends
instance (s : List UInt8) (value : UInt16) : End (setU16 s value) := by unfold setU16; ends
instance (s : List UInt8) : End (getU24 s) := by unfold getU24; ends
instance (s : List UInt8) (value : UInt32) : End (setU24 s value) := by unfold setU24; ends
instance (s : List UInt8) : End (getU32 s) := by unfold getU32; ends
instance (s : List UInt8) (value : UInt32) : End (setU32 s value) := by unfold setU32; ends
instance (buf : List UInt8) (off : Nat) (f : List UInt8 → R (List UInt8)) [∀ x, End (f x)] : End (atOff buf off f) := by unfold atOff; ends
instance (buf : List UInt8) (off : Nat) : End (getU16At buf off) := by unfold getU16At; ends
instance (buf : List UInt8) (off : Nat) : End (getU24At buf off) := by unfold getU24At; ends
instance (buf : List UInt8) (off : Nat) : End (getU32At buf off) := by unfold getU32At; ends
instance (buf : List UInt8) (off : Nat) (v : UInt16) : End (setU16At buf off v) := by unfold setU16At; ends
instance (buf : List UInt8) (off : Nat) (v : UInt32) : End (setU24At buf off v) := by unfold setU24At; ends
instance (buf : List UInt8) (off : Nat) (v : UInt32) : End (setU32At buf off v) := by unfold setU32At; ends
-- Crc32
instance (result : UInt32) (b : UInt8) : End (crcStep result b) := by unfold crcStep; ends
instance (result : UInt32) (x1 : List UInt8) : End (crcLoop result x1) := by
  induction x1 generalizing result <;> (unfold crcLoop; ends)
instance (buffer : List UInt8) : End (crc32b buffer) := by unfold crc32b; ends
-- Ts
instance (ts : List UInt8) : End (Ts.isSync ts) := by unfold Ts.isSync; ends
instance (ts : List UInt8) : End (Ts.isError ts) := by unfold Ts.isError; ends
instance (ts : List UInt8) : End (Ts.isPayload ts) := by unfold Ts.isPayload; ends
instance (ts : List UInt8) : End (Ts.isPusi ts) := by unfold Ts.isPusi; ends
instance (ts : List UInt8) : End (Ts.isAdaptation ts) := by unfold Ts.isAdaptation; ends
instance (ts : List UInt8) : End (Ts.getAdaptationSize ts) := by unfold Ts.getAdaptationSize; ends
instance (p : Profile) (ts : List UInt8) : End (Ts.getPayloadOffset p ts) := by unfold Ts.getPayloadOffset; ends
instance (ts : List UInt8) : End (Ts.isScrambled ts) := by unfold Ts.isScrambled; ends
instance (ts : List UInt8) : End (Ts.getPid ts) := by unfold Ts.getPid; ends
instance (ts : List UInt8) : End (Ts.getCc ts) := by unfold Ts.getCc; ends
instance (p : Profile) (ts : List UInt8) (pid : UInt16) : End (Ts.setPid p ts pid) := by unfold Ts.setPid; ends
instance (p : Profile) (ts : List UInt8) (cc : UInt8) : End (Ts.setCc p ts cc) := by unfold Ts.setCc; ends
instance (ts : List UInt8) : End (Ts.setPayload0 ts) := by unfold Ts.setPayload0; ends
instance (ts : List UInt8) : End (Ts.setPayload1 ts) := by unfold Ts.setPayload1; ends
instance (ts : List UInt8) : End (Ts.setPusi0 ts) := by unfold Ts.setPusi0; ends
instance (ts : List UInt8) : End (Ts.setPusi1 ts) := by unfold Ts.setPusi1; ends
-- Pcr
instance (packet : List UInt8) : End (Ts.isPcr packet) := by unfold Ts.isPcr; ends
instance (packet : List UInt8) (pcr : UInt64) : End (Ts.setPcr packet pcr) := by unfold Ts.setPcr; ends
instance (packet : List UInt8) : End (Ts.getPcr packet) := by unfold Ts.getPcr; ends
instance (p : Profile) (last current : UInt64) : End (Ts.pcrDelta p last current) := by unfold Ts.pcrDelta; ends
instance (p : Profile) (lastPcr bytes lastDelta lastBytes : UInt64) : End (Ts.pcrToStc p lastPcr bytes lastDelta lastBytes) := by unfold Ts.pcrToStc; ends
instance (p : Profile) (x : Int) : End (Ts.i64 p x) := by unfold Ts.i64; ends
instance (p : Profile) (pcr stc : UInt64) : End (Ts.pcrJitterNs p pcr stc) := by unfold Ts.pcrJitterNs; ends
instance (p : Profile) (delta bytes : UInt64) : End (Ts.pcrDeltaBitrate p delta bytes) := by unfold Ts.pcrDeltaBitrate; ends
-- Pes
instance (packet : List UInt8) : End (Pes.isPrefix packet) := by unfold Pes.isPrefix; ends
instance (packet : List UInt8) : End (Pes.isSyntaxSpec packet) := by unfold Pes.isSyntaxSpec; ends
instance (packet : List UInt8) : End (Pes.getLength packet) := by unfold Pes.getLength; ends
instance (packet : List UInt8) : End (Pes.getPayloadOffset packet) := by unfold Pes.getPayloadOffset; ends
instance (packet : List UInt8) : End (Pes.isPts packet) := by unfold Pes.isPts; ends
instance (packet : List UInt8) : End (Pes.getPts packet) := by unfold Pes.getPts; ends
instance (p : Profile) (last current : UInt64) : End (Pes.ptsDelta p last current) := by unfold Pes.ptsDelta; ends
instance (packet : List UInt8) : End (Pes.isDts packet) := by unfold Pes.isDts; ends
instance (packet : List UInt8) : End (Pes.getDts packet) := by unfold Pes.getDts; ends
-- Debug
instance (packet : List UInt8) : End (Ts.adaptationDebug packet) := by unfold Ts.adaptationDebug; ends
instance (p : Profile) (packet : List UInt8) : End (Ts.adaptationNew p packet) := by unfold Ts.adaptationNew; ends
instance (p : Profile) (packet : List UInt8) : End (Ts.packetNew p packet) := by unfold Ts.packetNew; ends
instance (p : Profile) (packet : List UInt8) : End (Ts.packetDebug p packet) := by unfold Ts.packetDebug; ends
-- Text
instance (s : StringDVB) (dst : List UInt8) : End (StringDVB.assembleSized s dst) := by unfold StringDVB.assembleSized; ends
instance (p : Profile) (s : StringDVB) (size : Nat) : End (StringDVB.truncate p s size) := by unfold StringDVB.truncate; ends
instance (p : Profile) (data : List UInt8) (x1 : Nat) (x2 : Nat) : End (StringDVB.splitBack p data x1 x2) := by
  induction x1 generalizing x2 <;> (unfold StringDVB.splitBack; ends)
-- Desc
instance (s : List UInt8) : End (DescRaw.parse s) := by unfold DescRaw.parse; ends
instance (d : DescRaw) (buffer : List UInt8) : End (DescRaw.assemble d buffer) := by unfold DescRaw.assemble; ends
instance (s : List UInt8) : End (Desc09.check s) := by unfold Desc09.check; ends
instance (s : List UInt8) : End (Desc09.parse s) := by unfold Desc09.parse; ends
instance (d : Desc09) (buffer : List UInt8) : End (Desc09.assemble d buffer) := by unfold Desc09.assemble; ends
instance (s : List UInt8) : End (Desc0A.check s) := by unfold Desc0A.check; ends
theorem fuel_Desc0A_parseLoop (s : List UInt8) (fuel : Nat) (skip : Nat) (x1 : List Desc0Ai) (h0 : 0 < fuel) (h : s.length < fuel + skip) : End (Desc0A.parseLoop s fuel skip x1) := by
  induction fuel generalizing skip x1 with
  | zero => exact absurd h0 (by omega)
  | succ fuel ih =>
    unfold Desc0A.parseLoop
    ends
    all_goals exact ih _ _ (by omega) (by omega)
instance (s : List UInt8) (skip : Nat) (x1 : List Desc0Ai) : End (Desc0A.parseLoop s (s.length + 1) skip x1) :=
  fuel_Desc0A_parseLoop s _ _ _ (by omega) (by omega)
instance (s : List UInt8) : End (Desc0A.parse s) := by unfold Desc0A.parse; ends
instance (d : Desc0A) (buffer : List UInt8) : End (Desc0A.assemble d buffer) := by unfold Desc0A.assemble; ends
instance (s : List UInt8) : End (Desc0E.check s) := by unfold Desc0E.check; ends
instance (s : List UInt8) : End (Desc0E.parse s) := by unfold Desc0E.parse; ends
instance (d : Desc0E) (buffer : List UInt8) : End (Desc0E.assemble d buffer) := by unfold Desc0E.assemble; ends
instance (s : List UInt8) : End (Desc40.check s) := by unfold Desc40.check; ends
instance (s : List UInt8) : End (Desc40.parse s) := by unfold Desc40.parse; ends
instance (d : Desc40) (buffer : List UInt8) : End (Desc40.assemble d buffer) := by unfold Desc40.assemble; ends
instance (s : List UInt8) : End (Desc41.check s) := by unfold Desc41.check; ends
theorem fuel_Desc41_parseLoop (s : List UInt8) (fuel : Nat) (skip : Nat) (x1 : List Desc41i) (h0 : 0 < fuel) (h : s.length < fuel + skip) : End (Desc41.parseLoop s fuel skip x1) := by
  induction fuel generalizing skip x1 with
  | zero => exact absurd h0 (by omega)
  | succ fuel ih =>
    unfold Desc41.parseLoop
    ends
    all_goals exact ih _ _ (by omega) (by omega)
instance (s : List UInt8) (skip : Nat) (x1 : List Desc41i) : End (Desc41.parseLoop s (s.length + 1) skip x1) :=
  fuel_Desc41_parseLoop s _ _ _ (by omega) (by omega)
instance (s : List UInt8) : End (Desc41.parse s) := by unfold Desc41.parse; ends
instance (x1 : List Desc41i) (skip : Nat) (x2 : List UInt8) : End (Desc41.assembleLoop x1 skip x2) := by
  induction x1 generalizing skip x2 <;> (unfold Desc41.assembleLoop; ends)
instance (d : Desc41) (buffer : List UInt8) : End (Desc41.assemble d buffer) := by unfold Desc41.assemble; ends
instance (s : List UInt8) : End (Desc43.check s) := by unfold Desc43.check; ends
instance (p : Profile) (s : List UInt8) : End (Desc43.parse p s) := by unfold Desc43.parse; ends
instance (p : Profile) (d : Desc43) (buffer : List UInt8) : End (Desc43.assemble p d buffer) := by unfold Desc43.assemble; ends
instance (s : List UInt8) : End (Desc44.check s) := by unfold Desc44.check; ends
instance (p : Profile) (s : List UInt8) : End (Desc44.parse p s) := by unfold Desc44.parse; ends
instance (p : Profile) (d : Desc44) (buffer : List UInt8) : End (Desc44.assemble p d buffer) := by unfold Desc44.assemble; ends
instance (s : List UInt8) : End (Desc48.check s) := by unfold Desc48.check; ends
instance (s : List UInt8) : End (Desc48.parse s) := by unfold Desc48.parse; ends
instance (d : Desc48) (buffer : List UInt8) : End (Desc48.assemble d buffer) := by unfold Desc48.assemble; ends
instance (s : List UInt8) : End (Desc4D.check s) := by unfold Desc4D.check; ends
instance (s : List UInt8) : End (Desc4D.parse s) := by unfold Desc4D.parse; ends
instance (d : Desc4D) (buffer : List UInt8) : End (Desc4D.assemble d buffer) := by unfold Desc4D.assemble; ends
instance (s : List UInt8) : End (Desc4E.check s) := by unfold Desc4E.check; ends
theorem fuel_Desc4E_parseLoop (s : List UInt8) (itemsE : Nat) (he : itemsE ≤ s.length) (fuel skip : Nat) (x1 : List (StringDVB × StringDVB))
    (h0 : 0 < fuel) (h : s.length < fuel + skip) : End (Desc4E.parseLoop s itemsE fuel skip x1) := by
  induction fuel generalizing skip x1 with
  | zero => exact absurd h0 (by omega)
  | succ fuel ih =>
    unfold Desc4E.parseLoop
    ends
    all_goals exact ih _ _ (by omega) (by omega)
instance (s : List UInt8) : End (Desc4E.parse s) := by
  unfold Desc4E.parse
  refine End.bind' inferInstance fun n _ => End.bind' inferInstance fun m hm => End.bind' inferInstance fun b _ =>
    End.bind' inferInstance fun x _ => ?_
  have hl : 7 + n.toNat ≤ s.length := by
    unfold idx at hm
    split at hm
    · rename_i y hy
      have := (List.getElem?_eq_some_iff.1 hy).1
      omega
    · cases hm
  have := fuel_Desc4E_parseLoop s (7 + n.toNat) hl (s.length + 1) 7 [] (by omega) (by omega)
  ends
instance (x1 : List (StringDVB × StringDVB)) (x2 : List UInt8) : End (Desc4E.assembleLoop x1 x2) := by
  induction x1 generalizing x2 <;> (unfold Desc4E.assembleLoop; ends)
instance (d : Desc4E) (buffer : List UInt8) : End (Desc4E.assemble d buffer) := by unfold Desc4E.assemble; ends
instance (s : List UInt8) : End (Desc52.check s) := by unfold Desc52.check; ends
instance (s : List UInt8) : End (Desc52.parse s) := by unfold Desc52.parse; ends
instance (d : Desc52) (buffer : List UInt8) : End (Desc52.assemble d buffer) := by unfold Desc52.assemble; ends
instance (s : List UInt8) : End (Desc58.check s) := by unfold Desc58.check; ends
theorem fuel_Desc58_parseLoop (p : Profile) (s : List UInt8) (fuel : Nat) (skip : Nat) (x1 : List Desc58i) (h0 : 0 < fuel) (h : s.length < fuel + skip) : End (Desc58.parseLoop p s fuel skip x1) := by
  induction fuel generalizing skip x1 with
  | zero => exact absurd h0 (by omega)
  | succ fuel ih =>
    unfold Desc58.parseLoop
    ends
    all_goals exact ih _ _ (by omega) (by omega)
instance (p : Profile) (s : List UInt8) (skip : Nat) (x1 : List Desc58i) : End (Desc58.parseLoop p s (s.length + 1) skip x1) :=
  fuel_Desc58_parseLoop p s _ _ _ (by omega) (by omega)
instance (p : Profile) (s : List UInt8) : End (Desc58.parse p s) := by unfold Desc58.parse; ends
instance (p : Profile) (x1 : List Desc58i) (x2 : List UInt8) : End (Desc58.assembleLoop p x1 x2) := by
  induction x1 generalizing x2 <;> (unfold Desc58.assembleLoop; ends)
instance (p : Profile) (d : Desc58) (buffer : List UInt8) : End (Desc58.assemble p d buffer) := by unfold Desc58.assemble; ends
instance (s : List UInt8) : End (Desc5A.check s) := by unfold Desc5A.check; ends
instance (p : Profile) (s : List UInt8) : End (Desc5A.parse p s) := by unfold Desc5A.parse; ends
instance (d : Desc5A) (buffer : List UInt8) : End (Desc5A.assemble d buffer) := by unfold Desc5A.assemble; ends
instance (s : List UInt8) : End (Desc83.check s) := by unfold Desc83.check; ends
theorem fuel_Desc83_parseLoop (s : List UInt8) (fuel : Nat) (skip : Nat) (x1 : List Desc83i) (h0 : 0 < fuel) (h : s.length < fuel + skip) : End (Desc83.parseLoop s fuel skip x1) := by
  induction fuel generalizing skip x1 with
  | zero => exact absurd h0 (by omega)
  | succ fuel ih =>
    unfold Desc83.parseLoop
    ends
    all_goals exact ih _ _ (by omega) (by omega)
instance (s : List UInt8) (skip : Nat) (x1 : List Desc83i) : End (Desc83.parseLoop s (s.length + 1) skip x1) :=
  fuel_Desc83_parseLoop s _ _ _ (by omega) (by omega)
instance (s : List UInt8) : End (Desc83.parse s) := by unfold Desc83.parse; ends
instance (x1 : List Desc83i) (skip : Nat) (x2 : List UInt8) : End (Desc83.assembleLoop x1 skip x2) := by
  induction x1 generalizing skip x2 <;> (unfold Desc83.assembleLoop; ends)
instance (d : Desc83) (buffer : List UInt8) : End (Desc83.assemble d buffer) := by unfold Desc83.assemble; ends
instance (p : Profile) (d : Desc) (buffer : List UInt8) : End (Desc.assemble p d buffer) := by unfold Desc.assemble; ends
instance (s : List UInt8) : End (Desc.parseRaw s) := by unfold Desc.parseRaw; ends
instance (p : Profile) (s : List UInt8) : End (Desc.parse p s) := by unfold Desc.parse; ends
instance (d : Desc) : End (Desc.clone d) := by cases d <;> (unfold Desc.clone; dsimp only; ends)
instance (k : Desc.Kind) (d : Desc) : End (Desc.downcast k d) := by unfold Desc.downcast; ends
theorem fuel_Descriptors_parseLoop (p : Profile) (s : List UInt8) (fuel : Nat) (skip : Nat) (x1 : Descriptors) (h0 : 0 < fuel) (h : s.length < fuel + skip) : End (Descriptors.parseLoop p s fuel skip x1) := by
  induction fuel generalizing skip x1 with
  | zero => exact absurd h0 (by omega)
  | succ fuel ih =>
    unfold Descriptors.parseLoop
    ends
    all_goals exact ih _ _ (by omega) (by omega)
instance (p : Profile) (s : List UInt8) (skip : Nat) (x1 : Descriptors) : End (Descriptors.parseLoop p s (s.length + 1) skip x1) :=
  fuel_Descriptors_parseLoop p s _ _ _ (by omega) (by omega)
instance (p : Profile) (self : Descriptors) (s : List UInt8) : End (Descriptors.parse p self s) := by unfold Descriptors.parse; ends
instance (p : Profile) (x1 : Descriptors) (x2 : List UInt8) : End (Descriptors.assembleLoop p x1 x2) := by
  induction x1 generalizing x2 <;> (unfold Descriptors.assembleLoop; ends)
instance (p : Profile) (self : Descriptors) (buffer : List UInt8) : End (Descriptors.assemble p self buffer) := by unfold Descriptors.assemble; ends
-- Psi
instance (p : Profile) (tableId : UInt8) (size : Nat) (version : UInt8) : End (Psi.new p tableId size version) := by unfold Psi.new; ends
instance (self : Psi) (payload : List UInt8) : End (Psi.push self payload) := by unfold Psi.push; ends
instance (p : Profile) (self : Psi) (ts : List UInt8) : End (Psi.mux p self ts) := by unfold Psi.mux; ends
instance (p : Profile) (self : Psi) : End (Psi.getCrc32 p self) := by unfold Psi.getCrc32; ends
instance (p : Profile) (self : Psi) : End (Psi.calcCrc32 p self) := by unfold Psi.calcCrc32; ends
instance (p : Profile) (self : Psi) : End (Psi.checkCrc32 p self) := by unfold Psi.checkCrc32; ends
instance (p : Profile) (self : Psi) : End (Psi.check p self) := by unfold Psi.check; ends
instance (p : Profile) (self other : Psi) : End (Psi.eq p self other) := by unfold Psi.eq; ends
instance (p : Profile) (self : Psi) : End (Psi.finalize p self) := by unfold Psi.finalize; ends
theorem fuel_Psi_demuxLoop (p : Profile) (buffer : List UInt8) (size : Nat) (pid : UInt16) (fuel : Nat) (dst : List UInt8) (dstSkip psiSkip : Nat)
    (cc : UInt8) (h0 : 0 < fuel) (h : size < fuel + psiSkip) : End (Psi.demuxLoop p buffer size pid fuel dst dstSkip psiSkip cc) := by
  induction fuel generalizing dst dstSkip psiSkip cc with
  | zero => exact absurd h0 (by omega)
  | succ fuel ih =>
    unfold Psi.demuxLoop
    by_cases hz : psiSkip = 0
    · simp only [hz, if_true, pure_eq_ok, ok_bind, bind_assoc]
      ends
      all_goals exact ih _ _ _ _ (by omega) (by omega)
    · simp only [hz, if_false, pure_eq_ok, ok_bind, bind_assoc]
      ends
      all_goals exact ih _ _ _ _ (by omega) (by omega)
instance (p : Profile) (buffer : List UInt8) (size : Nat) (pid : UInt16) (dst : List UInt8) (dstSkip psiSkip : Nat) (cc : UInt8) :
    End (Psi.demuxLoop p buffer size pid (size + 1) dst dstSkip psiSkip cc) := fuel_Psi_demuxLoop _ _ _ _ _ _ _ _ _ (by omega) (by omega)
instance (p : Profile) (self : Psi) (dst : List UInt8) : End (Psi.demux p self dst) := by unfold Psi.demux; ends
instance (p : Profile) (pid : UInt16) (last : UInt8) (sectionNumber : Nat) (x1 : List Psi) (cc : UInt8) (dst : List UInt8) : End (psiDemuxLoop p pid last sectionNumber x1 cc dst) := by
  induction x1 generalizing sectionNumber cc dst <;> (unfold psiDemuxLoop; ends)
instance (p : Profile) (psiList : List Psi) (pid : UInt16) (cc : UInt8) (dst : List UInt8) : End (psiDemux p psiList pid cc dst) := by unfold psiDemux; ends
-- Pat
instance (slice : List UInt8) : End (PatItem.parse slice) := by unfold PatItem.parse; ends
instance (self : PatItem) (buffer : List UInt8) : End (PatItem.assemble self buffer) := by unfold PatItem.assemble; ends
instance (p : Profile) (psi : Psi) : End (Pat.check p psi) := by unfold Pat.check; ends
theorem fuel_Pat_parseLoop (ptr : List UInt8) (fuel : Nat) (skip : Nat) (items : List PatItem) (h0 : 0 < fuel) (h : ptr.length < fuel + skip) : End (Pat.parseLoop ptr fuel skip items) := by
  induction fuel generalizing skip items with
  | zero => exact absurd h0 (by omega)
  | succ fuel ih =>
    unfold Pat.parseLoop
    ends
    all_goals exact ih _ _ (by omega) (by omega)
instance (ptr : List UInt8) (skip : Nat) (items : List PatItem) : End (Pat.parseLoop ptr (ptr.length + 1) skip items) :=
  fuel_Pat_parseLoop ptr _ _ _ (by omega) (by omega)
instance (p : Profile) (self : Pat) (psi : Psi) : End (Pat.parse p self psi) := by unfold Pat.parse; ends
instance (x1 : List PatItem) (buffer : List UInt8) : End (Pat.assembleLoop x1 buffer) := by
  induction x1 generalizing buffer <;> (unfold Pat.assembleLoop; ends)
instance (p : Profile) (self : Pat) : End (Pat.psiListAssemble p self) := by unfold Pat.psiListAssemble; ends
instance (p : Profile) (self : Pat) (pid : UInt16) (cc : UInt8) (dst : List UInt8) : End (Pat.demux p self pid cc dst) := by unfold Pat.demux; ends
instance (p : Profile) (psi : Psi) : End (Pat.ofPsi p psi) := by unfold Pat.ofPsi; ends
-- Pmt
instance (p : Profile) (s : List UInt8) : End (PmtItem.parse p s) := by unfold PmtItem.parse; ends
instance (p : Profile) (self : PmtItem) (buffer : List UInt8) : End (PmtItem.assemble p self buffer) := by unfold PmtItem.assemble; ends
instance (p : Profile) (psi : Psi) : End (Pmt.check p psi) := by unfold Pmt.check; ends
theorem fuel_Pmt_parseLoop (p : Profile) (ptr : List UInt8) (fuel : Nat) (skip : Nat) (items : List PmtItem) (h0 : 0 < fuel) (h : ptr.length < fuel + skip) : End (Pmt.parseLoop p ptr fuel skip items) := by
  induction fuel generalizing skip items with
  | zero => exact absurd h0 (by omega)
  | succ fuel ih =>
    unfold Pmt.parseLoop
    ends
    all_goals exact ih _ _ (by omega) (by omega)
instance (p : Profile) (ptr : List UInt8) (skip : Nat) (items : List PmtItem) : End (Pmt.parseLoop p ptr (ptr.length + 1) skip items) :=
  fuel_Pmt_parseLoop p ptr _ _ _ (by omega) (by omega)
instance (p : Profile) (self : Pmt) (psi : Psi) : End (Pmt.parse p self psi) := by unfold Pmt.parse; ends
instance (p : Profile) (self : Pmt) (first : Bool) : End (Pmt.psiInit p self first) := by unfold Pmt.psiInit; ends
instance (p : Profile) (self : Pmt) (x1 : List PmtItem) (done : List Psi) (psi : Psi) : End (Pmt.assembleLoop p self x1 done psi) := by
  induction x1 generalizing done psi <;> (unfold Pmt.assembleLoop; ends)
instance (p : Profile) (self : Pmt) : End (Pmt.psiListAssemble p self) := by unfold Pmt.psiListAssemble; ends
instance (p : Profile) (self : Pmt) (pid : UInt16) (cc : UInt8) (dst : List UInt8) : End (Pmt.demux p self pid cc dst) := by unfold Pmt.demux; ends
instance (p : Profile) (psi : Psi) : End (Pmt.ofPsi p psi) := by unfold Pmt.ofPsi; ends
-- Nit
instance (p : Profile) (s : List UInt8) : End (NitItem.parse p s) := by unfold NitItem.parse; ends
instance (p : Profile) (self : NitItem) (buffer : List UInt8) : End (NitItem.assemble p self buffer) := by unfold NitItem.assemble; ends
instance (p : Profile) (psi : Psi) : End (Nit.check p psi) := by unfold Nit.check; ends
theorem fuel_Nit_parseLoop (p : Profile) (ptr : List UInt8) (fuel : Nat) (skip : Nat) (items : List NitItem) (h0 : 0 < fuel) (h : ptr.length < fuel + skip) : End (Nit.parseLoop p ptr fuel skip items) := by
  induction fuel generalizing skip items with
  | zero => exact absurd h0 (by omega)
  | succ fuel ih =>
    unfold Nit.parseLoop
    ends
    all_goals exact ih _ _ (by omega) (by omega)
instance (p : Profile) (ptr : List UInt8) (skip : Nat) (items : List NitItem) : End (Nit.parseLoop p ptr (ptr.length + 1) skip items) :=
  fuel_Nit_parseLoop p ptr _ _ _ (by omega) (by omega)
instance (p : Profile) (self : Nit) (psi : Psi) : End (Nit.parse p self psi) := by unfold Nit.parse; ends
instance (p : Profile) (self : Nit) (first : Bool) : End (Nit.psiInit p self first) := by unfold Nit.psiInit; ends
instance (p : Profile) (self : Nit) (x1 : List NitItem) (done : List Psi) (psi : Psi) : End (Nit.assembleLoop p self x1 done psi) := by
  induction x1 generalizing done psi <;> (unfold Nit.assembleLoop; ends)
instance (p : Profile) (item : Psi) : End (Nit.patchLen p item) := by unfold Nit.patchLen; ends
instance (p : Profile) (x1 : List Psi) : End (Nit.patchLoop p x1) := by
  induction x1 <;> (unfold Nit.patchLoop; ends)
instance (p : Profile) (self : Nit) : End (Nit.psiListAssemble p self) := by unfold Nit.psiListAssemble; ends
instance (p : Profile) (self : Nit) (pid : UInt16) (cc : UInt8) (dst : List UInt8) : End (Nit.demux p self pid cc dst) := by unfold Nit.demux; ends
instance (p : Profile) (psi : Psi) : End (Nit.ofPsi p psi) := by unfold Nit.ofPsi; ends
-- Sdt
instance (p : Profile) (s : List UInt8) : End (SdtItem.parse p s) := by unfold SdtItem.parse; ends
instance (p : Profile) (self : SdtItem) (buffer : List UInt8) : End (SdtItem.assemble p self buffer) := by unfold SdtItem.assemble; ends
instance (p : Profile) (psi : Psi) : End (Sdt.check p psi) := by unfold Sdt.check; ends
theorem fuel_Sdt_parseLoop (p : Profile) (ptr : List UInt8) (fuel : Nat) (skip : Nat) (items : List SdtItem) (h0 : 0 < fuel) (h : ptr.length < fuel + skip) : End (Sdt.parseLoop p ptr fuel skip items) := by
  induction fuel generalizing skip items with
  | zero => exact absurd h0 (by omega)
  | succ fuel ih =>
    unfold Sdt.parseLoop
    ends
    all_goals exact ih _ _ (by omega) (by omega)
instance (p : Profile) (ptr : List UInt8) (skip : Nat) (items : List SdtItem) : End (Sdt.parseLoop p ptr (ptr.length + 1) skip items) :=
  fuel_Sdt_parseLoop p ptr _ _ _ (by omega) (by omega)
instance (p : Profile) (self : Sdt) (psi : Psi) : End (Sdt.parse p self psi) := by unfold Sdt.parse; ends
instance (p : Profile) (self : Sdt) : End (Sdt.psiInit p self) := by unfold Sdt.psiInit; ends
instance (p : Profile) (self : Sdt) (x1 : List SdtItem) (done : List Psi) (psi : Psi) : End (Sdt.assembleLoop p self x1 done psi) := by
  induction x1 generalizing done psi <;> (unfold Sdt.assembleLoop; ends)
instance (p : Profile) (self : Sdt) : End (Sdt.psiListAssemble p self) := by unfold Sdt.psiListAssemble; ends
instance (p : Profile) (self : Sdt) (pid : UInt16) (cc : UInt8) (dst : List UInt8) : End (Sdt.demux p self pid cc dst) := by unfold Sdt.demux; ends
instance (p : Profile) (psi : Psi) : End (Sdt.ofPsi p psi) := by unfold Sdt.ofPsi; ends
-- Tdt
instance (psi : Psi) : End (Tdt.check psi) := by unfold Tdt.check; ends
instance (p : Profile) (self : Tdt) (psi : Psi) : End (Tdt.parse p self psi) := by unfold Tdt.parse; ends
instance (p : Profile) (self : Tdt) : End (Tdt.psiAssemble p self) := by unfold Tdt.psiAssemble; ends
instance (p : Profile) (self : Tdt) (pid : UInt16) (cc : UInt8) (dst : List UInt8) : End (Tdt.demux p self pid cc dst) := by unfold Tdt.demux; ends
instance (p : Profile) (psi : Psi) : End (Tdt.ofPsi p psi) := by unfold Tdt.ofPsi; ends
instance (p : Profile) (psi : Psi) : End (Tot.check p psi) := by unfold Tot.check; ends
instance (p : Profile) (self : Tot) (psi : Psi) : End (Tot.parse p self psi) := by unfold Tot.parse; ends
instance (p : Profile) (self : Tot) : End (Tot.psiAssemble p self) := by unfold Tot.psiAssemble; ends
instance (p : Profile) (self : Tot) (pid : UInt16) (cc : UInt8) (dst : List UInt8) : End (Tot.demux p self pid cc dst) := by unfold Tot.demux; ends
instance (p : Profile) (psi : Psi) : End (Tot.ofPsi p psi) := by unfold Tot.ofPsi; ends
-- Eit
instance (p : Profile) (s : List UInt8) : End (EitItem.parse p s) := by unfold EitItem.parse; ends
instance (p : Profile) (self : EitItem) (buffer : List UInt8) : End (EitItem.assemble p self buffer) := by unfold EitItem.assemble; ends
instance (p : Profile) (psi : Psi) : End (Eit.check p psi) := by unfold Eit.check; ends
theorem fuel_Eit_parseLoop (p : Profile) (ptr : List UInt8) (fuel : Nat) (skip : Nat) (items : List EitItem) (h0 : 0 < fuel) (h : ptr.length < fuel + skip) : End (Eit.parseLoop p ptr fuel skip items) := by
  induction fuel generalizing skip items with
  | zero => exact absurd h0 (by omega)
  | succ fuel ih =>
    unfold Eit.parseLoop
    ends
    all_goals exact ih _ _ (by omega) (by omega)
instance (p : Profile) (ptr : List UInt8) (skip : Nat) (items : List EitItem) : End (Eit.parseLoop p ptr (ptr.length + 1) skip items) :=
  fuel_Eit_parseLoop p ptr _ _ _ (by omega) (by omega)
instance (p : Profile) (self : Eit) (psi : Psi) : End (Eit.parse p self psi) := by unfold Eit.parse; ends
instance (p : Profile) (self : Eit) : End (Eit.psiInit p self) := by unfold Eit.psiInit; ends
instance (p : Profile) (self : Eit) (last : UInt8) (n : Nat) (x1 : List EitItem) : End (Eit.pfLoop p self last n x1) := by
  induction x1 generalizing n <;> (unfold Eit.pfLoop; ends)
instance (p : Profile) (currentTableId : UInt8) (n : Nat) (psi : Psi) (psiList : List Psi) (midnight : UInt64) (currentSection : UInt8) : End (Eit.emptyLoop p currentTableId n psi psiList midnight currentSection) := by
  induction n generalizing psi psiList midnight currentSection <;> (unfold Eit.emptyLoop; ends)
instance (p : Profile) (self : Eit) (tableId sec : UInt8) (item : EitItem) : End (Eit.newSection p self tableId sec item) := by unfold Eit.newSection; ends
instance (p : Profile) (self : Eit) (x1 : List EitItem) (done : List Psi) (psi : Psi) (nextMidnight : UInt64) (currentSection : UInt8) (currentTableId : UInt8) : End (Eit.eventLoop p self x1 done psi nextMidnight currentSection currentTableId) := by
  induction x1 generalizing done psi nextMidnight currentSection currentTableId <;> (unfold Eit.eventLoop; ends)
instance (p : Profile) (lastTableId : UInt8) (x1 : List Psi) (currentTableId : UInt8) (lastSectionNumber : UInt8) : End (Eit.numberLoop p lastTableId x1 currentTableId lastSectionNumber) := by
  induction x1 generalizing currentTableId lastSectionNumber <;> (unfold Eit.numberLoop; ends)
instance (p : Profile) (self : Eit) (first last : EitItem) : End (Eit.scheduleAssemble p self first last) := by unfold Eit.scheduleAssemble; ends
instance (p : Profile) (self : Eit) : End (Eit.psiListAssemble p self) := by unfold Eit.psiListAssemble; ends
instance (p : Profile) (pid : UInt16) (x1 : List Psi) (cc : UInt8) (dst : List UInt8) : End (Eit.demuxLoop p pid x1 cc dst) := by
  induction x1 generalizing cc dst <;> (unfold Eit.demuxLoop; ends)
instance (p : Profile) (self : Eit) (pid : UInt16) (cc : UInt8) (dst : List UInt8) : End (Eit.demux p self pid cc dst) := by unfold Eit.demux; ends
instance (p : Profile) (psi : Psi) : End (Eit.ofPsi p psi) := by unfold Eit.ofPsi; ends
-- Reader
instance (s : Source) (packet : List UInt8) (a b : Nat) : End (Source.readInto s packet a b) := by unfold Source.readInto; ends
theorem source_read (s s' : Source) (n : Nat) (bytes : List UInt8) (h : s.read n = (.ok bytes, s')) :
    bytes.length + s'.data.length = s.data.length ∧ bytes.length ≤ n := by
  unfold Source.read at h
  split at h <;> (cases h) <;> simp only [List.length_take, List.length_drop, List.length_nil] <;> omega

theorem source_readInto (s : Source) (packet : List UInt8) (a b : Nat) (r : ReadRes Source) (x : Nat) (h : s.readInto packet a b = .ok r)
    (hx : r.res = .ok x) : x + r.st.data.length = s.data.length ∧ x ≤ b - a := by
  unfold Source.readInto at h
  obtain ⟨t, ht, h⟩ := bind_eq_ok.1 h
  unfold slice at ht
  split at ht
  · cases ht
    split at h
    · cases h; cases hx
    · rename_i bytes s' hr
      cases h; cases hx
      have := source_read _ _ _ _ hr
      simp only [List.length_drop, List.length_take] at this
      dsimp only
      omega
  · cases ht

theorem fuel_syncLoop (fuel : Nat) (src : Source) (packet : List UInt8) (h : src.data.length < fuel) : End (TsReader.syncLoop fuel src packet) := by
  induction fuel generalizing src packet with
  | zero => exact absurd h (by omega)
  | succ fuel ih =>
    unfold TsReader.syncLoop
    refine End.bind' inferInstance fun r hr => ?_
    split
    · ends
    · rename_i x hx
      have := source_readInto _ _ _ _ _ _ hr hx
      split
      · ends
      · refine End.bind' inferInstance fun _ _ => ?_
        split
        · ends
        · exact ih _ _ (by omega)

theorem fuel_fillLoop (fuel : Nat) (src : Source) (packet : List UInt8) (skip : Nat) (hs : skip ≤ 188) (h : 188 < fuel + skip) :
    End (TsReader.fillLoop fuel src packet skip) := by
  induction fuel generalizing src packet skip with
  | zero => exact absurd h (by omega)
  | succ fuel ih =>
    unfold TsReader.fillLoop
    split
    · refine End.bind' inferInstance fun r hr => ?_
      split
      · ends
      · rename_i x hx
        have := source_readInto _ _ _ _ _ _ hr hx
        have h188 : Ts.PACKET_SIZE = 188 := rfl
        split
        · ends
        · exact ih _ _ _ (by omega) (by omega)
    · ends

instance (src : Source) (packet : List UInt8) : End (TsReader.syncLoop (src.data.length + 1) src packet) := fuel_syncLoop _ _ _ (by omega)
instance (src : Source) (packet : List UInt8) : End (TsReader.fillLoop (Ts.PACKET_SIZE + 1) src packet 1) :=
  fuel_fillLoop _ _ _ _ (by decide) (by decide)
instance (src : Source) (packet : List UInt8) : End (TsReader.read src packet) := by unfold TsReader.read; ends
instance {σ : Type} (self : TsDrain σ) (buf : List UInt8) : End (TsDrain.copyOut self buf) := by unfold TsDrain.copyOut; ends
instance {σ : Type} (innerRead : TsReadImpl σ) [∀ st buf, End (innerRead st buf)] (self : TsDrain σ) (buf : List UInt8) : End (TsDrain.read innerRead self buf) := by unfold TsDrain.read; ends
-- Tool
instance (x1 : List Char) : End (Tool.from2 x1) := by unfold Tool.from2; ends
instance (radix limit : Nat) (s : List Char) : End (Tool.parseUnsigned radix limit s) := by unfold Tool.parseUnsigned; ends
instance (s : List Char) : End (Tool.parseI32 s) := by unfold Tool.parseI32; ends
instance (arr : List Nat) (x1 : List (List Char)) : End (Tool.tableLoop arr x1) := by
  induction x1 generalizing arr <;> (unfold Tool.tableLoop; ends)
instance (path partName content : List Char) : End (Tool.readFile path partName content) := by unfold Tool.readFile; ends
instance (name : List Char) : End (Tool.getPart name) := by unfold Tool.getPart; ends
instance (n : Int) : End (Tool.partName n) := by unfold Tool.partName; ends
instance (x1 : List (List Char × List Char)) : End (Tool.partsLoop x1) := by
  induction x1 <;> (unfold Tool.partsLoop; ends)
instance (x1 : List (Int × List Char × List Char)) : End (Tool.filesLoop x1) := by
  induction x1 <;> (unfold Tool.filesLoop; ends)
instance (dir : List (List Char × List Char)) : End (Tool.main dir) := by unfold Tool.main; ends

-- Cbr
instance {σ : Type} (self : Cbr σ) : End self.analyze := by unfold Cbr.analyze; ends
instance {σ : Type} (rd : TsReadImpl σ) [∀ st buf, End (rd st buf)] (self : Cbr σ) : End (self.pushPacket rd) := by unfold Cbr.pushPacket; ends
instance {σ : Type} (rd : TsReadImpl σ) [∀ st buf, End (rd st buf)] (self : Cbr σ) (packet : List UInt8) : End (self.read rd packet) := by
  unfold Cbr.read; ends

end Mpegts
