import Verif.Model.Chars
import Verif.Model.Debug
import Verif.Model.Pat
import Verif.Model.Pmt
import Verif.Model.Nit
import Verif.Model.Sdt
import Verif.Model.Eit
import Verif.Model.Tdt
import Verif.Model.Reader
import Verif.Model.Cbr

/-! # The text written by the `Debug` impls, `{:?}` and `{:#?}`

`core::fmt::Formatter::debug_struct`, `debug_list`, `debug_tuple` and the `PadAdapter` behind `{:#?}` are part of the Rust library; they
are modelled here because their text is what a user sees.  The quoting of a `str` (`char::escape_debug`, a matter of the Unicode tables of
the Rust library) is a parameter.  Width, fill, sign and hexadecimal flags are not modelled. -/

namespace Mpegts
open Mpegts

/-- Text is a list of characters. -/
abbrev Text := List Char

/-- What a `Formatter` carries: the flag of `{:#?}`, and the library's way of quoting a `str`. -/
structure Fmt where
  alternate : Bool
  quote : Text → Text

/-- `Debug` of the unsigned integers: decimal digits. -/
def numText (n : Nat) : R Text := .ok (Nat.toDigits 10 n)

/-- `Debug` of `bool`. -/
def boolText (b : Bool) : R Text := .ok (if b then t!"true" else t!"false")

/-- `core::fmt::builders::PadAdapter`: four spaces before the first character of every line. -/
def padLoop : (onNewline : Bool) → Text → Text
  | _, [] => []
  | onNewline, c :: rest => (if onNewline then t!"    " else []) ++ c :: padLoop (c == '\n') rest

/-- A fresh `PadAdapter` starts on a new line. -/
def pad (s : Text) : Text := padLoop true s

/-- `DebugStruct::field` and `finish`: `out` is what is written so far, `has` whether a field is. -/
def structLoop (f : Fmt) : (has : Bool) → (out : Text) → List (Text × R Text) → R Text
  | has, out, [] => .ok (out ++ if has then (if f.alternate then t!"}" else t!" }") else [])
  | has, out, (name, value) :: rest => do
    let v ← value
    let piece := if f.alternate then (if has then [] else t!" {\n") ++ pad (name ++ t!": " ++ v ++ t!",\n")
      else (if has then t!", " else t!" { ") ++ name ++ t!": " ++ v
    structLoop f true (out ++ piece) rest

/-- `f.debug_struct(name)`, the fields, `finish()`. -/
def structText (f : Fmt) (name : Text) (fields : List (Text × R Text)) : R Text := structLoop f false name fields

/-- `DebugList::entry` and `finish`. -/
def listLoop (f : Fmt) : (has : Bool) → (out : Text) → List (R Text) → R Text
  | _, out, [] => .ok (out ++ t!"]")
  | has, out, value :: rest => do
    let v ← value
    let piece := if f.alternate then (if has then [] else t!"\n") ++ pad (v ++ t!",\n") else (if has then t!", " else []) ++ v
    listLoop f true (out ++ piece) rest

/-- `Debug` of slices and vectors. -/
def listText (f : Fmt) (items : List (R Text)) : R Text := listLoop f false t!"[" items

/-- `DebugTuple::field` and `finish` of an unnamed tuple with more than one entry. -/
def tupleLoop (f : Fmt) : (has : Bool) → (out : Text) → List (R Text) → R Text
  | has, out, [] => .ok (out ++ if has then t!")" else [])
  | has, out, value :: rest => do
    let v ← value
    let piece := if f.alternate then (if has then [] else t!"(\n") ++ pad (v ++ t!",\n") else (if has then t!", " else t!"(") ++ v
    tupleLoop f true (out ++ piece) rest

/-- `Debug` of tuples. -/
def tupleText (f : Fmt) (items : List (R Text)) : R Text := tupleLoop f false [] items

/-- `<StringDVB as Debug>::fmt`, src/textcode/mod.rs:124-131: the text by way of `to_string()`. -/
def StringDVB.debugText (f : Fmt) (s : StringDVB) : R Text :=
  structText f t!"StringDVB" [(t!"codepage", numText s.codepage.toNat), (t!"text", f.quote <$> s.toStringR)]

/-- Derived `Debug` of `Desc0Ai`, src/psi/descriptors/x0a.rs:15-19. -/
def Desc0Ai.debugText (f : Fmt) (d : Desc0Ai) : R Text := structText f t!"Desc0Ai" [
  (t!"code", d.code.debugText f),
  (t!"audio_type", numText d.audioType.toNat)]

/-- Derived `Debug` of `Desc41i`, src/psi/descriptors/x41.rs:15-19. -/
def Desc41i.debugText (f : Fmt) (d : Desc41i) : R Text := structText f t!"Desc41i" [
  (t!"service_id", numText d.serviceId.toNat),
  (t!"service_type", numText d.serviceType.toNat)]

/-- Derived `Debug` of `Desc58i`, src/psi/descriptors/x58.rs:24-32. -/
def Desc58i.debugText (f : Fmt) (d : Desc58i) : R Text := structText f t!"Desc58i" [
  (t!"country_code", d.countryCode.debugText f),
  (t!"region_id", numText d.regionId.toNat),
  (t!"offset_polarity", numText d.offsetPolarity.toNat),
  (t!"offset", numText d.offset.toNat),
  (t!"time_of_change", numText d.timeOfChange.toNat),
  (t!"next_offset", numText d.nextOffset.toNat)]

/-- Derived `Debug` of `Desc83i`, src/psi/descriptors/x83.rs:15-20. -/
def Desc83i.debugText (f : Fmt) (d : Desc83i) : R Text := structText f t!"Desc83i" [
  (t!"service_id", numText d.serviceId.toNat),
  (t!"visible", numText d.visible.toNat),
  (t!"lcn", numText d.lcn.toNat)]

/-- Derived `Debug` of `DescRaw`, src/psi/descriptors/raw.rs:12-18. -/
def DescRaw.debugText (f : Fmt) (d : DescRaw) : R Text := structText f t!"DescRaw" [
  (t!"tag", numText d.tag.toNat),
  (t!"data", listText f (d.data.map fun b => numText b.toNat))]

/-- Derived `Debug` of `Desc09`, src/psi/descriptors/x09.rs:20-29. -/
def Desc09.debugText (f : Fmt) (d : Desc09) : R Text := structText f t!"Desc09" [
  (t!"caid", numText d.caid.toNat),
  (t!"pid", numText d.pid.toNat),
  (t!"data", listText f (d.data.map fun b => numText b.toNat))]

/-- Derived `Debug` of `Desc0A`, src/psi/descriptors/x0a.rs:26-31. -/
def Desc0A.debugText (f : Fmt) (d : Desc0A) : R Text := structText f t!"Desc0A" [(t!"items", listText f (d.items.map (Desc0Ai.debugText f)))]

/-- Derived `Debug` of `Desc0E`, src/psi/descriptors/x0e.rs:18-24. -/
def Desc0E.debugText (f : Fmt) (d : Desc0E) : R Text := structText f t!"Desc0E" [(t!"bitrate", numText d.bitrate.toNat)]

/-- Derived `Debug` of `Desc40`, src/psi/descriptors/x40.rs:18-22. -/
def Desc40.debugText (f : Fmt) (d : Desc40) : R Text := structText f t!"Desc40" [(t!"name", d.name.debugText f)]

/-- Derived `Debug` of `Desc41`, src/psi/descriptors/x41.rs:26-30. -/
def Desc41.debugText (f : Fmt) (d : Desc41) : R Text := structText f t!"Desc41" [(t!"items", listText f (d.items.map (Desc41i.debugText f)))]

/-- Derived `Debug` of `Desc43`, src/psi/descriptors/x43.rs:22-43. -/
def Desc43.debugText (f : Fmt) (d : Desc43) : R Text := structText f t!"Desc43" [
  (t!"frequency", numText d.frequency.toNat),
  (t!"orbital_position", numText d.orbitalPosition.toNat),
  (t!"west_east_flag", numText d.westEastFlag.toNat),
  (t!"polarization", numText d.polarization.toNat),
  (t!"rof", numText d.rof.toNat),
  (t!"s2", numText d.s2.toNat),
  (t!"modulation", numText d.modulation.toNat),
  (t!"symbol_rate", numText d.symbolRate.toNat),
  (t!"fec", numText d.fec.toNat)]

/-- Derived `Debug` of `Desc44`, src/psi/descriptors/x44.rs:22-34. -/
def Desc44.debugText (f : Fmt) (d : Desc44) : R Text := structText f t!"Desc44" [
  (t!"frequency", numText d.frequency.toNat),
  (t!"fec_outer", numText d.fecOuter.toNat),
  (t!"modulation", numText d.modulation.toNat),
  (t!"symbol_rate", numText d.symbolRate.toNat),
  (t!"fec", numText d.fec.toNat)]

/-- Derived `Debug` of `Desc48`, src/psi/descriptors/x48.rs:19-27. -/
def Desc48.debugText (f : Fmt) (d : Desc48) : R Text := structText f t!"Desc48" [
  (t!"service_type", numText d.serviceType.toNat),
  (t!"provider", d.provider.debugText f),
  (t!"name", d.name.debugText f)]

/-- Derived `Debug` of `Desc4D`, src/psi/descriptors/x4d.rs:19-27. -/
def Desc4D.debugText (f : Fmt) (d : Desc4D) : R Text := structText f t!"Desc4D" [
  (t!"lang", d.lang.debugText f),
  (t!"name", d.name.debugText f),
  (t!"text", d.text.debugText f)]

/-- Derived `Debug` of `Desc4E`, src/psi/descriptors/x4e.rs:28-35. -/
def Desc4E.debugText (f : Fmt) (d : Desc4E) : R Text := structText f t!"Desc4E" [
  (t!"number", numText d.number.toNat),
  (t!"last_number", numText d.lastNumber.toNat),
  (t!"lang", d.lang.debugText f),
  (t!"items", listText f (d.items.map fun i => tupleText f [i.1.debugText f, i.2.debugText f])),
  (t!"text", d.text.debugText f)]

/-- Derived `Debug` of `Desc52`, src/psi/descriptors/x52.rs:19-24. -/
def Desc52.debugText (f : Fmt) (d : Desc52) : R Text := structText f t!"Desc52" [(t!"tag", numText d.tag.toNat)]

/-- Derived `Debug` of `Desc58`, src/psi/descriptors/x58.rs:39-42. -/
def Desc58.debugText (f : Fmt) (d : Desc58) : R Text := structText f t!"Desc58" [(t!"items", listText f (d.items.map (Desc58i.debugText f)))]

/-- Derived `Debug` of `Desc5A`, src/psi/descriptors/x5a.rs:18-53. -/
def Desc5A.debugText (f : Fmt) (d : Desc5A) : R Text := structText f t!"Desc5A" [
  (t!"frequency", numText d.frequency.toNat),
  (t!"bandwidth", numText d.bandwidth.toNat),
  (t!"priority", numText d.priority.toNat),
  (t!"time_slicing", numText d.timeSlicing.toNat),
  (t!"mpe_fec", numText d.mpeFec.toNat),
  (t!"modulation", numText d.modulation.toNat),
  (t!"hierarchy", numText d.hierarchy.toNat),
  (t!"code_rate_hp", numText d.codeRateHp.toNat),
  (t!"code_rate_lp", numText d.codeRateLp.toNat),
  (t!"guard_interval", numText d.guardInterval.toNat),
  (t!"transmission", numText d.transmission.toNat),
  (t!"other_frequency_flag", numText d.otherFrequencyFlag.toNat)]

/-- Derived `Debug` of `Desc83`, src/psi/descriptors/x83.rs:26-30. -/
def Desc83.debugText (f : Fmt) (d : Desc83) : R Text := structText f t!"Desc83" [(t!"items", listText f (d.items.map (Desc83i.debugText f)))]

/-- `<Descriptor as Debug>::fmt`, src/psi/descriptors/mod.rs:81-83: that of the boxed descriptor. -/
def Desc.debugText (f : Fmt) : Desc → R Text
  | .raw d => d.debugText f
  | .d09 d => d.debugText f
  | .d0A d => d.debugText f
  | .d0E d => d.debugText f
  | .d40 d => d.debugText f
  | .d41 d => d.debugText f
  | .d43 d => d.debugText f
  | .d44 d => d.debugText f
  | .d48 d => d.debugText f
  | .d4D d => d.debugText f
  | .d4E d => d.debugText f
  | .d52 d => d.debugText f
  | .d58 d => d.debugText f
  | .d5A d => d.debugText f
  | .d83 d => d.debugText f

/-- `<Descriptors as Debug>::fmt`, src/psi/descriptors/mod.rs:134-137: that of the vector. -/
def descriptorsText (f : Fmt) (ds : Descriptors) : R Text := listText f (ds.map (Desc.debugText f))

/-- Derived `Debug` of `PatItem`, src/psi/pat.rs:26-32. -/
def PatItem.debugText (f : Fmt) (d : PatItem) : R Text := structText f t!"PatItem" [(t!"pnr", numText d.pnr.toNat), (t!"pid", numText d.pid.toNat)]

/-- Derived `Debug` of `Pat`, src/psi/pat.rs:61-69. -/
def Pat.debugText (f : Fmt) (d : Pat) : R Text := structText f t!"Pat" [
  (t!"version", numText d.version.toNat),
  (t!"tsid", numText d.tsid.toNat),
  (t!"items", listText f (d.items.map (PatItem.debugText f)))]

/-- Derived `Debug` of `PmtItem`, src/psi/pmt.rs:24-34. -/
def PmtItem.debugText (f : Fmt) (d : PmtItem) : R Text := structText f t!"PmtItem" [
  (t!"stream_type", numText d.streamType.toNat),
  (t!"pid", numText d.pid.toNat),
  (t!"descriptors", descriptorsText f d.descriptors)]

/-- Derived `Debug` of `Pmt`, src/psi/pmt.rs:108-120. -/
def Pmt.debugText (f : Fmt) (d : Pmt) : R Text := structText f t!"Pmt" [
  (t!"version", numText d.version.toNat),
  (t!"pnr", numText d.pnr.toNat),
  (t!"pcr", numText d.pcr.toNat),
  (t!"descriptors", descriptorsText f d.descriptors),
  (t!"items", listText f (d.items.map (PmtItem.debugText f)))]

/-- Derived `Debug` of `NitItem`, src/psi/nit.rs:26-35. -/
def NitItem.debugText (f : Fmt) (d : NitItem) : R Text := structText f t!"NitItem" [
  (t!"tsid", numText d.tsid.toNat),
  (t!"onid", numText d.onid.toNat),
  (t!"descriptors", descriptorsText f d.descriptors)]

/-- Derived `Debug` of `Nit`, src/psi/nit.rs:73-88. -/
def Nit.debugText (f : Fmt) (d : Nit) : R Text := structText f t!"Nit" [
  (t!"table_id", numText d.tableId.toNat),
  (t!"version", numText d.version.toNat),
  (t!"network_id", numText d.networkId.toNat),
  (t!"descriptors", descriptorsText f d.descriptors),
  (t!"items", listText f (d.items.map (NitItem.debugText f)))]

/-- Derived `Debug` of `SdtItem`, src/psi/sdt.rs:26-40. -/
def SdtItem.debugText (f : Fmt) (d : SdtItem) : R Text := structText f t!"SdtItem" [
  (t!"pnr", numText d.pnr.toNat),
  (t!"eit_schedule_flag", numText d.eitScheduleFlag.toNat),
  (t!"eit_present_following_flag", numText d.eitPresentFollowingFlag.toNat),
  (t!"running_status", numText d.runningStatus.toNat),
  (t!"free_ca_mode", numText d.freeCaMode.toNat),
  (t!"descriptors", descriptorsText f d.descriptors)]

/-- Derived `Debug` of `Sdt`, src/psi/sdt.rs:81-95. -/
def Sdt.debugText (f : Fmt) (d : Sdt) : R Text := structText f t!"Sdt" [
  (t!"table_id", numText d.tableId.toNat),
  (t!"version", numText d.version.toNat),
  (t!"tsid", numText d.tsid.toNat),
  (t!"onid", numText d.onid.toNat),
  (t!"items", listText f (d.items.map (SdtItem.debugText f)))]

/-- Derived `Debug` of `EitItem`, src/psi/eit.rs:29-49. -/
def EitItem.debugText (f : Fmt) (d : EitItem) : R Text := structText f t!"EitItem" [
  (t!"event_id", numText d.eventId.toNat),
  (t!"start", numText d.start.toNat),
  (t!"duration", numText d.duration.toNat),
  (t!"status", numText d.status.toNat),
  (t!"ca_mode", numText d.caMode.toNat),
  (t!"descriptors", descriptorsText f d.descriptors)]

/-- Derived `Debug` of `Eit`, src/psi/eit.rs:93-111. -/
def Eit.debugText (f : Fmt) (d : Eit) : R Text := structText f t!"Eit" [
  (t!"table_id", numText d.tableId.toNat),
  (t!"version", numText d.version.toNat),
  (t!"pnr", numText d.pnr.toNat),
  (t!"tsid", numText d.tsid.toNat),
  (t!"onid", numText d.onid.toNat),
  (t!"items", listText f (d.items.map (EitItem.debugText f)))]

/-- Derived `Debug` of `Tdt`, src/psi/tdt.rs:25-29. -/
def Tdt.debugText (f : Fmt) (d : Tdt) : R Text := structText f t!"Tdt" [(t!"time", numText d.time.toNat)]

/-- Derived `Debug` of `Tot`, src/psi/tot.rs:26-32. -/
def Tot.debugText (f : Fmt) (d : Tot) : R Text := structText f t!"Tot" [
  (t!"time", numText d.time.toNat),
  (t!"descriptors", descriptorsText f d.descriptors)]

/-- Derived `Debug` of `Psi`, src/psi/mod.rs:36-43. -/
def Psi.debugText (f : Fmt) (d : Psi) : R Text := structText f t!"Psi" [
  (t!"buffer", listText f (d.buffer.map fun b => numText b.toNat)),
  (t!"size", numText d.size),
  (t!"pid", numText d.pid.toNat),
  (t!"cc", numText d.cc.toNat)]

/-- Derived `Debug` of `StreamType`, src/es/mod.rs:13-39. -/
def StreamType.debugText : StreamType → Text
  | .VIDEO => t!"VIDEO"
  | .AUDIO => t!"AUDIO"
  | .AIT => t!"AIT"
  | .SUB => t!"SUB"
  | .TTX => t!"TTX"
  | .DATA => t!"DATA"

/-- `<TsReader as Debug>::fmt`, src/reader/mod.rs:61-67; `inner` is the text of the source. -/
def TsReader.debugText (f : Fmt) (inner : R Text) : R Text := structText f t!"TsReader" [(t!"inner", inner)]

/-- `<TsDrain as Debug>::fmt`, src/reader/drain.rs:30-36. -/
def TsDrain.debugText {σ : Type} (f : Fmt) (inner : σ → R Text) (d : TsDrain σ) : R Text :=
  structText f t!"TsDrain" [(t!"inner", inner d.inner)]

/-- `<Block as Debug>::fmt`, src/mux/cbr/mod.rs:37-46. -/
def Block.debugText (f : Fmt) (b : Block) : R Text :=
  structText f t!"HttpBuffer" [(t!"pos", numText b.pos), (t!"cap", numText b.cap), (t!"pcr", numText b.pcr.toNat), (t!"delta", numText b.delta.toNat)]

/-- Derived `Debug` of `Cbr`, src/mux/cbr/mod.rs:67-76. -/
def Cbr.debugText {σ : Type} (f : Fmt) (inner : σ → R Text) (c : Cbr σ) : R Text :=
  structText f t!"Cbr" [(t!"inner", inner c.inner), (t!"parity", numText c.parity), (t!"blocks", listText f (c.blocks.map (Block.debugText f))),
    (t!"pid", numText c.pid.toNat), (t!"last_pcr", numText c.lastPcr.toNat)]

/-- `<TsAdaptation as Debug>::fmt`, src/ts/debug.rs:27-58. -/
def Ts.adaptationText (f : Fmt) (packet : List UInt8) : R Text := do
  match ← Ts.adaptationDebug packet with
  | none => boolText false
  | some (len, none) => structText f t!"TsAdaptation" [(t!"length", numText len.toNat)]
  | some (len, some a) =>
    structText f t!"TsAdaptation" ([(t!"length", numText len.toNat), (t!"discontinuity", boolText a.discontinuity),
      (t!"random_access", boolText a.randomAccess), (t!"es_priority", boolText a.esPriority), (t!"PCR_flag", boolText a.pcrFlag),
      (t!"OPCR_flag", boolText a.opcrFlag), (t!"splicing_point", boolText a.splicingPoint), (t!"private_data", boolText a.privateData),
      (t!"af_extension", boolText a.afExtension)] ++
      match a.pcr with
      | none => []
      | some v => [(t!"pcr", numText v.toNat)])

/-- `<TsPacket as Debug>::fmt`, src/ts/debug.rs:74-87. -/
def Ts.packetText (f : Fmt) (p : Profile) (packet : List UInt8) : R Text := do
  let d ← Ts.packetDebug p packet
  structText f t!"TsPacket" [(t!"sync", boolText d.sync), (t!"error", numText d.error.toNat), (t!"pusi", boolText d.pusi),
    (t!"pid", numText d.pid.toNat), (t!"scrambling", numText d.scrambling.toNat), (t!"adaptation", Ts.adaptationText f packet),
    (t!"payload", boolText d.payload), (t!"cc", numText d.cc.toNat)]

end Mpegts
