import Verif.Model.DebugText

/-! # What the `Debug` text of a value looks like

A value is shown either on one line (`{:?}`) or on several lines (`{:#?}`).  Independently of the character-by-character writers of the Rust
library: records are `Name { field: value, field: value }`, lists `[value, value]`, pairs `(value, value)`; on several lines, every field or
entry starts a line of its own, ends with a comma, and is indented by four spaces. -/

namespace Spec
open Mpegts

/-- The text of a value on one line, its lines when spread out, and the DVB strings in it.  The text of a string (quoted) is a parameter. -/
structure Shown where
  oneLine : (StringDVB → List Char) → List Char
  lines : (StringDVB → List Char) → List (List Char)
  strings : List StringDVB

namespace Shown

/-- Text on one line. -/
def atom (t : List Char) : Shown := ⟨fun _ => t, fun _ => [t], []⟩

/-- A number in decimal. -/
def num (n : Nat) : Shown := atom (Nat.toDigits 10 n)

/-- A truth value. -/
def bool (b : Bool) : Shown := atom (if b then t!"true" else t!"false")

/-- Put a text in front of the first line. -/
def label (t : List Char) : List (List Char) → List (List Char)
  | [] => [t]
  | l :: ls => (t ++ l) :: ls

/-- Put a comma behind the last line. -/
def comma : List (List Char) → List (List Char)
  | [] => [t!","]
  | [l] => [l ++ t!","]
  | l :: ls => l :: comma ls

/-- Indent lines by four spaces. -/
def indent (ls : List (List Char)) : List (List Char) := ls.map (t!"    " ++ ·)

/-- Texts with a separator between them. -/
def separated (sep : List Char) : List (List Char) → List Char
  | [] => []
  | [t] => t
  | t :: ts => t ++ sep ++ separated sep ts

/-- `Name { field: value, ... }`. -/
def record (name : List Char) (fields : List (List Char × Shown)) : Shown where
  oneLine q := name ++ t!" { " ++ separated t!", " (fields.map fun x => x.1 ++ t!": " ++ x.2.oneLine q) ++ t!" }"
  lines q := [name ++ t!" {"] ++ fields.flatMap (fun x => indent (comma (label (x.1 ++ t!": ") (x.2.lines q)))) ++ [t!"}"]
  strings := fields.flatMap (·.2.strings)

/-- `[value, ...]`. -/
def list (items : List Shown) : Shown where
  oneLine q := t!"[" ++ separated t!", " (items.map (·.oneLine q)) ++ t!"]"
  lines q := if items = [] then [t!"[]"] else [t!"["] ++ items.flatMap (fun x => indent (comma (x.lines q))) ++ [t!"]"]
  strings := items.flatMap (·.strings)

/-- `(value, value)`. -/
def pair (a b : Shown) : Shown where
  oneLine q := t!"(" ++ a.oneLine q ++ t!", " ++ b.oneLine q ++ t!")"
  lines q := [t!"("] ++ indent (comma (a.lines q)) ++ indent (comma (b.lines q)) ++ [t!")"]
  strings := a.strings ++ b.strings

/-- The quoted text of a DVB string. -/
def quoted (s : StringDVB) : Shown := ⟨fun q => q s, fun q => [q s], [s]⟩

/-- A DVB string: its code page and its text. -/
def string (s : StringDVB) : Shown := .record t!"StringDVB" [(t!"codepage", .num s.codepage.toNat), (t!"text", .quoted s)]

/-- The whole text, with or without line breaks. -/
def text (x : Shown) (alternate : Bool) (q : StringDVB → List Char) : List Char :=
  if alternate then separated t!"\n" (x.lines q) else x.oneLine q

/-- The fields of `Desc0Ai`. -/
def desc0Ai (d : Desc0Ai) : Shown := .record t!"Desc0Ai" [(t!"code", .string d.code), (t!"audio_type", .num d.audioType.toNat)]

/-- The fields of `Desc41i`. -/
def desc41i (d : Desc41i) : Shown := .record t!"Desc41i" [(t!"service_id", .num d.serviceId.toNat), (t!"service_type", .num d.serviceType.toNat)]

/-- The fields of `Desc58i`. -/
def desc58i (d : Desc58i) : Shown := .record t!"Desc58i" [
  (t!"country_code", .string d.countryCode),
  (t!"region_id", .num d.regionId.toNat),
  (t!"offset_polarity", .num d.offsetPolarity.toNat),
  (t!"offset", .num d.offset.toNat),
  (t!"time_of_change", .num d.timeOfChange.toNat),
  (t!"next_offset", .num d.nextOffset.toNat)]

/-- The fields of `Desc83i`. -/
def desc83i (d : Desc83i) : Shown := .record t!"Desc83i" [
  (t!"service_id", .num d.serviceId.toNat),
  (t!"visible", .num d.visible.toNat),
  (t!"lcn", .num d.lcn.toNat)]

/-- The fields of `DescRaw`. -/
def descRaw (d : DescRaw) : Shown := .record t!"DescRaw" [(t!"tag", .num d.tag.toNat), (t!"data", .list (d.data.map fun b => .num b.toNat))]

/-- The fields of `Desc09`. -/
def desc09 (d : Desc09) : Shown := .record t!"Desc09" [
  (t!"caid", .num d.caid.toNat),
  (t!"pid", .num d.pid.toNat),
  (t!"data", .list (d.data.map fun b => .num b.toNat))]

/-- The fields of `Desc0A`. -/
def desc0A (d : Desc0A) : Shown := .record t!"Desc0A" [(t!"items", .list (d.items.map desc0Ai))]

/-- The fields of `Desc0E`. -/
def desc0E (d : Desc0E) : Shown := .record t!"Desc0E" [(t!"bitrate", .num d.bitrate.toNat)]

/-- The fields of `Desc40`. -/
def desc40 (d : Desc40) : Shown := .record t!"Desc40" [(t!"name", .string d.name)]

/-- The fields of `Desc41`. -/
def desc41 (d : Desc41) : Shown := .record t!"Desc41" [(t!"items", .list (d.items.map desc41i))]

/-- The fields of `Desc43`. -/
def desc43 (d : Desc43) : Shown := .record t!"Desc43" [
  (t!"frequency", .num d.frequency.toNat),
  (t!"orbital_position", .num d.orbitalPosition.toNat),
  (t!"west_east_flag", .num d.westEastFlag.toNat),
  (t!"polarization", .num d.polarization.toNat),
  (t!"rof", .num d.rof.toNat),
  (t!"s2", .num d.s2.toNat),
  (t!"modulation", .num d.modulation.toNat),
  (t!"symbol_rate", .num d.symbolRate.toNat),
  (t!"fec", .num d.fec.toNat)]

/-- The fields of `Desc44`. -/
def desc44 (d : Desc44) : Shown := .record t!"Desc44" [
  (t!"frequency", .num d.frequency.toNat),
  (t!"fec_outer", .num d.fecOuter.toNat),
  (t!"modulation", .num d.modulation.toNat),
  (t!"symbol_rate", .num d.symbolRate.toNat),
  (t!"fec", .num d.fec.toNat)]

/-- The fields of `Desc48`. -/
def desc48 (d : Desc48) : Shown := .record t!"Desc48" [
  (t!"service_type", .num d.serviceType.toNat),
  (t!"provider", .string d.provider),
  (t!"name", .string d.name)]

/-- The fields of `Desc4D`. -/
def desc4D (d : Desc4D) : Shown := .record t!"Desc4D" [(t!"lang", .string d.lang), (t!"name", .string d.name), (t!"text", .string d.text)]

/-- The fields of `Desc4E`. -/
def desc4E (d : Desc4E) : Shown := .record t!"Desc4E" [
  (t!"number", .num d.number.toNat),
  (t!"last_number", .num d.lastNumber.toNat),
  (t!"lang", .string d.lang),
  (t!"items", .list (d.items.map fun i => .pair (.string i.1) (.string i.2))),
  (t!"text", .string d.text)]

/-- The fields of `Desc52`. -/
def desc52 (d : Desc52) : Shown := .record t!"Desc52" [(t!"tag", .num d.tag.toNat)]

/-- The fields of `Desc58`. -/
def desc58 (d : Desc58) : Shown := .record t!"Desc58" [(t!"items", .list (d.items.map desc58i))]

/-- The fields of `Desc5A`. -/
def desc5A (d : Desc5A) : Shown := .record t!"Desc5A" [
  (t!"frequency", .num d.frequency.toNat),
  (t!"bandwidth", .num d.bandwidth.toNat),
  (t!"priority", .num d.priority.toNat),
  (t!"time_slicing", .num d.timeSlicing.toNat),
  (t!"mpe_fec", .num d.mpeFec.toNat),
  (t!"modulation", .num d.modulation.toNat),
  (t!"hierarchy", .num d.hierarchy.toNat),
  (t!"code_rate_hp", .num d.codeRateHp.toNat),
  (t!"code_rate_lp", .num d.codeRateLp.toNat),
  (t!"guard_interval", .num d.guardInterval.toNat),
  (t!"transmission", .num d.transmission.toNat),
  (t!"other_frequency_flag", .num d.otherFrequencyFlag.toNat)]

/-- The fields of `Desc83`. -/
def desc83 (d : Desc83) : Shown := .record t!"Desc83" [(t!"items", .list (d.items.map desc83i))]

/-- A descriptor is shown as its kind. -/
def desc : Desc → Shown
  | .raw d => descRaw d
  | .d09 d => desc09 d
  | .d0A d => desc0A d
  | .d0E d => desc0E d
  | .d40 d => desc40 d
  | .d41 d => desc41 d
  | .d43 d => desc43 d
  | .d44 d => desc44 d
  | .d48 d => desc48 d
  | .d4D d => desc4D d
  | .d4E d => desc4E d
  | .d52 d => desc52 d
  | .d58 d => desc58 d
  | .d5A d => desc5A d
  | .d83 d => desc83 d

/-- The fields of `PatItem`. -/
def patItem (d : PatItem) : Shown := .record t!"PatItem" [(t!"pnr", .num d.pnr.toNat), (t!"pid", .num d.pid.toNat)]

/-- The fields of `Pat`. -/
def pat (d : Pat) : Shown := .record t!"Pat" [
  (t!"version", .num d.version.toNat),
  (t!"tsid", .num d.tsid.toNat),
  (t!"items", .list (d.items.map patItem))]

/-- The fields of `PmtItem`. -/
def pmtItem (d : PmtItem) : Shown := .record t!"PmtItem" [
  (t!"stream_type", .num d.streamType.toNat),
  (t!"pid", .num d.pid.toNat),
  (t!"descriptors", .list (d.descriptors.map desc))]

/-- The fields of `Pmt`. -/
def pmt (d : Pmt) : Shown := .record t!"Pmt" [
  (t!"version", .num d.version.toNat),
  (t!"pnr", .num d.pnr.toNat),
  (t!"pcr", .num d.pcr.toNat),
  (t!"descriptors", .list (d.descriptors.map desc)),
  (t!"items", .list (d.items.map pmtItem))]

/-- The fields of `NitItem`. -/
def nitItem (d : NitItem) : Shown := .record t!"NitItem" [
  (t!"tsid", .num d.tsid.toNat),
  (t!"onid", .num d.onid.toNat),
  (t!"descriptors", .list (d.descriptors.map desc))]

/-- The fields of `Nit`. -/
def nit (d : Nit) : Shown := .record t!"Nit" [
  (t!"table_id", .num d.tableId.toNat),
  (t!"version", .num d.version.toNat),
  (t!"network_id", .num d.networkId.toNat),
  (t!"descriptors", .list (d.descriptors.map desc)),
  (t!"items", .list (d.items.map nitItem))]

/-- The fields of `SdtItem`. -/
def sdtItem (d : SdtItem) : Shown := .record t!"SdtItem" [
  (t!"pnr", .num d.pnr.toNat),
  (t!"eit_schedule_flag", .num d.eitScheduleFlag.toNat),
  (t!"eit_present_following_flag", .num d.eitPresentFollowingFlag.toNat),
  (t!"running_status", .num d.runningStatus.toNat),
  (t!"free_ca_mode", .num d.freeCaMode.toNat),
  (t!"descriptors", .list (d.descriptors.map desc))]

/-- The fields of `Sdt`. -/
def sdt (d : Sdt) : Shown := .record t!"Sdt" [
  (t!"table_id", .num d.tableId.toNat),
  (t!"version", .num d.version.toNat),
  (t!"tsid", .num d.tsid.toNat),
  (t!"onid", .num d.onid.toNat),
  (t!"items", .list (d.items.map sdtItem))]

/-- The fields of `EitItem`. -/
def eitItem (d : EitItem) : Shown := .record t!"EitItem" [
  (t!"event_id", .num d.eventId.toNat),
  (t!"start", .num d.start.toNat),
  (t!"duration", .num d.duration.toNat),
  (t!"status", .num d.status.toNat),
  (t!"ca_mode", .num d.caMode.toNat),
  (t!"descriptors", .list (d.descriptors.map desc))]

/-- The fields of `Eit`. -/
def eit (d : Eit) : Shown := .record t!"Eit" [
  (t!"table_id", .num d.tableId.toNat),
  (t!"version", .num d.version.toNat),
  (t!"pnr", .num d.pnr.toNat),
  (t!"tsid", .num d.tsid.toNat),
  (t!"onid", .num d.onid.toNat),
  (t!"items", .list (d.items.map eitItem))]

/-- The fields of `Tdt`. -/
def tdt (d : Tdt) : Shown := .record t!"Tdt" [(t!"time", .num d.time.toNat)]

/-- The fields of `Tot`. -/
def tot (d : Tot) : Shown := .record t!"Tot" [(t!"time", .num d.time.toNat), (t!"descriptors", .list (d.descriptors.map desc))]

/-- The fields of `Psi`. -/
def psi (d : Psi) : Shown := .record t!"Psi" [
  (t!"buffer", .list (d.buffer.map fun b => .num b.toNat)),
  (t!"size", .num d.size),
  (t!"pid", .num d.pid.toNat),
  (t!"cc", .num d.cc.toNat)]

end Shown

/-- A DVB string that has a text: an empty one, or one of a known code page (ISO 6937, ISO 8859-1 to 15 without 12, UTF-8). -/
def Displayable (s : StringDVB) : Prop :=
  s.data = [] ∨ (s.codepage.toNat ≤ 15 ∧ s.codepage.toNat ≠ 12) ∨ s.codepage.toNat = 21

/-- The DVB strings in a descriptor. -/
def stringsOf : Desc → List StringDVB
  | .d0A d => d.items.map (·.code)
  | .d40 d => [d.name]
  | .d48 d => [d.provider, d.name]
  | .d4D d => [d.lang, d.name, d.text]
  | .d4E d => [d.lang] ++ d.items.flatMap (fun i => [i.1, i.2]) ++ [d.text]
  | .d58 d => d.items.map (·.countryCode)
  | _ => []

end Spec
