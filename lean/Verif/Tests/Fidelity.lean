import Verif.Tests.Vectors
import Verif.Model.Pat
import Verif.Model.Pmt
import Verif.Model.Nit
import Verif.Model.Sdt
import Verif.Model.Eit
import Verif.Model.Tdt
import Verif.Model.Text
import Verif.Model.Reader
import Verif.Model.Pes

/-!
# Fidelity checks: the repository's own tests, run on the model

Each `example` is one assertion of /repo/tests/*.rs evaluated by the kernel on the model.  They are tests of
the *model* (that it computes what the repository's test-suite says the code computes), not proofs of any
property.
-/

namespace Mpegts.Tests
open Mpegts

/-- Feed the 188-byte packets of `l` to `Psi.mux`, as the `while` loops in the tests do. -/
def muxAll (p : Profile) : (fuel : Nat) → Psi → List UInt8 → R Psi
  | 0, psi, _ => .ok psi
  | n + 1, psi, l => if l.isEmpty then .ok psi else do muxAll p n (← psi.mux p l) (l.drop 188)

def isOkTrue (r : R Bool) : Bool := match r with | .ok b => b | .error _ => false

def str (s : String) (cp : UInt8) : StringDVB := StringDVB.fromStr s.toList cp

example : isOkTrue (do (← Psi.mux .debug Psi.default PAT).check .debug) = true := by decide +kernel
example : isOkTrue (do (← muxAll .debug 100 Psi.default SDT).check .debug) = true := by decide +kernel
example : isOkTrue (do (← muxAll .debug 100 Psi.default SMALL_HEADER_PSI).check .debug) = true := by decide +kernel
example : isOkTrue (do (← muxAll .debug 1 Psi.default TWO_PSI).check .debug) = false := by decide +kernel
example : isOkTrue (do (← muxAll .debug 100 Psi.default TWO_PSI).check .debug) = true := by decide +kernel
example : isOkTrue (do (← muxAll .debug 100 Psi.default (EIT_50.drop (7*188))).check .debug) = true := by decide +kernel

def pat0 : Pat := ⟨1, 1, [⟨0, 16⟩, ⟨1, 1031⟩, ⟨2, 1032⟩, ⟨3, 1033⟩, ⟨4, 1034⟩, ⟨5, 1035⟩, ⟨6, 1036⟩]⟩
example : (do Pat.ofPsi .debug (← Psi.mux .debug Psi.default PAT)) = .ok pat0 := by decide +kernel
example : pat0.demux .debug PAT_PID 0 [] = .ok (1, PAT) := by decide +kernel

def pmt0 : Pmt :=
  { version := 1, pnr := 50455, pcr := 2318, descriptors := []
    items :=
      [ { streamType := 2, pid := 2318
          descriptors := [.d0E ⟨77500⟩, .d09 ⟨2403, 1281, []⟩, .d52 ⟨1⟩] },
        { streamType := 4, pid := 2319
          descriptors := [.d0E ⟨77500⟩, .d0A ⟨[⟨str "eng" 0, 1⟩]⟩, .d52 ⟨2⟩] } ] }
example : (do Pmt.ofPsi .debug (← Psi.mux .debug Psi.default PMT)) = .ok pmt0 := by decide +kernel
example : pmt0.demux .debug 278 0 [] = .ok (1, PMT) := by decide +kernel
example : (pmt0.items.map PmtItem.getStreamType) = [.VIDEO, .AUDIO] := by decide +kernel

def raw (l : List UInt8) : Desc := .raw ⟨l.head!, l.tail⟩
def nit0 : Nit :=
  { tableId := 64, version := 11, networkId := 85, descriptors := []
    items :=
      [ ⟨8400, 318, [raw [0x43, 0x01, 0x23, 0x80, 0x00, 0x01, 0x30, 0xa1, 0x02, 0x75, 0x00, 0x03],
                     raw [0x83, 0x0b, 0xc6, 0xc0, 0x2d]]⟩,
        ⟨12600, 318, [raw [0x43, 0x01, 0x10, 0x34, 0x00, 0x01, 0x30, 0xa1, 0x02, 0x75, 0x00, 0x03]]⟩,
        ⟨700, 318, [raw [0x43, 0x01, 0x13, 0x17, 0x00, 0x01, 0x30, 0xa1, 0x02, 0x75, 0x00, 0x03]]⟩,
        ⟨8900, 318, [raw [0x43, 0x01, 0x24, 0x76, 0x00, 0x01, 0x30, 0x86, 0x02, 0x99, 0x00, 0x03]]⟩,
        ⟨9400, 318, [raw [0x43, 0x01, 0x25, 0x97, 0x00, 0x01, 0x30, 0xa1, 0x02, 0x75, 0x00, 0x03]]⟩,
        ⟨15600, 318, [raw [0x43, 0x01, 0x16, 0x23, 0x00, 0x01, 0x30, 0xa1, 0x02, 0x75, 0x00, 0x03]]⟩ ] }
example : nit0.demux .debug NIT_PID 15 [] = .ok (0, NIT_DVBS) := by decide +kernel
example : isOkTrue (do
    let n ← Nit.ofPsi .debug (← Psi.mux .debug Psi.default NIT_DVBS)
    return n.tableId == 64 && n.version == 11 && n.networkId == 85 && n.descriptors.isEmpty &&
      n.items.map (fun i => (i.tsid, i.onid, i.descriptors.length)) ==
        [(8400, 318, 2), (12600, 318, 1), (700, 318, 1), (8900, 318, 1), (9400, 318, 1), (15600, 318, 1)])
    = true := by decide +kernel

def sdt0 : Sdt :=
  { tableId := 0x42, version := 1, tsid := 1, onid := 1
    items := [(1, 1, "Avalpa1: MPEG2 MHP"), (2, 1, "Avalpa2: MPEG2 MHEG5"), (3, 1, "Avalpa3: MPEG2 HBBTV"),
              (4, 1, "Avalpa4: MPEG2 TXT"), (5, 22, "Avalpa5: H264"), (6, 25, "Avalpa6: HD H264")].map
      fun (n, t, s) => ⟨n, 0, 1, 4, 0, [.d48 ⟨t, str "Avalpa" 0, str s 0⟩]⟩ }
example : sdt0.demux .debug SDT_PID 10 [] = .ok (12, SDT) := by decide +kernel
example : (do Sdt.ofPsi .debug (← muxAll .debug 10 Psi.default SDT)) = .ok sdt0 := by decide +kernel

def eit4E : Eit :=
  { tableId := 0x4E, version := 1, pnr := 6, tsid := 1, onid := 1
    items := [ { eventId := 1, start := 1296432000, duration := 72000, status := 4, caMode := 0
                 descriptors := [.d4D ⟨str "ita" 0, str "H264 HD 1080 24p" 0,
                  str "elementary video bit rate is 7.2Mbps, audio ac3 5.1, note: 24p is not currently/officially supported by DVB standards" 0⟩] } ] }
example : eit4E.demux .debug EIT_PID 0 [] = .ok (1, EIT_4E) := by decide +kernel
example : (do Eit.ofPsi .debug (← muxAll .debug 10 Psi.default EIT_4E)) = .ok eit4E := by decide +kernel

def eit50 : Eit :=
  { tableId := 0x50, version := 21, pnr := 7375, tsid := 7400, onid := 1
    items := [ { eventId := 31948, start := 1534183800, duration := 1800, status := 0, caMode := 1
                 descriptors := [
                  .d4D ⟨str "pol" 0, str "Ostatni prawdziwy mężczyzna 4: odc.5" 2, str "" 2⟩,
                  .d4E ⟨0, 1, str "pol" 0, [], str "serial komediowy (USA, 2014) odc.5, Szkolna fuzja?Występują: Tim Allen, Nancy Travis, Molly Ephraim?Mike i Chuck debatują na temat zalet lokalnego referendum o połączeniu ich ekskluzywnej szkoły średniej z sąsiedztwa z placówką ze śródmieścia. Z" 2⟩,
                  .d4E ⟨1, 1, str "pol" 0, [], str " okazji Halloween, Ryan przebiera Boyda za bryłę węgla. Ma to być kolejnym przypomnieniem dla Vanessy, że jej praca jako geologa może szkodzić środowisku naturalnemu.?Reżyser: John Pasquin?Od lat: 12" 2⟩,
                  .raw ⟨0x55, [80, 76, 32, 9]⟩ ] } ] }
example : (eit50.demux .debug EIT_PID 4 []).map (·.2) = .ok EIT_50 := by decide +kernel
example : (do Tdt.ofPsi .debug (← Psi.mux .debug Psi.default TDT)) = .ok ⟨1547057412⟩ := by decide +kernel
example : Tdt.demux .debug ⟨1547057412⟩ TDT_PID 3 [] = .ok (4, TDT) := by decide +kernel
def tot0 : Tot := ⟨1547057412, [.raw ⟨0x9a, [0xe4, 0xb8, 0x02, 0x00, 0x00, 0xe5, 0xa6, 0x02, 0x00, 0x00]⟩]⟩
example : tot0.demux .debug TOT_PID 4 [] = .ok (5, TOT) := by decide +kernel
example : (do Tot.ofPsi .debug (← Psi.mux .debug Psi.default TOT)) = .ok tot0 := by decide +kernel

/-- tests/psi.rs:113-133, `test_psi_demux` -/
example : (do let psi ← muxAll .debug 100 Psi.default (EIT_50.drop (7 * 188))
              let (_, ts) ← { psi with cc := 11, pid := EIT_PID }.demux .debug []
              pure ts : R (List UInt8)) = .ok (EIT_50.drop (7 * 188)) := by decide +kernel

/-- tests/pes.rs -/
def PES : List UInt8 := [
    0x00, 0x00, 0x01, 0xe0, 0x42, 0xda, 0x80, 0xc0, 0x0a, 0x31, 0x00, 0x0d, 0xdf, 0x89, 0x11, 0x00,
    0x0d, 0xc8, 0x13]
example : Pes.isPrefix PES = .ok true := by decide +kernel
example : Pes.isSyntaxSpec PES = .ok true := by decide +kernel
example : Pes.isPts PES = .ok true := by decide +kernel
example : Pes.getPts PES = .ok 225220 := by decide +kernel
example : Pes.isDts PES = .ok true := by decide +kernel
example : Pes.getDts PES = .ok 222217 := by decide +kernel

end Mpegts.Tests
