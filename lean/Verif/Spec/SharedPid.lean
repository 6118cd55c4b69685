import Verif.Model.Pat
import Verif.Model.Pmt
import Verif.Model.Nit
import Verif.Model.Sdt
import Verif.Model.Eit
import Verif.Model.Tdt
import Verif.Spec.ReadBack

/-! # Specification: several tables on one PID

In a DVB stream the SDT, the EIT and the TDT with the TOT use one PID for several tables each; nothing prevents other mixtures. -/

namespace Spec
open Mpegts

/-- A table of any kind. -/
inductive AnyTable where
  | pat (t : Pat)
  | pmt (t : Pmt)
  | nit (t : Nit)
  | sdt (t : Sdt)
  | eit (t : Eit)
  | tdt (t : Tdt)
  | tot (t : Tot)

/-- Send a table of any kind. -/
def AnyTable.demux (p : Profile) (pid : UInt16) : AnyTable → UInt8 → List UInt8 → R (UInt8 × List UInt8)
  | .pat t => t.demux p pid
  | .pmt t => t.demux p pid
  | .nit t => t.demux p pid
  | .sdt t => t.demux p pid
  | .eit t => t.demux p pid
  | .tdt t => t.demux p pid
  | .tot t => t.demux p pid

/-- Send tables one after the other on one PID, with one continuity counter, into one buffer. -/
def sendAll (p : Profile) (pid : UInt16) : List AnyTable → UInt8 → List UInt8 → R (UInt8 × List UInt8)
  | [], cc, dst => .ok (cc, dst)
  | x :: l, cc, dst => do
    let (cc, dst) ← x.demux p pid cc dst
    sendAll p pid l cc dst

/-! What an object has collected after one more table was sent: a table of its kind adds its entries and sets all other fields, a table
of another kind changes nothing. -/

def collectPat (u : Pat) : AnyTable → Pat
  | .pat t => { t with items := u.items ++ t.items }
  | _ => u

/-- The program descriptors of a PMT are misread (C55). -/
def collectPmt (p : Profile) (u : Pmt) : AnyTable → R Pmt
  | .pmt t => (fun ds => { t with descriptors := u.descriptors ++ ds, items := u.items ++ t.items }) <$> readBackShifted p t.descriptors
  | _ => .ok u

def collectNit (u : Nit) : AnyTable → Nit
  | .nit t => { t with descriptors := u.descriptors ++ t.descriptors, items := u.items ++ t.items }
  | _ => u

def collectSdt (u : Sdt) : AnyTable → Sdt
  | .sdt t => { t with items := u.items ++ t.items }
  | _ => u

def collectTdt (u : Tdt) : AnyTable → Tdt
  | .tdt t => t
  | _ => u

def collectTot (u : Tot) : AnyTable → Tot
  | .tot t => { t with descriptors := u.descriptors ++ t.descriptors }
  | _ => u

end Spec
