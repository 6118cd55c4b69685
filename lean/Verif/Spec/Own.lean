import Verif.Model.Own

/-! # Specification: descriptors of the user's own types -/

namespace Spec
open Mpegts

/-- The bytes of descriptors: tag, length and body of each. -/
def written (ds : List (UInt8 × List UInt8)) : List UInt8 := ds.flatMap fun d => [d.1, UInt8.ofNat d.2.length] ++ d.2

/-- A value of the user's own type writes these descriptors (usually one), and says how many bytes that are. -/
def Writes (o : OwnDesc) (ds : List (UInt8 × List UInt8)) : Prop :=
  (∀ d ∈ ds, d.2.length ≤ 255) ∧ o.size = (written ds).length ∧ ∀ buffer, o.assemble buffer = .ok (buffer ++ written ds)

/-- The list with the crate's uninterpreted descriptors in place of the user's. -/
def plain (as : OwnDesc → List (UInt8 × List UInt8)) (l : Boxes) : Descriptors :=
  l.flatMap fun
    | .ours d => [d]
    | .own o => (as o).map fun d => .raw ⟨d.1, d.2⟩

/-- The tag a descriptor has: what the user's own says it is. -/
def tagOf : Boxed → UInt8
  | .ours d => d.tag
  | .own o => o.tag

/-- Every descriptor of the user's in the list writes what `as` says. -/
def AllWrite (as : OwnDesc → List (UInt8 × List UInt8)) (l : Boxes) : Prop := ∀ o, Boxed.own o ∈ l → Writes o (as o)

/-- An SDT in which every descriptor of the user's is replaced. -/
def plainSdt (as : OwnDesc → List (UInt8 × List UInt8)) (t : Own.Sdt) : Sdt :=
  ⟨t.tableId, t.version, t.tsid, t.onid, t.items.map fun i =>
    ⟨i.pnr, i.eitScheduleFlag, i.eitPresentFollowingFlag, i.runningStatus, i.freeCaMode, plain as i.descriptors⟩⟩

/-- A NIT in which every descriptor of the user's is replaced. -/
def plainNit (as : OwnDesc → List (UInt8 × List UInt8)) (t : Own.Nit) : Nit :=
  ⟨t.tableId, t.version, t.networkId, plain as t.descriptors, t.items.map fun i => ⟨i.tsid, i.onid, plain as i.descriptors⟩⟩

/-- A PMT in which every descriptor of the user's is replaced. -/
def plainPmt (as : OwnDesc → List (UInt8 × List UInt8)) (t : Own.Pmt) : Pmt :=
  ⟨t.version, t.pnr, t.pcr, plain as t.descriptors, t.items.map fun i => ⟨i.streamType, i.pid, plain as i.descriptors⟩⟩

/-- An event in which every descriptor of the user's is replaced. -/
def plainEvent (as : OwnDesc → List (UInt8 × List UInt8)) (i : Own.EitItem) : EitItem :=
  ⟨i.eventId, i.start, i.duration, i.status, i.caMode, plain as i.descriptors⟩

/-- An EIT in which every descriptor of the user's is replaced. -/
def plainEit (as : OwnDesc → List (UInt8 × List UInt8)) (t : Own.Eit) : Eit :=
  ⟨t.tableId, t.version, t.pnr, t.tsid, t.onid, t.items.map (plainEvent as)⟩

/-- A TOT in which every descriptor of the user's is replaced. -/
def plainTot (as : OwnDesc → List (UInt8 × List UInt8)) (t : Own.Tot) : Tot := ⟨t.time, plain as t.descriptors⟩

end Spec
