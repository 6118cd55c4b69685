import Verif.Model.Psi

/-! # `src/psi/pat.rs`: Program Association Table -/

namespace Mpegts

/-- src/psi/pat.rs:18 -/
def PAT_PID : UInt16 := 0x0000
/-- src/psi/pat.rs:22 -/
def PAT_SECTION_SIZE : Nat := 1024 - 4

/-- `struct PatItem`, src/psi/pat.rs:27-32. -/
structure PatItem where
  pnr : UInt16
  pid : UInt16
deriving DecidableEq, Repr

/-- `PatItem::parse`, src/psi/pat.rs:36-43. -/
def PatItem.parse (slice : List UInt8) : R PatItem := do
  let pnr ← getU16At slice 0
  let pid ← getU16At slice 2
  return { pnr := pnr, pid := pid &&& 0x1FFF }

/-- `PatItem::assemble`, src/psi/pat.rs:45-50. -/
def PatItem.assemble (self : PatItem) (buffer : List UInt8) : R (List UInt8) := do
  let skip := buffer.length
  let buffer := resize buffer (skip + 4) 0x00
  let buffer ← setU16At buffer skip self.pnr
  setU16At buffer (skip + 2) (0xE000 ||| self.pid)

/-- `PatItem::size`, src/psi/pat.rs:53-55. -/
def PatItem.size (_ : PatItem) : Nat := 4

/-- `struct Pat`, src/psi/pat.rs:62-69. -/
structure Pat where
  version : UInt8
  tsid : UInt16
  items : List PatItem
deriving DecidableEq, Repr

namespace Pat

/-- `Pat::default()` (derived), src/psi/pat.rs:61. -/
def default : Pat := ⟨0, 0, []⟩

/-- `Pat::check`, src/psi/pat.rs:74-80. -/
def check (p : Profile) (psi : Psi) : R Bool := do
  if !(psi.size ≥ 8 + 4) then return false
  if !((← idx psi.buffer 0) == 0x00) then return false
  psi.check p

/-- The item loop, src/psi/pat.rs:93-96. -/
def parseLoop (ptr : List UInt8) : (fuel skip : Nat) → (items : List PatItem) → R (List PatItem)
  | 0, _, _ => .error .diverge
  | fuel + 1, skip, items =>
    if ptr.length ≥ skip + 4 then do
      let item ← PatItem.parse (← slice ptr skip (skip + 4))
      parseLoop ptr fuel (skip + 4) (items ++ [item])
    else .ok items

/-- `Pat::parse`, src/psi/pat.rs:83-97. -/
def parse (p : Profile) (self : Pat) (psi : Psi) : R Pat := do
  if !(← check p psi) then return self
  let tsid ← getU16At psi.buffer 3
  let b : UInt8 ← idx psi.buffer 5
  let ptr ← slice psi.buffer 8 (← usizeSub p psi.size 4)
  let items ← parseLoop ptr (ptr.length + 1) 0 self.items
  return { version := (b &&& 0x3E) >>> 1, tsid := tsid, items := items }

/-- The item loop of `psi_list_assemble`, src/psi/pat.rs:106-111 (`break` when full). -/
def assembleLoop : List PatItem → (buffer : List UInt8) → R (List UInt8)
  | [], buffer => .ok buffer
  | item :: rest, buffer =>
    if buffer.length + item.size > PAT_SECTION_SIZE then .ok buffer
    else do assembleLoop rest (← item.assemble buffer)

/-- `<Pat as PsiDemux>::psi_list_assemble`, src/psi/pat.rs:102-114. -/
def psiListAssemble (p : Profile) (self : Pat) : R (List Psi) := do
  let psi ← Psi.new p 0x00 8 self.version
  let buffer ← setU16At psi.buffer 3 self.tsid
  let buffer ← assembleLoop self.items buffer
  return [{ psi with buffer := buffer }]

/-- `<Pat as PsiDemux>::demux` (default method, src/psi/mod.rs:265-282). -/
def demux (p : Profile) (self : Pat) (pid : UInt16) (cc : UInt8) (dst : List UInt8) :
    R (UInt8 × List UInt8) := do
  psiDemux p (← self.psiListAssemble p) pid cc dst

/-- `<Pat as From<&Psi>>::from`, src/psi/pat.rs:119-123. -/
def ofPsi (p : Profile) (psi : Psi) : R Pat := parse p default psi

end Pat
end Mpegts
