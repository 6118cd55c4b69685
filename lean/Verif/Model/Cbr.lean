import Verif.Model.Reader
import Verif.Model.Pcr

/-! # `src/mux/cbr/mod.rs`: the (unfinished) constant bit rate multiplexer

The module exists in the repository but is not declared in `src/lib.rs`; it is modelled as written. -/

namespace Mpegts

/-- `DEFAULT_BUF_SIZE`, src/mux/cbr/mod.rs:20. -/
def DEFAULT_BUF_SIZE : Nat := (80 * 1000 * 1000 / 8) * 500 / 1000

/-- `struct Block`, src/mux/cbr/mod.rs:23-34. -/
structure Block where
  buffer : List UInt8
  pos : Nat
  cap : Nat
  pcr : UInt64
  delta : UInt64

/-- `Block::new`, src/mux/cbr/mod.rs:50-63.  The buffer is created uninitialised: its contents are the argument. -/
def Block.new (garbage : Nat → UInt8) : Block := { buffer := (List.range DEFAULT_BUF_SIZE).map garbage, pos := 0, cap := 0, pcr := 0, delta := 0 }

/-- `struct Cbr`, src/mux/cbr/mod.rs:67-75. -/
structure Cbr (σ : Type) where
  inner : σ
  parity : Nat
  blocks : List Block
  pid : UInt16
  lastPcr : UInt64

namespace Cbr
variable {σ : Type}

/-- `Cbr::new`, src/mux/cbr/mod.rs:79-89. -/
def new (inner : σ) (garbage0 garbage1 : Nat → UInt8) : Cbr σ :=
  { inner, parity := 0, blocks := [Block.new garbage0, Block.new garbage1], pid := Ts.PID_NONE, lastPcr := Ts.PCR_NONE }

/-- `Cbr::analyze`, src/mux/cbr/mod.rs:91-122. -/
def analyze (self : Cbr σ) : R (Cbr σ) := do
  let block ← idx self.blocks self.parity
  let packet ← sliceFrom block.buffer block.cap
  if !(← Ts.isPcr packet) then return self
  let pid ← Ts.getPid packet
  if pid != self.pid && self.pid != Ts.PID_NONE then return self
  let self := if pid != self.pid then { self with pid := pid } else self
  let pcr ← Ts.getPcr packet
  if self.lastPcr != Ts.PCR_NONE && self.lastPcr == pcr then return self
  return { self with lastPcr := pcr }

/-- `Cbr::push_packet`, src/mux/cbr/mod.rs:124-137.  The inner reader writes into the tail of the current block. -/
def pushPacket (rd : TsReadImpl σ) (self : Cbr σ) : R (Except IoError Nat × Cbr σ) := do
  let block ← idx self.blocks self.parity
  let packet ← sliceFrom block.buffer block.cap
  let r ← rd self.inner packet
  let block := { block with buffer := block.buffer.take block.cap ++ r.buf }
  let self := { self with inner := r.st, blocks := self.blocks.set self.parity block }
  match r.res with
  | .error e => return (.error e, self)
  | .ok x =>
    if x = Ts.PACKET_SIZE then
      let self ← self.analyze
      let block ← idx self.blocks self.parity
      return (.ok x, { self with blocks := self.blocks.set self.parity { block with cap := block.cap + Ts.PACKET_SIZE } })
    else return (.ok x, self)

/-- `<Cbr as TsRead>::read`, src/mux/cbr/mod.rs:142-153: the caller's buffer is not used. -/
def read (rd : TsReadImpl σ) (self : Cbr σ) (packet : List UInt8) : R (ReadRes (Cbr σ)) := do
  let (res, self) ← self.pushPacket rd
  return ⟨res, packet, self⟩

end Cbr
end Mpegts
