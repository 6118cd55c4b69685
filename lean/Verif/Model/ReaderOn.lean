import Verif.Model.Reader

/-! # `src/reader/mod.rs` over any implementation of `io::Read`

`Model/Reader.lean` has the sources that deliver a byte stream.  Here the source is any implementation of `Read`, a state machine that is
given a buffer and returns a result, the buffer's new contents and its new state, and that may break the contract of `Read`: it may claim
to have read more than the buffer has room for, and it may never come to an end.  A count is below 2 ^ 64 (`usize`). -/

namespace Mpegts.TsReader
variable {σ : Type}

/-- How a loop ends: falls through to the code after it, or returns. -/
inductive LoopOn (σ : Type) where
  | done (packet : List UInt8) (st : σ)
  | ret (r : ReadRes σ)

/-- `self.inner.read(&mut packet[a .. b])`: the source gets that part of `packet`. -/
def readPart (rd : TsReadImpl σ) (st : σ) (packet : List UInt8) (a b : Nat) : R (ReadRes σ) := do
  let r ← rd st (← slice packet a b)
  return ⟨r.res, packet.take a ++ r.buf ++ packet.drop b, r.st⟩

/-- The synchronisation loop, src/reader/mod.rs:76-84; `.diverge` if it is not over after `fuel` calls of the source. -/
def syncOn (rd : TsReadImpl σ) : (fuel : Nat) → σ → (packet : List UInt8) → R (LoopOn σ)
  | 0, _, _ => .error .diverge
  | fuel + 1, st, packet => do
    let r ← readPart rd st packet 0 1
    match r.res with
    | .error e => return .ret ⟨.error e, r.buf, r.st⟩
    | .ok x =>
      if x = 0 then return .ret ⟨.ok 0, r.buf, r.st⟩
      if ← Ts.isSync r.buf then return .done r.buf r.st
      syncOn rd fuel r.st r.buf

/-- The fill loop, src/reader/mod.rs:86-92; `skip += x` overflows at 2 ^ 64. -/
def fillOn (p : Profile) (rd : TsReadImpl σ) : (fuel : Nat) → σ → (packet : List UInt8) → (skip : Nat) → R (LoopOn σ)
  | 0, _, _, _ => .error .diverge
  | fuel + 1, st, packet, skip =>
    if skip ≠ Ts.PACKET_SIZE then do
      let r ← readPart rd st packet skip Ts.PACKET_SIZE
      match r.res with
      | .error e => return .ret ⟨.error e, r.buf, r.st⟩
      | .ok x =>
        if x = 0 then return .ret ⟨.ok 0, r.buf, r.st⟩
        let skip ← if skip + x < 2 ^ 64 then .ok (skip + x) else p.overflow ((skip + x) % 2 ^ 64)
        fillOn p rd fuel r.st r.buf skip
    else .ok (.done packet st)

/-- `<TsReader as TsRead>::read`, src/reader/mod.rs:71-97, over any source; each loop may call it `fuel` times. -/
def readOn (p : Profile) (rd : TsReadImpl σ) (fuel : Nat) (st : σ) (packet : List UInt8) : R (ReadRes σ) := do
  assert (packet.length ≥ Ts.PACKET_SIZE)
  match ← syncOn rd fuel st packet with
  | .ret r => return r
  | .done packet st =>
    match ← fillOn p rd fuel st packet 1 with
    | .ret r => return r
    | .done packet st =>
      let _ ← Ts.getPid packet
      return ⟨.ok Ts.PACKET_SIZE, packet, st⟩

end Mpegts.TsReader
