import Verif.Model.Ts

/-! # `src/reader/mod.rs` and `src/reader/drain.rs`: packet reader and byte drain

## The environment: an `io::Read` source

`Source` is a byte stream together with a schedule of what the next `read` calls do.  Any finite
interaction with an `io::Read` that delivers a byte stream is one of these: each call either returns
`Ok(0)`, fails, or delivers between one and `buf.len()` bytes.  When the schedule is used up, every
call delivers as much as is available (and `Ok(0)` at the end of the data). -/

namespace Mpegts

/-- An I/O error (`io::Error`); only its identity matters. -/
abbrev IoError := Nat

/-- What one `read` call of the underlying source does. -/
inductive ReadEvent where
  /-- deliver at most `n + 1` bytes (fewer if the buffer is smaller or the data ends) -/
  | chunk (n : Nat)
  /-- return `Ok(0)` although data may follow later -/
  | zero
  /-- fail -/
  | err (e : IoError)
deriving DecidableEq, Repr

/-- An `io::Read` source. -/
structure Source where
  data : List UInt8
  events : List ReadEvent
deriving DecidableEq, Repr

/-- `Read::read(&mut buf)` with `buf.len() = n`: the bytes delivered and the remaining source. -/
def Source.read (s : Source) (n : Nat) : Except IoError (List UInt8) × Source :=
  match s.events with
  | [] => (.ok (s.data.take n), { s with data := s.data.drop n })
  | .chunk k :: es =>
    let m := min n (k + 1)
    (.ok (s.data.take m), { data := s.data.drop m, events := es })
  | .zero :: es => (.ok [], { s with events := es })
  | .err e :: es => (.error e, { s with events := es })

/-- Result of a `TsRead::read` / `Read::read` call into a caller-supplied buffer: the `io::Result<usize>`,
the buffer afterwards and the reader afterwards. -/
structure ReadRes (σ : Type) where
  res : Except IoError Nat
  buf : List UInt8
  st : σ

/-- `Read::read(&mut packet[a .. b])` on the source: reads into that part of `packet`. -/
def Source.readInto (s : Source) (packet : List UInt8) (a b : Nat) : R (ReadRes Source) := do
  let target ← slice packet a b
  match s.read target.length with
  | (.error e, s) => return ⟨.error e, packet, s⟩
  | (.ok bytes, s) =>
    return ⟨.ok bytes.length, packet.take a ++ bytes ++ packet.drop (a + bytes.length), s⟩

namespace TsReader

/-- How a loop of `TsReader::read` ends: falls through to the code after it, or returns. -/
inductive LoopRes where
  | done (packet : List UInt8) (src : Source)
  | ret (r : ReadRes Source)

/-- The synchronisation loop, src/reader/mod.rs:76-84. -/
def syncLoop : (fuel : Nat) → Source → (packet : List UInt8) → R LoopRes
  | 0, _, _ => .error .diverge
  | fuel + 1, src, packet => do
    let r ← src.readInto packet 0 1
    match r.res with
    | .error e => return .ret ⟨.error e, r.buf, r.st⟩
    | .ok x =>
      if x = 0 then return .ret ⟨.ok 0, r.buf, r.st⟩
      if ← Ts.isSync r.buf then return .done r.buf r.st
      syncLoop fuel r.st r.buf

/-- The fill loop, src/reader/mod.rs:86-92. -/
def fillLoop : (fuel : Nat) → Source → (packet : List UInt8) → (skip : Nat) → R LoopRes
  | 0, _, _, _ => .error .diverge
  | fuel + 1, src, packet, skip =>
    if skip ≠ Ts.PACKET_SIZE then do
      let r ← src.readInto packet skip Ts.PACKET_SIZE
      match r.res with
      | .error e => return .ret ⟨.error e, r.buf, r.st⟩
      | .ok x =>
        if x = 0 then return .ret ⟨.ok 0, r.buf, r.st⟩
        fillLoop fuel r.st r.buf (skip + x)
    else .ok (.done packet src)

/-- `<TsReader as TsRead>::read`, src/reader/mod.rs:71-97.  (`parse`, lines 53-57, only evaluates
`get_pid` and discards it.) -/
def read (src : Source) (packet : List UInt8) : R (ReadRes Source) := do
  assert (packet.length ≥ Ts.PACKET_SIZE)
  match ← syncLoop (src.data.length + 1) src packet with
  | .ret r => return r
  | .done packet src =>
    match ← fillLoop (Ts.PACKET_SIZE + 1) src packet 1 with
    | .ret r => return r
    | .done packet src =>
      let _ ← Ts.getPid packet
      return ⟨.ok Ts.PACKET_SIZE, packet, src⟩

end TsReader

/-- A `TsRead` implementation (src/reader/mod.rs:22-25) with state `σ`. -/
abbrev TsReadImpl (σ : Type) := σ → List UInt8 → R (ReadRes σ)

/-- `struct TsDrain`, src/reader/drain.rs:22-27. -/
structure TsDrain (σ : Type) where
  inner : σ
  buf : List UInt8
  pos : Nat

namespace TsDrain

/-- `TsDrain::new`, src/reader/drain.rs:40-51.  The box is created uninitialised: its bytes are the
argument `garbage`. -/
def new {σ : Type} (inner : σ) (garbage : Nat → UInt8) : TsDrain σ :=
  { inner := inner, buf := (List.range Ts.PACKET_SIZE).map garbage, pos := 0 }

/-- The copy out of the internal buffer, src/reader/drain.rs:68-70 (`<&[u8] as Read>::read` copies
`min(self.len(), buf.len())` bytes). -/
def copyOut {σ : Type} (self : TsDrain σ) (buf : List UInt8) : R (ReadRes (TsDrain σ)) := do
  let avail ← sliceFrom self.buf self.pos
  let x := min avail.length buf.length
  let out := avail.take x ++ buf.drop x
  return ⟨.ok x, out, { self with pos := (self.pos + x) % Ts.PACKET_SIZE }⟩

/-- `<TsDrain as Read>::read`, src/reader/drain.rs:56-71. -/
def read {σ : Type} (innerRead : TsReadImpl σ) (self : TsDrain σ) (buf : List UInt8) :
    R (ReadRes (TsDrain σ)) := do
  if self.pos = 0 then
    if buf.length ≥ Ts.PACKET_SIZE then
      let r ← innerRead self.inner buf
      return ⟨r.res, r.buf, { self with inner := r.st }⟩
    let r ← innerRead self.inner self.buf
    let self := { self with inner := r.st, buf := r.buf }
    match r.res with
    | .error e => return ⟨.error e, buf, self⟩
    | .ok x =>
      if x = 0 then return ⟨.ok 0, buf, self⟩
      self.copyOut buf
  else self.copyOut buf

end TsDrain
end Mpegts
