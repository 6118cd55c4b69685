import Verif.Model.Reader

/-! # `src/reader/mod.rs`: `TsReader` as a value around its source

`Model/Reader.lean` models `read` on the source alone.  Here is the structure around it, with its constructor and the three
ways to get at the source. -/

namespace Mpegts

/-- `struct TsReader<R>`, src/reader/mod.rs:28-30. -/
structure TsReader (ρ : Type) where
  inner : ρ

/-- `TsReader::new`, src/reader/mod.rs:34-38. -/
def TsReader.new {ρ : Type} (inner : ρ) : TsReader ρ := { inner := inner }

/-- `TsReader::get_ref`, src/reader/mod.rs:40-42: the source, to look at. -/
def TsReader.getRef {ρ : Type} (r : TsReader ρ) : ρ := r.inner

/-- `TsReader::get_mut`, src/reader/mod.rs:44-46.  A mutable reference is modelled by what is done through it: `f` is any use
of the source that gives a result and leaves the source in some state. -/
def TsReader.getMut {ρ α : Type} (r : TsReader ρ) (f : ρ → α × ρ) : α × TsReader ρ :=
  let x := f r.inner
  (x.1, { r with inner := x.2 })

/-- `TsReader::into_inner`, src/reader/mod.rs:48-50. -/
def TsReader.intoInner {ρ : Type} (r : TsReader ρ) : ρ := r.inner

/-- `<TsReader as TsRead>::read`, src/reader/mod.rs:71-97, on the structure: `self.inner` is read and written. -/
def TsReader.readPacket (r : TsReader Source) (packet : List UInt8) : R (ReadRes (TsReader Source)) := do
  let x ← TsReader.read r.inner packet
  return ⟨x.res, x.buf, { r with inner := x.st }⟩

end Mpegts
