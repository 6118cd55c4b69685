/-!
# Rust semantics used by the model

Conventions (they hold for every file under `Verif/Model`):

* `u8`/`u16`/`u32`/`u64` are Lean's `UInt8`/`UInt16`/`UInt32`/`UInt64` (fixed width, wrapping `+ - *`).
* `usize` is `Nat`.  Where the code subtracts on `usize`, `usizeSub` makes the underflow explicit
  (64-bit target assumed).  `usize` additions on buffer positions are not overflow checked: a `Vec`
  never exceeds `isize::MAX` bytes.
* `Vec<u8>` and `&[u8]` are `List UInt8`; a function that mutates through `&mut` returns the new value.
* A Rust panic is the value `Fault.panic`; the panic message is not modelled.  A loop that runs out of
  fuel is `Fault.diverge` (used to state non-termination; every property theorem that concludes `.ok`
  thereby also proves that the fuel the model passes is enough).
* Cargo has two stock build profiles.  `Profile.debug` is `cargo build`/`cargo test`:
  `debug_assert!` is compiled in and integer overflow panics.  `Profile.release` is `cargo build --release`:
  `debug_assert!` is compiled out and integer overflow wraps.  Every model function whose behaviour
  depends on the profile takes it as argument `p`.
-/

namespace Mpegts

/-- Cargo build profile (see the file header). -/
inductive Profile where
  | debug
  | release
deriving DecidableEq, Repr

/-- Why an execution has no result: a Rust panic, a loop that does not terminate, or undefined
behaviour (the crate contains blocks the Rust compiler does not check). -/
inductive Fault where
  | panic
  | diverge
  | ub
deriving DecidableEq, Repr

/-- Result of running Rust code: a value, or a fault. -/
abbrev R (α : Type) := Except Fault α

instance {α : Type} [DecidableEq α] : DecidableEq (R α)
  | .ok a, .ok b => if h : a = b then .isTrue (by rw [h]) else .isFalse (by intro e; cases e; exact h rfl)
  | .error a, .error b =>
    if h : a = b then .isTrue (by rw [h]) else .isFalse (by intro e; cases e; exact h rfl)
  | .ok _, .error _ => .isFalse (by intro e; cases e)
  | .error _, .ok _ => .isFalse (by intro e; cases e)

/-- A Rust panic. -/
abbrev panic {α : Type} : R α := Except.error Fault.panic

/-- An arithmetic result `x` that did not fit: panic with overflow checks, wrapped value without. -/
def Profile.overflow {α : Type} (p : Profile) (wrapped : α) : R α :=
  match p with
  | .debug => panic
  | .release => .ok wrapped

/-- `debug_assert!(c)`. -/
def debugAssert (p : Profile) (c : Bool) : R Unit :=
  match p, c with
  | .debug, false => panic
  | _, _ => .ok ()

/-- `assert!(c)`. -/
def assert (c : Bool) : R Unit := if c then .ok () else panic

/-- `a + b` on `u8`. -/
def addU8 (p : Profile) (a b : UInt8) : R UInt8 :=
  if a.toNat + b.toNat < 256 then .ok (a + b) else p.overflow (a + b)

/-- `a * b` on `u8`. -/
def mulU8 (p : Profile) (a b : UInt8) : R UInt8 :=
  if a.toNat * b.toNat < 256 then .ok (a * b) else p.overflow (a * b)

/-- `a * b` on `u16`. -/
def mulU16 (p : Profile) (a b : UInt16) : R UInt16 :=
  if a.toNat * b.toNat < 65536 then .ok (a * b) else p.overflow (a * b)

/-- `a * b` on `u32`. -/
def mulU32 (p : Profile) (a b : UInt32) : R UInt32 :=
  if a.toNat * b.toNat < 2 ^ 32 then .ok (a * b) else p.overflow (a * b)

/-- `a + b` on `u64`. -/
def addU64 (p : Profile) (a b : UInt64) : R UInt64 :=
  if a.toNat + b.toNat < 2 ^ 64 then .ok (a + b) else p.overflow (a + b)

/-- `a * b` on `u64`. -/
def mulU64 (p : Profile) (a b : UInt64) : R UInt64 :=
  if a.toNat * b.toNat < 2 ^ 64 then .ok (a * b) else p.overflow (a * b)

/-- `a - b` on `u64`. -/
def subU64 (p : Profile) (a b : UInt64) : R UInt64 :=
  if b.toNat ≤ a.toNat then .ok (a - b) else p.overflow (a - b)

/-- `a / b` on `u64`: division by zero panics in both profiles. -/
def divU64 (a b : UInt64) : R UInt64 :=
  if b = 0 then panic else .ok (a / b)

/-- `a - b` on `usize` (64 bit). -/
def usizeSub (p : Profile) (a b : Nat) : R Nat :=
  if b ≤ a then .ok (a - b) else p.overflow (a + 2 ^ 64 - b)

/-- `l[i]`: panics out of bounds. -/
def idx {α : Type} (l : List α) (i : Nat) : R α :=
  match l[i]? with
  | some x => .ok x
  | none => panic

/-- `l[i] = v`: panics out of bounds. -/
def setIdx (l : List UInt8) (i : Nat) (v : UInt8) : R (List UInt8) :=
  if i < l.length then .ok (l.set i v) else panic

/-- `&l[a ..]`: panics if `a > len`. -/
def sliceFrom {α : Type} (l : List α) (a : Nat) : R (List α) :=
  if a ≤ l.length then .ok (l.drop a) else panic

/-- `&l[.. b]`: panics if `b > len`. -/
def sliceTo {α : Type} (l : List α) (b : Nat) : R (List α) :=
  if b ≤ l.length then .ok (l.take b) else panic

/-- `&l[a .. b]`: panics if `a > b` or `b > len`. -/
def slice {α : Type} (l : List α) (a b : Nat) : R (List α) :=
  if a ≤ b ∧ b ≤ l.length then .ok ((l.take b).drop a) else panic

/-- `v.resize(n, x)`: truncates or extends with `x`. -/
def resize {α : Type} (l : List α) (n : Nat) (x : α) : List α :=
  l.take n ++ List.replicate (n - l.length) x

/-- `l[a .. b].copy_from_slice(src)`: panics on bad range or length mismatch. -/
def copySlice {α : Type} (l : List α) (a b : Nat) (src : List α) : R (List α) :=
  if a ≤ b ∧ b ≤ l.length ∧ src.length = b - a then
    .ok (l.take a ++ src ++ l.drop b)
  else panic

end Mpegts
