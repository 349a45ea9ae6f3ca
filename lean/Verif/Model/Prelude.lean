/-!
# Numbers, build profiles and panics

Common vocabulary of the model.
-/

namespace Lrvm

/-- Rust `u32`. -/
abbrev Word := BitVec 32
/-- Rust `u8`. -/
abbrev U8 := BitVec 8
/-- Rust `u16`. -/
abbrev U16 := BitVec 16
/-- Rust `u64`. -/
abbrev U64 := BitVec 64
/-- Rust `u128`. -/
abbrev U128 := BitVec 128

/-- Cargo build profile (`/repo/Cargo.toml` sets only `lto`, so `debug` has overflow checks and
`release` has not). -/
inductive Profile
  | debug
  | release
  deriving DecidableEq, Repr

/-- The outcome of Rust code that may panic: `none` is a panic. -/
abbrev Res (α : Type u) := Option α

/-- A Rust panic. -/
abbrev panicked {α : Type u} : Res α := none

/-- Rust `a + b` on an unsigned type: panics on overflow in debug builds, wraps in release builds. -/
def Profile.add (pf : Profile) (a b : BitVec n) : Res (BitVec n) :=
  match pf with
  | .debug => if a.toNat + b.toNat < 2 ^ n then some (a + b) else none
  | .release => some (a + b)

/-- Rust `a - b` on an unsigned type: panics on underflow in debug builds, wraps in release builds. -/
def Profile.sub (pf : Profile) (a b : BitVec n) : Res (BitVec n) :=
  match pf with
  | .debug => if b.toNat ≤ a.toNat then some (a - b) else none
  | .release => some (a - b)

/-- Rust `a * b` on an unsigned type: panics on overflow in debug builds, wraps in release builds. -/
def Profile.mul (pf : Profile) (a b : BitVec n) : Res (BitVec n) :=
  match pf with
  | .debug => if a.toNat * b.toNat < 2 ^ n then some (a * b) else none
  | .release => some (a * b)

/-- Rust `1u32 << k`: panics when `k ≥ 32` in debug builds, masks `k` with 31 in release builds. -/
def Profile.oneShl (pf : Profile) (k : Word) : Res Word :=
  match pf with
  | .debug => if k.toNat < 32 then some (1#32 <<< k.toNat) else none
  | .release => some (1#32 <<< (k.toNat % 32))

/-- Rust `assert!(c)`. -/
def assert (c : Bool) : Res Unit := if c then some () else none

end Lrvm
