import Verif.Model.Prelude

/-!
# Components and the hardware bridge (`lrvm/src/board/bus.rs`, `lrvm/src/board/hwb.rs`)
-/

namespace Lrvm

/-- A component's metadata, `[u32; 8]`. -/
abbrev Metadata := Vector Word 8

/-- The `Bus` trait, `lrvm/src/board/bus.rs:7-29`. A component is a value of a type with this
interface; `&mut self` methods return the new component. The `ex: &mut u16` argument is an input and
an output. `none` is a panic inside the component. The build profile is an argument of `metadata`
because the bundled components compute their size with plain multiplications. Simplification: `name`
and `metadata` are functions of the component's value (no interior mutability). -/
class Bus (D : Type u) where
  name : D → List Char
  metadata : Profile → D → Res Metadata
  read : D → (addr : Word) → (ex : U16) → Res (D × Word × U16)
  write : D → (addr : Word) → (word : Word) → (ex : U16) → Res (D × U16)
  reset : D → Res D

/-- `AuxCache`, `lrvm/src/board/hwb.rs:13-26`. -/
structure AuxCache where
  id : Nat
  hwId : U64
  name : List Char
  metadata : Metadata
  size : Word
  deriving DecidableEq

/-- UTF-8 bytes of a string, `str::bytes`. -/
def utf8 (s : List Char) : List U8 := (s.flatMap String.utf8EncodeChar).map UInt8.toBitVec

/-- The loop `while name.len() > 32 { name.pop(); }`, `lrvm/src/board/hwb.rs:35-37`, on the reversed
character list (`String::pop` removes the last character; `String::len` is the UTF-8 length). -/
def truncRev : List Char → List Char
  | [] => []
  | c :: cs => if 32 < (utf8 (c :: cs).reverse).length then truncRev cs else c :: cs

/-- Name truncation, `lrvm/src/board/hwb.rs:33-37`. -/
def truncName (name : List Char) : List Char := (truncRev name.reverse).reverse

/-- `AuxWithCache::create_from_aux`, `lrvm/src/board/hwb.rs:30-55`. The component itself is kept in
the machine's component list. -/
def createCache [Bus D] (pf : Profile) (id : Nat) (d : D) : Res AuxCache := do
  let metadata ← Bus.metadata pf d
  let hwId ← pf.add (metadata[0].setWidth 64 <<< 32) (metadata[1].setWidth 64)
  pure { id, hwId, name := truncName (Bus.name d), metadata, size := metadata[2] }

/-- The `enumerate().map(..).collect()` of `HardwareBridge::new`, `lrvm/src/board/hwb.rs:66-81`,
starting from identifier `id`. -/
def createCaches [Bus D] (pf : Profile) (id : Nat) : List D → Res (List AuxCache)
  | [] => some []
  | d :: ds => do
    assert (decide (id < 4294967295))
    let c ← createCache pf id d
    let cs ← createCaches pf (id + 1) ds
    pure (c :: cs)

/-- `HardwareBridge::read`, `lrvm/src/board/hwb.rs:116-125`; the result `some none` is Rust's `None`
(unknown component). Also returns the components after the call. -/
def bridgeRead [Bus D] (devs : List D) (id : Nat) (addr : Word) (ex : U16) :
    Res (Option (Word × U16 × List D)) := do
  assert (addr % 4 == 0)
  match devs[id]? with
  | none => some none
  | some d => do
    let (d', w, ex') ← Bus.read d addr ex
    some (some (w, ex', devs.set id d'))

/-- `HardwareBridge::write`, `lrvm/src/board/hwb.rs:130-139`. -/
def bridgeWrite [Bus D] (devs : List D) (id : Nat) (addr : Word) (word : Word) (ex : U16) :
    Res (Option (U16 × List D)) := do
  assert (addr % 4 == 0)
  match devs[id]? with
  | none => some none
  | some d => do
    let (d', ex') ← Bus.write d addr word ex
    some (some (ex', devs.set id d'))

/-- `HardwareBridge::reset`, `lrvm/src/board/hwb.rs:142-146`. -/
def bridgeReset [Bus D] (devs : List D) (id : Nat) : Res (Option (List D)) :=
  match devs[id]? with
  | none => some none
  | some d => do
    let d' ← Bus.reset d
    some (some (devs.set id d'))

end Lrvm
