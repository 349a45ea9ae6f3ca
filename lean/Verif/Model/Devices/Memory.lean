import Verif.Model.Tools.Metadata
import Verif.Model.Tools.Exceptions

/-!
# Memory components (`lrvm_aux/src/volatile_mem/ram.rs`, `lrvm_aux/src/storage/{bootrom,persistent}.rs`)

`usize` has 64 bits, so the conversions from `u32` to `usize` never fail. Constructors return Rust's
`Err` as `none` (the messages are not modelled).
-/

namespace Lrvm

/-- `Ram`, `lrvm_aux/src/volatile_mem/ram.rs:9-13`. `size` counts words. -/
structure Ram where
  storage : List Word
  size : Word
  hwId : U64
  deriving DecidableEq

/-- `Ram::new`, `lrvm_aux/src/volatile_mem/ram.rs:18-35`. -/
def Ram.new (size : Word) (hwId : U64) : Option Ram :=
  if size = 0 then none
  else if size % 4 ≠ 0 then none
  else some { storage := List.replicate size.toNat 0, size := size / 4, hwId }

/-- `Ram::from`, `lrvm_aux/src/volatile_mem/ram.rs:39-50`. -/
def Ram.from (storage : List Word) (hwId : U64) : Option Ram :=
  if 4294967296 ≤ storage.length then none
  else some { storage, size := BitVec.ofNat 32 storage.length / 4, hwId }

/-- `Ram::from_with_size`, `lrvm_aux/src/volatile_mem/ram.rs:54-87` (`Vec::resize` truncates or pads). -/
def Ram.fromWithSize (storage : List Word) (size : Word) (hwId : U64) : Option Ram :=
  if 4294967296 ≤ storage.length then none
  else if size.toNat < storage.length then none
  else if size = 0 then none
  else if size % 4 ≠ 0 then none
  else
    let size := size / 4
    some { storage := storage.take size.toNat ++ List.replicate (size.toNat - storage.length) 0,
           size, hwId }

/-- A memory of the `self.storage[addr as usize / 4]` kind: `none` when the index is out of bounds. -/
def vecRead (storage : List Word) (addr : Word) : Res Word := storage[addr.toNat / 4]?

/-- `self.storage[addr as usize / 4] = word`. -/
def vecWrite (storage : List Word) (addr word : Word) : Res (List Word) :=
  if addr.toNat / 4 < storage.length then some (storage.set (addr.toNat / 4) word) else none

/-- `impl Bus for Ram`, `lrvm_aux/src/volatile_mem/ram.rs:95-123`. -/
instance : Bus Ram where
  name _ := "RAM".toList
  metadata pf d := do
    let bytes ← pf.mul d.size 4
    let m ← DeviceMetadata.new d.hwId bytes (.memory .ram) none none
    m.encode
  read d addr ex := do
    let w ← vecRead d.storage addr
    some (d, w, ex)
  write d addr word ex := do
    let st ← vecWrite d.storage addr word
    some ({ d with storage := st }, ex)
  reset d := some { d with storage := List.replicate d.storage.length 0 }

/-- `PersistentMem`, `lrvm_aux/src/storage/persistent.rs:9-13`. -/
structure PersistentMem where
  storage : List Word
  size : Word
  hwId : U64
  deriving DecidableEq

/-- `PersistentMem::new`, `lrvm_aux/src/storage/persistent.rs:18-35`. -/
def PersistentMem.new (size : Word) (hwId : U64) : Option PersistentMem :=
  if size = 0 then none
  else if size % 4 ≠ 0 then none
  else some { storage := List.replicate size.toNat 0, size := size / 4, hwId }

/-- `PersistentMem::from`, `lrvm_aux/src/storage/persistent.rs:39-50`. -/
def PersistentMem.from (storage : List Word) (hwId : U64) : Option PersistentMem :=
  if 4294967296 ≤ storage.length then none
  else some { storage, size := BitVec.ofNat 32 storage.length / 4, hwId }

/-- `PersistentMem::from_with_size`, `lrvm_aux/src/storage/persistent.rs:54-87`. -/
def PersistentMem.fromWithSize (storage : List Word) (size : Word) (hwId : U64) :
    Option PersistentMem :=
  if 4294967296 ≤ storage.length then none
  else if size.toNat < storage.length then none
  else if size = 0 then none
  else if size % 4 ≠ 0 then none
  else
    let size := size / 4
    some { storage := storage.take size.toNat ++ List.replicate (size.toNat - storage.length) 0,
           size, hwId }

/-- `impl Bus for PersistentMem`, `lrvm_aux/src/storage/persistent.rs:95-123`. -/
instance : Bus PersistentMem where
  name _ := "Flash Memory".toList
  metadata pf d := do
    let bytes ← pf.mul d.size 4
    let m ← DeviceMetadata.new d.hwId bytes (.storage .flash) none none
    m.encode
  read d addr ex := do
    let w ← vecRead d.storage addr
    some (d, w, ex)
  write d addr word ex := do
    let st ← vecWrite d.storage addr word
    some ({ d with storage := st }, ex)
  reset d := some { d with storage := List.replicate d.storage.length 0 }

/-- `BootRom`, `lrvm_aux/src/storage/bootrom.rs:15-20`. `len` and `size` count words. -/
structure BootRom where
  storage : List Word
  len : Word
  size : Word
  hwId : U64
  deriving DecidableEq

/-- `BootRom::new`, `lrvm_aux/src/storage/bootrom.rs:25-37`. -/
def BootRom.new (storage : List Word) (hwId : U64) : Option BootRom :=
  if 4294967296 ≤ storage.length then none
  else
    let len := BitVec.ofNat 32 storage.length
    some { storage, len, size := len, hwId }

/-- `BootRom::with_size`, `lrvm_aux/src/storage/bootrom.rs:41-65`. -/
def BootRom.withSize (storage : List Word) (size : Word) (hwId : U64) : Option BootRom :=
  if 4294967296 ≤ storage.length then none
  else if size.toNat < storage.length then none
  else if size = 0 then none
  else if size % 4 ≠ 0 then none
  else some { storage, len := BitVec.ofNat 32 storage.length, size := size / 4, hwId }

/-- `impl Bus for BootRom`, `lrvm_aux/src/storage/bootrom.rs:78-109`. -/
instance : Bus BootRom where
  name _ := "BootROM".toList
  metadata pf d := do
    let bytes ← pf.mul d.size 4
    let m ← DeviceMetadata.new d.hwId bytes (.storage .readonly) none none
    m.encode
  read d addr ex :=
    let addr := addr / 4
    if addr < d.len then do
      let w ← d.storage[addr.toNat]?
      some (d, w, ex)
    else some (d, 0, ex)
  write d _ _ _ := some (d, AuxHwException.memoryNotWritable.encode)
  reset d := some d

/-- A component of one of two kinds (Rust: `Box<dyn Bus>` built from either). -/
instance [Bus D] [Bus E] : Bus (D ⊕ E) where
  name
    | .inl d => Bus.name d
    | .inr e => Bus.name e
  metadata pf
    | .inl d => Bus.metadata pf d
    | .inr e => Bus.metadata pf e
  read
    | .inl d, a, ex => (Bus.read d a ex).map fun (d, r) => (.inl d, r)
    | .inr e, a, ex => (Bus.read e a ex).map fun (e, r) => (.inr e, r)
  write
    | .inl d, a, w, ex => (Bus.write d a w ex).map fun (d, r) => (.inl d, r)
    | .inr e, a, w, ex => (Bus.write e a w ex).map fun (e, r) => (.inr e, r)
  reset
    | .inl d => (Bus.reset d).map .inl
    | .inr e => (Bus.reset e).map .inr

end Lrvm
