import Verif.Model.Bus
import Verif.Model.Tools.Bytes

/-!
# Device metadata (`lrvm_tools/src/metadata/*.rs`)
-/

namespace Lrvm

/-- `DebugType`, `lrvm_tools/src/metadata/types.rs:57-59`. -/
inductive DebugType
  | basic
  deriving DecidableEq, Repr

/-- `ClockType`, `lrvm_tools/src/metadata/types.rs:61-63`. -/
inductive ClockType
  | realtime
  deriving DecidableEq, Repr

/-- `DisplayType`, `lrvm_tools/src/metadata/types.rs:65-69`. -/
inductive DisplayType
  | number | character | buffered
  deriving DecidableEq, Repr

/-- `KeyboardType`, `lrvm_tools/src/metadata/types.rs:71-74`. -/
inductive KeyboardType
  | readCharSynchronous | readLineSynchronous
  deriving DecidableEq, Repr

/-- `MemoryType`, `lrvm_tools/src/metadata/types.rs:76-78`. -/
inductive MemoryType
  | ram
  deriving DecidableEq, Repr

/-- `StorageType`, `lrvm_tools/src/metadata/types.rs:80-84`. -/
inductive StorageType
  | readonly | flash | persistent
  deriving DecidableEq, Repr

/-- `DebugType::code`, `lrvm_tools/src/metadata/types.rs:21-25,57-59`. -/
def DebugType.code : DebugType → Word
  | .basic => 0x00000100

/-- `DebugType::decode`, `lrvm_tools/src/metadata/types.rs:14-19,57-59`. -/
def DebugType.decode (c : Word) : Option DebugType :=
  match c.toNat with
  | 0x00000100 => some .basic
  | _ => none

/-- `ClockType::code`, `lrvm_tools/src/metadata/types.rs:21-25,61-63`. -/
def ClockType.code : ClockType → Word
  | .realtime => 0x00000001

/-- `ClockType::decode`, `lrvm_tools/src/metadata/types.rs:14-19,61-63`. -/
def ClockType.decode (c : Word) : Option ClockType :=
  match c.toNat with
  | 0x00000001 => some .realtime
  | _ => none

/-- `DisplayType::code`, `lrvm_tools/src/metadata/types.rs:21-25,65-69`. -/
def DisplayType.code : DisplayType → Word
  | .number => 0x00000001
  | .character => 0x00000010
  | .buffered => 0x00000100

/-- `DisplayType::decode`, `lrvm_tools/src/metadata/types.rs:14-19,65-69`. -/
def DisplayType.decode (c : Word) : Option DisplayType :=
  match c.toNat with
  | 0x00000001 => some .number
  | 0x00000010 => some .character
  | 0x00000100 => some .buffered
  | _ => none

/-- `KeyboardType::code`, `lrvm_tools/src/metadata/types.rs:21-25,71-74`. -/
def KeyboardType.code : KeyboardType → Word
  | .readCharSynchronous => 0x00000100
  | .readLineSynchronous => 0x00001000

/-- `KeyboardType::decode`, `lrvm_tools/src/metadata/types.rs:14-19,71-74`. -/
def KeyboardType.decode (c : Word) : Option KeyboardType :=
  match c.toNat with
  | 0x00000100 => some .readCharSynchronous
  | 0x00001000 => some .readLineSynchronous
  | _ => none

/-- `MemoryType::code`, `lrvm_tools/src/metadata/types.rs:21-25,76-78`. -/
def MemoryType.code : MemoryType → Word
  | .ram => 0x00000100

/-- `MemoryType::decode`, `lrvm_tools/src/metadata/types.rs:14-19,76-78`. -/
def MemoryType.decode (c : Word) : Option MemoryType :=
  match c.toNat with
  | 0x00000100 => some .ram
  | _ => none

/-- `StorageType::code`, `lrvm_tools/src/metadata/types.rs:21-25,80-84`. -/
def StorageType.code : StorageType → Word
  | .readonly => 0x00000100
  | .flash => 0x00000011
  | .persistent => 0x00000021

/-- `StorageType::decode`, `lrvm_tools/src/metadata/types.rs:14-19,80-84`. -/
def StorageType.decode (c : Word) : Option StorageType :=
  match c.toNat with
  | 0x00000100 => some .readonly
  | 0x00000011 => some .flash
  | 0x00000021 => some .persistent
  | _ => none

/-- `DeviceCategory`, `lrvm_tools/src/metadata/category.rs:5-15`. -/
inductive DeviceCategory
  | debug (t : DebugType)
  | clock (t : ClockType)
  | display (t : DisplayType)
  | keyboard (t : KeyboardType)
  | memory (t : MemoryType)
  | storage (t : StorageType)
  | platformSpecific (code : Word)
  | uncategorized
  deriving DecidableEq, Repr

/-- `DeviceCategory::decode`, `lrvm_tools/src/metadata/category.rs:22-39`. -/
def DeviceCategory.decode (code : U64) : Option DeviceCategory :=
  let cat : Word := (code >>> 32).setWidth 32
  let typ : Word := (code &&& 0xFFFFFFFF#64).setWidth 32
  match cat.toNat with
  | 0x00000100 => (DebugType.decode typ).map .debug
  | 0x00001000 => (ClockType.decode typ).map .clock
  | 0x00011000 => (DisplayType.decode typ).map .display
  | 0x00016000 => (KeyboardType.decode typ).map .keyboard
  | 0x00021000 => (MemoryType.decode typ).map .memory
  | 0x00022000 => (StorageType.decode typ).map .storage
  | 0xEEEEEEEE => some (.platformSpecific typ)
  | 0xFFFFFFFF => some .uncategorized
  | _ => none

/-- `DeviceCategory::category_code`, `lrvm_tools/src/metadata/category.rs:41-52`. -/
def DeviceCategory.categoryCode : DeviceCategory → Word
  | .debug _ => 0x00000100
  | .clock _ => 0x00001000
  | .display _ => 0x00011000
  | .keyboard _ => 0x00016000
  | .memory _ => 0x00021000
  | .storage _ => 0x00022000
  | .platformSpecific _ => 0xEEEEEEEE
  | .uncategorized => 0xFFFFFFFF

/-- `DeviceCategory::type_code`, `lrvm_tools/src/metadata/category.rs:54-65`. -/
def DeviceCategory.typeCode : DeviceCategory → Word
  | .debug t => t.code
  | .clock t => t.code
  | .display t => t.code
  | .keyboard t => t.code
  | .memory t => t.code
  | .storage t => t.code
  | .platformSpecific t => t
  | .uncategorized => 0

/-- `DeviceCategory::encode`, `lrvm_tools/src/metadata/category.rs:67-69` (the two halves are disjoint:
the plain addition cannot overflow). -/
def DeviceCategory.encode (c : DeviceCategory) : U64 :=
  (c.categoryCode.setWidth 64 <<< 32) + c.typeCode.setWidth 64

/-- `DeviceMetadata`, `lrvm_tools/src/metadata/metadata.rs:5-11`. -/
structure DeviceMetadata where
  hwId : U64
  sizeBytes : Word
  category : DeviceCategory
  model : Option Word
  data : Option U64
  deriving DecidableEq, Repr

/-- `DeviceMetadata::new`, `lrvm_tools/src/metadata/metadata.rs:14-34`. -/
def DeviceMetadata.new (hwId : U64) (sizeBytes : Word) (category : DeviceCategory)
    (model : Option Word) (data : Option U64) : Res DeviceMetadata := do
  assert (sizeBytes % 4 == 0)
  some { hwId, sizeBytes, category, model, data }

/-- `DeviceMetadata::to_bytes`, `lrvm_tools/src/metadata/metadata.rs:41-51`. -/
def DeviceMetadata.toBytes (m : DeviceMetadata) : List U8 :=
  beBytes 8 m.hwId ++ beBytes 4 m.sizeBytes ++ beBytes 8 m.category.encode ++
    beBytes 4 (m.model.getD 0) ++ beBytes 8 (m.data.getD 0)

/-- `DeviceMetadata::encode`, `lrvm_tools/src/metadata/metadata.rs:53-57` (`copy_from_slice` panics
when the lengths differ). -/
def DeviceMetadata.encode (m : DeviceMetadata) : Res Metadata :=
  let words := bytesToWords m.toBytes
  if h : words.length = 8 then some ⟨words.toArray, by simpa using h⟩ else none

end Lrvm
