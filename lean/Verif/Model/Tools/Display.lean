import Verif.Model.Tools.Describe
import Verif.Model.Tools.Metadata

/-!
# Texts: `Display` of the decoding errors and of the categories of components
-/

namespace Lrvm

/-- `impl Display for InstrDecodingError`, `lrvm_tools/src/asm/instr.rs:624-632`. `param` is a `usize`; `param + 1` would
overflow on the greatest one, which no decoding produces (they are at most 2). -/
def InstrDecodingError.display : InstrDecodingError → Text
  | .sourceNotMultipleOf4Bytes =>
    "The provided program's length is not a multiple of 4 bytes (unaligned instructions)".toList
  | .unknownOpCode opcode => "Unknown opcode: ".toList ++ fmtHex 4 opcode.toNat
  | .unknownRegister param code =>
    "Parameter ".toList ++ fmtDec (param + 1) ++ " uses unknown register: ".toList ++ fmtHex 4 code.toNat

/-- `impl Display for DebugType`, `lrvm_tools/src/metadata/types.rs:42-53,57-59`. -/
def DebugType.display : DebugType → Text
  | .basic => "Basic".toList

/-- `impl Display for ClockType`, `lrvm_tools/src/metadata/types.rs:42-53,61-63`. -/
def ClockType.display : ClockType → Text
  | .realtime => "Realtime".toList

/-- `impl Display for DisplayType`, `lrvm_tools/src/metadata/types.rs:42-53,65-69`. -/
def DisplayType.display : DisplayType → Text
  | .number => "Number".toList
  | .character => "Character".toList
  | .buffered => "Buffered".toList

/-- `impl Display for KeyboardType`, `lrvm_tools/src/metadata/types.rs:42-53,71-74`. -/
def KeyboardType.display : KeyboardType → Text
  | .readCharSynchronous => "ReadCharSynchronous".toList
  | .readLineSynchronous => "ReadLineSynchronous".toList

/-- `impl Display for MemoryType`, `lrvm_tools/src/metadata/types.rs:42-53,76-78`. -/
def MemoryType.display : MemoryType → Text
  | .ram => "Ram".toList

/-- `impl Display for StorageType`, `lrvm_tools/src/metadata/types.rs:42-53,80-84`. -/
def StorageType.display : StorageType → Text
  | .readonly => "Readonly".toList
  | .flash => "Flash".toList
  | .persistent => "Persistent".toList

/-- `impl Display for DeviceCategory`, `lrvm_tools/src/metadata/category.rs:71-89`. -/
def DeviceCategory.text : DeviceCategory → Text
  | .debug t => "Debug:".toList ++ t.display
  | .clock t => "Clock:".toList ++ t.display
  | .display t => "Display:".toList ++ t.display
  | .keyboard t => "Keyboard:".toList ++ t.display
  | .memory t => "Memory:".toList ++ t.display
  | .storage t => "Storage:".toList ++ t.display
  | .platformSpecific code => "PlatformSpecific:(Code=".toList ++ fmtHex 10 code.toNat ++ ")".toList
  | .uncategorized => "Uncategorized".toList

end Lrvm
