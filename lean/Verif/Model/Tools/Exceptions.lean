import Verif.Model.Prelude

/-!
# Exceptions (`lrvm_tools/src/exceptions/*.rs`)
-/

namespace Lrvm

/-- `AuxHwException`, `lrvm_tools/src/exceptions/auxhw.rs:5-36`. -/
inductive AuxHwException
  | unknownError
  | unspecifiedSyncError
  | timeSynchronizationError
  | unknownOperation (op : U8)
  | unsupportedOperation
  | genericPhysicalReadError
  | memoryNotReadable
  | genericPhysicalWriteError
  | memoryNotWritable
  deriving DecidableEq, Repr

/-- `AuxHwException::decode_parts`, `lrvm_tools/src/exceptions/auxhw.rs:48-68`. -/
def AuxHwException.decodeParts (code : U8) (data : Option U8) : Option AuxHwException :=
  match code.toNat with
  | 0x00 => some .unknownError
  | 0x01 => some .unspecifiedSyncError
  | 0x02 => some .timeSynchronizationError
  | 0x10 => data.map .unknownOperation
  | 0x11 => some .unsupportedOperation
  | 0x20 => some .genericPhysicalReadError
  | 0x21 => some .memoryNotReadable
  | 0x30 => some .genericPhysicalWriteError
  | 0x31 => some .memoryNotWritable
  | _ => none

/-- `AuxHwException::decode`, `lrvm_tools/src/exceptions/auxhw.rs:40-45`. -/
def AuxHwException.decode (ex : U16) : Option AuxHwException :=
  AuxHwException.decodeParts ((ex >>> 8).setWidth 8) (some (ex.setWidth 8))

/-- `AuxHwException::code`, `lrvm_tools/src/exceptions/auxhw.rs:71-86`. -/
def AuxHwException.code : AuxHwException → U8
  | .unknownError => 0x00
  | .unspecifiedSyncError => 0x01
  | .timeSynchronizationError => 0x02
  | .unknownOperation _ => 0x10
  | .unsupportedOperation => 0x11
  | .genericPhysicalReadError => 0x20
  | .memoryNotReadable => 0x21
  | .genericPhysicalWriteError => 0x30
  | .memoryNotWritable => 0x31

/-- `AuxHwException::associated_data`, `lrvm_tools/src/exceptions/auxhw.rs:89-104`. -/
def AuxHwException.associatedData : AuxHwException → Option U8
  | .unknownOperation op => some op
  | _ => none

/-- `AuxHwException::encode`, `lrvm_tools/src/exceptions/auxhw.rs:107-109` (disjoint bits: the plain
addition cannot overflow). -/
def AuxHwException.encode (e : AuxHwException) : U16 :=
  (e.code.setWidth 16 <<< 8) + (e.associatedData.getD 0).setWidth 16

/-- `NativeException`, `lrvm_tools/src/exceptions/native.rs:6-25`. -/
inductive NativeException
  | unknownOpCode (c : U8)
  | unknownRegister (c : U8)
  | readProtectedRegister (c : U8)
  | writeProtectedRegister (c : U8)
  | unalignedMemoryAddress (unalignment : U8)
  | mmuRefusedRead (a : U16)
  | mmuRefusedWrite (a : U16)
  | mmuRefusedExec (a : U16)
  | supervisorReservedInstruction (c : U8)
  | divisionOrModByZero
  | overflowingDivOrMod
  | invalidCondFlag (c : U8)
  | invalidCondMode (c : U8)
  | unknownComponentId (i : U16)
  | unknownHardwareInformationCode (c : U8)
  | componentNotMapped (i : U16)
  | hardwareException (e : AuxHwException)
  | interruption (c : U8)
  deriving DecidableEq, Repr

/-- `NativeException::decode_parts`, `lrvm_tools/src/exceptions/native.rs:47-78`; `as u8` keeps the low
byte. -/
def NativeException.decodeParts (code : U8) (associated : Option U16) : Option NativeException :=
  let low : Option U8 := associated.map (·.setWidth 8)
  match code.toNat with
  | 0x01 => low.map .unknownOpCode
  | 0x02 => low.map .unknownRegister
  | 0x03 => low.map .readProtectedRegister
  | 0x04 => low.map .writeProtectedRegister
  | 0x05 => low.map .unalignedMemoryAddress
  | 0x06 => associated.map .mmuRefusedRead
  | 0x07 => associated.map .mmuRefusedWrite
  | 0x08 => associated.map .mmuRefusedExec
  | 0x09 => low.map .supervisorReservedInstruction
  | 0x0A => some .divisionOrModByZero
  | 0x0B => some .overflowingDivOrMod
  | 0x0C => low.map .invalidCondFlag
  | 0x0D => low.map .invalidCondMode
  | 0x10 => associated.map .unknownComponentId
  | 0x11 => low.map .unknownHardwareInformationCode
  | 0x12 => associated.map .componentNotMapped
  | 0xA0 => do
    let d ← associated
    let e ← AuxHwException.decode d
    some (.hardwareException e)
  | 0xF0 => low.map .interruption
  | _ => none

/-- `NativeException::decode_with_mode`, `lrvm_tools/src/exceptions/native.rs:36-44`. -/
def NativeException.decodeWithMode (ex : Word) : Option (NativeException × Bool) := do
  let b0 : U8 := (ex >>> 24).setWidth 8
  let b1 : U8 := (ex >>> 16).setWidth 8
  let b2 : U8 := (ex >>> 8).setWidth 8
  let b3 : U8 := ex.setWidth 8
  let e ← NativeException.decodeParts b1 (some (b2 ++ b3))
  some (e, b0 != 0)

/-- `NativeException::decode`, `lrvm_tools/src/exceptions/native.rs:29-31`. -/
def NativeException.decode (ex : Word) : Option NativeException :=
  (NativeException.decodeWithMode ex).map (·.1)

/-- `NativeException::code`, `lrvm_tools/src/exceptions/native.rs:81-102`. -/
def NativeException.code : NativeException → U8
  | .unknownOpCode _ => 0x01
  | .unknownRegister _ => 0x02
  | .readProtectedRegister _ => 0x03
  | .writeProtectedRegister _ => 0x04
  | .unalignedMemoryAddress _ => 0x05
  | .mmuRefusedRead _ => 0x06
  | .mmuRefusedWrite _ => 0x07
  | .mmuRefusedExec _ => 0x08
  | .supervisorReservedInstruction _ => 0x09
  | .divisionOrModByZero => 0x0A
  | .overflowingDivOrMod => 0x0B
  | .invalidCondFlag _ => 0x0C
  | .invalidCondMode _ => 0x0D
  | .unknownComponentId _ => 0x10
  | .unknownHardwareInformationCode _ => 0x11
  | .componentNotMapped _ => 0x12
  | .hardwareException _ => 0xA0
  | .interruption _ => 0xF0

/-- `NativeException::associated_data`, `lrvm_tools/src/exceptions/native.rs:105-126`. -/
def NativeException.associatedData : NativeException → Option U16
  | .unknownOpCode c => some (c.setWidth 16)
  | .unknownRegister c => some (c.setWidth 16)
  | .readProtectedRegister c => some (c.setWidth 16)
  | .writeProtectedRegister c => some (c.setWidth 16)
  | .unalignedMemoryAddress u => some (u.setWidth 16)
  | .mmuRefusedRead a => some a
  | .mmuRefusedWrite a => some a
  | .mmuRefusedExec a => some a
  | .supervisorReservedInstruction c => some (c.setWidth 16)
  | .divisionOrModByZero => none
  | .overflowingDivOrMod => none
  | .invalidCondFlag c => some (c.setWidth 16)
  | .invalidCondMode c => some (c.setWidth 16)
  | .unknownComponentId i => some i
  | .unknownHardwareInformationCode c => some (c.setWidth 16)
  | .componentNotMapped i => some i
  | .hardwareException e => some e.encode
  | .interruption c => some (c.setWidth 16)

/-- `NativeException::encode`, `lrvm_tools/src/exceptions/native.rs:129-131`. -/
def NativeException.encode (e : NativeException) : Word :=
  (e.code.setWidth 32 <<< 16) + (e.associatedData.getD 0).setWidth 32

/-- `NativeException::encode_with_mode`, `lrvm_tools/src/exceptions/native.rs:135-137`. -/
def NativeException.encodeWithMode (e : NativeException) (wasSv : Bool) : Word :=
  e.encode + if wasSv then 1#32 <<< 24 else 0

end Lrvm
