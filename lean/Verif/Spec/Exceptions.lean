import Verif.Model.Tools.Exceptions

/-!
# Specification: the exception tables

`docs/Architecture.md`, "Exceptions", and the component exception codes listed in
`lrvm_tools/src/exceptions/auxhw.rs:5-36`. As relations between an exception and two numbers, independent of the
encoding and decoding functions.
-/

namespace Lrvm.Spec

/-- Component exceptions: strongest byte, weakest byte. -/
inductive AuxTable : AuxHwException → Nat → Nat → Prop
  | unknownError : AuxTable .unknownError 0x00 0
  | unspecifiedSyncError : AuxTable .unspecifiedSyncError 0x01 0
  | timeSynchronizationError : AuxTable .timeSynchronizationError 0x02 0
  | unknownOperation (op : U8) : AuxTable (.unknownOperation op) 0x10 op.toNat
  | unsupportedOperation : AuxTable .unsupportedOperation 0x11 0
  | genericPhysicalReadError : AuxTable .genericPhysicalReadError 0x20 0
  | memoryNotReadable : AuxTable .memoryNotReadable 0x21 0
  | genericPhysicalWriteError : AuxTable .genericPhysicalWriteError 0x30 0
  | memoryNotWritable : AuxTable .memoryNotWritable 0x31 0

/-- Processor exceptions: code, associated data. -/
inductive Table : NativeException → Nat → Nat → Prop
  | unknownOpCode (x : U8) : Table (.unknownOpCode x) 0x01 x.toNat
  | unknownRegister (x : U8) : Table (.unknownRegister x) 0x02 x.toNat
  | readProtectedRegister (x : U8) : Table (.readProtectedRegister x) 0x03 x.toNat
  | writeProtectedRegister (x : U8) : Table (.writeProtectedRegister x) 0x04 x.toNat
  | unalignedMemoryAddress (x : U8) : Table (.unalignedMemoryAddress x) 0x05 x.toNat
  | mmuRefusedRead (a : U16) : Table (.mmuRefusedRead a) 0x06 a.toNat
  | mmuRefusedWrite (a : U16) : Table (.mmuRefusedWrite a) 0x07 a.toNat
  | mmuRefusedExec (a : U16) : Table (.mmuRefusedExec a) 0x08 a.toNat
  | supervisorReservedInstruction (x : U8) : Table (.supervisorReservedInstruction x) 0x09 x.toNat
  | divisionOrModByZero : Table .divisionOrModByZero 0x0A 0
  | overflowingDivOrMod : Table .overflowingDivOrMod 0x0B 0
  | invalidCondFlag (x : U8) : Table (.invalidCondFlag x) 0x0C x.toNat
  | invalidCondMode (x : U8) : Table (.invalidCondMode x) 0x0D x.toNat
  | unknownComponentId (i : U16) : Table (.unknownComponentId i) 0x10 i.toNat
  | unknownHardwareInformationCode (x : U8) : Table (.unknownHardwareInformationCode x) 0x11 x.toNat
  | componentNotMapped (i : U16) : Table (.componentNotMapped i) 0x12 i.toNat
  | hardwareException {e : AuxHwException} {hi lo : Nat} (h : AuxTable e hi lo) :
      Table (.hardwareException e) 0xA0 (hi * 256 + lo)
  | interruption (x : U8) : Table (.interruption x) 0xF0 x.toNat

/-- The content of `et` for a mode, a code and data: "Bits 00-07: mode, Bits 08-15: code, Bits 16-31: associated data",
starting from the strongest. -/
def etWord (supervisor : Bool) (code data : Nat) : Nat := supervisor.toNat * 2 ^ 24 + code * 2 ^ 16 + data

end Lrvm.Spec
