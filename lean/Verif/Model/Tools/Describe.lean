import Verif.Model.Tools.Asm
import Verif.Model.Tools.Exceptions

/-!
# Texts: formatting of numbers, `Display` of the exceptions

`lrvm_tools/src/exceptions/{native,auxhw}.rs`, and the parts of Rust's `format!` that the project uses. A text is a
list of characters.
-/

namespace Lrvm

/-- A text. -/
abbrev Text := List Char

/-- The character of a digit below 16, in upper case (`{:X}`). -/
def upperDigit (n : Nat) : Char :=
  if n < 10 then Char.ofNat (48 + n) else Char.ofNat (55 + n)

/-- The digits of a number in a base, weakest last; at least one. `fuel` bounds their number. -/
def digitsAux (base : Nat) : (fuel : Nat) → Nat → Text → Text
  | 0, _, acc => acc
  | fuel + 1, n, acc =>
    if n < base then upperDigit n :: acc else digitsAux base fuel (n / base) (upperDigit (n % base) :: acc)

/-- The digits of a number in a base. -/
def digits (base n : Nat) : Text := digitsAux base (n + 1) n []

/-- Fill a text on the left up to a width (`fmt::Formatter::pad_integral`). -/
def padLeft (c : Char) (width : Nat) (t : Text) : Text := List.replicate (width - t.length) c ++ t

/-- `{:#0wX}`: `0x`, then upper-case digits filled with zeroes up to a total width of `w`. -/
def fmtHex (w n : Nat) : Text := "0x".toList ++ padLeft '0' (w - 2) (digits 16 n)

/-- `{}` of an unsigned number. -/
def fmtDec (n : Nat) : Text := digits 10 n

/-- `{}` of a signed number. -/
def fmtInt (n : Int) : Text := if n < 0 then '-' :: digits 10 n.natAbs else digits 10 n.natAbs

/-- `impl Display for AuxHwException`, `lrvm_tools/src/exceptions/auxhw.rs:117-137`. -/
def AuxHwException.display : AuxHwException → Text
  | .unknownError => "Unknown error".toList
  | .unspecifiedSyncError => "Unspecified synchronization error".toList
  | .timeSynchronizationError => "Time synchronization error".toList
  | .unknownOperation op => "Unknown operation ".toList ++ fmtHex 4 op.toNat
  | .unsupportedOperation => "Unsupported operation".toList
  | .genericPhysicalReadError => "Generic physical read error".toList
  | .memoryNotReadable => "This memory address is not readable".toList
  | .genericPhysicalWriteError => "Generic physical write error".toList
  | .memoryNotWritable => "This memory address is not writable".toList

/-- `impl Display for NativeException`, `lrvm_tools/src/exceptions/native.rs:138-190`. `Reg::from_code(…).unwrap()` may
panic. -/
def NativeException.display : NativeException → Res Text
  | .unknownOpCode c => some ("Unknown opcode ".toList ++ fmtHex 4 c.toNat)
  | .unknownRegister c => some ("Unknown register code ".toList ++ fmtHex 4 c.toNat)
  | .readProtectedRegister c => do
    let r ← Reg.fromCode c
    some ("Register ".toList ++ r.name.toList ++ " cannot be read in this mode".toList)
  | .writeProtectedRegister c => do
    let r ← Reg.fromCode c
    some ("Register ".toList ++ r.name.toList ++ " cannot be written in this mode".toList)
  | .unalignedMemoryAddress n =>
    some ("Unaligned memory address (unalignment is ".toList ++ fmtDec n.toNat ++ ")".toList)
  | .mmuRefusedRead a => some ("Address cannot be read in this mode (address' weakest bits are ".toList ++
      fmtHex 6 a.toNat ++ ")".toList)
  | .mmuRefusedWrite a => some ("Address cannot be written in this mode (address' weakest bits are ".toList ++
      fmtHex 6 a.toNat ++ ")".toList)
  | .mmuRefusedExec a => some ("Address cannot be executed in this mode (address' weakest bits are ".toList ++
      fmtHex 6 a.toNat ++ ")".toList)
  | .supervisorReservedInstruction c =>
    some ("Instruction with opcode ".toList ++ fmtHex 4 c.toNat ++ " cannot be run in userland mode".toList)
  | .divisionOrModByZero => some "Cannot perform a division or modulus by zero".toList
  | .overflowingDivOrMod => some "Cannot perform an overflowing division or modulus".toList
  | .invalidCondFlag c => some ("Invalid IF/IF2 flag provided: ".toList ++ fmtHex 4 c.toNat)
  | .invalidCondMode c => some ("Invalid IF2 condition mode provided: ".toList ++ fmtHex 4 c.toNat)
  | .unknownComponentId i => some ("Unknown component ID (weakest bits are ".toList ++ fmtHex 6 i.toNat ++ ")".toList)
  | .unknownHardwareInformationCode c => some ("Unknown hardware information code ".toList ++ fmtHex 4 c.toNat)
  | .componentNotMapped i => some ("Component with ID ".toList ++ fmtHex 4 i.toNat ++ " is not mapped".toList)
  | .hardwareException e => some ("Hardware exception: ".toList ++ e.display)
  | .interruption c => some ("Interruption (code ".toList ++ fmtHex 4 c.toNat ++ ")".toList)

end Lrvm
