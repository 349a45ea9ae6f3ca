import Verif.Spec.Run
import Verif.Spec.Asm

/-!
# What the runner prints

Numbers are written with Lean's own `Nat.toDigits`; the texts of the exceptions are given directly from the code and the data
in `et`, independently of the decoding functions.
-/

namespace Lrvm.Spec.RunLines

open Lrvm.Spec

/-- Fill with zeroes on the left up to `w` digits. -/
def zeroes (w : Nat) (t : Text) : Text := List.replicate (w - t.length) '0' ++ t

/-- `0x` and at least `w` hexadecimal digits in upper case. -/
def hex (w n : Nat) : Text := '0' :: 'x' :: zeroes w ((Nat.toDigits 16 n).map Char.toUpper)

/-- The text for the data of a hardware exception; `none` if there is no such exception. -/
def hardwareText (data : Nat) : Option Text :=
  match data / 256 with
  | 0x00 => some "Unknown error".toList
  | 0x01 => some "Unspecified synchronization error".toList
  | 0x02 => some "Time synchronization error".toList
  | 0x10 => some ("Unknown operation ".toList ++ hex 2 (data % 256))
  | 0x11 => some "Unsupported operation".toList
  | 0x20 => some "Generic physical read error".toList
  | 0x21 => some "This memory address is not readable".toList
  | 0x30 => some "Generic physical write error".toList
  | 0x31 => some "This memory address is not writable".toList
  | _ => none

/-- The text that stands for codes and data without meaning. -/
def invalid : Text := "<invalid exception code or data>".toList

/-- The text of the exception with a code and data. -/
def exceptionText (code data : Nat) : Text :=
  match code with
  | 0x01 => "Unknown opcode ".toList ++ hex 2 (data % 256)
  | 0x02 => "Unknown register code ".toList ++ hex 2 (data % 256)
  | 0x03 => "Register ".toList ++ (registerNames.getD (data % 256) "").toList ++ " cannot be read in this mode".toList
  | 0x04 => "Register ".toList ++ (registerNames.getD (data % 256) "").toList ++ " cannot be written in this mode".toList
  | 0x05 => "Unaligned memory address (unalignment is ".toList ++ Nat.toDigits 10 (data % 256) ++ ")".toList
  | 0x06 => "Address cannot be read in this mode (address' weakest bits are ".toList ++ hex 4 data ++ ")".toList
  | 0x07 => "Address cannot be written in this mode (address' weakest bits are ".toList ++ hex 4 data ++ ")".toList
  | 0x08 => "Address cannot be executed in this mode (address' weakest bits are ".toList ++ hex 4 data ++ ")".toList
  | 0x09 => "Instruction with opcode ".toList ++ hex 2 (data % 256) ++ " cannot be run in userland mode".toList
  | 0x0A => "Cannot perform a division or modulus by zero".toList
  | 0x0B => "Cannot perform an overflowing division or modulus".toList
  | 0x0C => "Invalid IF/IF2 flag provided: ".toList ++ hex 2 (data % 256)
  | 0x0D => "Invalid IF2 condition mode provided: ".toList ++ hex 2 (data % 256)
  | 0x10 => "Unknown component ID (weakest bits are ".toList ++ hex 4 data ++ ")".toList
  | 0x11 => "Unknown hardware information code ".toList ++ hex 2 (data % 256)
  | 0x12 => "Component with ID ".toList ++ hex 2 data ++ " is not mapped".toList
  | 0xA0 => match hardwareText data with
    | some t => "Hardware exception: ".toList ++ t
    | none => invalid
  | 0xF0 => "Interruption (code ".toList ++ hex 2 (data % 256) ++ ")".toList
  | _ => invalid

/-- The text of the content of the exception register. -/
def etText (et : Word) : Text := exceptionText (et.toNat / 2 ^ 16 % 256) (et.toNat % 2 ^ 16)

/-- The line announcing a cycle in machine `t`. -/
def announced {D : Type} (cfg : RunConfig) (t : Machine D) : List Text :=
  if cfg.printCycles = true then
    ["[lrvm] Running cycle ".toList ++ hex 8 t.cycles.toNat ++ " at address ".toList ++ hex 8 t.regs.pc.toNat]
  else []

/-- Exceptions are reported while running: they are asked for, and the last line does not report them. -/
def reportsWhileRunning (cfg : RunConfig) : Prop :=
  cfg.printExceptions = true ∧ ¬ (cfg.haltOnException = true ∧ cfg.printFinish = true)

instance (cfg : RunConfig) : Decidable (reportsWhileRunning cfg) := inferInstanceAs (Decidable (_ ∧ ¬ (_ ∧ _)))

/-- The line reporting that `et` is not zero after a cycle that ran from machine `t` to `t'`. -/
def reported {D : Type} (cfg : RunConfig) (t t' : Machine D) : List Text :=
  if reportsWhileRunning cfg ∧ t'.regs.et ≠ 0 then
    ["[lrvm] At address ".toList ++ hex 8 t.regs.pc.toNat ++ " - Exception occurred: ".toList ++ etText t'.regs.et]
  else []

/-- `ls` is what is printed during the `n` cycles from machine `s`. -/
inductive Printed {D : Type} [Bus D] (pf : Profile) (cfg : RunConfig) : Nat → Machine D → List Text → Prop
  | zero (s : Machine D) : Printed pf cfg 0 s []
  | succ {n : Nat} {s t : Machine D} {ls : List Text} : next pf s = some t → Printed pf cfg n t ls →
      Printed pf cfg (n + 1) s (announced cfg s ++ reported cfg s t ++ ls)

/-- The last lines, from the state returned. -/
def finish (cfg : RunConfig) (st : StoppedState) : List Text :=
  if cfg.printFinish = true then
    (if cfg.newlineOnFinish = true then [[]] else []) ++
    ["[lrvm] Cycle ".toList ++ hex 8 st.cycles.toNat ++ ": CPU halted at address ".toList ++ hex 8 st.addr.toNat ++
      match st.ex with
      | none => []
      | some e => " because of exception in ".toList ++
        (if e.raw.toNat / 2 ^ 24 = 0 then "userland".toList else "supervisor".toList) ++ " mode: ".toList ++ etText e.raw]
  else []

end Lrvm.Spec.RunLines
