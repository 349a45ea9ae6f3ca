import Verif.Model.Prelude

/-!
# CPU registers (`lrvm/src/cpu/regs.rs`)
-/

namespace Lrvm

/-- `Registers`, `lrvm/src/cpu/regs.rs:5-50`. -/
structure Regs where
  a : Vector Word 8
  c : Vector Word 2
  ac : Vector Word 3
  rr : Vector Word 8
  avr : Word
  af : Word
  pc : Word
  ssp : Word
  usp : Word
  et : Word
  era : Word
  ev : Word
  mtt : Word
  pda : Word
  smt : Word
  deriving DecidableEq, Repr

/-- `Registers::new` / `Registers::default`, `lrvm/src/cpu/regs.rs:52-56` (derived `Default`: all
zero). -/
def Regs.zero : Regs where
  a := Vector.replicate 8 0
  c := Vector.replicate 2 0
  ac := Vector.replicate 3 0
  rr := Vector.replicate 8 0
  avr := 0
  af := 0
  pc := 0
  ssp := 0
  usp := 0
  et := 0
  era := 0
  ev := 0
  mtt := 0
  pda := 0
  smt := 0

/-- `Registers::reset`, `lrvm/src/cpu/regs.rs:58-61` (`mem::take` leaves the default value). -/
def Regs.reset (_ : Regs) : Regs := Regs.zero

end Lrvm
