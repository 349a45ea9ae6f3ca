import Verif.Spec.Isa
import Verif.Model.Board
import Verif.Model.Devices.Memory

/-!
# Concrete machines for the non-vacuity examples

A board with a boot ROM and a RAM, built with the model of the project's own constructors, mapped and
reset the way `prepare_vm` does.
-/

namespace Lrvm.Demo

/-- Components of the example boards. -/
abbrev Dev := BootRom ⊕ Ram

/-- Boot ROM of 16 words with the given program at `0x00`, then 64 bytes of RAM at `0x40`. -/
def devices (prog : List Word) : List Dev :=
  (match BootRom.withSize prog 0x40 0x11 with | some d => [.inl d] | none => []) ++
  (match Ram.fromWithSize [] 0x40 0x22 with | some d => [.inr d] | none => [])

/-- The board with both components mapped contiguously from address 0, reset. -/
def board (prog : List Word) : Option (Machine Dev) := do
  let s ← newBoard .debug (devices prog)
  let (_, s) ← mapContiguous .debug s 0 [0, 1]
  boardReset s

/-- The same, written out. -/
def start (prog : List Word) : Machine Dev where
  regs := { Regs.zero with smt := 1 }
  devs := devices prog
  hwbCache := match createCaches .debug 0 (devices prog) with | some c => c | none => []
  memCache := match createCaches .debug 0 (devices prog) with | some c => c | none => []
  mappings := [⟨0, 0x11, 0, 0x40⟩, ⟨1, 0x22, 0x40, 0x40⟩]
  cycles := 0
  halted := false
  changedPc := true

/-- `start` is what the constructors produce. -/
example : board [0x12345678] = some (start [0x12345678]) := by rfl

example : Spec.Fetches .debug (start [0x12345678]) 0x12345678 (devices [0x12345678]) := ⟨rfl, rfl⟩

end Lrvm.Demo
