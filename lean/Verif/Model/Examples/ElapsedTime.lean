import Verif.Model.Tools.Run
import Verif.Model.Tools.Lasm
import Verif.Model.Devices.Clock
import Verif.Model.Devices.Display

/-!
# The example `examples/elapsed_time`
-/

namespace Lrvm.ElapsedTime

/-- The components of the board, `examples/elapsed_time/src/main.rs:29-38`. -/
abbrev Dev := BootRom ⊕ (RealtimeClock ⊕ NumberDisplay)

/-- `LASM_SOURCE`, `examples/elapsed_time/src/main.rs:7-22`. -/
def source : List Char := "
main:
    cpy ac0, 0x1000
    lsa a1, ac0, 16

wait_second:
    lsa a0, ac0, 16
    cmp a0, a1

    ifle
    jpr 12

    wsa ac0, 24, a0
    cpy a1, a0
    jp wait_second
".toList

/-- The components that `main` gives to `exec_vm`, `examples/elapsed_time/src/main.rs:25-38`; a failing `unwrap` is a panic.
The readings of the host's clocks are parameters. -/
def components (system : Nat → Option Duration) (instant : Nat → Nat) : Res (List Dev) := do
  let program ← assembleWords source
  let rom ← BootRom.withSize program 0x1000 1
  some [.inl rom, .inr (.inl (RealtimeClock.new 2 system instant)), .inr (.inr (NumberDisplay.new 3))]

/-- The line that the handler of the display prints, `examples/elapsed_time/src/main.rs:33-35`. -/
def line (call : Word × NumberFormat × Bool) : Text :=
  "Elapsed: ".toList ++ (toString call.1.toNat).toList ++ " second".toList ++ (if call.1.toNat > 1 then "s".toList else [])

/-- `main`, `examples/elapsed_time/src/main.rs:24-41`. -/
def Exec (pf : Profile) (system : Nat → Option Duration) (instant : Nat → Nat)
    (r : Option (Machine Dev × StoppedState × List Text)) : Prop :=
  match components system instant with
  | none => r = none
  | some ds => ExecVm pf ds RunConfig.haltOnEx r

end Lrvm.ElapsedTime
