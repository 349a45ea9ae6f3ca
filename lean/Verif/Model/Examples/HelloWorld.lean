import Verif.Model.Tools.Run
import Verif.Model.Tools.Lasm
import Verif.Model.Devices.Display

/-!
# The example `examples/hello_world`

The program's text is a parameter where the message is written; `main` is a function that prepares the machine and a
relation for its loop. The identifiers that `main` takes at random are parameters. Handlers are modelled by the list of
their calls, as for all displays.
-/

namespace Lrvm.HelloWorld

/-- The components of the board, `examples/hello_world/src/main.rs:18-31`. -/
abbrev Dev := BootRom ⊕ (Ram ⊕ BufferedDisplay)

/-- `examples/hello_world/src/display.lasm:1-28`, with another text between the quotes of line 27. -/
def source (message : List Char) : List Char :=
  "
main:
    cpy ac0, message
    cpy ac1, 0x2000
    cpy ac2, 0x2100 - 0x04

.copy_byte:
    lsa a0, ac0, 0
    cmp a0, 0

    ifeq
    jp .display

    wsa ac1, 0, a0

    add ac0, 4
    add ac1, 4

    jp .copy_byte

.display:
    wsa ac2, 0, 0xAA
    halt

message:
    #d \"".toList ++ message ++ "\"
    #d32 0
".toList

/-- `main` up to its loop, `examples/hello_world/src/main.rs:9-41`; every `unwrap` that fails is a panic. -/
def setup (pf : Profile) (source : List Char) (idRom idRam idDisplay : U64) : Res (Machine Dev) := do
  let program ← assembleWords source
  let rom ← BootRom.withSize program 0x1000 idRom
  let ram ← Ram.new 0x1000 idRam
  let display ← BufferedDisplay.new 0x100 idDisplay
  let s ← newBoard pf [.inl rom, .inr (.inl ram), .inr (.inr display)]
  let (r, s) ← mapContiguous pf s 0 [0, 1, 2]
  match r.mapping with
  | .error _ => none
  | .ok _ => boardReset s

/-- The loop of `main`, `examples/hello_world/src/main.rs:47-57`: it ends with the machine, or with a panic (`none`). -/
inductive Loop [Bus D] (pf : Profile) : Machine D → Option (Machine D) → Prop
  | done {s : Machine D} : s.halted = true → Loop pf s (some s)
  | panic {s : Machine D} : s.halted = false → next pf s = none → Loop pf s none
  | exception {s s' : Machine D} : s.halted = false → next pf s = some s' → s'.regs.et ≠ 0 → Loop pf s none
  | again {s s' : Machine D} {r} : s.halted = false → next pf s = some s' → s'.regs.et = 0 → Loop pf s' r → Loop pf s r

end Lrvm.HelloWorld
