import Verif.Model.Tools.Run
import Verif.Model.Tools.Lasm
import Verif.Model.Devices.Display

/-!
# The example `examples/async_hw`

The counter with its thread is modelled in `Model/Devices/Counter.lean`. Here the component is seen from the processor:
reading number `n` gives `readings n`, whatever the thread did in the meantime. The identifiers that `main` takes at random
are parameters.
-/

namespace Lrvm.AsyncHw

/-- `AsyncCounter`, `examples/async_hw/src/counter.rs:12-24`, seen through its `Bus` interface: the values of the successive
reads are given in advance. -/
structure PolledCounter where
  hwId : U64
  readings : Nat → Word
  reads : Nat

/-- `impl Bus for AsyncCounter`, `examples/async_hw/src/counter.rs:46-102`. -/
instance : Bus PolledCounter where
  name _ := "Async Counter".toList
  metadata _ d := do
    let m ← DeviceMetadata.new d.hwId 4 .uncategorized none none
    m.encode
  read d _ ex := some ({ d with reads := d.reads + 1 }, d.readings d.reads, ex)
  write d _ _ _ := some (d, AuxHwException.memoryNotWritable.encode)
  reset d := some d

/-- The components of the board, `examples/async_hw/src/main.rs:17-24`. -/
abbrev Dev := BootRom ⊕ (Ram ⊕ (PolledCounter ⊕ NumberDisplay))

/-- `examples/async_hw/src/source.lasm:1-36`. -/
def source : List Char :=
  (["\n",
    "main:\n",
    "    ; Make the stack point to the volatile memory\n",
    "    cpy ssp, 0x2000\n",
    "\n",
    "    ; The external counter's value\n",
    "    cpy a0, 0\n",
    "\n",
    "    ; Set after how many seconds the program should be stopped\n",
    "    cpy a1, 5\n",
    "\n",
    ".loop:\n",
    "    ; Get the counter's value\n",
    "    cpy ac0, 0x2000\n",
    "    lsa avr, ac0, 0\n",
    "\n",
    "    ; If it hasn't changed since the last time...\n",
    "    cmp a0, avr\n",
    "    ifeq\n",
    "    ; ...loop again\n",
    "    jp .loop\n",
    "\n",
    "    ; Else, update the local counter\n",
    "    cpy a0, avr\n",
    "\n",
    "    ; Display the counter's value\n",
    "    wsa ac0, 12, a0\n",
    "\n",
    "    ; If the target seconds number has been reached...\n",
    "    cmp a0, a1\n",
    "    ifeq\n",
    "    ; Halt\n",
    "    halt\n",
    "\n",
    "    ; Else, loop again\n",
    "    jp .loop\n"].map String.toList).flatten

/-- The components that `main` gives to `exec_vm`, `examples/async_hw/src/main.rs:12-24`; a failing `unwrap` is a panic. -/
def components (idRom idRam idCounter idDisplay : U64) (readings : Nat → Word) : Res (List Dev) := do
  let program ← assembleWords source
  let rom ← BootRom.withSize program 0x1000 idRom
  let ram ← Ram.new 0x1000 idRam
  some [.inl rom, .inr (.inl ram), .inr (.inr (.inl ⟨idCounter, readings, 0⟩)), .inr (.inr (.inr (NumberDisplay.new idDisplay)))]

/-- `main`, `examples/async_hw/src/main.rs:11-27`. -/
def Exec (pf : Profile) (idRom idRam idCounter idDisplay : U64) (readings : Nat → Word)
    (r : Option (Machine Dev × StoppedState × List Text)) : Prop :=
  match components idRom idRam idCounter idDisplay readings with
  | none => r = none
  | some ds => ExecVm pf ds RunConfig.haltOnEx r

end Lrvm.AsyncHw
