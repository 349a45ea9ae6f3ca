import Verif.Model.Tools.Run
import Verif.Model.Tools.Lasm
import Verif.Model.Devices.Memory

/-!
# The examples `examples/benchmark` and `examples/minimal`

The measurement of time and what `main` prints after the run are not modelled.
-/

namespace Lrvm.Benchmark

/-- `examples/benchmark/src/source.lasm:1-12`, with another count on line 6. -/
def source (count : List Char) : List Char :=
  "
main:
    add a0, 1
    
    cpy a1, 1
    shl a1, ".toList ++ count ++ "

    cmp a0, a1
    ifeq
    halt

    jp main
".toList

/-- Assembling a program and running it from a `BootRom` alone: `examples/benchmark/src/main.rs:13-22` and
`examples/minimal/src/main.rs:6-11`; `none` is a panic (a failing `unwrap`, or one in `exec_vm`). -/
def Exec (pf : Profile) (source : List Char) (cfg : RunConfig)
    (r : Option (Machine BootRom × StoppedState × List Text)) : Prop :=
  match assembleWords source with
  | none => r = none
  | some program =>
    match BootRom.new program 0 with
    | none => r = none
    | some rom => ExecVm pf [rom] cfg r

end Lrvm.Benchmark
