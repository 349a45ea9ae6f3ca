import Verif.Model.Tools.Describe
import Verif.Model.Board

/-!
# The virtual machine runner (`lrvm_tools/src/debug/*.rs`)

The loop of `run_vm` need not end, so `run_vm` is a relation between the machine and how the call ends, defined from the
function `runTurn` that models one turn of the loop. What is printed on the standard output is the list of lines;
failures of `println!` itself (a closed standard output) are not modelled.
-/

namespace Lrvm

/-- `RunConfig`, `lrvm_tools/src/debug/run_config.rs:3-10`. -/
structure RunConfig where
  cyclesLimit : Option U128
  haltOnException : Bool
  printCycles : Bool
  printExceptions : Bool
  printFinish : Bool
  newlineOnFinish : Bool
  deriving DecidableEq, Repr

namespace RunConfig

/-- `RunConfig::default` and `RunConfig::new`, `lrvm_tools/src/debug/run_config.rs:15-17,93-104`. -/
def default : RunConfig where
  cyclesLimit := none
  haltOnException := false
  printCycles := false
  printExceptions := true
  printFinish := true
  newlineOnFinish := false

/-- `with_cycles_limit`, `lrvm_tools/src/debug/run_config.rs:38-41`. -/
def withCyclesLimit (c : RunConfig) (limit : Option U128) : RunConfig := { c with cyclesLimit := limit }

/-- `with_halt_on_exception`, `lrvm_tools/src/debug/run_config.rs:46-49`. -/
def withHaltOnException (c : RunConfig) (halt : Bool) : RunConfig := { c with haltOnException := halt }

/-- `with_print_cycles`, `lrvm_tools/src/debug/run_config.rs:53-56`. -/
def withPrintCycles (c : RunConfig) (print : Bool) : RunConfig := { c with printCycles := print }

/-- `with_print_exceptions`, `lrvm_tools/src/debug/run_config.rs:59-62`. -/
def withPrintExceptions (c : RunConfig) (print : Bool) : RunConfig := { c with printExceptions := print }

/-- `with_print_finish`, `lrvm_tools/src/debug/run_config.rs:65-68`. -/
def withPrintFinish (c : RunConfig) (print : Bool) : RunConfig := { c with printFinish := print }

/-- `with_newline_on_finish`, `lrvm_tools/src/debug/run_config.rs:71-74`. -/
def withNewlineOnFinish (c : RunConfig) (print : Bool) : RunConfig := { c with newlineOnFinish := print }

/-- `be_verbose`, `lrvm_tools/src/debug/run_config.rs:77-82`. -/
def beVerbose (c : RunConfig) : RunConfig :=
  { c with printCycles := true, printExceptions := true, printFinish := true }

/-- `be_quiet`, `lrvm_tools/src/debug/run_config.rs:85-90`. -/
def beQuiet (c : RunConfig) : RunConfig :=
  { c with printCycles := false, printExceptions := false, printFinish := false }

/-- `halt_on_ex`, `lrvm_tools/src/debug/run_config.rs:21-23`. -/
def haltOnEx : RunConfig := default.withHaltOnException true

/-- `verbose`, `lrvm_tools/src/debug/run_config.rs:27-29`. -/
def verbose : RunConfig := default.beVerbose

/-- `quiet`, `lrvm_tools/src/debug/run_config.rs:33-35`. -/
def quiet : RunConfig := default.beQuiet

end RunConfig

/-- `ExWithMode`, `lrvm_tools/src/debug/run.rs:22-32`. -/
structure ExWithMode where
  raw : Word
  svMode : Bool
  code : U8
  associated : U16
  deriving DecidableEq, Repr

/-- `StoppedState`, `lrvm_tools/src/debug/run.rs:11-18`. -/
structure StoppedState where
  cycles : U128
  addr : Word
  ex : Option ExWithMode
  deriving DecidableEq, Repr

/-- The exception described by a non-zero `et`, `lrvm_tools/src/debug/run.rs:67-75`. -/
def exWithMode (et : Word) : ExWithMode where
  raw := et
  svMode := ((et >>> 24).setWidth 8 : U8) != 0
  code := (et >>> 16).setWidth 8
  associated := ((et >>> 8).setWidth 8 : U8) ++ (et.setWidth 8 : U8)

/-- `prettify_ex_with_mode`, `lrvm_tools/src/debug/run.rs:110-115`. -/
def prettifyExWithMode (ex : ExWithMode) : Res Text :=
  match NativeException.decodeParts ex.code (some ex.associated) with
  | some e => e.display
  | none => some "<invalid exception code or data>".toList

/-- `prettify_stop`, `lrvm_tools/src/debug/run.rs:118-133`. -/
def prettifyStop (st : StoppedState) : Res Text := do
  let output := "Cycle ".toList ++ fmtHex 10 st.cycles.toNat ++ ": CPU halted at address ".toList ++
    fmtHex 10 st.addr.toNat
  match st.ex with
  | some ex =>
    let t ← prettifyExWithMode ex
    some (output ++ " because of exception in ".toList ++ (if ex.svMode then "supervisor" else "userland").toList ++
      " mode: ".toList ++ t)
  | none => some output

/-- How a turn of the loop ends. -/
inductive Turn (D : Type) where
  /-- The loop ends before running an instruction. -/
  | exit
  /-- An instruction was run and the loop goes on. -/
  | again (s : Machine D) (lines : List Text)
  /-- An instruction was run and the loop ends because of an exception. -/
  | stop (s : Machine D) (ex : ExWithMode) (lines : List Text)
  /-- A panic. -/
  | panic

/-- The line printed before an instruction, `lrvm_tools/src/debug/run.rs:54-60`. -/
def cycleLine (cfg : RunConfig) (s : Machine D) : List Text :=
  if cfg.printCycles then
    ["[lrvm] Running cycle ".toList ++ fmtHex 10 s.cycles.toNat ++ " at address ".toList ++ fmtHex 10 s.regs.pc.toNat]
  else []

/-- The line printed after an exception, `lrvm_tools/src/debug/run.rs:77-83`. -/
def exceptionLine (cfg : RunConfig) (wasAt : Word) (ex : ExWithMode) : Res (List Text) :=
  if cfg.printExceptions && !(cfg.haltOnException && cfg.printFinish) then do
    let t ← prettifyExWithMode ex
    some ["[lrvm] At address ".toList ++ fmtHex 10 wasAt.toNat ++ " - Exception occurred: ".toList ++ t]
  else some []

/-- The cycle limit is exceeded, `lrvm_tools/src/debug/run.rs:45-49`. -/
def limitExceeded (cfg : RunConfig) (s : Machine D) : Bool :=
  match cfg.cyclesLimit with
  | some l => decide (s.cycles > l)
  | none => false

/-- One turn of the loop of `run_vm`, `lrvm_tools/src/debug/run.rs:43-90`. -/
def runTurn [Bus D] (pf : Profile) (cfg : RunConfig) (s : Machine D) : Turn D :=
  if s.halted || limitExceeded cfg s then .exit
  else match next pf s with
    | none => .panic
    | some s' =>
      if s'.regs.et != 0 then
        let ex := exWithMode s'.regs.et
        match exceptionLine cfg s.regs.pc ex with
        | none => .panic
        | some l => if cfg.haltOnException then .stop s' ex (cycleLine cfg s ++ l) else .again s' (cycleLine cfg s ++ l)
      else .again s' (cycleLine cfg s)

/-- The loop of `run_vm` from machine `s`, with `wasAt` and the lines printed so far: it ends with a panic (`none`) or
with a machine, the address, the exception and the lines printed, `lrvm_tools/src/debug/run.rs:43-91`. -/
inductive RunLoop [Bus D] (pf : Profile) (cfg : RunConfig) :
    Machine D → Word → List Text → Option (Machine D × Word × Option ExWithMode × List Text) → Prop
  | exit {s : Machine D} {a : Word} {ls : List Text} : runTurn pf cfg s = .exit →
      RunLoop pf cfg s a ls (some (s, a, none, ls))
  | again {s s' : Machine D} {a : Word} {ls l : List Text} {r} : runTurn pf cfg s = .again s' l →
      RunLoop pf cfg s' s.regs.pc (ls ++ l) r → RunLoop pf cfg s a ls r
  | stop {s s' : Machine D} {a : Word} {ls l : List Text} {ex : ExWithMode} : runTurn pf cfg s = .stop s' ex l →
      RunLoop pf cfg s a ls (some (s', s.regs.pc, some ex, ls ++ l))
  | panic {s : Machine D} {a : Word} {ls : List Text} : runTurn pf cfg s = .panic → RunLoop pf cfg s a ls none

/-- The end of `run_vm`, after the loop, `lrvm_tools/src/debug/run.rs:92-107`. -/
def runFinish (cfg : RunConfig) (s : Machine D) (a : Word) (ex : Option ExWithMode) (ls : List Text) :
    Res (Machine D × StoppedState × List Text) := do
  let state : StoppedState := { cycles := s.cycles, addr := a, ex := ex }
  if cfg.printFinish then
    let t ← prettifyStop state
    some (s, state, ls ++ (if cfg.newlineOnFinish then [[]] else []) ++ ["[lrvm] ".toList ++ t])
  else some (s, state, ls)

/-- `run_vm`, `lrvm_tools/src/debug/run.rs:35-107`: it ends with a panic (`none`), or with the machine as it is left,
the state returned and the lines printed. A run that does not end is related to nothing. -/
def RunVm [Bus D] (pf : Profile) (cfg : RunConfig) (s : Machine D)
    (r : Option (Machine D × StoppedState × List Text)) : Prop :=
  ∃ e, RunLoop pf cfg s s.regs.pc [] e ∧
    r = e.bind fun (s', a, ex, ls) => runFinish cfg s' a ex ls

/-- `prepare_vm`, `lrvm_tools/src/debug/prepare.rs:11-60`, without its report, which is in `Model/Tools/Prepare`. -/
def prepareVm [Bus D] (pf : Profile) (components : List D) : Res (Machine D) := do
  let s ← newBoard pf components
  let (r, s) ← mapContiguous pf s 0 (List.range components.length)
  match r.mapping with
  | .error _ => none
  | .ok _ => boardReset s

/-- `exec_vm`, `lrvm_tools/src/debug/exec.rs:6-10`. -/
def ExecVm [Bus D] (pf : Profile) (components : List D) (cfg : RunConfig)
    (r : Option (Machine D × StoppedState × List Text)) : Prop :=
  match prepareVm pf components with
  | none => r = none
  | some s => RunVm pf cfg s r

end Lrvm
