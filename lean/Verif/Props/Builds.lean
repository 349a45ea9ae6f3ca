import Verif.Lemmas.Builds
import Verif.Model.Devices.Keyboard
import Verif.Model.Devices.FileBacked
import Verif.Model.Devices.Clock
import Verif.Model.Devices.Counter
import Verif.Model.Examples.AsyncHw
import Verif.Demo.Machines

/-!
# C122: debug builds and release builds agree

A build with overflow checks and a build without do the same, except where the first panics.
-/

namespace Lrvm

open Spec

variable {D : Type} [Bus D]

/-- **C122**, one call: whatever the board, running an instruction, mapping components (with one of the three calls) and
accessing memory give the same result and leave the same machine in both builds, unless the build with checks
panics. -/
theorem C122_calls (s : Machine D) :
    Agrees (next .debug s) (next .release s) ∧
    (∀ a i, Agrees (map .debug s a i) (map .release s a i)) ∧
    (∀ a e i, Agrees (mapAbs .debug s a e i) (mapAbs .release s a e i)) ∧
    (∀ a is, Agrees (mapContiguous .debug s a is) (mapContiguous .release s a is)) ∧
    (∀ a ex, Agrees (memRead .debug s a ex) (memRead .release s a ex)) ∧
    (∀ a w ex, Agrees (memWrite .debug s a w ex) (memWrite .release s a w ex)) :=
  ⟨next_agrees s, fun _ _ => internalMap_agrees _ _ _ _, fun _ _ _ => internalMap_agrees _ _ _ _,
    mapContiguous_agrees s, memRead_agrees s, memWrite_agrees s⟩

/-- **C122**, whole histories: the board made with the same components, then used with the same calls in the same order,
ends in the same state, as long as the build with checks does not panic. -/
theorem C122_history (hm : SameMetadata D) (devs : List D) (ops : List HostOp) :
    Agrees (newBoard .debug devs >>= hostRun .debug ops) (newBoard .release devs >>= hostRun .release ops) :=
  Agrees.bind (newBoard_agrees hm devs) fun s => hostRun_agrees ops s

/-- **C122**, whole runs: when `exec_vm` returns in the build with checks, it returns in the other one, with the same
machine, the same state and the same lines printed. In the other direction, whatever the outcome of the build without
checks, the one with checks has the same outcome, or panics. In particular, a run that does not end in the build with
checks does not end in the other one. -/
theorem C122_run (hm : SameMetadata D) (devs : List D) (cfg : RunConfig) :
    (∀ r, ExecVm .debug devs cfg (some r) → ExecVm .release devs cfg (some r)) ∧
    (∀ r, ExecVm .release devs cfg r → ExecVm .debug devs cfg r ∨ ExecVm .debug devs cfg none) ∧
    ((∀ r, ¬ ExecVm .debug devs cfg r) → ∀ r, ¬ ExecVm .release devs cfg r) :=
  ⟨fun _ h => execVm_agrees hm h, fun _ h => execVm_back hm h, fun hn _ hr =>
    (execVm_back hm hr).elim (hn _) (hn _)⟩

/-- **C122**, preparation: the report on the components and the machine are the same. -/
theorem C122_prepare (hm : SameMetadata D) (devs : List D) :
    Agrees (prepareReport .debug devs) (prepareReport .release devs) ∧
    Agrees (prepareVm .debug devs) (prepareVm .release devs) :=
  ⟨prepareReport_agrees hm devs, prepareVm_agrees hm devs⟩

/-- **C122**, texts: disassembly, the text of a program and what the debug interface prints. -/
theorem C122_texts :
    (∀ code annotate, Agrees (disassemble .debug code annotate) (disassemble .release code annotate)) ∧
    (∀ (p : Program) annotate, Agrees (p.toLasm .debug annotate) (p.toLasm .release annotate)) ∧
    (∀ infos, Agrees (debugOutput .debug infos) (debugOutput .release infos)) ∧
    (∀ (p : Program) ws, p.length < 2 ^ 64 → Agrees (p.prependAll .debug ws) (p.prependAll .release ws)) :=
  ⟨disassemble_agrees, program_toLasm_agrees, debugOutput_agrees, fun _ _ h =>
    Agrees.bind (subUsize_agrees _ h) fun _ => Agrees.rfl'⟩

/-- **C122**, the bundled components and the async_hw example's counter have the same metadata in both builds, unless the
build with checks panics. So have mixtures of components that have. -/
theorem C122_components :
    SameMetadata Ram ∧ SameMetadata PersistentMem ∧ SameMetadata BootRom ∧ SameMetadata FileBackedMem ∧
    SameMetadata SyncCharKeyboard ∧ SameMetadata SyncLineKeyboard ∧ SameMetadata BufferedDisplay ∧
    SameMetadata CharDisplay ∧ SameMetadata NumberDisplay ∧ SameMetadata BasicDebug ∧ SameMetadata RealtimeClock ∧
    SameMetadata AsyncHw.PolledCounter ∧
    ∀ (D E : Type) [Bus D] [Bus E], SameMetadata D → SameMetadata E → SameMetadata (D ⊕ E) := by
  refine ⟨?_, ?_, ?_, ?_, ?_, ?_, ?_, ?_, ?_, ?_, ?_, ?_, ?_⟩
  case refine_13 =>
    intro D E _ _ hd he d
    cases d with
    | inl d => exact hd d
    | inr e => exact he e
  all_goals
    intro d
    first
      | exact Agrees.rfl'
      | exact Agrees.bind (mul_agrees _ _) fun _ => Agrees.rfl'
      | exact Agrees.bind (mul_agrees _ _) fun _ => Agrees.bind (add_agrees _ _) fun _ => Agrees.rfl'

/-- The exception is real: IF2 with flag number 8 panics in one build and not in the other. -/
theorem C122_needs_no_panic :
    next .debug (Demo.start [instrWord 0x13 false false false 8 0 1]) = none ∧
    (next .release (Demo.start [instrWord 0x13 false false false 8 0 1])).isSome := ⟨rfl, rfl⟩

/-- The hypotheses hold of a machine with a boot ROM and a RAM. -/
example : SameMetadata Demo.Dev :=
  C122_components.2.2.2.2.2.2.2.2.2.2.2.2 _ _ C122_components.2.2.1 C122_components.1

/-- A run that returns in the build with checks. -/
example : ∃ s, (newBoard .debug (Demo.devices [0xF0000000]) >>= hostRun .debug [.map 0 0, .map 0x1000 1, .reset, .next]) =
    some s ∧ s.halted = true := ⟨_, rfl, rfl⟩

end Lrvm
