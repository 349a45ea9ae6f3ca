import Verif.Spec.RunOptions
import Verif.Props.Tools.RunAgain

/-!
# C101: run configurations
-/

namespace Lrvm

open Spec Spec.RunOptions

variable {D : Type} [Bus D] {pf : Profile}

/-- Perform a call. -/
def RunConfig.call (c : RunConfig) : Call → RunConfig
  | .cyclesLimit l => c.withCyclesLimit l
  | .haltOnException b => c.withHaltOnException b
  | .printCycles b => c.withPrintCycles b
  | .printExceptions b => c.withPrintExceptions b
  | .printFinish b => c.withPrintFinish b
  | .newlineOnFinish b => c.withNewlineOnFinish b
  | .verbose => c.beVerbose
  | .quiet => c.beQuiet

/-- Create a configuration. -/
def RunConfig.create : Start → RunConfig
  | .new => .default
  | .haltOnEx => .haltOnEx
  | .verbose => .verbose
  | .quiet => .quiet

theorem lastWord_snoc {α : Type} (f : Call → Option α) (i : α) (cs : List Call) (c : Call) :
    Spec.RunOptions.lastWord f i (cs ++ [c]) = (f c).getD (Spec.RunOptions.lastWord f i cs) := by
  unfold Spec.RunOptions.lastWord
  rw [List.reverse_append, List.reverse_singleton, List.singleton_append, List.findSome?_cons]
  cases f c <;> rfl

/-- **C101**. A configuration created in any of the four ways and then changed by any sequence of calls has every option as the
last call that concerns it says, or as documented for its creation if there is none. -/
theorem C101_options (start : Start) (calls : List Call) : calls.foldl RunConfig.call (.create start) = asked start calls := by
  suffices h : ∀ cs : List Call, (cs.reverse.foldl RunConfig.call (.create start)) = asked start cs.reverse by
    have := h calls.reverse
    rwa [List.reverse_reverse] at this
  intro cs
  induction cs with
  | nil => cases start <;> rfl
  | cons c cs ih =>
    rw [List.reverse_cons, List.foldl_append, ih]
    unfold asked
    rw [lastWord_snoc, lastWord_snoc, lastWord_snoc, lastWord_snoc, lastWord_snoc, lastWord_snoc]
    cases c <;> rfl

example : [Call.cyclesLimit (some 5), .quiet, .printFinish true].foldl RunConfig.call (.create .haltOnEx) =
    ⟨some 5, true, false, false, true, false⟩ := rfl

/-- A run whose configuration asks for the final message and the newline ends with an empty line and that message. -/
theorem C101_newline_partial (c : RunConfig) {s s' : Machine D} {st : StoppedState} {out : List Text}
    (h : RunVm pf ((c.withNewlineOnFinish true).withPrintFinish true) s (some (s', st, out))) :
    ∃ before final, out = before ++ [[], final] ∧ "[lrvm] ".toList <+: final := by
  obtain ⟨e, _, he⟩ := h
  cases e with
  | none => cases he
  | some e =>
    obtain ⟨t, a, ex, ls⟩ := e
    replace he : some (s', st, out) = runFinish ((c.withNewlineOnFinish true).withPrintFinish true) t a ex ls := he
    replace he : some (s', st, out) = (do
      let x ← prettifyStop { cycles := t.cycles, addr := a, ex := ex }
      some (t, { cycles := t.cycles, addr := a, ex := ex }, ls ++ [[]] ++ ["[lrvm] ".toList ++ x])) := he
    cases hp : prettifyStop { cycles := t.cycles, addr := a, ex := ex } with
    | none => simp only [hp] at he; cases he
    | some x =>
      simp only [hp] at he
      injection he with he
      have he : out = ls ++ [[]] ++ ["[lrvm] ".toList ++ x] := congrArg (fun y => y.2.2) he
      exact ⟨ls, "[lrvm] ".toList ++ x, by rw [he]; simp, List.prefix_append _ _⟩

/-- The newline "when the VM halts" is not printed without the final message: the option alone does nothing. -/
theorem C101_newline_refuted (c : RunConfig) {s s' : Machine D} {st : StoppedState} {out : List Text}
    (h : RunVm pf (c.beQuiet.withNewlineOnFinish true) s (some (s', st, out))) : out = [] :=
  C95_quiet rfl rfl rfl h

/-- The example machine with both configurations. -/
example : (∃ r, RunVm .debug (RunConfig.default.beQuiet.withNewlineOnFinish true) shortMachine (some r)) ∧
    ∃ r, RunVm .debug ((RunConfig.quiet.withNewlineOnFinish true).withPrintFinish true) shortMachine (some r) :=
  ⟨⟨_, _, .again rfl (.again rfl (.exit rfl)), rfl⟩, ⟨_, _, .again rfl (.again rfl (.exit rfl)), rfl⟩⟩

end Lrvm
