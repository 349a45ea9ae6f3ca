import Verif.Lemmas.Programs
import Verif.Props.Tools.Run

/-!
# From a program that ends to the result of `run_vm`
-/

namespace Lrvm.Prog

open Spec Lrvm

variable {D : Type} [Bus D] {pf : Profile}

/-- A run without exceptions, without a cycle limit and without messages at each cycle prints nothing before it ends. -/
theorem runLoop_of_ends {Q : Machine D → Word → Prop} {cfg : RunConfig} (hl : cfg.cyclesLimit = none)
    (hc : cfg.printCycles = false) {s : Machine D} {a : Word} (h : Ends pf Q s a) (ls : List Text) :
    ∃ s' a', RunLoop pf cfg s a ls (some (s', a', none, ls)) ∧ s'.halted = true ∧ Q s' a' := by
  induction h with
  | halted h1 h2 => exact ⟨_, _, .exit (runTurn_exit.2 (.inl h1)), h1, h2⟩
  | step h1 h2 h3 _ ih =>
    obtain ⟨s', a', h4, h5⟩ := ih
    refine ⟨s', a', .again (l := []) ?_ (by rw [List.append_nil]; exact h4), h5⟩
    rw [runTurn_not_over (by
      rintro (h | ⟨l, h, _⟩)
      · rw [h1] at h; cases h
      · rw [hl] at h; cases h), h2]
    simp only
    rw [if_neg (by simp [h3])]
    unfold cycleLine
    rw [hc]; rfl

theorem execVm_of_ends {Q : Machine D → Word → Prop} {cfg : RunConfig} (hl : cfg.cyclesLimit = none)
    (hc : cfg.printCycles = false) {ds : List D} {s : Machine D} (hp : prepareVm pf ds = some s) (h : Ends pf Q s s.regs.pc) :
    ∃ s' a', s'.halted = true ∧ Q s' a' ∧ ∀ r, ExecVm pf ds cfg r ↔ r = runFinish cfg s' a' none [] := by
  obtain ⟨s', a', h1, h2, h3⟩ := runLoop_of_ends hl hc h []
  have hr : RunVm pf cfg s (runFinish cfg s' a' none []) := ⟨_, h1, rfl⟩
  refine ⟨s', a', h2, h3, fun r => ?_⟩
  unfold ExecVm
  rw [hp]
  exact ⟨fun h => C61_deterministic h hr, fun h => h ▸ hr⟩

end Lrvm.Prog
