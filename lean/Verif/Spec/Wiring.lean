import Verif.Spec.Memory
import Verif.Model.Board

/-!
# Vocabulary: the same components, plugged in elsewhere
-/

namespace Lrvm.Spec

/-- Every component of `s` is also in `t`, where the one in position `i` is in position `σ i`, and is mapped in the same ranges (in any order)
or is not mapped in both. `t` may have more components, which are not mapped. -/
structure SameWiring (pf : Profile) (σ : Nat → Nat) (s t : Machine D) : Prop where
  apart : ∀ i j, i < s.devs.length → j < s.devs.length → σ i = σ j → i = j
  components : ∀ i d, s.devs[i]? = some d → t.devs[σ i]? = some d
  mappings : ∀ m, m ∈ t.mappings ↔ ∃ n ∈ s.mappings, m = { n with auxId := σ n.auxId }
  known : ∀ m ∈ s.mappings, m.auxId < s.devs.length
  table : TableOk pf s.mappings ∧ TableOk pf t.mappings

/-- The processors are in the same state. -/
structure SameCpu (s t : Machine D) : Prop where
  regs : s.regs = t.regs
  cycles : s.cycles = t.cycles
  halted : s.halted = t.halted
  changedPc : s.changedPc = t.changedPc

/-- The components of `t` that are not components of `s` (`n` is the number of components of `s`) are the same in `t'`. -/
def OthersSame (σ : Nat → Nat) (n : Nat) (t t' : Machine D) : Prop :=
  ∀ j, (∀ i, i < n → σ i ≠ j) → t'.devs[j]? = t.devs[j]?

/-- The next instruction is neither HWD nor RESET, which take the number of a component. -/
def Unnumbered [Bus D] (pf : Profile) (s : Machine D) : Prop :=
  ∀ w devs, Fetches pf s w devs → opcode w ≠ 0x1C ∧ opcode w ≠ 0x1F

/-- `n` steps, none executing HWD or RESET. -/
inductive UnnumberedRun [Bus D] (pf : Profile) : Machine D → Nat → Machine D → Prop
  | done (s : Machine D) : UnnumberedRun pf s 0 s
  | step {s t u : Machine D} {n : Nat} (hr : Unnumbered pf s) (hn : next pf s = some t) (h : UnnumberedRun pf t n u) :
      UnnumberedRun pf s (n + 1) u

end Lrvm.Spec
