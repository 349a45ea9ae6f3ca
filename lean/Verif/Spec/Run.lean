import Verif.Model.Tools.Run
import Verif.Spec.Isa

/-!
# What a runner of virtual machines must do
-/

namespace Lrvm.Spec

variable {D : Type} [Bus D]

/-- The machine is halted, or has run more cycles than the limit. -/
def Over (cfg : RunConfig) (s : Machine D) : Prop :=
  s.halted = true ∨ ∃ l, cfg.cyclesLimit = some l ∧ l.toNat < s.cycles.toNat

/-- An exception is pending and the runner must stop on exceptions. -/
def Signals (cfg : RunConfig) (s : Machine D) : Prop := cfg.haltOnException = true ∧ s.regs.et ≠ 0

/-- The runner must stop after exactly `n` cycles, in machine `s'`: it is the first one that is over, or in which an
exception is pending after a cycle of this run. -/
def StopsAfter (pf : Profile) (cfg : RunConfig) (s : Machine D) (n : Nat) (s' : Machine D) : Prop :=
  nextN pf n s = some s' ∧ (Over cfg s' ∨ 0 < n ∧ Signals cfg s') ∧
  ∀ k t, k < n → nextN pf k s = some t → ¬ Over cfg t ∧ (0 < k → ¬ Signals cfg t)

/-- The address of the last instruction run within `n` cycles: where `pc` was before the last cycle. -/
def LastAddr (pf : Profile) (s : Machine D) (n : Nat) (a : Word) : Prop :=
  match n with
  | 0 => a = s.regs.pc
  | k + 1 => ∃ t, nextN pf k s = some t ∧ a = t.regs.pc

/-- The parts of the exception register: mode, code, associated data. -/
def DescribesEt (e : ExWithMode) (et : Word) : Prop :=
  e.raw = et ∧ (e.svMode = true ↔ et.toNat / 2 ^ 24 ≠ 0) ∧ e.code.toNat = et.toNat / 2 ^ 16 % 256 ∧
  e.associated.toNat = et.toNat % 2 ^ 16

/-- A content of the exception register whose text cannot be made: an access to a protected register that does not
exist. -/
def Unprintable (et : Word) : Prop :=
  (et.toNat / 2 ^ 16 % 256 = 0x03 ∨ et.toNat / 2 ^ 16 % 256 = 0x04) ∧ 32 ≤ et.toNat % 256

/-- What `StoppedState` must contain when the runner stops after `n` cycles in machine `s'`. -/
def Reports (pf : Profile) (cfg : RunConfig) (s : Machine D) (n : Nat) (s' : Machine D) (st : StoppedState) : Prop :=
  st.cycles = s'.cycles ∧ LastAddr pf s n st.addr ∧
  (0 < n ∧ Signals cfg s' → ∃ e, st.ex = some e ∧ DescribesEt e s'.regs.et) ∧
  (¬ (0 < n ∧ Signals cfg s') → st.ex = none)

end Lrvm.Spec
