import Verif.Spec.Causes

/-!
# Code that may be put anywhere
-/

namespace Lrvm.Spec

/-- The instruction does not look at where it is: it is not CALL, which stores the address of the next instruction, and it
does not read the register `pc` (number 0x16). Relative jumps (JPR), conditional instructions and jumps to an address that
does not depend on `pc` are allowed. -/
def PositionFree (w : Word) : Prop :=
  ∃ i : Parts, w = i.word ∧ i.op ≠ 0x1B ∧ 0x16 ∉ i.sources ∧ (i.op = 0x18 → i.p2.toNat ≠ 0x16)

/-- The machine `t` is `s` except that its `pc` is `δ` further. -/
def Apart (δ : Word) (s t : Machine D) : Prop := t = { s with regs := { s.regs with pc := s.regs.pc + δ } }

end Lrvm.Spec
