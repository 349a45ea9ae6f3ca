import Verif.Spec.Isa

/-!
# Resetting the processor by a program
-/

namespace Lrvm.Spec

/-- The instruction `w` is a RESET whose processor mode (bits 4 to 7 of its operand) is 0, with these registers: the only ones that
reset the processor. -/
def ResetsCpu (r : Regs) (w : Word) : Prop :=
  ∃ r0 r1 r2 p0 p1 p2 mode, w = instrWord 0x1F r0 r1 r2 p0 p1 p2 ∧ Val1 r r0 p0 mode ∧ mode.toNat / 16 % 16 = 0

end Lrvm.Spec
