import Verif.Spec.Isa

/-!
# Code that only goes forward
-/

namespace Lrvm.Spec

/-- The instruction does not jump backwards: either it names neither `pc` (0x16) nor `mtt` (0x1D, the MMU) as a destination
and is not JPR, LSM, ITR, CALL or RESET (conditional instructions are allowed), or it is a JPR by a positive number of
words. -/
def Forward (w : Word) : Prop :=
  (opcode w ∉ [0x0E, 0x0F, 0x10, 0x1B, 0x1F] ∧ 0x16 ∉ destinations w ∧ 0x1D ∉ destinations w) ∨
  ∃ r1 r2 p0 p1 p2, w = instrWord 0x0E false r1 r2 p0 p1 p2 ∧ p0.toNat < 128 ∧ 0 < p0.toNat * 256 + p1.toNat ∧
    (p0.toNat * 256 + p1.toNat) % 4 = 0

/-- The machine has just raised an exception. -/
def JustRaised (s : Machine D) : Prop := ∃ r c d, c ∈ exceptionCodes ∧ d < 65536 ∧ s.regs = trap r c d

end Lrvm.Spec
