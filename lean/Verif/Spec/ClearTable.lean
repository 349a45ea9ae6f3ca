import Verif.Spec.Causes
import Verif.Spec.Confine

/-!
# Vocabulary: a translation table that refuses nothing
-/

namespace Lrvm.Spec

/-- Every entry of the translation table can be read and says "pass through" in both modes, and reading it changes nothing. -/
def ClearTable [Bus D] (pf : Profile) (s : Machine D) : Prop :=
  ∀ a : Word, a.toNat % 4 = 0 → tableEntry s.regs.pda a.toNat < 2 ^ 32 ∧
    ∃ e, memRead pf s (BitVec.ofNat 32 (tableEntry s.regs.pda a.toNat)) 0 = some (e, 0, s) ∧ entryBit e 0 = false ∧ entryBit e 1 = false

/-- The machine `t` is `s` with another content of register `mtt`, which turns the MMU on (not 0) or off (0). -/
def OtherMtt (s t : Machine D) : Prop := ∃ x, t = { s with regs := { s.regs with mtt := x } }

/-- The instruction does not read register `mtt` (number 0x1D). -/
def MttFree (w : Word) : Prop := ∃ i : Parts, w = i.word ∧ 0x1D ∉ i.sources ∧ (i.op = 0x18 → i.p2.toNat ≠ 0x1D)

end Lrvm.Spec
