import Verif.Spec.Isa
import Verif.Model.Board

/-!
# Asking where a component is mapped
-/

namespace Lrvm.Spec

/-- The HWD informations that depend on the mapping table: whether the component is mapped, its first and its last address. -/
def placeInfos : List Nat := [0xA0, 0xA1, 0xA2]

/-- The instruction `w` is an HWD asking, with these registers, whether or where component `id` is mapped. -/
def AsksPlace (id : Nat) (r : Regs) (w : Word) : Prop :=
  ∃ r0 r1 r2 p0 p1 p2 a v, w = instrWord 0x1C r0 r1 r2 p0 p1 p2 ∧
    Val1 r r1 p1 a ∧ a.toNat = id ∧ Val1 r r2 p2 v ∧ v.toNat ∈ placeInfos

end Lrvm.Spec
