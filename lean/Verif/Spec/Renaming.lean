import Verif.Spec.Position
import Verif.Spec.Decoding

/-!
# The same program written with other registers
-/

namespace Lrvm.Spec

/-- A renaming of the general registers: `a0` to `a7`, `c0` and `c1`, `ac0` to `ac2`, `rr0` to `rr7` (numbers 0 to 20) are
exchanged in any way; the other registers keep their names. -/
structure Renaming (σ : Nat → Nat) : Prop where
  general : ∀ n, n < 21 → σ n < 21
  apart : ∀ m n, m < 21 → n < 21 → σ m = σ n → m = n
  others : ∀ n, 21 ≤ n → σ n = n

/-- Operand number `k` of the instruction is a register (`Decoding.operands` is the documented table). -/
def Parts.isRegister (i : Parts) (k : Nat) : Bool :=
  match (Decoding.operands i.op.toNat).bind (·[k]?) with
  | none => false
  | some .reg => true
  | some _ => match k with
    | 0 => i.r0
    | 1 => i.r1
    | _ => i.r2

/-- The byte, renamed if it is a register. -/
def renamedByte (σ : Nat → Nat) (isReg : Bool) (p : U8) : U8 := if isReg then BitVec.ofNat 8 (σ p.toNat) else p

/-- The instruction with its registers renamed. -/
def Parts.renamed (σ : Nat → Nat) (i : Parts) : Parts :=
  { i with
    p0 := renamedByte σ (i.isRegister 0) i.p0
    p1 := renamedByte σ (i.isRegister 1) i.p1
    p2 := renamedByte σ (i.isRegister 2) i.p2 }

/-- The machine `t` is `s` except that its registers have been renamed, and that its `pc` is `δ` further. -/
structure Renamed (σ : Nat → Nat) (δ : Word) (s t : Machine D) : Prop where
  regs : ∀ n, n < 32 → n ≠ 0x16 → reg t.regs (σ n) = reg s.regs n
  pc : t.regs.pc = s.regs.pc + δ
  rest : t = { s with regs := t.regs }

end Lrvm.Spec
