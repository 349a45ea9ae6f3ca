import Verif.Spec.Asm

/-!
# What an instruction with a signed literal should compute

On the signed numbers that the register and the literal stand for, with Lean's own integers.
-/

namespace Lrvm.Spec.SignedLit

/-- The instructions that combine a register with an operand. Quotient and remainder are the signed ones (mode bit 4). -/
inductive LitOp
  | set | add | sub | mul | quotient | remainder
  deriving DecidableEq

/-- What the instruction should compute, from the number in the register and the literal. -/
def LitOp.on : LitOp → Int → Int → Int
  | .set, _, i => i
  | .add, x, i => x + i
  | .sub, x, i => x - i
  | .mul, x, i => x * i
  | .quotient, x, i => x.tdiv i
  | .remainder, x, i => x.tmod i

/-- The number of bits of the literal. -/
def LitOp.bits : LitOp → Nat
  | .quotient | .remainder => 8
  | _ => 16

/-- The instruction, written with a signed literal; `m` is the mode of the division. -/
def LitOp.instr (m : U8) (r : Reg) (i : Int) : LitOp → Instr
  | .set => .cpy r (.signedLit (BitVec.ofInt 16 i))
  | .add => .add r (.signedLit (BitVec.ofInt 16 i))
  | .sub => .sub r (.signedLit (BitVec.ofInt 16 i))
  | .mul => .mul r (.signedLit (BitVec.ofInt 16 i))
  | .quotient => .div r (.signedLit (BitVec.ofInt 8 i)) (.lit m)
  | .remainder => .mod r (.signedLit (BitVec.ofInt 8 i)) (.lit m)

/-- The literal exists (`i16` or `i8`), and is a divisor where one is needed. -/
def LitOp.Allows (o : LitOp) (m : U8) (i : Int) : Prop :=
  -2 ^ (o.bits - 1) ≤ i ∧ i < 2 ^ (o.bits - 1) ∧ (o = .quotient ∨ o = .remainder → i ≠ 0 ∧ m.toNat / 16 % 2 = 1)

end Lrvm.Spec.SignedLit
