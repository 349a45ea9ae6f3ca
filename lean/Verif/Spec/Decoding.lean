import Verif.Model.Prelude

/-!
# Which words are instructions

The binary format documented in `docs/Architecture.md`, "Instructions format", as a table: an
instruction is five bits of opcode, three bits telling which of its operands are registers, and three bytes.
Only numbers are used here.
-/

namespace Lrvm.Spec.Decoding

/-- The kinds of operands: a register, a register or a constant on 1 byte, a register or a constant on 2 bytes. -/
inductive Kind
  | reg
  | narrow
  | wide
  deriving DecidableEq

open Kind

/-- The operands of the instruction that has this opcode. -/
def operands : Nat → Option (List Kind)
  | 0x01 => some [reg, wide]
  | 0x02 => some [reg, reg]
  | 0x03 => some [reg, wide]
  | 0x04 => some [reg, wide]
  | 0x05 => some [reg, wide]
  | 0x06 => some [reg, narrow, narrow]
  | 0x07 => some [reg, narrow, narrow]
  | 0x08 => some [reg, wide]
  | 0x09 => some [reg, wide]
  | 0x0A => some [reg, wide]
  | 0x0B => some [reg, narrow]
  | 0x0C => some [reg, narrow]
  | 0x0D => some [reg, wide]
  | 0x0E => some [wide]
  | 0x0F => some [wide]
  | 0x10 => some [narrow]
  | 0x11 => some [narrow]
  | 0x12 => some [narrow]
  | 0x13 => some [narrow, narrow, narrow]
  | 0x14 => some [reg, narrow, narrow]
  | 0x15 => some [narrow, narrow, narrow]
  | 0x16 => some [narrow, narrow, narrow]
  | 0x17 => some [narrow, narrow, narrow]
  | 0x18 => some [narrow, narrow, reg]
  | 0x19 => some [wide]
  | 0x1A => some [reg]
  | 0x1B => some [wide]
  | 0x1C => some [reg, narrow, narrow]
  | 0x1D => some [reg]
  | 0x1E => some []
  | 0x1F => some [narrow]
  | _ => none

/-- The operand number `k` (from 0) of a word that begins with the byte `first`, when it is of this kind and its
byte is `byte`, is not acceptable: it designates a register that does not exist. -/
def Bad (first : Nat) (k : Nat) (kind : Kind) (byte : Nat) : Prop :=
  (kind = reg ∨ first / 2 ^ (2 - k) % 2 = 1) ∧ 32 ≤ byte

/-- Operand number `k` (from 0) is the first one that is not acceptable in a word of four bytes. -/
def FirstBad (bytes : Nat → Nat) (k : Nat) : Prop :=
  ∃ ks, operands (bytes 0 / 8) = some ks ∧ (∃ kind, ks[k]? = some kind ∧ Bad (bytes 0) k kind (bytes (k + 1))) ∧
    ∀ j kind, j < k → ks[j]? = some kind → ¬ Bad (bytes 0) j kind (bytes (j + 1))

end Lrvm.Spec.Decoding
