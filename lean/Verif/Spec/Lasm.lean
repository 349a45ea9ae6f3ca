import Verif.Model.Tools.Asm

/-!
# What becomes of an instruction that is disassembled, then assembled

A table, written without the texts. `none`: the assembler (or the disassembler) fails.
-/

namespace Lrvm.Spec

/-- The division modes: those with at most one submode that is not the default come back (as written: `DIV_ZRO_MAX` comes
back as `DIV_ZRO_MIN`, and the three unused bits are lost); the mode with none is written `0`, which is refused; two
submodes or more are joined with `|`, which is refused. -/
def divModeBack (m : U8) : Option U8 :=
  match m.toNat % 32 with
  | 0x01 => some 0x01
  | 0x02 => some 0x02
  | 0x03 => some 0x03
  | 0x04 => some 0x04
  | 0x08 => some 0x08
  | 0x0C => some 0x04
  | 0x10 => some 0x10
  | _ => none

/-- A flag operand that has a name: a register, or one of the seven flags. -/
def flagNamed : RegOrLit1 → Bool
  | .reg _ => true
  | .lit n => n.toNat ≤ 6

/-- A condition operand that has a name. -/
def condNamed : RegOrLit1 → Bool
  | .reg _ => true
  | .lit n => 1 ≤ n.toNat ∧ n.toNat ≤ 7

/-- An information code that has a name. -/
def infoNamed (n : U8) : Bool :=
  n.toNat ≤ 2 ∨ (0x10 ≤ n.toNat ∧ n.toNat ≤ 0x18) ∨ (0x20 ≤ n.toNat ∧ n.toNat ≤ 0x25) ∨ (0xA0 ≤ n.toNat ∧ n.toNat ≤ 0xA2)

/-- The instruction that comes back. -/
def reassembled (pf : Profile) : Instr → Option Instr
  | .cpy a (.lit n) => some (if a ≠ .pc ∧ n = 0 then .xor a (.reg a) else .cpy a (.lit n))
  | .mul a (.lit n) => some (if n = 0 then .xor a (.reg a) else .mul a (.lit n))
  | .and a (.lit n) => some (if n = 0 then .xor a (.reg a) else .and a (.lit n))
  | .xor _ (.reg b) => some (.xor b (.reg b))
  | .div a b (.lit m) => (divModeBack m).map fun m' => .div a b (.lit m')
  | .mod a b (.lit m) => (divModeBack m).map fun m' => .mod a b (.lit m')
  | .jpr (.lit n) => if pf = .debug ∧ n = 0x8000 then none else some (.jpr (.lit n))
  | .itr _ => none
  | .«if» a => if flagNamed a then some (.«if» a) else none
  | .ifN a => if flagNamed a then some (.ifN a) else none
  | .if2 a b c => if flagNamed a ∧ flagNamed b ∧ condNamed c then some (.if2 a b c) else none
  | .srm a b c => some (.wea a b (.reg c))
  | .hwd a b (.lit n) => if infoNamed n then some (.hwd a b (.lit n)) else none
  | i => some i

/-- The instructions that come back unchanged. -/
def Reassembles (pf : Profile) : Instr → Prop
  | .cpy a (.lit n) => a = .pc ∨ n ≠ 0
  | .mul _ (.lit n) => n ≠ 0
  | .and _ (.lit n) => n ≠ 0
  | .xor a (.reg b) => a = b
  | .div _ _ (.lit m) => m.toNat ∈ [0x01, 0x02, 0x03, 0x04, 0x08, 0x10]
  | .mod _ _ (.lit m) => m.toNat ∈ [0x01, 0x02, 0x03, 0x04, 0x08, 0x10]
  | .jpr (.lit n) => pf = .release ∨ n ≠ 0x8000
  | .itr _ => False
  | .«if» a => flagNamed a = true
  | .ifN a => flagNamed a = true
  | .if2 a b c => flagNamed a = true ∧ flagNamed b = true ∧ condNamed c = true
  | .srm _ _ _ => False
  | .hwd _ _ (.lit n) => infoNamed n = true
  | _ => True

/-- The word that comes back: raw data come back as the instruction they encode, if there is one. -/
def reassembledWord (pf : Profile) : ProgramWord → Option ProgramWord
  | .instr i => (reassembled pf i).map .instr
  | .raw b =>
    match Instr.decode b with
    | .ok i => some (.instr i)
    | .error _ => some (.raw b)

/-- The words that come back unchanged. -/
def WordReassembles (pf : Profile) : ProgramWord → Prop
  | .instr i => Reassembles pf i
  | .raw b => ∀ i, Instr.decode b ≠ .ok i

/-! ## How numbers are written -/

/-- An upper-case hexadecimal digit. -/
def hexDigit (n : Nat) : Char := "0123456789ABCDEF".toList.getD n '?'

/-- The last `w` hexadecimal digits of a number. -/
def hexDigits : (w : Nat) → (n : Nat) → List Char
  | 0, _ => []
  | w + 1, n => hexDigits w (n / 16) ++ [hexDigit (n % 16)]

/-- An address, as annotations show it: `0x` and 8 hexadecimal digits. -/
def addressText (n : Nat) : List Char := '0' :: 'x' :: hexDigits 8 n

/-- Raw data, as the disassembler shows them: `#d32 0x`, then the four bytes joined with `_`. -/
def rawText (b : Bytes4) : List Char :=
  "#d32 0x".toList ++
    List.intercalate ['_'] [hexDigits 2 b.b0.toNat, hexDigits 2 b.b1.toNat, hexDigits 2 b.b2.toNat, hexDigits 2 b.b3.toNat]

end Lrvm.Spec
