import Verif.Model.Tools.Bytes

/-!
# The strongly-typed assembler: symbols and operands (`lrvm_tools/src/asm/*.rs`)

`Result<T, ()>` is `Option T`.
-/

namespace Lrvm

/-- `Reg`, `lrvm_tools/src/asm/reg.rs:9-42`. -/
inductive Reg
  | a0 | a1 | a2 | a3 | a4 | a5 | a6 | a7 | c0 | c1 | ac0 | ac1 | ac2 | rr0 | rr1 | rr2 | rr3 | rr4
  | rr5 | rr6 | rr7 | avr | af | pc | ssp | usp | et | era | ev | mtt | pda | smt
  deriving DecidableEq, Repr

/-- `Reg::from_code`, `lrvm_tools/src/asm/reg.rs:46-82`. -/
def Reg.fromCode (code : U8) : Option Reg :=
  match code.toNat with
  | 0x00 => some .a0 | 0x01 => some .a1 | 0x02 => some .a2 | 0x03 => some .a3 | 0x04 => some .a4
  | 0x05 => some .a5 | 0x06 => some .a6 | 0x07 => some .a7 | 0x08 => some .c0 | 0x09 => some .c1
  | 0x0A => some .ac0 | 0x0B => some .ac1 | 0x0C => some .ac2 | 0x0D => some .rr0
  | 0x0E => some .rr1 | 0x0F => some .rr2 | 0x10 => some .rr3 | 0x11 => some .rr4
  | 0x12 => some .rr5 | 0x13 => some .rr6 | 0x14 => some .rr7 | 0x15 => some .avr
  | 0x16 => some .pc | 0x17 => some .af | 0x18 => some .ssp | 0x19 => some .usp | 0x1A => some .et
  | 0x1B => some .era | 0x1C => some .ev | 0x1D => some .mtt | 0x1E => some .pda
  | 0x1F => some .smt
  | _ => none

/-- `Reg::code`, `lrvm_tools/src/asm/reg.rs:124-159`. -/
def Reg.code : Reg → U8
  | .a0 => 0x00 | .a1 => 0x01 | .a2 => 0x02 | .a3 => 0x03 | .a4 => 0x04 | .a5 => 0x05 | .a6 => 0x06
  | .a7 => 0x07 | .c0 => 0x08 | .c1 => 0x09 | .ac0 => 0x0A | .ac1 => 0x0B | .ac2 => 0x0C
  | .rr0 => 0x0D | .rr1 => 0x0E | .rr2 => 0x0F | .rr3 => 0x10 | .rr4 => 0x11 | .rr5 => 0x12
  | .rr6 => 0x13 | .rr7 => 0x14 | .avr => 0x15 | .pc => 0x16 | .af => 0x17 | .ssp => 0x18
  | .usp => 0x19 | .et => 0x1A | .era => 0x1B | .ev => 0x1C | .mtt => 0x1D | .pda => 0x1E
  | .smt => 0x1F

/-- `Reg::name`, `lrvm_tools/src/asm/reg.rs:162-197`. -/
def Reg.name : Reg → String
  | .a0 => "a0" | .a1 => "a1" | .a2 => "a2" | .a3 => "a3" | .a4 => "a4" | .a5 => "a5" | .a6 => "a6"
  | .a7 => "a7" | .c0 => "c0" | .c1 => "c1" | .ac0 => "ac0" | .ac1 => "ac1" | .ac2 => "ac2"
  | .rr0 => "rr0" | .rr1 => "rr1" | .rr2 => "rr2" | .rr3 => "rr3" | .rr4 => "rr4" | .rr5 => "rr5"
  | .rr6 => "rr6" | .rr7 => "rr7" | .avr => "avr" | .pc => "pc" | .af => "af" | .ssp => "ssp"
  | .usp => "usp" | .et => "et" | .era => "era" | .ev => "ev" | .mtt => "mtt" | .pda => "pda"
  | .smt => "smt"

/-- `Reg::from_name`, `lrvm_tools/src/asm/reg.rs:85-121`. -/
def Reg.fromName (name : String) : Option Reg :=
  match name with
  | "a0" => some .a0 | "a1" => some .a1 | "a2" => some .a2 | "a3" => some .a3 | "a4" => some .a4
  | "a5" => some .a5 | "a6" => some .a6 | "a7" => some .a7 | "c0" => some .c0 | "c1" => some .c1
  | "ac0" => some .ac0 | "ac1" => some .ac1 | "ac2" => some .ac2 | "rr0" => some .rr0
  | "rr1" => some .rr1 | "rr2" => some .rr2 | "rr3" => some .rr3 | "rr4" => some .rr4
  | "rr5" => some .rr5 | "rr6" => some .rr6 | "rr7" => some .rr7 | "avr" => some .avr
  | "af" => some .af | "pc" => some .pc | "ssp" => some .ssp | "usp" => some .usp
  | "et" => some .et | "era" => some .era | "ev" => some .ev | "mtt" => some .mtt
  | "pda" => some .pda | "smt" => some .smt
  | _ => none

/-- `ArFlag`, `lrvm_tools/src/asm/arflag.rs:5-13`. -/
inductive ArFlag
  | zero | carry | overflow | sign | even | zeroUpper | zeroLower
  deriving DecidableEq, Repr

/-- `ArFlag::decode`, `lrvm_tools/src/asm/arflag.rs:17-28`. -/
def ArFlag.decode (code : U8) : Option ArFlag :=
  match code.toNat with
  | 0x00 => some .zero | 0x01 => some .carry | 0x02 => some .overflow | 0x03 => some .sign
  | 0x04 => some .even | 0x05 => some .zeroUpper | 0x06 => some .zeroLower
  | _ => none

/-- `ArFlag::code`, `lrvm_tools/src/asm/arflag.rs:31-41`. -/
def ArFlag.code : ArFlag → U8
  | .zero => 0x00 | .carry => 0x01 | .overflow => 0x02 | .sign => 0x03 | .even => 0x04
  | .zeroUpper => 0x05 | .zeroLower => 0x06

/-- `If2Cond`, `lrvm_tools/src/asm/cond.rs:2-10`. -/
inductive If2Cond
  | or | and | xor | nor | nand | left | right
  deriving DecidableEq, Repr

/-- `If2Cond::decode`, `lrvm_tools/src/asm/cond.rs:14-25`. -/
def If2Cond.decode (code : U8) : Option If2Cond :=
  match code.toNat with
  | 0x01 => some .or | 0x02 => some .and | 0x03 => some .xor | 0x04 => some .nor
  | 0x05 => some .nand | 0x06 => some .left | 0x07 => some .right
  | _ => none

/-- `If2Cond::code`, `lrvm_tools/src/asm/cond.rs:28-38`. -/
def If2Cond.code : If2Cond → U8
  | .or => 0x01 | .and => 0x02 | .xor => 0x03 | .nor => 0x04 | .nand => 0x05 | .left => 0x06
  | .right => 0x07

/-- `HwInfo`, `lrvm_tools/src/asm/hw_infos.rs:3-25`. -/
inductive HwInfo
  | count | uidUpper | uidLower | nameLength | nameW1 | nameW2 | nameW3 | nameW4 | nameW5 | nameW6
  | nameW7 | nameW8 | devSize | category | type | model | dataUpper | dataLower | isMapped
  | mapStart | mapEnd
  deriving DecidableEq, Repr

/-- `HwInfo::decode`, `lrvm_tools/src/asm/hw_infos.rs:29-54`. -/
def HwInfo.decode (code : U8) : Option HwInfo :=
  match code.toNat with
  | 0x00 => some .count | 0x01 => some .uidUpper | 0x02 => some .uidLower
  | 0x10 => some .nameLength | 0x11 => some .nameW1 | 0x12 => some .nameW2 | 0x13 => some .nameW3
  | 0x14 => some .nameW4 | 0x15 => some .nameW5 | 0x16 => some .nameW6 | 0x17 => some .nameW7
  | 0x18 => some .nameW8 | 0x20 => some .devSize | 0x21 => some .category | 0x22 => some .type
  | 0x23 => some .model | 0x24 => some .dataUpper | 0x25 => some .dataLower
  | 0xA0 => some .isMapped | 0xA1 => some .mapStart | 0xA2 => some .mapEnd
  | _ => none

/-- `HwInfo::code`, `lrvm_tools/src/asm/hw_infos.rs:57-81`. -/
def HwInfo.code : HwInfo → U8
  | .count => 0x00 | .uidUpper => 0x01 | .uidLower => 0x02 | .nameLength => 0x10 | .nameW1 => 0x11
  | .nameW2 => 0x12 | .nameW3 => 0x13 | .nameW4 => 0x14 | .nameW5 => 0x15 | .nameW6 => 0x16
  | .nameW7 => 0x17 | .nameW8 => 0x18 | .devSize => 0x20 | .category => 0x21 | .type => 0x22
  | .model => 0x23 | .dataUpper => 0x24 | .dataLower => 0x25 | .isMapped => 0xA0
  | .mapStart => 0xA1 | .mapEnd => 0xA2

/-- `RegOrLit1`, `lrvm_tools/src/asm/val.rs:7-10,106`. -/
inductive RegOrLit1
  | reg (r : Reg)
  | lit (n : U8)
  deriving DecidableEq, Repr

/-- `RegOrLit2`, `lrvm_tools/src/asm/val.rs:7-10,107`. -/
inductive RegOrLit2
  | reg (r : Reg)
  | lit (n : U16)
  deriving DecidableEq, Repr

/-- `RegOrLit1::is_reg`, `lrvm_tools/src/asm/val.rs:29-34`. -/
def RegOrLit1.isReg : RegOrLit1 → Bool
  | .reg _ => true
  | .lit _ => false

/-- `RegOrLit2::is_reg`, `lrvm_tools/src/asm/val.rs:29-34`. -/
def RegOrLit2.isReg : RegOrLit2 → Bool
  | .reg _ => true
  | .lit _ => false

/-- `RegOrLit1::is_lit`, `lrvm_tools/src/asm/val.rs:37-42`. -/
def RegOrLit1.isLit : RegOrLit1 → Bool
  | .reg _ => false
  | .lit _ => true

/-- `RegOrLit2::is_lit`, `lrvm_tools/src/asm/val.rs:37-42`. -/
def RegOrLit2.isLit : RegOrLit2 → Bool
  | .reg _ => false
  | .lit _ => true

/-- `RegOrLit1::value`, `lrvm_tools/src/asm/val.rs:45-50`. -/
def RegOrLit1.value : RegOrLit1 → U8
  | .reg r => r.code
  | .lit n => n

/-- `RegOrLit2::value`, `lrvm_tools/src/asm/val.rs:45-50` (`reg.code().into()` widens the code to 16
bits). -/
def RegOrLit2.value : RegOrLit2 → U16
  | .reg r => r.code.setWidth 16
  | .lit n => n

/-- `RegOrLit1::signed_lit` and `From<i8> for RegOrLit1`, `lrvm_tools/src/asm/val.rs:24-26,98-102`; an `i8` is given by its
bits, which `lit as u8` keeps. -/
def RegOrLit1.signedLit (n : U8) : RegOrLit1 := .lit n

/-- `RegOrLit2::signed_lit` and `From<i16> for RegOrLit2`, `lrvm_tools/src/asm/val.rs:24-26,98-102`; an `i16` is given by
its bits, which `lit as u16` keeps. -/
def RegOrLit2.signedLit (n : U16) : RegOrLit2 := .lit n

/-- `From<u8> for RegOrLit2`, `lrvm_tools/src/asm/val.rs:109-113`. -/
def RegOrLit2.ofByte (n : U8) : RegOrLit2 := .lit (n.setWidth 16)

/-- `From<i8> for RegOrLit2`, `lrvm_tools/src/asm/val.rs:115-119`: `i8` to `i16` keeps the number. -/
def RegOrLit2.ofSignedByte (n : U8) : RegOrLit2 := .signedLit (n.signExtend 16)

/-- `DivSignMode`, `lrvm_tools/src/asm/div_modes.rs:29-32`. -/
inductive DivSignMode
  | unsigned | signed
  deriving DecidableEq, Repr

/-- `DivByZeroMode`, `lrvm_tools/src/asm/div_modes.rs:99-104`. -/
inductive DivByZeroMode
  | forbid | eqToMin | eqToZero | eqToMax
  deriving DecidableEq, Repr

/-- `DivOverflowMode`, `lrvm_tools/src/asm/div_modes.rs:171-176`. -/
inductive DivOverflowMode
  | forbid | eqToMin | eqToZero | eqToMax
  deriving DecidableEq, Repr

/-- `DivSignMode::decode`, `lrvm_tools/src/asm/div_modes.rs:54-60`. -/
def DivSignMode.decode (subMode : U8) : Option DivSignMode :=
  match subMode.toNat with
  | 0 => some .unsigned
  | 0b0001_0000 => some .signed
  | _ => none

/-- `DivSignMode::encode`, `lrvm_tools/src/asm/div_modes.rs:62-67`. -/
def DivSignMode.encode : DivSignMode → U8
  | .unsigned => 0
  | .signed => 0b0001_0000

/-- `DivByZeroMode::decode`, `lrvm_tools/src/asm/div_modes.rs:120-128`: `DIV_ZRO_MAX` gives `EqToMin`. -/
def DivByZeroMode.decode (subMode : U8) : Option DivByZeroMode :=
  match subMode.toNat with
  | 0 => some .forbid
  | 0b0000_0100 => some .eqToMin
  | 0b0000_1000 => some .eqToZero
  | 0b0000_1100 => some .eqToMin
  | _ => none

/-- `DivByZeroMode::encode`, `lrvm_tools/src/asm/div_modes.rs:130-137`. -/
def DivByZeroMode.encode : DivByZeroMode → U8
  | .forbid => 0
  | .eqToMin => 0b0000_0100
  | .eqToZero => 0b0000_1000
  | .eqToMax => 0b0000_1100

/-- `DivByZeroMode::result`, `lrvm_tools/src/asm/div_modes.rs:107-114`. -/
def DivByZeroMode.result : DivByZeroMode → Word
  | .forbid => 0
  | .eqToMin => 0x80000000
  | .eqToZero => 0
  | .eqToMax => 0x7FFFFFFF

/-- `DivOverflowMode::decode`, `lrvm_tools/src/asm/div_modes.rs:192-200`. -/
def DivOverflowMode.decode (subMode : U8) : Option DivOverflowMode :=
  match subMode.toNat with
  | 0 => some .forbid
  | 0b0000_0001 => some .eqToMin
  | 0b0000_0010 => some .eqToZero
  | 0b0000_0011 => some .eqToMax
  | _ => none

/-- `DivOverflowMode::encode`, `lrvm_tools/src/asm/div_modes.rs:202-209`. -/
def DivOverflowMode.encode : DivOverflowMode → U8
  | .forbid => 0
  | .eqToMin => 0b0000_0001
  | .eqToZero => 0b0000_0010
  | .eqToMax => 0b0000_0011

/-- `DivOverflowMode::result`, `lrvm_tools/src/asm/div_modes.rs:179-186`. -/
def DivOverflowMode.result : DivOverflowMode → Word
  | .forbid => 0
  | .eqToMin => 0x80000000
  | .eqToZero => 0
  | .eqToMax => 0x7FFFFFFF

/-- `DivMode`, `lrvm_tools/src/asm/div_modes.rs:243`. -/
structure DivMode where
  sign : DivSignMode
  zero : DivByZeroMode
  overflow : DivOverflowMode
  deriving DecidableEq, Repr

/-- `DivMode::decode`, `lrvm_tools/src/asm/div_modes.rs:255-261`, with `DivSubMode::from_mode`,
`lrvm_tools/src/asm/div_modes.rs:13-15`, and the masks of `lrvm_tools/src/asm/cst.rs:19-23`. -/
def DivMode.decode (mode : U8) : Option DivMode := do
  let sign ← DivSignMode.decode (mode &&& 0b0001_0000)
  let zero ← DivByZeroMode.decode (mode &&& 0b0000_1100)
  let overflow ← DivOverflowMode.decode (mode &&& 0b0000_0011)
  some ⟨sign, zero, overflow⟩

/-- `DivMode::encode`, `lrvm_tools/src/asm/div_modes.rs:306-308`. -/
def DivMode.encode (m : DivMode) : U8 := m.sign.encode ||| m.zero.encode ||| m.overflow.encode

/-- `Instr`, `lrvm_tools/src/asm/instr.rs:7-39`. -/
inductive Instr
  | cpy (a : Reg) (b : RegOrLit2)
  | ex (a : Reg) (b : Reg)
  | add (a : Reg) (b : RegOrLit2)
  | sub (a : Reg) (b : RegOrLit2)
  | mul (a : Reg) (b : RegOrLit2)
  | div (a : Reg) (b : RegOrLit1) (c : RegOrLit1)
  | mod (a : Reg) (b : RegOrLit1) (c : RegOrLit1)
  | and (a : Reg) (b : RegOrLit2)
  | bor (a : Reg) (b : RegOrLit2)
  | xor (a : Reg) (b : RegOrLit2)
  | shl (a : Reg) (b : RegOrLit1)
  | shr (a : Reg) (b : RegOrLit1)
  | cmp (a : Reg) (b : RegOrLit2)
  | jpr (a : RegOrLit2)
  | lsm (a : RegOrLit2)
  | itr (a : RegOrLit1)
  | «if» (a : RegOrLit1)
  | ifN (a : RegOrLit1)
  | if2 (a : RegOrLit1) (b : RegOrLit1) (c : RegOrLit1)
  | lsa (a : Reg) (b : RegOrLit1) (c : RegOrLit1)
  | lea (a : RegOrLit1) (b : RegOrLit1) (c : RegOrLit1)
  | wsa (a : RegOrLit1) (b : RegOrLit1) (c : RegOrLit1)
  | wea (a : RegOrLit1) (b : RegOrLit1) (c : RegOrLit1)
  | srm (a : RegOrLit1) (b : RegOrLit1) (c : Reg)
  | push (a : RegOrLit2)
  | pop (a : Reg)
  | call (a : RegOrLit2)
  | hwd (a : Reg) (b : RegOrLit1) (c : RegOrLit1)
  | cycles (a : Reg)
  | halt
  | reset (a : RegOrLit1)
  deriving DecidableEq, Repr

/-- `InstrDecodingError`, `lrvm_tools/src/asm/instr.rs:609-616`. -/
inductive InstrDecodingError
  | sourceNotMultipleOf4Bytes
  | unknownOpCode (opcode : U8)
  | unknownRegister (param : Nat) (code : U8)
  deriving DecidableEq, Repr

/-- `[u8; 4]`. -/
structure Bytes4 where
  b0 : U8
  b1 : U8
  b2 : U8
  b3 : U8
  deriving DecidableEq, Repr

/-- `bytes[i]` for `i ≤ 3` (the only indices used). -/
def Bytes4.get (b : Bytes4) : Nat → U8
  | 0 => b.b0
  | 1 => b.b1
  | 2 => b.b2
  | _ => b.b3

/-- The bytes as a list. -/
def Bytes4.toList (b : Bytes4) : List U8 := [b.b0, b.b1, b.b2, b.b3]

/-- `u32::from_be_bytes`. -/
def Bytes4.toWord (b : Bytes4) : Word := b.b0 ++ b.b1 ++ b.b2 ++ b.b3

/-- `u32::to_be_bytes`. -/
def Bytes4.ofWord (w : Word) : Bytes4 :=
  ⟨(w >>> 24).setWidth 8, (w >>> 16).setWidth 8, (w >>> 8).setWidth 8, w.setWidth 8⟩

/-- The closure `_decode_reg` of `Instr::decode`, `lrvm_tools/src/asm/instr.rs:47-52`. -/
def argReg (b : Bytes4) (param : Nat) : Except InstrDecodingError Reg :=
  match Reg.fromCode (b.get param) with
  | some r => .ok r
  | none => .error (.unknownRegister (param - 1) (b.get param))

/-- The test `bytes[0] & (1 << (3 - param)) == 0`, `lrvm_tools/src/asm/instr.rs:57,64`. -/
def argIsLit (b : Bytes4) (param : Nat) : Bool := b.b0 &&& (1#8 <<< (3 - param)) == 0

/-- The closure `arg_reg_or_lit_1` of `Instr::decode`, `lrvm_tools/src/asm/instr.rs:56-62`. -/
def argRegOrLit1 (b : Bytes4) (param : Nat) : Except InstrDecodingError RegOrLit1 :=
  if argIsLit b param then .ok (.lit (b.get param))
  else do
    let r ← argReg b param
    .ok (.reg r)

/-- The closure `arg_reg_or_lit_2` of `Instr::decode`, `lrvm_tools/src/asm/instr.rs:63-72`. -/
def argRegOrLit2 (b : Bytes4) (param : Nat) : Except InstrDecodingError RegOrLit2 :=
  if argIsLit b param then .ok (.lit (b.get param ++ b.get (param + 1)))
  else do
    let r ← argReg b param
    .ok (.reg r)

/-- `Instr::decode`, `lrvm_tools/src/asm/instr.rs:43-147`. -/
def Instr.decode (b : Bytes4) : Except InstrDecodingError Instr :=
  let opcode := b.b0 >>> 3
  match opcode.toNat with
  | 0x01 => do .ok (.cpy (← argReg b 1) (← argRegOrLit2 b 2))
  | 0x02 => do .ok (.ex (← argReg b 1) (← argReg b 2))
  | 0x03 => do .ok (.add (← argReg b 1) (← argRegOrLit2 b 2))
  | 0x04 => do .ok (.sub (← argReg b 1) (← argRegOrLit2 b 2))
  | 0x05 => do .ok (.mul (← argReg b 1) (← argRegOrLit2 b 2))
  | 0x06 => do .ok (.div (← argReg b 1) (← argRegOrLit1 b 2) (← argRegOrLit1 b 3))
  | 0x07 => do .ok (.mod (← argReg b 1) (← argRegOrLit1 b 2) (← argRegOrLit1 b 3))
  | 0x08 => do .ok (.and (← argReg b 1) (← argRegOrLit2 b 2))
  | 0x09 => do .ok (.bor (← argReg b 1) (← argRegOrLit2 b 2))
  | 0x0A => do .ok (.xor (← argReg b 1) (← argRegOrLit2 b 2))
  | 0x0B => do .ok (.shl (← argReg b 1) (← argRegOrLit1 b 2))
  | 0x0C => do .ok (.shr (← argReg b 1) (← argRegOrLit1 b 2))
  | 0x0D => do .ok (.cmp (← argReg b 1) (← argRegOrLit2 b 2))
  | 0x0E => do .ok (.jpr (← argRegOrLit2 b 1))
  | 0x0F => do .ok (.lsm (← argRegOrLit2 b 1))
  | 0x10 => do .ok (.itr (← argRegOrLit1 b 1))
  | 0x11 => do .ok (.«if» (← argRegOrLit1 b 1))
  | 0x12 => do .ok (.ifN (← argRegOrLit1 b 1))
  | 0x13 => do .ok (.if2 (← argRegOrLit1 b 1) (← argRegOrLit1 b 2) (← argRegOrLit1 b 3))
  | 0x14 => do .ok (.lsa (← argReg b 1) (← argRegOrLit1 b 2) (← argRegOrLit1 b 3))
  | 0x15 => do .ok (.lea (← argRegOrLit1 b 1) (← argRegOrLit1 b 2) (← argRegOrLit1 b 3))
  | 0x16 => do .ok (.wsa (← argRegOrLit1 b 1) (← argRegOrLit1 b 2) (← argRegOrLit1 b 3))
  | 0x17 => do .ok (.wea (← argRegOrLit1 b 1) (← argRegOrLit1 b 2) (← argRegOrLit1 b 3))
  | 0x18 => do .ok (.srm (← argRegOrLit1 b 1) (← argRegOrLit1 b 2) (← argReg b 3))
  | 0x19 => do .ok (.push (← argRegOrLit2 b 1))
  | 0x1A => do .ok (.pop (← argReg b 1))
  | 0x1B => do .ok (.call (← argRegOrLit2 b 1))
  | 0x1C => do .ok (.hwd (← argReg b 1) (← argRegOrLit1 b 2) (← argRegOrLit1 b 3))
  | 0x1D => do .ok (.cycles (← argReg b 1))
  | 0x1E => .ok .halt
  | 0x1F => do .ok (.reset (← argRegOrLit1 b 1))
  | _ => .error (.unknownOpCode opcode)

/-- The `params` vector of `Instr::encode`: the bytes of a two-byte operand. -/
def RegOrLit2.bytes (v : RegOrLit2) : List U8 := [(v.value >>> 8).setWidth 8, v.value.setWidth 8]

/-- The `match self` of `Instr::encode`, `lrvm_tools/src/asm/instr.rs:165-362`: opcode, `is_reg` and
`params`. -/
def Instr.parts : Instr → U8 × List Bool × List U8
  | .cpy a b => (0x01, [true, b.isReg], a.code :: b.bytes)
  | .ex a b => (0x02, [true, true], [a.code, b.code])
  | .add a b => (0x03, [true, b.isReg], a.code :: b.bytes)
  | .sub a b => (0x04, [true, b.isReg], a.code :: b.bytes)
  | .mul a b => (0x05, [true, b.isReg], a.code :: b.bytes)
  | .div a b c => (0x06, [true, b.isReg, c.isReg], [a.code, b.value, c.value])
  | .mod a b c => (0x07, [true, b.isReg, c.isReg], [a.code, b.value, c.value])
  | .and a b => (0x08, [true, b.isReg], a.code :: b.bytes)
  | .bor a b => (0x09, [true, b.isReg], a.code :: b.bytes)
  | .xor a b => (0x0A, [true, b.isReg], a.code :: b.bytes)
  | .shl a b => (0x0B, [true, b.isReg], [a.code, b.value])
  | .shr a b => (0x0C, [true, b.isReg], [a.code, b.value])
  | .cmp a b => (0x0D, [true, b.isReg], a.code :: b.bytes)
  | .jpr a => (0x0E, [a.isReg], a.bytes)
  | .lsm a => (0x0F, [a.isReg], a.bytes)
  | .itr a => (0x10, [a.isReg], [a.value])
  | .«if» a => (0x11, [a.isReg], [a.value])
  | .ifN a => (0x12, [a.isReg], [a.value])
  | .if2 a b c => (0x13, [a.isReg, b.isReg, c.isReg], [a.value, b.value, c.value])
  | .lsa a b c => (0x14, [true, b.isReg, c.isReg], [a.code, b.value, c.value])
  | .lea a b c => (0x15, [a.isReg, b.isReg, c.isReg], [a.value, b.value, c.value])
  | .wsa a b c => (0x16, [a.isReg, b.isReg, c.isReg], [a.value, b.value, c.value])
  | .wea a b c => (0x17, [a.isReg, b.isReg, c.isReg], [a.value, b.value, c.value])
  | .srm a b c => (0x18, [a.isReg, b.isReg, true], [a.value, b.value, c.code])
  | .push a => (0x19, [a.isReg], a.bytes)
  | .pop a => (0x1A, [true], [a.code])
  | .call a => (0x1B, [a.isReg], a.bytes)
  | .hwd a b c => (0x1C, [true, b.isReg, c.isReg], [a.code, b.value, c.value])
  | .cycles a => (0x1D, [true], [a.code])
  | .halt => (0x1E, [], [])
  | .reset a => (0x1F, [a.isReg], [a.value])

/-- `vec.resize(3, default)` then `vec[i]`, for a vector of at most 3 elements (the two assertions of
`lrvm_tools/src/asm/instr.rs:364-371`, which always hold: see `C50_parts_fit`). -/
def resized (l : List α) (d : α) (i : Nat) : α := l.getD i d

/-- `Instr::encode`, `lrvm_tools/src/asm/instr.rs:150-385`. The sum's terms occupy disjoint bits, so the
plain additions cannot overflow. -/
def Instr.encode (i : Instr) : Bytes4 :=
  let (opcode, isReg, params) := i.parts
  ⟨(opcode <<< 3) + (if resized isReg false 0 then 1#8 <<< 2 else 0)
      + (if resized isReg false 1 then 1#8 <<< 1 else 0) + (if resized isReg false 2 then 1#8 else 0),
    resized params 0 0, resized params 0 1, resized params 0 2⟩

/-- `Instr::encode_word`, `lrvm_tools/src/asm/instr.rs:388-390`. -/
def Instr.encodeWord (i : Instr) : Word := i.encode.toWord

/-- `ProgramWord`, `lrvm_tools/src/asm/prog_word.rs:5-8`. -/
inductive ProgramWord
  | instr (i : Instr)
  | raw (bytes : Bytes4)
  deriving DecidableEq, Repr

/-- `ProgramWord::decode`, `lrvm_tools/src/asm/prog_word.rs:11-16`. -/
def ProgramWord.decode (bytes : Bytes4) : ProgramWord :=
  match Instr.decode bytes with
  | .ok i => .instr i
  | .error _ => .raw bytes

/-- `ProgramWord::decode_word`, `lrvm_tools/src/asm/prog_word.rs:18-20` (`self` is not used). -/
def ProgramWord.decodeWord (word : Word) : ProgramWord := ProgramWord.decode (.ofWord word)

/-- `ProgramWord::encode`, `lrvm_tools/src/asm/prog_word.rs:30-35`. -/
def ProgramWord.encode : ProgramWord → Bytes4
  | .instr i => i.encode
  | .raw bytes => bytes

/-- `ProgramWord::encode_word`, `lrvm_tools/src/asm/prog_word.rs:37-42`. -/
def ProgramWord.encodeWord : ProgramWord → Word
  | .instr i => i.encodeWord
  | .raw bytes => bytes.toWord

/-- `Program`, `lrvm_tools/src/asm/prog.rs:8`. -/
abbrev Program := List ProgramWord

/-- `Program::from_instr`, `lrvm_tools/src/asm/prog.rs:22-24`. -/
def Program.fromInstr (is : List Instr) : Program := is.map .instr

/-- `Program::prepend`, `lrvm_tools/src/asm/prog.rs:37-40`. -/
def Program.prepend (p : Program) (w : ProgramWord) : Program := w :: p

/-- `slice.rotate_left(k)` for `k ≤ slice.len()`; panics otherwise. -/
def rotateLeft (l : List α) (k : Nat) : Res (List α) :=
  if k ≤ l.length then some (l.drop k ++ l.take k) else none

/-- `a - b` on `usize`: panics on underflow in debug builds, wraps in release builds (64-bit `usize`). -/
def Profile.subUsize (pf : Profile) (a b : Nat) : Res Nat :=
  match pf with
  | .debug => if b ≤ a then some (a - b) else none
  | .release => some ((a + 2 ^ 64 - b) % 2 ^ 64)

/-- `Program::prepend_all`, `lrvm_tools/src/asm/prog.rs:43-51`: extends, then rotates the words that follow
the `instr.len()` first ones. -/
def Program.prependAll (pf : Profile) (p : Program) (ws : List ProgramWord) : Res Program := do
  let tail ← pf.subUsize p.length ws.length
  let all := p ++ ws
  let rotated ← rotateLeft (all.drop ws.length) tail
  some (all.take ws.length ++ rotated)

/-- `Program::append`, `lrvm_tools/src/asm/prog.rs:54-57`. -/
def Program.append (p : Program) (w : ProgramWord) : Program := p ++ [w]

/-- `Program::append_all`, `lrvm_tools/src/asm/prog.rs:60-63`. -/
def Program.appendAll (p : Program) (ws : List ProgramWord) : Program := p ++ ws

/-- The four bytes of the `i`-th word of a byte string, `lrvm_tools/src/asm/prog.rs:83-88` (in range because
`i < prog.len() / 4`). -/
def bytesAt (prog : List U8) (i : Nat) : Bytes4 :=
  ⟨prog.getD (i * 4) 0, prog.getD (i * 4 + 1) 0, prog.getD (i * 4 + 2) 0, prog.getD (i * 4 + 3) 0⟩

/-- The loop of `Program::decode`, `lrvm_tools/src/asm/prog.rs:82-103`, from index `i` with `n` words left. -/
def decodeLoop (prog : List U8) (forbidRaw : Bool) :
    (i n : Nat) → Except (Nat × InstrDecodingError) Program
  | _, 0 => .ok []
  | i, n + 1 =>
    let bytes := bytesAt prog i
    match Instr.decode bytes with
    | .ok instr => do
      let rest ← decodeLoop prog forbidRaw (i + 1) n
      .ok (.instr instr :: rest)
    | .error err =>
      if forbidRaw then .error (i, err)
      else do
        let rest ← decodeLoop prog forbidRaw (i + 1) n
        .ok (.raw bytes :: rest)

/-- `Program::decode`, `lrvm_tools/src/asm/prog.rs:68-106`. -/
def Program.decode (prog : List U8) (forbidRaw : Bool) : Except (Nat × InstrDecodingError) Program :=
  if prog.length % 4 ≠ 0 then .error (0, .sourceNotMultipleOf4Bytes)
  else decodeLoop prog forbidRaw 0 (prog.length / 4)

/-- `Program::to_folded_bytes`, `lrvm_tools/src/asm/prog.rs:108-110`. -/
def Program.toFoldedBytes (p : Program) : List Bytes4 := p.map ProgramWord.encode

/-- `Program::encode`, `lrvm_tools/src/asm/prog.rs:113-121`. -/
def Program.encode (p : Program) : List U8 := p.flatMap fun w => w.encode.toList

/-- `Program::encode_words`, `lrvm_tools/src/asm/prog.rs:124-126`. -/
def Program.encodeWords (p : Program) : List Word := p.map ProgramWord.encodeWord

/-- `ExtInstr`, `lrvm_tools/src/asm/extinstr.rs:7-13`. -/
inductive ExtInstr
  | setReg (r : Reg) (value : Word)
  | readAddr (addr : Word)
  | readAddrTo (r : Reg) (addr : Word)
  | writeAddr (addr : Word) (r : Reg)
  | writeAddrLit (addr value : Word)
  deriving DecidableEq, Repr

/-- The three instructions that build a 32-bit constant, repeated in
`lrvm_tools/src/asm/extinstr.rs:19-57`. -/
def setWord (r : Reg) (value : Word) : List Instr :=
  [.cpy r (.lit ((value >>> 16).setWidth 16)), .shl r (.lit 16), .add r (.lit (value.setWidth 16))]

/-- `ExtInstr::to_instr`, `lrvm_tools/src/asm/extinstr.rs:17-58`. -/
def ExtInstr.toInstr : ExtInstr → List Instr
  | .setReg r value => setWord r value
  | .readAddr addr => setWord .avr addr ++ [.lea (.reg .avr) (.lit 0) (.lit 0)]
  | .readAddrTo r addr =>
    setWord .avr addr ++ [.lea (.reg .avr) (.lit 0) (.lit 0), .cpy r (.reg .avr)]
  | .writeAddr addr r =>
    setWord .rr0 addr ++ [.cpy .avr (.reg r), .wea (.reg .rr0) (.lit 0) (.lit 0)]
  | .writeAddrLit addr value =>
    setWord .rr0 addr ++ setWord .avr value ++ [.wea (.reg .rr0) (.lit 0) (.lit 0)]

/-- `ExtInstr::to_prog_words`, `lrvm_tools/src/asm/extinstr.rs:61-66`. -/
def ExtInstr.toProgWords (e : ExtInstr) : List ProgramWord := e.toInstr.map .instr

/-- `ExtInstr::encode_words`, `lrvm_tools/src/asm/extinstr.rs:69-71`. -/
def ExtInstr.encodeWords (e : ExtInstr) : List Word := Program.encodeWords (Program.fromInstr e.toInstr)

/-- `ExtInstr::encode`, `lrvm_tools/src/asm/extinstr.rs:74-76`. -/
def ExtInstr.encode (e : ExtInstr) : List U8 := Program.encode (Program.fromInstr e.toInstr)

end Lrvm
