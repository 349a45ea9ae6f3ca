import Verif.Model.Tools.Asm
import Verif.Model.Bus

/-!
# LASM sources

The syntax of `docs/Architecture.md:238-700` as relations between texts and instructions: how numbers, operands,
instructions and lines are written. Nothing here comes from the assembler's rules.
-/

namespace Lrvm.Spec

/-! ## Numbers -/

/-- A digit, in either case. -/
def IsDigit (c : Char) (d : Nat) : Prop :=
  "0123456789ABCDEF".toList[d]? = some c ∨ "0123456789abcdef".toList[d]? = some c

/-- One digit or more, in a base. -/
inductive Numeral (base : Nat) : List Char → Nat → Prop
  | one {c d} : IsDigit c d → d < base → Numeral base [c] d
  | more {t c n d} : Numeral base t n → IsDigit c d → d < base → Numeral base (t ++ [c]) (n * base + d)

/-- A number without a sign: decimal, `0x` and hexadecimal, or `0b` and binary. -/
inductive Unsigned : List Char → Nat → Prop
  | dec {t n} : Numeral 10 t n → Unsigned t n
  | hex {t n} : Numeral 16 t n → Unsigned ('0' :: 'x' :: t) n
  | bin {t n} : Numeral 2 t n → Unsigned ('0' :: 'b' :: t) n

/-- A number. -/
inductive Number : List Char → Int → Prop
  | pos {t n} : Unsigned t n → Number t n
  | neg {t n} : Unsigned t n → Number ('-' :: t) (-n)

/-! ## Labels -/

/-- What the labels that a line can mention stand for. -/
abbrev Names := List Char → Nat → Prop

/-- No label at all. -/
def noNames : Names := fun _ _ => False

/-! ## Constants, `docs/Architecture.md:243-312` -/

def flagConstants : List (String × Nat) :=
  [("ZF", 0), ("CF", 1), ("OF", 2), ("SF", 3), ("EF", 4), ("ZUF", 5), ("ZLF", 6)]

def divConstants : List (String × Nat) :=
  [("DIV_USG", 0x00), ("DIV_SIG", 0x10), ("DIV_ZRO_FRB", 0x00), ("DIV_ZRO_MIN", 0x04), ("DIV_ZRO_ZRO", 0x08),
    ("DIV_ZRO_MAX", 0x0C), ("DIV_OFW_FRB", 0x00), ("DIV_OFW_MIN", 0x01), ("DIV_OFW_ZRO", 0x02), ("DIV_OFW_MAX", 0x03)]

def condConstants : List (String × Nat) :=
  [("CMP_OR", 1), ("CMP_AND", 2), ("CMP_XOR", 3), ("CMP_NOR", 4), ("CMP_NAND", 5), ("CMP_LEFT", 6), ("CMP_RIGHT", 7)]

def infoConstants : List (String × Nat) :=
  [("HWD_COUNT", 0x00), ("HWD_UID_UPPER", 0x01), ("HWD_UID_LOWER", 0x02), ("HWD_NAME_LEN", 0x10), ("HWD_NAME_W1", 0x11),
    ("HWD_NAME_W2", 0x12), ("HWD_NAME_W3", 0x13), ("HWD_NAME_W4", 0x14), ("HWD_NAME_W5", 0x15), ("HWD_NAME_W6", 0x16),
    ("HWD_NAME_W7", 0x17), ("HWD_NAME_W8", 0x18), ("HWD_SIZE", 0x20), ("HWD_CAT", 0x21), ("HWD_TYPE", 0x22),
    ("HWD_MODEL", 0x23), ("HWD_DATA_UPPER", 0x24), ("HWD_DATA_LOWER", 0x25), ("HWD_IS_MAPPED", 0xA0),
    ("HWD_MAP_START", 0xA1), ("HWD_MAP_END", 0xA2)]

/-- The names of the constants. -/
def constantNames : List (List Char) :=
  (flagConstants ++ divConstants ++ condConstants ++ infoConstants).map fun e => e.1.toList

/-- A label: letters, digits, underscores and dots, not starting with a digit, and not the name of a register or of a
constant. -/
structure IsLabel (t : List Char) : Prop where
  ne : t ≠ []
  chars : ∀ c ∈ t, c.isAlphanum = true ∨ c = '_' ∨ c = '.'
  head : ∀ c, t.head? = some c → c.isDigit = false
  notReg : ∀ r : Reg, t ≠ r.name.toList
  notConstant : t ∉ constantNames

/-! ## Values -/

/-- A number or a label. -/
inductive Term (names : Names) : List Char → Int → Prop
  | num {t z} : Number t z → Term names t z
  | label {t n} : IsLabel t → names t n → Term names t n

/-- A sum or a difference of numbers and labels. -/
inductive Value (names : Names) : List Char → Int → Prop
  | term {t z} : Term names t z → Value names t z
  | add {t u z w} : Value names t z → Term names u w → Value names (t ++ ' ' :: '+' :: ' ' :: u) (z + w)
  | sub {t u z w} : Value names t z → Term names u w → Value names (t ++ ' ' :: '-' :: ' ' :: u) (z - w)

/-! ## Operands -/

/-- A register is written by its name. -/
inductive OpReg : List Char → Reg → Prop
  | name (r : Reg) : OpReg r.name.toList r

/-- A register or one byte. -/
inductive Op1 (names : Names) : List Char → RegOrLit1 → Prop
  | reg (r : Reg) : Op1 names r.name.toList (.reg r)
  | lit {t z} : Value names t z → 0 ≤ z → z < 256 → Op1 names t (.lit (BitVec.ofInt 8 z))

/-- A register or one signed byte (an offset or a factor): numbers from -128 to 255 are written as their eight bits. -/
inductive OpS (names : Names) : List Char → RegOrLit1 → Prop
  | reg (r : Reg) : OpS names r.name.toList (.reg r)
  | lit {t z} : Value names t z → -128 ≤ z → z < 256 → OpS names t (.lit (BitVec.ofInt 8 z))

/-- A register or two bytes. -/
inductive Op2 (names : Names) : List Char → RegOrLit2 → Prop
  | reg (r : Reg) : Op2 names r.name.toList (.reg r)
  | lit {t z} : Value names t z → 0 ≤ z → z < 65536 → Op2 names t (.lit (BitVec.ofInt 16 z))

/-- A register or two signed bytes (a jump). -/
inductive OpJ (names : Names) : List Char → RegOrLit2 → Prop
  | reg (r : Reg) : OpJ names r.name.toList (.reg r)
  | lit {t z} : Value names t z → -32768 ≤ z → z < 65536 → OpJ names t (.lit (BitVec.ofInt 16 z))

/-- A register or one of some constants. -/
inductive OpName (table : List (String × Nat)) : List Char → RegOrLit1 → Prop
  | reg (r : Reg) : OpName table r.name.toList (.reg r)
  | name {s n} : (s, n) ∈ table → OpName table s.toList (.lit (BitVec.ofNat 8 n))

/-! ## Instructions -/

/-- `Documented mn ops i`: the documentation says that the mnemonic and the operands are the instruction. The operands that
the documentation lets absent have their documented default. -/
inductive Documented (names : Names) : String → List (List Char) → Instr → Prop
  | cpy {ta tb a b} : OpReg ta a → Op2 names tb b → Documented names "cpy" [ta, tb] (.cpy a b)
  | ex {ta tb a b} : OpReg ta a → OpReg tb b → Documented names "ex" [ta, tb] (.ex a b)
  | add {ta tb a b} : OpReg ta a → Op2 names tb b → Documented names "add" [ta, tb] (.add a b)
  | sub {ta tb a b} : OpReg ta a → Op2 names tb b → Documented names "sub" [ta, tb] (.sub a b)
  | mul {ta tb a b} : OpReg ta a → Op2 names tb b → Documented names "mul" [ta, tb] (.mul a b)
  | div {ta tb tc a b c} : OpReg ta a → Op1 names tb b → OpName divConstants tc c → Documented names "div" [ta, tb, tc] (.div a b c)
  | divDefault {ta tb a b} : OpReg ta a → Op1 names tb b → Documented names "div" [ta, tb] (.div a b (.lit 0))
  | mod {ta tb tc a b c} : OpReg ta a → Op1 names tb b → OpName divConstants tc c → Documented names "mod" [ta, tb, tc] (.mod a b c)
  | modDefault {ta tb a b} : OpReg ta a → Op1 names tb b → Documented names "mod" [ta, tb] (.mod a b (.lit 0))
  | and {ta tb a b} : OpReg ta a → Op2 names tb b → Documented names "and" [ta, tb] (.and a b)
  | bor {ta tb a b} : OpReg ta a → Op2 names tb b → Documented names "bor" [ta, tb] (.bor a b)
  | xor {ta tb a b} : OpReg ta a → Op2 names tb b → Documented names "xor" [ta, tb] (.xor a b)
  | shl {ta tb a b} : OpReg ta a → Op1 names tb b → Documented names "shl" [ta, tb] (.shl a b)
  | shr {ta tb a b} : OpReg ta a → Op1 names tb b → Documented names "shr" [ta, tb] (.shr a b)
  | cmp {ta tb a b} : OpReg ta a → Op2 names tb b → Documented names "cmp" [ta, tb] (.cmp a b)
  | jpr {ta a} : OpJ names ta a → Documented names "jpr" [ta] (.jpr a)
  | lsm {ta a} : Op2 names ta a → Documented names "lsm" [ta] (.lsm a)
  | itr {ta a} : Op1 names ta a → Documented names "itr" [ta] (.itr a)
  | «if» {ta a} : OpName flagConstants ta a → Documented names "if" [ta] (.«if» a)
  | ifN {ta a} : OpName flagConstants ta a → Documented names "ifn" [ta] (.ifN a)
  | if2 {ta tb tc a b c} : OpName flagConstants ta a → OpName flagConstants tb b → OpName condConstants tc c →
      Documented names "if2" [ta, tb, tc] (.if2 a b c)
  | if2Byte {ta tb tc a b c} : OpName flagConstants ta a → OpName flagConstants tb b → Op1 names tc c →
      Documented names "if2" [ta, tb, tc] (.if2 a b c)
  | lsa {ta tb tc a b c} : OpReg ta a → Op1 names tb b → OpS names tc c → Documented names "lsa" [ta, tb, tc] (.lsa a b c)
  | lsaDefault {ta tb a b} : OpReg ta a → Op1 names tb b → Documented names "lsa" [ta, tb] (.lsa a b (.lit 0))
  | lea {ta tb tc a b c} : Op1 names ta a → OpS names tb b → OpS names tc c → Documented names "lea" [ta, tb, tc] (.lea a b c)
  | leaDefault1 {ta tb a b} : Op1 names ta a → OpS names tb b → Documented names "lea" [ta, tb] (.lea a b (.lit 1))
  | leaDefault2 {ta a} : Op1 names ta a → Documented names "lea" [ta] (.lea a (.lit 0) (.lit 1))
  | wsa {ta tb tc a b c} : Op1 names ta a → OpS names tb b → Op1 names tc c → Documented names "wsa" [ta, tb, tc] (.wsa a b c)
  | wsaDefault {ta tb a b} : Op1 names ta a → Op1 names tb b → Documented names "wsa" [ta, tb] (.wsa a (.lit 0) b)
  | wea {ta tb tc a b c} : Op1 names ta a → OpS names tb b → OpS names tc c → Documented names "wea" [ta, tb, tc] (.wea a b c)
  | weaDefault2 {ta a} : Op1 names ta a → Documented names "wea" [ta] (.wea a (.lit 0) (.lit 1))
  | srm {ta tb tc a b c} : Op1 names ta a → OpS names tb b → OpReg tc c → Documented names "srm" [ta, tb, tc] (.srm a b c)
  | push {ta a} : Op2 names ta a → Documented names "push" [ta] (.push a)
  | pop {ta a} : OpReg ta a → Documented names "pop" [ta] (.pop a)
  | call {ta a} : Op2 names ta a → Documented names "call" [ta] (.call a)
  | hwd {ta tb tc a b c} : OpReg ta a → Op1 names tb b → OpName infoConstants tc c → Documented names "hwd" [ta, tb, tc] (.hwd a b c)
  | hwdByte {ta tb tc a b c} : OpReg ta a → Op1 names tb b → Op1 names tc c → Documented names "hwd" [ta, tb, tc] (.hwd a b c)
  | cycles {ta a} : OpReg ta a → Documented names "cycles" [ta] (.cycles a)
  | halt : Documented names "halt" [] .halt
  | reset {ta a} : Op1 names ta a → Documented names "reset" [ta] (.reset a)
  | zro {ta a} : OpReg ta a → Documented names "zro" [ta] (.xor a (.reg a))
  | inc {ta a} : OpReg ta a → Documented names "inc" [ta] (.add a (.lit 1))
  | dec {ta a} : OpReg ta a → Documented names "dec" [ta] (.sub a (.lit 1))
  | ifeq : Documented names "ifeq" [] (.«if» (.lit 0))
  | ifnq : Documented names "ifnq" [] (.ifN (.lit 0))
  | ifgt : Documented names "ifgt" [] (.if2 (.lit 0) (.lit 1) (.lit 4))
  | ifge : Documented names "ifge" [] (.ifN (.lit 1))
  | ifls : Documented names "ifls" [] (.«if» (.lit 1))
  | ifle : Documented names "ifle" [] (.if2 (.lit 0) (.lit 1) (.lit 1))
  | ifor {ta tb a b} : OpName flagConstants ta a → OpName flagConstants tb b →
      Documented names "ifor" [ta, tb] (.if2 a b (.lit 1))
  | ifand {ta tb a b} : OpName flagConstants ta a → OpName flagConstants tb b →
      Documented names "ifand" [ta, tb] (.if2 a b (.lit 2))
  | ifxor {ta tb a b} : OpName flagConstants ta a → OpName flagConstants tb b →
      Documented names "ifxor" [ta, tb] (.if2 a b (.lit 3))
  | ifnor {ta tb a b} : OpName flagConstants ta a → OpName flagConstants tb b →
      Documented names "ifnor" [ta, tb] (.if2 a b (.lit 4))
  | ifnand {ta tb a b} : OpName flagConstants ta a → OpName flagConstants tb b →
      Documented names "ifnand" [ta, tb] (.if2 a b (.lit 5))
  | ifleft {ta tb a b} : OpName flagConstants ta a → OpName flagConstants tb b →
      Documented names "ifleft" [ta, tb] (.if2 a b (.lit 6))
  | ifright {ta tb a b} : OpName flagConstants ta a → OpName flagConstants tb b →
      Documented names "ifright" [ta, tb] (.if2 a b (.lit 7))
  | jp {ta a} : Op2 names ta a → Documented names "jp" [ta] (.cpy .pc a)
  | ret : Documented names "ret" [] (.pop .pc)

/-- The documented forms that the assembler does not translate as documented: `srm` and `itr`; `div` and `mod` without a
mode; `lea` without its factor (or its offset); `wea` without its offset (the bytes differ, the effect does not); and a
number where the assembler wants the name of a condition or of an information. -/
inductive Misassembled (names : Names) : String → List (List Char) → Prop
  | srm {ops} : Misassembled names "srm" ops
  | itr {ops} : Misassembled names "itr" ops
  | div {ta tb} : Misassembled names "div" [ta, tb]
  | mod {ta tb} : Misassembled names "mod" [ta, tb]
  | lea1 {ta tb} : Misassembled names "lea" [ta, tb]
  | lea2 {ta} : Misassembled names "lea" [ta]
  | wea2 {ta} : Misassembled names "wea" [ta]
  | if2 {ta tb tc z} : Value names tc z → Misassembled names "if2" [ta, tb, tc]
  | hwd {ta tb tc z} : Value names tc z → Misassembled names "hwd" [ta, tb, tc]

/-! ## Lines and sources -/

/-- A word, as decoding shows it: data that encode an instruction are shown as this instruction. -/
def asRead : ProgramWord → ProgramWord
  | .instr i => .instr i
  | .raw b =>
    match Instr.decode b with
    | .ok i => .instr i
    | .error _ => .raw b

/-- A mnemonic and its operands on a line. -/
def codeText (mn : String) (ops : List (List Char)) : List Char :=
  match ops with
  | [] => mn.toList
  | _ => mn.toList ++ ' ' :: List.intercalate [',', ' '] ops

/-- The text between quotes, and the characters it stands for. -/
inductive Quoted : List Char → List Char → Prop
  | nil : Quoted [] []
  | plain {c t u} : c ∉ ['"', '\\', ';', '\n'] → Quoted t u → Quoted (c :: t) (c :: u)
  | escape {e c t u} : (e, c) ∈ [('n', '\n'), ('r', '\r'), ('t', '\t'), ('0', Char.ofNat 0), ('"', '"'), ('\\', '\\')] →
      Quoted t u → Quoted ('\\' :: e :: t) (c :: u)

/-- A line and the words it stands for: spaces, then maybe an instruction, a word of data or a text (whose encoding fills
whole words), then maybe a comment. -/
inductive SourceLine (names : Names) : List Char → List ProgramWord → Prop
  | blank (n : Nat) : SourceLine names (List.replicate n ' ') []
  | comment (n : Nat) {c} : '\n' ∉ c → SourceLine names (List.replicate n ' ' ++ ';' :: c) []
  | code (n : Nat) {mn ops i} : Documented names mn ops i → ¬ Misassembled names mn ops →
      SourceLine names (List.replicate n ' ' ++ codeText mn ops) [.instr i]
  | codeComment (n : Nat) {mn ops i c} : Documented names mn ops i → ¬ Misassembled names mn ops → '\n' ∉ c →
      SourceLine names (List.replicate n ' ' ++ codeText mn ops ++ ' ' :: ';' :: c) [.instr i]
  | data (n : Nat) {t b z} : Value names t z → -2 ^ 31 ≤ z → z < 2 ^ 32 → b = Bytes4.ofWord (BitVec.ofInt 32 z) →
      SourceLine names (List.replicate n ' ' ++ "#d32 ".toList ++ t) [.raw b]
  | text (n : Nat) {t u} {bs : List Bytes4} : Quoted t u → utf8 u = bs.flatMap Bytes4.toList →
      SourceLine names (List.replicate n ' ' ++ "#d \"".toList ++ t ++ ['"']) (bs.map .raw)

end Lrvm.Spec
