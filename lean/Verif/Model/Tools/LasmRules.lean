import Verif.Model.Prelude

/-!
# The rules of the LASM assembler (`lrvm_tools/src/lasm/customasm.def`)

Generated by `tools/gen_rules.py`, one entry per line of the source. The values `((op << 3) + bits)[7:0]` are computed.
-/

namespace Lrvm.Lasm

/-- The type of a parameter of a rule: a `#subruledef`, or an expression of a given width. -/
inductive Pat
  | reg | arflag | divMode | hwInfo | if2Mode | u8 | u16 | i8 | i16
  deriving DecidableEq, Repr

/-- One byte that a rule produces: a constant, `p[7:0]` or `p[15:8]` of a parameter, or bits of a name that is no
parameter of the rule. -/
inductive Field
  | byte (n : Nat)
  | low (param : Nat)
  | high (param : Nat)
  | undefined
  deriving DecidableEq, Repr

/-- A rule: the mnemonic, the parameters (separated by commas) and the bytes produced. -/
structure Rule where
  mnemonic : String
  params : List Pat
  out : List Field
  deriving DecidableEq, Repr

/-- `#subruledef reg`, `lrvm_tools/src/lasm/customasm.def:11-42`. -/
def regNames : List (String × Nat) :=
  [("a0", 0x00),
   ("a1", 0x01),
   ("a2", 0x02),
   ("a3", 0x03),
   ("a4", 0x04),
   ("a5", 0x05),
   ("a6", 0x06),
   ("a7", 0x07),
   ("c0", 0x08),
   ("c1", 0x09),
   ("ac0", 0x0a),
   ("ac1", 0x0b),
   ("ac2", 0x0c),
   ("rr0", 0x0d),
   ("rr1", 0x0e),
   ("rr2", 0x0f),
   ("rr3", 0x10),
   ("rr4", 0x11),
   ("rr5", 0x12),
   ("rr6", 0x13),
   ("rr7", 0x14),
   ("avr", 0x15),
   ("pc", 0x16),
   ("af", 0x17),
   ("ssp", 0x18),
   ("usp", 0x19),
   ("et", 0x1a),
   ("era", 0x1b),
   ("ev", 0x1c),
   ("mtt", 0x1d),
   ("pda", 0x1e),
   ("smt", 0x1f)]

/-- `#subruledef arflag`, `lrvm_tools/src/lasm/customasm.def:47-53`. -/
def arflagNames : List (String × Nat) :=
  [("ZF", 0x00),
   ("CF", 0x01),
   ("OF", 0x02),
   ("SF", 0x03),
   ("EF", 0x04),
   ("ZUF", 0x05),
   ("ZLF", 0x06)]

/-- `#subruledef div_mode`, `lrvm_tools/src/lasm/customasm.def:58-69`. -/
def divModeNames : List (String × Nat) :=
  [("DIV_USG", 0x00),
   ("DIV_SIG", 0x10),
   ("DIV_ZRO_FRB", 0x00),
   ("DIV_ZRO_MIN", 0x04),
   ("DIV_ZRO_ZRO", 0x08),
   ("DIV_ZRO_MAX", 0x0c),
   ("DIV_OFW_FRB", 0x00),
   ("DIV_OFW_MIN", 0x01),
   ("DIV_OFW_ZRO", 0x02),
   ("DIV_OFW_MAX", 0x03)]

/-- `#subruledef hw_info`, `lrvm_tools/src/lasm/customasm.def:74-94`. -/
def hwInfoNames : List (String × Nat) :=
  [("HWD_COUNT", 0x00),
   ("HWD_UID_UPPER", 0x01),
   ("HWD_UID_LOWER", 0x02),
   ("HWD_NAME_LEN", 0x10),
   ("HWD_NAME_W1", 0x11),
   ("HWD_NAME_W2", 0x12),
   ("HWD_NAME_W3", 0x13),
   ("HWD_NAME_W4", 0x14),
   ("HWD_NAME_W5", 0x15),
   ("HWD_NAME_W6", 0x16),
   ("HWD_NAME_W7", 0x17),
   ("HWD_NAME_W8", 0x18),
   ("HWD_SIZE", 0x20),
   ("HWD_CAT", 0x21),
   ("HWD_TYPE", 0x22),
   ("HWD_MODEL", 0x23),
   ("HWD_DATA_UPPER", 0x24),
   ("HWD_DATA_LOWER", 0x25),
   ("HWD_IS_MAPPED", 0xa0),
   ("HWD_MAP_START", 0xa1),
   ("HWD_MAP_END", 0xa2)]

/-- `#subruledef if2_mode`, `lrvm_tools/src/lasm/customasm.def:99-105`. -/
def if2ModeNames : List (String × Nat) :=
  [("CMP_OR", 0x01),
   ("CMP_AND", 0x02),
   ("CMP_XOR", 0x03),
   ("CMP_NOR", 0x04),
   ("CMP_NAND", 0x05),
   ("CMP_LEFT", 0x06),
   ("CMP_RIGHT", 0x07)]

/-- `#ruledef`, `lrvm_tools/src/lasm/customasm.def:110-300`. -/
def rules : List Rule :=
  [⟨"cpy", [.reg, .reg], [.byte 0x0e, .low 0, .low 1, .byte 0x00]⟩,
   ⟨"cpy", [.reg, .u16], [.byte 0x0c, .low 0, .high 1, .low 1]⟩,
   ⟨"ex", [.reg, .reg], [.byte 0x16, .low 0, .low 1, .byte 0x00]⟩,
   ⟨"add", [.reg, .reg], [.byte 0x1e, .low 0, .low 1, .byte 0x00]⟩,
   ⟨"add", [.reg, .u16], [.byte 0x1c, .low 0, .high 1, .low 1]⟩,
   ⟨"sub", [.reg, .reg], [.byte 0x26, .low 0, .low 1, .byte 0x00]⟩,
   ⟨"sub", [.reg, .u16], [.byte 0x24, .low 0, .high 1, .low 1]⟩,
   ⟨"mul", [.reg, .reg], [.byte 0x2e, .low 0, .low 1, .byte 0x00]⟩,
   ⟨"mul", [.reg, .u16], [.byte 0x2c, .low 0, .high 1, .low 1]⟩,
   ⟨"div", [.reg, .reg, .reg], [.byte 0x37, .low 0, .low 1, .low 2]⟩,
   ⟨"div", [.reg, .u8, .reg], [.byte 0x35, .low 0, .low 1, .low 2]⟩,
   ⟨"div", [.reg, .reg, .divMode], [.byte 0x36, .low 0, .low 1, .low 2]⟩,
   ⟨"div", [.reg, .u8, .divMode], [.byte 0x34, .low 0, .low 1, .low 2]⟩,
   ⟨"div", [.reg, .reg], [.byte 0x37, .low 0, .low 1, .byte 0x00]⟩,
   ⟨"div", [.reg, .u8], [.byte 0x35, .low 0, .low 1, .byte 0x00]⟩,
   ⟨"mod", [.reg, .reg, .reg], [.byte 0x3f, .low 0, .low 1, .low 2]⟩,
   ⟨"mod", [.reg, .u8, .reg], [.byte 0x3d, .low 0, .low 1, .low 2]⟩,
   ⟨"mod", [.reg, .reg, .divMode], [.byte 0x3e, .low 0, .low 1, .low 2]⟩,
   ⟨"mod", [.reg, .u8, .divMode], [.byte 0x3c, .low 0, .low 1, .low 2]⟩,
   ⟨"mod", [.reg, .reg], [.byte 0x3f, .low 0, .low 1, .byte 0x00]⟩,
   ⟨"mod", [.reg, .u8], [.byte 0x3d, .low 0, .low 1, .byte 0x00]⟩,
   ⟨"and", [.reg, .reg], [.byte 0x46, .low 0, .low 1, .byte 0x00]⟩,
   ⟨"and", [.reg, .u16], [.byte 0x44, .low 0, .high 1, .low 1]⟩,
   ⟨"bor", [.reg, .reg], [.byte 0x4e, .low 0, .low 1, .byte 0x00]⟩,
   ⟨"bor", [.reg, .u16], [.byte 0x4c, .low 0, .high 1, .low 1]⟩,
   ⟨"xor", [.reg, .reg], [.byte 0x56, .low 0, .low 1, .byte 0x00]⟩,
   ⟨"xor", [.reg, .u16], [.byte 0x54, .low 0, .high 1, .low 1]⟩,
   ⟨"shl", [.reg, .reg], [.byte 0x5e, .low 0, .low 1, .byte 0x00]⟩,
   ⟨"shl", [.reg, .u8], [.byte 0x5c, .low 0, .low 1, .byte 0x00]⟩,
   ⟨"shr", [.reg, .reg], [.byte 0x66, .low 0, .low 1, .byte 0x00]⟩,
   ⟨"shr", [.reg, .u8], [.byte 0x64, .low 0, .low 1, .byte 0x00]⟩,
   ⟨"cmp", [.reg, .reg], [.byte 0x6e, .low 0, .low 1, .byte 0x00]⟩,
   ⟨"cmp", [.reg, .u16], [.byte 0x6c, .low 0, .high 1, .low 1]⟩,
   ⟨"jpr", [.reg], [.byte 0x74, .low 0, .byte 0x00, .byte 0x00]⟩,
   ⟨"jpr", [.i16], [.byte 0x70, .high 0, .low 0, .byte 0x00]⟩,
   ⟨"lsm", [.reg], [.byte 0x7c, .low 0, .byte 0x00, .byte 0x00]⟩,
   ⟨"lsm", [.u16], [.byte 0x78, .high 0, .low 0, .byte 0x00]⟩,
   ⟨"itr", [.reg], [.byte 0x84, .undefined, .byte 0x00, .byte 0x00]⟩,
   ⟨"itr", [.u8], [.byte 0x80, .undefined, .undefined, .byte 0x00]⟩,
   ⟨"if", [.reg], [.byte 0x8c, .low 0, .byte 0x00, .byte 0x00]⟩,
   ⟨"if", [.arflag], [.byte 0x88, .low 0, .byte 0x00, .byte 0x00]⟩,
   ⟨"ifn", [.reg], [.byte 0x94, .low 0, .byte 0x00, .byte 0x00]⟩,
   ⟨"ifn", [.arflag], [.byte 0x90, .low 0, .byte 0x00, .byte 0x00]⟩,
   ⟨"if2", [.reg, .reg, .reg], [.byte 0x9f, .low 0, .low 1, .low 2]⟩,
   ⟨"if2", [.reg, .reg, .if2Mode], [.byte 0x9e, .low 0, .low 1, .low 2]⟩,
   ⟨"if2", [.reg, .arflag, .reg], [.byte 0x9d, .low 0, .low 1, .low 2]⟩,
   ⟨"if2", [.reg, .arflag, .if2Mode], [.byte 0x9c, .low 0, .low 1, .low 2]⟩,
   ⟨"if2", [.arflag, .reg, .reg], [.byte 0x9b, .low 0, .low 1, .low 2]⟩,
   ⟨"if2", [.arflag, .reg, .if2Mode], [.byte 0x9a, .low 0, .low 1, .low 2]⟩,
   ⟨"if2", [.arflag, .arflag, .reg], [.byte 0x99, .low 0, .low 1, .low 2]⟩,
   ⟨"if2", [.arflag, .arflag, .if2Mode], [.byte 0x98, .low 0, .low 1, .low 2]⟩,
   ⟨"lsa", [.reg, .reg, .reg], [.byte 0xa7, .low 0, .low 1, .low 2]⟩,
   ⟨"lsa", [.reg, .u8, .reg], [.byte 0xa5, .low 0, .low 1, .low 2]⟩,
   ⟨"lsa", [.reg, .reg, .i8], [.byte 0xa6, .low 0, .low 1, .low 2]⟩,
   ⟨"lsa", [.reg, .u8, .i8], [.byte 0xa4, .low 0, .low 1, .low 2]⟩,
   ⟨"lsa", [.reg, .reg], [.byte 0xa6, .low 0, .low 1, .byte 0x00]⟩,
   ⟨"lsa", [.reg, .u8], [.byte 0xa4, .low 0, .low 1, .byte 0x00]⟩,
   ⟨"lea", [.reg, .reg, .reg], [.byte 0xaf, .low 0, .low 1, .low 2]⟩,
   ⟨"lea", [.reg, .i8, .reg], [.byte 0xad, .low 0, .low 1, .low 2]⟩,
   ⟨"lea", [.u8, .reg, .reg], [.byte 0xab, .low 0, .low 1, .low 2]⟩,
   ⟨"lea", [.u8, .i8, .reg], [.byte 0xa9, .low 0, .low 1, .low 2]⟩,
   ⟨"lea", [.reg, .reg, .i8], [.byte 0xae, .low 0, .low 1, .low 2]⟩,
   ⟨"lea", [.reg, .i8, .i8], [.byte 0xac, .low 0, .low 1, .low 2]⟩,
   ⟨"lea", [.u8, .reg, .i8], [.byte 0xaa, .low 0, .low 1, .low 2]⟩,
   ⟨"lea", [.u8, .i8, .i8], [.byte 0xa8, .low 0, .low 1, .low 2]⟩,
   ⟨"lea", [.reg, .reg], [.byte 0xae, .low 0, .low 1, .byte 0x00]⟩,
   ⟨"lea", [.reg, .i8], [.byte 0xac, .low 0, .low 1, .byte 0x00]⟩,
   ⟨"lea", [.u8, .reg], [.byte 0xaa, .low 0, .low 1, .byte 0x00]⟩,
   ⟨"lea", [.u8, .i8], [.byte 0xa8, .low 0, .low 1, .byte 0x00]⟩,
   ⟨"lea", [.reg], [.byte 0xae, .low 0, .byte 0x00, .byte 0x00]⟩,
   ⟨"lea", [.u8], [.byte 0xaa, .low 0, .byte 0x00, .byte 0x00]⟩,
   ⟨"wsa", [.reg, .reg, .reg], [.byte 0xb7, .low 0, .low 1, .low 2]⟩,
   ⟨"wsa", [.u8, .reg, .reg], [.byte 0xb3, .low 0, .low 1, .low 2]⟩,
   ⟨"wsa", [.reg, .reg, .u8], [.byte 0xb6, .low 0, .low 1, .low 2]⟩,
   ⟨"wsa", [.u8, .reg, .u8], [.byte 0xb2, .low 0, .low 1, .low 2]⟩,
   ⟨"wsa", [.reg, .i8, .reg], [.byte 0xb5, .low 0, .low 1, .low 2]⟩,
   ⟨"wsa", [.u8, .i8, .reg], [.byte 0xb1, .low 0, .low 1, .low 2]⟩,
   ⟨"wsa", [.reg, .i8, .u8], [.byte 0xb4, .low 0, .low 1, .low 2]⟩,
   ⟨"wsa", [.u8, .i8, .u8], [.byte 0xb0, .low 0, .low 1, .low 2]⟩,
   ⟨"wsa", [.reg, .reg], [.byte 0xb5, .low 0, .byte 0x00, .low 1]⟩,
   ⟨"wsa", [.u8, .reg], [.byte 0xb1, .low 0, .byte 0x00, .low 1]⟩,
   ⟨"wsa", [.reg, .u8], [.byte 0xb4, .low 0, .byte 0x00, .low 1]⟩,
   ⟨"wsa", [.u8, .u8], [.byte 0xb0, .low 0, .byte 0x00, .low 1]⟩,
   ⟨"wea", [.reg, .reg, .reg], [.byte 0xbf, .low 0, .low 1, .low 2]⟩,
   ⟨"wea", [.reg, .i8, .reg], [.byte 0xbd, .low 0, .low 1, .low 2]⟩,
   ⟨"wea", [.u8, .reg, .reg], [.byte 0xbb, .low 0, .low 1, .low 2]⟩,
   ⟨"wea", [.u8, .i8, .reg], [.byte 0xb9, .low 0, .low 1, .low 2]⟩,
   ⟨"wea", [.reg, .reg, .i8], [.byte 0xbe, .low 0, .low 1, .low 2]⟩,
   ⟨"wea", [.reg, .i8, .i8], [.byte 0xbc, .low 0, .low 1, .low 2]⟩,
   ⟨"wea", [.u8, .reg, .i8], [.byte 0xba, .low 0, .low 1, .low 2]⟩,
   ⟨"wea", [.u8, .i8, .i8], [.byte 0xb8, .low 0, .low 1, .low 2]⟩,
   ⟨"wea", [.reg, .reg], [.byte 0xbe, .low 0, .low 1, .byte 0x00]⟩,
   ⟨"wea", [.reg, .i8], [.byte 0xbc, .low 0, .low 1, .byte 0x00]⟩,
   ⟨"wea", [.u8, .reg], [.byte 0xba, .low 0, .low 1, .byte 0x00]⟩,
   ⟨"wea", [.u8, .i8], [.byte 0xb8, .low 0, .low 1, .byte 0x00]⟩,
   ⟨"wea", [.reg], [.byte 0xbe, .low 0, .byte 0x00, .byte 0x00]⟩,
   ⟨"wea", [.u8], [.byte 0xba, .low 0, .byte 0x00, .byte 0x00]⟩,
   ⟨"srm", [.reg, .reg, .reg], [.byte 0xbf, .low 0, .low 1, .low 2]⟩,
   ⟨"srm", [.reg, .i8, .reg], [.byte 0xbd, .low 0, .low 1, .low 2]⟩,
   ⟨"srm", [.u8, .reg, .reg], [.byte 0xbb, .low 0, .low 1, .low 2]⟩,
   ⟨"srm", [.u8, .i8, .reg], [.byte 0xb9, .low 0, .low 1, .low 2]⟩,
   ⟨"push", [.reg], [.byte 0xcc, .low 0, .byte 0x00, .byte 0x00]⟩,
   ⟨"push", [.u16], [.byte 0xc8, .high 0, .low 0, .byte 0x00]⟩,
   ⟨"pop", [.reg], [.byte 0xd4, .low 0, .byte 0x00, .byte 0x00]⟩,
   ⟨"call", [.reg], [.byte 0xdc, .low 0, .byte 0x00, .byte 0x00]⟩,
   ⟨"call", [.u16], [.byte 0xd8, .high 0, .low 0, .byte 0x00]⟩,
   ⟨"hwd", [.reg, .reg, .reg], [.byte 0xe7, .low 0, .low 1, .low 2]⟩,
   ⟨"hwd", [.reg, .reg, .hwInfo], [.byte 0xe6, .low 0, .low 1, .low 2]⟩,
   ⟨"hwd", [.reg, .u8, .reg], [.byte 0xe5, .low 0, .low 1, .low 2]⟩,
   ⟨"hwd", [.reg, .u8, .hwInfo], [.byte 0xe4, .low 0, .low 1, .low 2]⟩,
   ⟨"cycles", [.reg], [.byte 0xec, .low 0, .byte 0x00, .byte 0x00]⟩,
   ⟨"halt", [], [.byte 0xf0, .byte 0x00, .byte 0x00, .byte 0x00]⟩,
   ⟨"reset", [.reg], [.byte 0xfc, .low 0, .byte 0x00, .byte 0x00]⟩,
   ⟨"reset", [.u8], [.byte 0xf8, .low 0, .byte 0x00, .byte 0x00]⟩,
   ⟨"zro", [.reg], [.byte 0x56, .low 0, .low 0, .byte 0x00]⟩,
   ⟨"not", [.reg], [.byte 0x56, .low 0, .low 0, .byte 0x00]⟩,
   ⟨"inc", [.reg], [.byte 0x1c, .low 0, .byte 0x00, .byte 0x01]⟩,
   ⟨"dec", [.reg], [.byte 0x24, .low 0, .byte 0x00, .byte 0x01]⟩,
   ⟨"ifeq", [], [.byte 0x88, .byte 0x00, .byte 0x00, .byte 0x00]⟩,
   ⟨"ifnq", [], [.byte 0x90, .byte 0x00, .byte 0x00, .byte 0x00]⟩,
   ⟨"ifgt", [], [.byte 0x98, .byte 0x00, .byte 0x01, .byte 0x04]⟩,
   ⟨"ifge", [], [.byte 0x90, .byte 0x01, .byte 0x00, .byte 0x00]⟩,
   ⟨"ifls", [], [.byte 0x88, .byte 0x01, .byte 0x00, .byte 0x00]⟩,
   ⟨"ifle", [], [.byte 0x98, .byte 0x00, .byte 0x01, .byte 0x01]⟩,
   ⟨"ifor", [.reg, .reg], [.byte 0x9e, .low 0, .low 1, .byte 0x01]⟩,
   ⟨"ifor", [.reg, .arflag], [.byte 0x9c, .low 0, .low 1, .byte 0x01]⟩,
   ⟨"ifor", [.arflag, .reg], [.byte 0x9a, .low 0, .low 1, .byte 0x01]⟩,
   ⟨"ifor", [.arflag, .arflag], [.byte 0x98, .low 0, .low 1, .byte 0x01]⟩,
   ⟨"ifand", [.reg, .reg], [.byte 0x9e, .low 0, .low 1, .byte 0x02]⟩,
   ⟨"ifand", [.reg, .arflag], [.byte 0x9c, .low 0, .low 1, .byte 0x02]⟩,
   ⟨"ifand", [.arflag, .reg], [.byte 0x9a, .low 0, .low 1, .byte 0x02]⟩,
   ⟨"ifand", [.arflag, .arflag], [.byte 0x98, .low 0, .low 1, .byte 0x02]⟩,
   ⟨"ifxor", [.reg, .reg], [.byte 0x9e, .low 0, .low 1, .byte 0x03]⟩,
   ⟨"ifxor", [.reg, .arflag], [.byte 0x9c, .low 0, .low 1, .byte 0x03]⟩,
   ⟨"ifxor", [.arflag, .reg], [.byte 0x9a, .low 0, .low 1, .byte 0x03]⟩,
   ⟨"ifxor", [.arflag, .arflag], [.byte 0x98, .low 0, .low 1, .byte 0x03]⟩,
   ⟨"ifnor", [.reg, .reg], [.byte 0x9e, .low 0, .low 1, .byte 0x04]⟩,
   ⟨"ifnor", [.reg, .arflag], [.byte 0x9c, .low 0, .low 1, .byte 0x04]⟩,
   ⟨"ifnor", [.arflag, .reg], [.byte 0x9a, .low 0, .low 1, .byte 0x04]⟩,
   ⟨"ifnor", [.arflag, .arflag], [.byte 0x98, .low 0, .low 1, .byte 0x04]⟩,
   ⟨"ifnand", [.reg, .reg], [.byte 0x9e, .low 0, .low 1, .byte 0x05]⟩,
   ⟨"ifnand", [.reg, .arflag], [.byte 0x9c, .low 0, .low 1, .byte 0x05]⟩,
   ⟨"ifnand", [.arflag, .reg], [.byte 0x9a, .low 0, .low 1, .byte 0x05]⟩,
   ⟨"ifnand", [.arflag, .arflag], [.byte 0x98, .low 0, .low 1, .byte 0x05]⟩,
   ⟨"ifleft", [.reg, .reg], [.byte 0x9e, .low 0, .low 1, .byte 0x06]⟩,
   ⟨"ifleft", [.reg, .arflag], [.byte 0x9c, .low 0, .low 1, .byte 0x06]⟩,
   ⟨"ifleft", [.arflag, .reg], [.byte 0x9a, .low 0, .low 1, .byte 0x06]⟩,
   ⟨"ifleft", [.arflag, .arflag], [.byte 0x98, .low 0, .low 1, .byte 0x06]⟩,
   ⟨"ifright", [.reg, .reg], [.byte 0x9e, .low 0, .low 1, .byte 0x07]⟩,
   ⟨"ifright", [.reg, .arflag], [.byte 0x9c, .low 0, .low 1, .byte 0x07]⟩,
   ⟨"ifright", [.arflag, .reg], [.byte 0x9a, .low 0, .low 1, .byte 0x07]⟩,
   ⟨"ifright", [.arflag, .arflag], [.byte 0x98, .low 0, .low 1, .byte 0x07]⟩,
   ⟨"jp", [.reg], [.byte 0x0e, .byte 0x16, .low 0, .byte 0x00]⟩,
   ⟨"jp", [.u16], [.byte 0x0c, .byte 0x16, .high 0, .low 0]⟩,
   ⟨"ret", [], [.byte 0xd4, .byte 0x16, .byte 0x00, .byte 0x00]⟩]

end Lrvm.Lasm
